import Verif.Spec.Bits
import Verif.Model.Nav

/-!
# What a GPS subframe says (IS-GPS-200, tables 20-I to 20-III), independently of the decoder

An SFRBX message for GPS holds the ten 30-bit words of a subframe, each right-aligned in a little-endian 32-bit word
(u-blox protocol).  IS-GPS-200 numbers the bits of a word 1..30 in order of transmission, the 24 data bits first.
-/

namespace Ublox.Nav

/-- Bit `b` (1..30) of word `w` (1..10) of the subframe in an SFRBX message's data words. -/
def gpsBit (d : List Byte) (w b : Nat) : Bool :=
  (d.getD (4 * (w - 1) + (30 - b) / 8) 0).getLsbD ((30 - b) % 8)

/-- The number in bits `b .. b+n-1` of word `w`. -/
def gpsU (d : List Byte) (w b n : Nat) : Nat := bitsVal (gpsBit d w) b n

/-- The same as a two's complement number. -/
def gpsS (d : List Byte) (w b n : Nat) : Int := twosComp n (gpsU d w b n)

/-- A 32-bit number split over word `w` (bits 17-24, most significant) and word `w+1` (bits 1-24). -/
def gpsU32 (d : List Byte) (w : Nat) : Nat := gpsU d w 17 8 * 2 ^ 24 + gpsU d (w + 1) 1 24

/-- The same as a two's complement number. -/
def gpsS32 (d : List Byte) (w : Nat) : Int := twosComp 32 (gpsU32 d w)

/-- Subframe number, from the hand-over word. -/
def gpsId (d : List Byte) : Nat := gpsU d 2 20 3

/-- Issue of data (the 8 bits shared by IODC and IODE) of subframe 1. -/
def iode1Of (d : List Byte) : Nat := gpsU d 8 1 8
/-- Issue of data of subframe 2. -/
def iode2Of (d : List Byte) : Nat := gpsU d 3 1 8
/-- Issue of data of subframe 3. -/
def iode3Of (d : List Byte) : Nat := gpsU d 10 1 8

/-- `e` has the clock parameters of subframe 1 `d`; the 10-bit week number is taken to be after the second rollover;
a group delay of -128 means "not available" and is reported as 0. -/
structure Carries1 (e : Eph) (d : List Byte) : Prop where
  week : e.week = gpsU d 3 1 10 + 2048
  codeOnL2 : e.codeOnL2 = gpsU d 3 11 2
  ura : e.ura = gpsU d 3 13 4
  health : e.health = gpsU d 3 17 6
  iodc : e.iodc = gpsU d 3 23 2 * 256 + gpsU d 8 1 8
  l2p : e.l2p = gpsU d 4 1 1
  tgd : e.tgd0 = if gpsS d 7 17 8 = -128 then ⟨0, []⟩ else ⟨gpsS d 7 17 8, [.p2 31]⟩
  tocs : e.tocs = gpsU d 8 9 16 * 16
  af2 : e.af2 = ⟨gpsS d 9 1 8, [.p2 55]⟩
  af1 : e.af1 = ⟨gpsS d 9 9 16, [.p2 43]⟩
  af0 : e.af0 = ⟨gpsS d 10 1 22, [.p2 31]⟩

/-- `e` has the orbit parameters of subframe 2 `d` (angles in semicircles times π; fit flag 0 reported as 4, 1 as 0). -/
structure Carries2 (e : Eph) (d : List Byte) : Prop where
  crs : e.crs = ⟨gpsS d 3 9 16, [.p2 5]⟩
  deltaN : e.deltaN = ⟨gpsS d 4 1 16, [.p2 43, .pi]⟩
  m0 : e.m0 = ⟨gpsS32 d 4, [.p2 31, .pi]⟩
  cuc : e.cuc = ⟨gpsS d 6 1 16, [.p2 29]⟩
  ecc : e.ecc = ⟨gpsU32 d 6, [.p2 33]⟩
  cus : e.cus = ⟨gpsS d 8 1 16, [.p2 29]⟩
  sqrta : e.sqrta = ⟨gpsU32 d 8, [.p2 19]⟩
  toes : e.toes = gpsU d 10 1 16 * 16
  fit : e.fit = if gpsU d 10 17 1 = 1 then 0 else 4

/-- `e` has the orbit parameters of subframe 3 `d`. -/
structure Carries3 (e : Eph) (d : List Byte) : Prop where
  cic : e.cic = ⟨gpsS d 3 1 16, [.p2 29]⟩
  omega0 : e.omega0 = ⟨gpsS32 d 3, [.p2 31, .pi]⟩
  cis : e.cis = ⟨gpsS d 5 1 16, [.p2 29]⟩
  i0 : e.i0 = ⟨gpsS32 d 5, [.p2 31, .pi]⟩
  crc : e.crc = ⟨gpsS d 7 1 16, [.p2 5]⟩
  w : e.w = ⟨gpsS32 d 7, [.p2 31, .pi]⟩
  omegadot : e.omegadot = ⟨gpsS d 9 1 24, [.p2 43, .pi]⟩
  idot : e.idot = ⟨gpsS d 10 9 14, [.p2 43, .pi]⟩

/-- `e` is the ephemeris of GPS satellite `s` transmitted in subframes `d1`, `d2`, `d3`: all parameters, and the times
of ephemeris and clock as instants (GPS week and second of week to UTC: 315964818 s after the epoch). -/
structure CarriesGps (e : Eph) (s : Byte) (d1 d2 d3 : List Byte) : Prop where
  sat : e.sat = s
  gnss : e.gnssID = 0
  one : Carries1 e d1
  two : Carries2 e d2
  three : Carries3 e d3
  iode : e.iode = iode1Of d1
  toe : e.toe = ⟨315964818 + ((gpsU d1 3 1 10 : Nat) + 2048) * 604800 + (gpsU d2 10 1 16 : Nat) * 16, 0⟩
  toc : e.toc = ⟨315964818 + ((gpsU d1 3 1 10 : Nat) + 2048) * 604800 + (gpsU d1 8 9 16 : Nat) * 16, 0⟩

/-- The ephemeris stored for satellite `s`: the latest entry with that number. -/
def Nav.entry (n : Nav) (s : Byte) : Option Eph := (n.eph.filter (·.sat = s)).getLast?

/-- The GLONASS ephemeris stored for satellite `s`. -/
def Nav.gentry (n : Nav) (s : Byte) : Option GEph := (n.geph.filter (·.sat = s)).getLast?

/-- A message as the framing layer delivers it: ten 32-bit words (and the decoder's 30-byte scratch buffer, with
whatever it contains). -/
def NavOp.WF : NavOp → Prop
  | .sfrbx junk m => junk.length = 30 ∧ m.dwrd.length = 40
  | _ => True

/-- One operation, seen as bookkeeping of the GPS subframes received for satellite `s` since the last ephemeris
callback made on a GPS message of that satellite. -/
def pendStep (s : Byte) (P : List (List Byte)) (x : NavOp × List NavCall) : List (List Byte) :=
  match x.1 with
  | .sfrbx _ m => if m.gnssId = 0 ∧ m.svId = s then (if x.2 = [] then P ++ [m.dwrd] else []) else P
  | _ => P

/-- The GPS subframes received for satellite `s` since its last callback, oldest first, when operations `ops` made
callbacks `cs`. -/
def pending (s : Byte) (ops : List NavOp) (cs : List (List NavCall)) : List (List Byte) :=
  (ops.zip cs).foldl (pendStep s) []

/-- The latest of the given subframes that has number `k`. -/
def latest (k : Nat) (P : List (List Byte)) : Option (List Byte) := (P.filter (gpsId · = k)).getLast?

/-- The operation is a Galileo message under satellite number `s` (which shares the table with GPS). -/
def IsGalileo (s : Byte) : NavOp → Prop
  | .sfrbx _ m => m.gnssId = 2 ∧ m.svId = s
  | _ => False

/-- The operation does not concern the GPS/Galileo entry of satellite `s`: a message of another satellite or of
GLONASS, or a call of `setGPSTime`, or registering a callback. -/
def Unrelated (s : Byte) : NavOp → Prop
  | .sfrbx _ m => m.gnssId = GLONASS ∨ m.svId ≠ s
  | _ => True

/-- The operations `ops`, which made callbacks `cs`, leave no GPS subframe of satellite `s` behind: there was no
GPS/Galileo message of `s` at all, or the last one was a GPS message which made a callback. -/
def NothingPending (s : Byte) (ops : List NavOp) (cs : List (List NavCall)) : Prop :=
  (∀ op ∈ ops, Unrelated s op) ∨
  ∃ pre junk m post, ops = pre ++ .sfrbx junk m :: post ∧ m.gnssId = 0 ∧ m.svId = s ∧
    (∃ c, cs[pre.length]? = some c ∧ c ≠ []) ∧ ∀ op ∈ post, Unrelated s op

/-- Number of ephemeris callbacks registered by `ops`. -/
def ephCbCount (ops : List NavOp) : Nat := (ops.filter fun | .addEphCb => true | _ => false).length

/-- Number of GLONASS ephemeris callbacks registered by `ops`. -/
def gephCbCount (ops : List NavOp) : Nat := (ops.filter fun | .addGephCb => true | _ => false).length

/-- Issue of data of a subframe, from wherever a subframe of its number carries it. -/
def issueOf (d : List Byte) : Nat :=
  if gpsId d = 1 then iode1Of d else if gpsId d = 2 then iode2Of d else iode3Of d

/-- The calls made when the ephemeris `e` is reported to `k` registered callbacks. -/
def reportTo (k : Nat) (e : Eph) : List NavCall := (List.range k).map (NavCall.eph · e)

/-- The operation is a GPS or Galileo message (anything but GLONASS) under satellite number `s`, or registers an
ephemeris callback. -/
def Concerns (s : Byte) : NavOp → Bool
  | .sfrbx _ m => m.gnssId != GLONASS && m.svId == s
  | .addEphCb => true
  | _ => false

/-- The operation concerns GLONASS satellite `s`, the GPS reference time, or callbacks: anything but a message of
another GLONASS satellite. -/
def ConcernsGlo (s : Byte) : NavOp → Bool
  | .sfrbx _ m => m.gnssId != GLONASS || m.svId == s
  | _ => true

/-- What the operations selected by `p` did: their callbacks. -/
def callsOf (p : NavOp → Bool) (ops : List NavOp) (cs : List (List NavCall)) : List (List NavCall) :=
  ((ops.zip cs).filter (fun x => p x.1)).map (·.2)

end Ublox.Nav
