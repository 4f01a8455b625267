import Verif.Spec.Bits
import Verif.Spec.Time
import Verif.Spec.NavGps

/-!
# What a GLONASS string says (GLONASS ICD 5.1, sections 4.3 to 4.7), independently of the decoder

An SFRBX message for GLONASS holds four 32-bit words (each stored little endian); the 85 bits of the string are the
first 85 bits of words 1-3, most significant first; the upper half of word 4 is the number the decoder uses as time
mark.  The ICD numbers the bits of a string 85 (first transmitted, idle chip) down to 1; bits 1-8 are check bits.
-/

namespace Ublox.Nav

/-- Bit `b` (1..85) of the string in an SFRBX message's data words. -/
def gloBit (d : List Byte) (b : Nat) : Bool :=
  (d.getD (4 * ((85 - b) / 32) + 3 - (85 - b) % 32 / 8) 0).getLsbD (7 - (85 - b) % 8)

/-- The number in bits `hi` down to `lo`, most significant first. -/
def gloU (d : List Byte) (hi lo : Nat) : Nat := bitsVal (fun i => gloBit d (hi - i)) 0 (hi + 1 - lo)

/-- The number in bits `hi` down to `lo`, bit `hi` being the sign (1 = negative). -/
def gloS (d : List Byte) (hi lo : Nat) : Int :=
  if gloBit d hi then -(gloU d (hi - 1) lo : Int) else (gloU d (hi - 1) lo : Int)

/-- String number. -/
def gloNum (d : List Byte) : Nat := gloU d 84 81

/-- The time mark of a message. -/
def gloMark (d : List Byte) : Nat := (d.getD 15 0).toNat * 256 + (d.getD 14 0).toNat

/-- Bit `b` (1..85) of a string stored in a buffer, first transmitted bit first. -/
def strBit (buf : List Byte) (b : Nat) : Bool := bitAt buf (85 - b)

/-- The bits entering the checksums C1, …, C7, CΣ (ICD 4.7, table 4.13; `Ck` includes check bit `k`). -/
def checkSets : List (List Nat) :=
  [
   [1, 9, 10, 12, 13, 15, 17, 19, 20, 22, 24, 26, 28, 30, 32, 34, 35, 37, 39, 41, 43, 45, 47, 49, 51, 53, 55, 57,
    59, 61, 63, 65, 66, 68, 70, 72, 74, 76, 78, 80, 82, 84],
   [2, 9, 11, 12, 14, 15, 18, 19, 21, 22, 25, 26, 29, 30, 33, 34, 36, 37, 40, 41, 44, 45, 48, 49, 52, 53, 56, 57,
    60, 61, 64, 65, 67, 68, 71, 72, 75, 76, 79, 80, 83, 84],
   [3, 10, 11, 12, 16, 17, 18, 19, 23, 24, 25, 26, 31, 32, 33, 34, 38, 39, 40, 41, 46, 47, 48, 49, 54, 55, 56, 57,
    62, 63, 64, 65, 69, 70, 71, 72, 77, 78, 79, 80, 85],
   [4, 13, 14, 15, 16, 17, 18, 19, 27, 28, 29, 30, 31, 32, 33, 34, 42, 43, 44, 45, 46, 47, 48, 49, 58, 59, 60, 61,
    62, 63, 64, 65, 73, 74, 75, 76, 77, 78, 79, 80],
   [5, 20, 21, 22, 23, 24, 25, 26, 27, 28, 29, 30, 31, 32, 33, 34, 50, 51, 52, 53, 54, 55, 56, 57, 58, 59, 60, 61,
    62, 63, 64, 65, 81, 82, 83, 84, 85],
   [6, 35, 36, 37, 38, 39, 40, 41, 42, 43, 44, 45, 46, 47, 48, 49, 50, 51, 52, 53, 54, 55, 56, 57, 58, 59, 60, 61,
    62, 63, 64, 65],
   [7, 66, 67, 68, 69, 70, 71, 72, 73, 74, 75, 76, 77, 78, 79, 80, 81, 82, 83, 84, 85],
   List.range' 1 85]

/-- A checksum: the sum modulo 2 of the bits in the set. -/
def checksum (bit : Nat → Bool) (s : List Nat) : Bool := (s.map bit).foldl xor false

/-- The eight checksums of a string. -/
def checksums (bit : Nat → Bool) : List Bool := checkSets.map (checksum bit)

/-- A valid string: all checksums are 0. -/
def ValidString (bit : Nat → Bool) : Prop := ∀ s ∈ checkSets, checksum bit s = false

/-- A string the ICD allows to be used: all checksums are 0, or CΣ and exactly one of C1..C7 are 1. -/
def usable (bit : Nat → Bool) : Bool :=
  let c := checksums bit
  c.all (! ·) || (c.getLast? == some true && (c.dropLast.filter id).length == 1)

/-- A string with bit `q` flipped. -/
def flip (bit : Nat → Bool) (q : Nat) : Nat → Bool := fun b => if b = q then ! bit b else bit b

/-- The string heard from GLONASS satellite `s` by one operation (with the GPS reference time before it): a usable string
that arrives while the reference time is set. -/
def heard1 (s : Byte) (x : NavOp × UTCTime) : Option (UTCTime × List Byte) :=
  match x.1 with
  | .sfrbx _ m =>
    if m.gnssId = GLONASS ∧ m.svId = s ∧ x.2 ≠ ⟨0, 0⟩ ∧ usable (gloBit m.dwrd) = true then some (x.2, m.dwrd) else none
  | _ => none

/-- All strings heard from satellite `s`, oldest first, each with the reference time at its arrival. -/
def heard (s : Byte) (xs : List (NavOp × UTCTime)) : List (UTCTime × List Byte) := xs.filterMap (heard1 s)

/-- `suf` is the part of the history `xs` that belongs to the current frame of satellite `s` when a string with the given
time mark arrives: all strings heard in it have that time mark, and the one heard before it, if any, has another. -/
def CurrentFrame (s : Byte) (xs : List (NavOp × UTCTime)) (mark : Nat) (suf : List (NavOp × UTCTime)) : Prop :=
  ∃ pre, xs = pre ++ suf ∧ (∀ y ∈ heard s suf, gloMark y.2 = mark) ∧
    ∀ y, (heard s pre).getLast? = some y → gloMark y.2 ≠ mark

/-- The latest string number `k` among the given ones. -/
def latestG (k : Nat) (P : List (UTCTime × List Byte)) : Option (UTCTime × List Byte) :=
  (P.filter (gloNum ·.2 = k)).getLast?

/-- The GPS reference time before each of the operations. -/
def refTimes (md : Mode) : Nav → List NavOp → List UTCTime
  | _, [] => []
  | n, op :: ops => n.gpsTime :: (match n.step md op with | .ok (n', _) => refTimes md n' ops | .error _ => [])

/-- The operations with the reference time before each. -/
def timed (md : Mode) (n : Nav) (ops : List NavOp) : List (NavOp × UTCTime) := ops.zip (refTimes md n ops)

/-- `g` is the ephemeris of GLONASS satellite `s` on channel `freqId - 7` transmitted in strings 1-4, apart from the
times. -/
structure CarriesGlo (g : GEph) (s freqId : Byte) (d1 d2 d3 d4 : List Byte) : Prop where
  sat : g.sat = s
  gnss : g.gnssID = GLONASS
  frq : g.frq = (freqId.toNat : Int) - 7
  vel0 : g.vel0 = ⟨gloS d1 64 41, [.p2 20, .e3]⟩
  acc0 : g.acc0 = ⟨gloS d1 40 36, [.p2 30, .e3]⟩
  pos0 : g.pos0 = ⟨gloS d1 35 9, [.p2 11, .e3]⟩
  svh : g.svh = gloU d2 80 78
  iode : g.iode = gloU d2 76 70
  vel1 : g.vel1 = ⟨gloS d2 64 41, [.p2 20, .e3]⟩
  acc1 : g.acc1 = ⟨gloS d2 40 36, [.p2 30, .e3]⟩
  pos1 : g.pos1 = ⟨gloS d2 35 9, [.p2 11, .e3]⟩
  gamn : g.gamn = ⟨gloS d3 79 69, [.p2 40]⟩
  vel2 : g.vel2 = ⟨gloS d3 64 41, [.p2 20, .e3]⟩
  acc2 : g.acc2 = ⟨gloS d3 40 36, [.p2 30, .e3]⟩
  pos2 : g.pos2 = ⟨gloS d3 35 9, [.p2 11, .e3]⟩
  taun : g.taun = ⟨gloS d4 80 59, [.p2 30]⟩
  dtaun : g.dtaun = ⟨gloS d4 58 54, [.p2 30]⟩
  age : g.age = gloU d4 53 49
  sva : g.sva = gloU d4 33 30

/-- Moscow time of day of the frame in string 1, in seconds. -/
def frameTod (d : List Byte) : Nat := gloU d 76 72 * 3600 + gloU d 71 66 * 60 + gloU d 65 65 * 30

/-- Moscow time of day of the ephemeris in string 2, in seconds. -/
def ephTod (d : List Byte) : Nat := gloU d 76 70 * 900

/-- A normalised reference time not before 1970. -/
def GoodRef (T : UTCTime) : Prop := T.Norm ∧ 0 ≤ T.sec

/-- Good reference times that differ by at most `D` seconds. -/
def Refs (D : Int) (ts : List UTCTime) : Prop := ∀ a ∈ ts, GoodRef a ∧ ∀ b ∈ ts, a.sec - b.sec ≤ D

/-- `t` is the instant closest to the reference time `T` (within half a day) with Moscow time of day `tod`. -/
def ClosestTod (T t : UTCTime) (tod : Nat) : Prop :=
  t.nsec = 0 ∧ UTCTime.moscowTod t.sec = (tod : Int) % 86400 ∧
  t.ns - T.ns ≤ 43200 * 1000000000 ∧ T.ns - t.ns ≤ 43200 * 1000000000

/-- The calls made when the GLONASS ephemeris `g` is reported to `k` registered callbacks. -/
def greportTo (k : Nat) (g : GEph) : List NavCall := (List.range k).map (NavCall.geph · g)

end Ublox.Nav
