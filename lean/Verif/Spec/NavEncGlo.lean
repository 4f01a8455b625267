import Verif.Spec.NavGlo
import Verif.Spec.NavEncGps

/-!
# The transmitting side: GLONASS strings 1 to 4 built from ephemeris parameters (GLONASS ICD 5.1, table 4.5, figure 4.3)

Bits that belong to no ephemeris parameter are given by an arbitrary filler; the check bits are computed from the others.
-/

namespace Ublox.Nav

/-- A field: bits `hi` down to `lo` hold the number `v`. -/
structure GFld where
  hi : Nat
  lo : Nat
  v : Nat
  deriving DecidableEq

/-- Bit `b` of a string with the given fields and filler. -/
def gfldBit (fill : Nat → Bool) : List GFld → Nat → Bool
  | [], b => fill b
  | f :: fs, b => if f.lo ≤ b ∧ b ≤ f.hi then f.v.testBit (b - f.lo) else gfldBit fill fs b

/-- Check bit `k` (1..7) of a string with the given data bits (9..85). -/
def checkBit (data : Nat → Bool) (k : Nat) : Bool := checksum data ((checkSets.getD (k - 1) []).filter (9 ≤ ·))

/-- The string with the given data bits, all 85 bits: check bits 1 to 7, then 8 so that the sum of all bits is 0. -/
def withChecks (data : Nat → Bool) (b : Nat) : Bool :=
  if 9 ≤ b then data b
  else if b = 8 then
    xor (checksum (checkBit data) [1, 2, 3, 4, 5, 6, 7]) (checksum data (List.range' 9 77))
  else checkBit data b

/-- The ten words of the SFRBX message of a string: the 85 bits, most significant first, in three little-endian words; the time
mark in the upper half of the fourth; everything else filler. -/
def packString (f : Nat → Bool) (mark : Nat) (fill : Nat → Byte) : List Byte :=
  (List.range 40).map fun k =>
    if k = 15 then BitVec.ofNat 8 (mark / 256)
    else if k = 14 then BitVec.ofNat 8 (mark % 256)
    else if k < 12 then byteOf fun j =>
      if 32 * (k / 4) + 8 * (3 - k % 4) + (7 - j) ≤ 84 then f (85 - (32 * (k / 4) + 8 * (3 - k % 4) + (7 - j)))
      else (fill k).getLsbD j
    else fill k

/-- The parameters broadcast by a GLONASS satellite, as raw integers in their ICD units. -/
structure GloParams where
  hour : Nat
  minute : Nat
  half : Nat
  vx : Int
  ax : Int
  x : Int
  health : Nat
  tb : Nat
  vy : Int
  ay : Int
  y : Int
  gamma : Int
  vz : Int
  az : Int
  z : Int
  tau : Int
  dtau : Int
  age : Nat
  accuracy : Nat
  deriving DecidableEq

/-- A sign-and-magnitude number of `n` bits. -/
def InSM (n : Nat) (x : Int) : Prop := x.natAbs < 2 ^ (n - 1)

/-- Each parameter fits its field. -/
structure GloParams.Ok (p : GloParams) : Prop where
  hour : p.hour < 2 ^ 5
  minute : p.minute < 2 ^ 6
  half : p.half < 2
  vx : InSM 24 p.vx
  ax : InSM 5 p.ax
  x : InSM 27 p.x
  health : p.health < 2 ^ 3
  tb : p.tb < 2 ^ 7
  vy : InSM 24 p.vy
  ay : InSM 5 p.ay
  y : InSM 27 p.y
  gamma : InSM 11 p.gamma
  vz : InSM 24 p.vz
  az : InSM 5 p.az
  z : InSM 27 p.z
  tau : InSM 22 p.tau
  dtau : InSM 5 p.dtau
  age : p.age < 2 ^ 5
  accuracy : p.accuracy < 2 ^ 4

/-- A sign-and-magnitude number in bits `hi` (sign) down to `lo`. -/
def sm (hi lo : Nat) (x : Int) : List GFld := [⟨hi, hi, if x < 0 then 1 else 0⟩, ⟨hi - 1, lo, x.natAbs⟩]

/-- The fields of string `k` (1 to 4). -/
def gloFields (p : GloParams) (k : Nat) : List GFld :=
  if k = 1 then
    [⟨84, 81, 1⟩, ⟨76, 72, p.hour⟩, ⟨71, 66, p.minute⟩, ⟨65, 65, p.half⟩] ++ sm 64 41 p.vx ++ sm 40 36 p.ax ++ sm 35 9 p.x
  else if k = 2 then
    [⟨84, 81, 2⟩, ⟨80, 78, p.health⟩, ⟨76, 70, p.tb⟩] ++ sm 64 41 p.vy ++ sm 40 36 p.ay ++ sm 35 9 p.y
  else if k = 3 then
    [⟨84, 81, 3⟩] ++ sm 79 69 p.gamma ++ sm 64 41 p.vz ++ sm 40 36 p.az ++ sm 35 9 p.z
  else
    [⟨84, 81, 4⟩] ++ sm 80 59 p.tau ++ sm 58 54 p.dtau ++ [⟨53, 49, p.age⟩, ⟨33, 30, p.accuracy⟩]

/-- The message of string `k` (1 to 4) of a satellite broadcasting `p`, with a time mark, and fillers for the other bits of the
string and of the message. -/
def sentString (fill : Nat → Bool) (rest : Nat → Byte) (mark : Nat) (p : GloParams) (k : Nat) : List Byte :=
  packString (withChecks (gfldBit fill (gloFields p k))) mark rest

/-- The ephemeris `g` reports exactly the parameters `p` of GLONASS satellite `s` on channel `freqId - 7`, each as its raw integer
times the scale factors (and km to m). -/
structure ReportsGlo (g : GEph) (s freqId : Byte) (p : GloParams) : Prop where
  sat : g.sat = s
  gnss : g.gnssID = GLONASS
  frq : g.frq = (freqId.toNat : Int) - 7
  vel0 : g.vel0 = ⟨p.vx, [.p2 20, .e3]⟩
  acc0 : g.acc0 = ⟨p.ax, [.p2 30, .e3]⟩
  pos0 : g.pos0 = ⟨p.x, [.p2 11, .e3]⟩
  svh : g.svh = p.health
  iode : g.iode = p.tb
  vel1 : g.vel1 = ⟨p.vy, [.p2 20, .e3]⟩
  acc1 : g.acc1 = ⟨p.ay, [.p2 30, .e3]⟩
  pos1 : g.pos1 = ⟨p.y, [.p2 11, .e3]⟩
  gamn : g.gamn = ⟨p.gamma, [.p2 40]⟩
  vel2 : g.vel2 = ⟨p.vz, [.p2 20, .e3]⟩
  acc2 : g.acc2 = ⟨p.az, [.p2 30, .e3]⟩
  pos2 : g.pos2 = ⟨p.z, [.p2 11, .e3]⟩
  taun : g.taun = ⟨p.tau, [.p2 30]⟩
  dtaun : g.dtaun = ⟨p.dtau, [.p2 30]⟩
  age : g.age = p.age
  sva : g.sva = p.accuracy

/-- In `xs`, satellite `s` sends the strings of `p` with the given time mark, in any order and any number of times; in between
there may be its other strings with that mark (5 to 15 and 0), and strings damaged so that the check bits show it. -/
def Sends (s : Byte) (p : GloParams) (mark : Nat) (xs : List (NavOp × UTCTime)) : Prop :=
  ∀ x ∈ xs, ∀ j m, x.1 = NavOp.sfrbx j m → m.gnssId = GLONASS → m.svId = s →
    (∃ fill rest k, 1 ≤ k ∧ k ≤ 4 ∧ m.dwrd = sentString fill rest mark p k) ∨
    (gloMark m.dwrd = mark ∧ (gloNum m.dwrd = 0 ∨ 5 ≤ gloNum m.dwrd)) ∨ usable (gloBit m.dwrd) = false

/-- String `k` of `p` arrives from satellite `s` in `xs`, while the reference time is set. -/
def Arrives (s : Byte) (p : GloParams) (mark k : Nat) (xs : List (NavOp × UTCTime)) : Prop :=
  ∃ x ∈ xs, ∃ j m fill rest, x.1 = NavOp.sfrbx j m ∧ m.gnssId = GLONASS ∧ m.svId = s ∧ x.2 ≠ ⟨0, 0⟩ ∧
    m.dwrd = sentString fill rest mark p k

end Ublox.Nav
