import Verif.Spec.NavGps

/-!
# The transmitting side: subframes 1, 2, 3 built from ephemeris parameters (IS-GPS-200, figures 20-1, tables 20-I to 20-III)

Every bit that belongs to no ephemeris parameter (preamble, time of week, parity, reserved bits, the two unused bits of the
32-bit words) is given by an arbitrary filler.
-/

namespace Ublox.Nav

/-- A field: word, first bit, width, value. -/
structure Fld where
  w : Nat
  b : Nat
  n : Nat
  v : Nat
  deriving DecidableEq

/-- Does the field contain bit `b` of word `w`? -/
def Fld.covers (f : Fld) (w b : Nat) : Bool := f.w == w && decide (f.b ≤ b) && decide (b < f.b + f.n)

/-- Bit `b` of word `w` of a subframe with the given fields, most significant bit first, and filler. -/
def fldBit (fill : Nat → Nat → Bool) : List Fld → Nat → Nat → Bool
  | [], w, b => fill w b
  | f :: fs, w, b => if f.covers w b then f.v.testBit (f.n - 1 - (b - f.b)) else fldBit fill fs w b

/-- Eight bits as a byte, least significant first. -/
def byteOf (f : Nat → Bool) : Byte := BitVec.ofBoolListLE [f 0, f 1, f 2, f 3, f 4, f 5, f 6, f 7]

/-- The ten words in an SFRBX message: bit 30 of a word is the least significant bit of its little-endian 32-bit word. -/
def packWords (f : Nat → Nat → Bool) : List Byte :=
  (List.range 40).map fun k => byteOf fun j => f (k / 4 + 1) (30 - (8 * (k % 4) + j))

/-- The `n`-bit two's complement representation of `x`. -/
def rep (n : Nat) (x : Int) : Nat := (x % 2 ^ n).toNat

/-- A two's complement number of `n` bits. -/
def InS (n : Nat) (x : Int) : Prop := -2 ^ (n - 1) ≤ x ∧ x < 2 ^ (n - 1)

/-- The parameters broadcast by a GPS satellite, as raw integers in their IS-GPS-200 units. -/
structure GpsParams where
  week : Nat
  codeOnL2 : Nat
  ura : Nat
  health : Nat
  iodc : Nat
  l2p : Nat
  tgd : Int
  toc : Nat
  af2 : Int
  af1 : Int
  af0 : Int
  crs : Int
  deltaN : Int
  m0 : Int
  cuc : Int
  ecc : Nat
  cus : Int
  sqrta : Nat
  toe : Nat
  fit : Nat
  cic : Int
  omega0 : Int
  cis : Int
  i0 : Int
  crc : Int
  w : Int
  omegadot : Int
  idot : Int
  deriving DecidableEq

/-- Each parameter fits its field. -/
structure GpsParams.Ok (p : GpsParams) : Prop where
  week : p.week < 2 ^ 10
  codeOnL2 : p.codeOnL2 < 2 ^ 2
  ura : p.ura < 2 ^ 4
  health : p.health < 2 ^ 6
  iodc : p.iodc < 2 ^ 10
  l2p : p.l2p < 2 ^ 1
  tgd : InS 8 p.tgd
  toc : p.toc < 2 ^ 16
  af2 : InS 8 p.af2
  af1 : InS 16 p.af1
  af0 : InS 22 p.af0
  crs : InS 16 p.crs
  deltaN : InS 16 p.deltaN
  m0 : InS 32 p.m0
  cuc : InS 16 p.cuc
  ecc : p.ecc < 2 ^ 32
  cus : InS 16 p.cus
  sqrta : p.sqrta < 2 ^ 32
  toe : p.toe < 2 ^ 16
  fit : p.fit < 2 ^ 1
  cic : InS 16 p.cic
  omega0 : InS 32 p.omega0
  cis : InS 16 p.cis
  i0 : InS 32 p.i0
  crc : InS 16 p.crc
  w : InS 32 p.w
  omegadot : InS 24 p.omegadot
  idot : InS 14 p.idot

/-- A 32-bit parameter in bits 17-24 of word `w` and 1-24 of the next. -/
def split32 (w v : Nat) : List Fld := [⟨w, 17, 8, v / 2 ^ 24⟩, ⟨w + 1, 1, 24, v % 2 ^ 24⟩]

/-- The fields of subframe 1. -/
def fields1 (p : GpsParams) : List Fld :=
  [⟨2, 20, 3, 1⟩, ⟨3, 1, 10, p.week⟩, ⟨3, 11, 2, p.codeOnL2⟩, ⟨3, 13, 4, p.ura⟩, ⟨3, 17, 6, p.health⟩,
   ⟨3, 23, 2, p.iodc / 256⟩, ⟨4, 1, 1, p.l2p⟩, ⟨7, 17, 8, rep 8 p.tgd⟩, ⟨8, 1, 8, p.iodc % 256⟩, ⟨8, 9, 16, p.toc⟩,
   ⟨9, 1, 8, rep 8 p.af2⟩, ⟨9, 9, 16, rep 16 p.af1⟩, ⟨10, 1, 22, rep 22 p.af0⟩]

/-- Subframe 1. -/
def subframe1 (fill : Nat → Nat → Bool) (p : GpsParams) : List Byte := packWords (fldBit fill (fields1 p))

/-- The fields of subframe 2. -/
def fields2 (p : GpsParams) : List Fld :=
  ([⟨2, 20, 3, 2⟩, ⟨3, 1, 8, p.iodc % 256⟩, ⟨3, 9, 16, rep 16 p.crs⟩, ⟨4, 1, 16, rep 16 p.deltaN⟩] ++ split32 4 (rep 32 p.m0) ++
   [⟨6, 1, 16, rep 16 p.cuc⟩] ++ split32 6 p.ecc ++ [⟨8, 1, 16, rep 16 p.cus⟩] ++ split32 8 p.sqrta ++
   [⟨10, 1, 16, p.toe⟩, ⟨10, 17, 1, p.fit⟩])

/-- Subframe 2. -/
def subframe2 (fill : Nat → Nat → Bool) (p : GpsParams) : List Byte := packWords (fldBit fill (fields2 p))

/-- The fields of subframe 3. -/
def fields3 (p : GpsParams) : List Fld :=
  ([⟨2, 20, 3, 3⟩, ⟨3, 1, 16, rep 16 p.cic⟩] ++ split32 3 (rep 32 p.omega0) ++ [⟨5, 1, 16, rep 16 p.cis⟩] ++
   split32 5 (rep 32 p.i0) ++ [⟨7, 1, 16, rep 16 p.crc⟩] ++ split32 7 (rep 32 p.w) ++
   [⟨9, 1, 24, rep 24 p.omegadot⟩, ⟨10, 1, 8, p.iodc % 256⟩, ⟨10, 9, 14, rep 14 p.idot⟩])

/-- Subframe 3. -/
def subframe3 (fill : Nat → Nat → Bool) (p : GpsParams) : List Byte := packWords (fldBit fill (fields3 p))

/-- Number `k` of the three subframes of parameters `p` with fillers `f`. -/
def subframe (f : Nat → Nat → Bool) (p : GpsParams) (k : Nat) : List Byte :=
  if k = 1 then subframe1 f p else if k = 2 then subframe2 f p else subframe3 f p

/-- The ephemeris `e` reports exactly the parameters `p` of satellite `s`: each as its raw integer times the scale factors of
IS-GPS-200 (angles: semicircles times π).  The 10-bit week is taken to be after the second rollover; a group delay of -128 ("not
available") is reported as 0; fit flag 0 is reported as 4 (hours), 1 as 0; the times of ephemeris and clock are the code's
instants (see C44 for what is wrong with them). -/
structure ReportsGps (e : Eph) (s : Byte) (p : GpsParams) : Prop where
  sat : e.sat = s
  gnss : e.gnssID = 0
  week : e.week = p.week + 2048
  codeOnL2 : e.codeOnL2 = p.codeOnL2
  ura : e.ura = p.ura
  health : e.health = p.health
  iodc : e.iodc = p.iodc
  iode : e.iode = p.iodc % 256
  l2p : e.l2p = p.l2p
  tgd : e.tgd0 = if p.tgd = -128 then ⟨0, []⟩ else ⟨p.tgd, [.p2 31]⟩
  tocs : e.tocs = p.toc * 16
  af2 : e.af2 = ⟨p.af2, [.p2 55]⟩
  af1 : e.af1 = ⟨p.af1, [.p2 43]⟩
  af0 : e.af0 = ⟨p.af0, [.p2 31]⟩
  crs : e.crs = ⟨p.crs, [.p2 5]⟩
  deltaN : e.deltaN = ⟨p.deltaN, [.p2 43, .pi]⟩
  m0 : e.m0 = ⟨p.m0, [.p2 31, .pi]⟩
  cuc : e.cuc = ⟨p.cuc, [.p2 29]⟩
  ecc : e.ecc = ⟨p.ecc, [.p2 33]⟩
  cus : e.cus = ⟨p.cus, [.p2 29]⟩
  sqrta : e.sqrta = ⟨p.sqrta, [.p2 19]⟩
  toes : e.toes = p.toe * 16
  fit : e.fit = if p.fit = 1 then 0 else 4
  cic : e.cic = ⟨p.cic, [.p2 29]⟩
  omega0 : e.omega0 = ⟨p.omega0, [.p2 31, .pi]⟩
  cis : e.cis = ⟨p.cis, [.p2 29]⟩
  i0 : e.i0 = ⟨p.i0, [.p2 31, .pi]⟩
  crc : e.crc = ⟨p.crc, [.p2 5]⟩
  w : e.w = ⟨p.w, [.p2 31, .pi]⟩
  omegadot : e.omegadot = ⟨p.omegadot, [.p2 43, .pi]⟩
  idot : e.idot = ⟨p.idot, [.p2 43, .pi]⟩
  toe : e.toe = ⟨315964818 + ((p.week + 2048 : Nat) : Int) * 604800 + (p.toe : Int) * 16, 0⟩
  toc : e.toc = ⟨315964818 + ((p.week + 2048 : Nat) : Int) * 604800 + (p.toc : Int) * 16, 0⟩

end Ublox.Nav
