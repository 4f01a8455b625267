import Verif.Spec.NavGal
import Verif.Spec.NavEncGps

/-!
# The transmitting side: Galileo I/NAV words 0 to 6 built from ephemeris parameters (Galileo OS SIS ICD, section 4.3.5)

Bits that belong to no parameter that the decoder is to report (spare bits, SISA, ionosphere, health, UTC parameters, the
reserved part of the odd page) are arbitrary.
-/

namespace Ublox.Nav

/-- A field of a word: first bit, width, value. -/
structure WFld where
  a : Nat
  n : Nat
  v : Nat
  deriving DecidableEq

/-- Bit `i` (0..127) of a word with the given fields, most significant bit first, and filler. -/
def wfldBit (fill : Nat → Bool) : List WFld → Nat → Bool
  | [], i => fill i
  | f :: fs, i => if f.a ≤ i ∧ i < f.a + f.n then f.v.testBit (f.n - 1 - (i - f.a)) else wfldBit fill fs i

/-- The parameters of a batch of ephemeris and clock data, as raw integers in their ICD units. -/
structure GalParams where
  iod : Nat
  toe : Nat
  m0 : Int
  ecc : Nat
  sqrta : Nat
  omega0 : Int
  i0 : Int
  w : Int
  idot : Int
  omegadot : Int
  deltaN : Int
  cuc : Int
  cus : Int
  crc : Int
  crs : Int
  cic : Int
  cis : Int
  toc : Nat
  af0 : Int
  af1 : Int
  af2 : Int
  bgdA : Int
  bgdB : Int
  deriving DecidableEq

/-- Each parameter fits its field. -/
structure GalParams.Ok (p : GalParams) : Prop where
  iod : p.iod < 2 ^ 10
  toe : p.toe < 2 ^ 14
  m0 : InS 32 p.m0
  ecc : p.ecc < 2 ^ 32
  sqrta : p.sqrta < 2 ^ 32
  omega0 : InS 32 p.omega0
  i0 : InS 32 p.i0
  w : InS 32 p.w
  idot : InS 14 p.idot
  omegadot : InS 24 p.omegadot
  deltaN : InS 16 p.deltaN
  cuc : InS 16 p.cuc
  cus : InS 16 p.cus
  crc : InS 16 p.crc
  crs : InS 16 p.crs
  cic : InS 16 p.cic
  cis : InS 16 p.cis
  toc : p.toc < 2 ^ 14
  af0 : InS 31 p.af0
  af1 : InS 21 p.af1
  af2 : InS 6 p.af2
  bgdA : InS 10 p.bgdA
  bgdB : InS 10 p.bgdB

/-- A Galileo system time: week and second of week. -/
structure GalTime where
  week : Nat
  tow : Nat
  deriving DecidableEq

def GalTime.Ok (t : GalTime) : Prop := t.week < 2 ^ 12 ∧ t.tow < 604800

/-- The fields of word `k` (0 to 6); `t` is the time in word 0. -/
def galFields (p : GalParams) (t : GalTime) (k : Nat) : List WFld :=
  if k = 0 then [⟨0, 6, 0⟩, ⟨6, 2, 2⟩, ⟨96, 12, t.week⟩, ⟨108, 20, t.tow⟩]
  else if k = 1 then
    [⟨0, 6, 1⟩, ⟨6, 10, p.iod⟩, ⟨16, 14, p.toe⟩, ⟨30, 32, rep 32 p.m0⟩, ⟨62, 32, p.ecc⟩, ⟨94, 32, p.sqrta⟩]
  else if k = 2 then
    [⟨0, 6, 2⟩, ⟨6, 10, p.iod⟩, ⟨16, 32, rep 32 p.omega0⟩, ⟨48, 32, rep 32 p.i0⟩, ⟨80, 32, rep 32 p.w⟩,
     ⟨112, 14, rep 14 p.idot⟩]
  else if k = 3 then
    [⟨0, 6, 3⟩, ⟨6, 10, p.iod⟩, ⟨16, 24, rep 24 p.omegadot⟩, ⟨40, 16, rep 16 p.deltaN⟩, ⟨56, 16, rep 16 p.cuc⟩,
     ⟨72, 16, rep 16 p.cus⟩, ⟨88, 16, rep 16 p.crc⟩, ⟨104, 16, rep 16 p.crs⟩]
  else if k = 4 then
    [⟨0, 6, 4⟩, ⟨6, 10, p.iod⟩, ⟨22, 16, rep 16 p.cic⟩, ⟨38, 16, rep 16 p.cis⟩, ⟨54, 14, p.toc⟩, ⟨68, 31, rep 31 p.af0⟩,
     ⟨99, 21, rep 21 p.af1⟩, ⟨120, 6, rep 6 p.af2⟩]
  else if k = 5 then [⟨0, 6, 5⟩, ⟨47, 10, rep 10 p.bgdA⟩, ⟨57, 10, rep 10 p.bgdB⟩]
  else [⟨0, 6, 6⟩]

/-- `d` is a page with word `k` of the batch `p` (with time `t` if `k = 0`): even part first, both parts nominal, the CRC
correct. -/
structure SentPage (p : GalParams) (t : GalTime) (k : Nat) (d : List Byte) : Prop where
  length : d.length = 40
  nominal : galBit d 1 = false ∧ galBit d 129 = false
  order : galBit d 0 = false ∧ galBit d 128 = true
  crc : CrcValid (galFrame d)
  word : ∃ fill, ∀ i, i < 128 → wordBit d i = wfldBit fill (galFields p t k) i

/-- The Galileo week of the time of ephemeris of `p`: the one that brings it closest to the time `t` of transmission. -/
def GalParams.toeWeek (p : GalParams) (t : GalTime) : Int :=
  if (p.toe : Int) * 60 - t.tow > 302400 then (t.week : Int) - 1
  else if (p.toe : Int) * 60 - t.tow < -302400 then (t.week : Int) + 1
  else t.week

/-- The times of ephemeris and clock are before 2^31 seconds after the GPS epoch (January 2048). -/
def GalParams.Fits (p : GalParams) (t : GalTime) : Prop :=
  (p.toeWeek t + 1024) * 604800 + p.toe * 60 ≤ 2147483647 ∧ (p.toeWeek t + 1024) * 604800 + p.toc * 60 ≤ 2147483647

/-- The ephemeris `e` reports exactly the batch `p` of Galileo satellite `s` sent at time `t`: each parameter as its raw integer
times the scale factors of the ICD (angles: semicircles times π); weeks are GPS weeks; the times are the code's instants (see
C44 for what is wrong with them). -/
structure ReportsGal (e : Eph) (s : Byte) (p : GalParams) (t : GalTime) : Prop where
  sat : e.sat = s
  gnss : e.gnssID = 2
  toes : e.toes = p.toe * 60
  m0 : e.m0 = ⟨p.m0, [.p2 31, .pi]⟩
  ecc : e.ecc = ⟨p.ecc, [.p2 33]⟩
  sqrta : e.sqrta = ⟨p.sqrta, [.p2 19]⟩
  omega0 : e.omega0 = ⟨p.omega0, [.p2 31, .pi]⟩
  i0 : e.i0 = ⟨p.i0, [.p2 31, .pi]⟩
  w : e.w = ⟨p.w, [.p2 31, .pi]⟩
  idot : e.idot = ⟨p.idot, [.p2 43, .pi]⟩
  omegadot : e.omegadot = ⟨p.omegadot, [.p2 43, .pi]⟩
  deltaN : e.deltaN = ⟨p.deltaN, [.p2 43, .pi]⟩
  cuc : e.cuc = ⟨p.cuc, [.p2 29]⟩
  cus : e.cus = ⟨p.cus, [.p2 29]⟩
  crc : e.crc = ⟨p.crc, [.p2 5]⟩
  crs : e.crs = ⟨p.crs, [.p2 5]⟩
  cic : e.cic = ⟨p.cic, [.p2 29]⟩
  cis : e.cis = ⟨p.cis, [.p2 29]⟩
  af0 : e.af0 = ⟨p.af0, [.p2 34]⟩
  af1 : e.af1 = ⟨p.af1, [.p2 46]⟩
  af2 : e.af2 = ⟨p.af2, [.p2 59]⟩
  tgd0 : e.tgd0 = ⟨p.bgdA, [.p2 32]⟩
  tgd1 : e.tgd1 = ⟨p.bgdB, [.p2 32]⟩
  iodc : e.iodc = p.iod
  iode : e.iode = p.iod % 256
  week : (e.week : Int) = p.toeWeek t + 1024
  toe : e.toe = ⟨315964818 + (p.toeWeek t + 1024) * 604800 + p.toe * 60, 0⟩
  toc : e.toc = ⟨315964818 + (p.toeWeek t + 1024) * 604800 + p.toc * 60, 0⟩

/-- In `ops`, satellite `s` sends words of `p` other than word 2, in any order and any number of times, and pages that are
damaged or of other kinds. -/
def SendsGal (s : Byte) (p : GalParams) (ops : List NavOp) : Prop :=
  ∀ j m, NavOp.sfrbx j m ∈ ops → m.gnssId = 2 → m.svId = s →
    ¬ GoodPage m.dwrd ∨ ∃ t k, k ≤ 6 ∧ k ≠ 2 ∧ GalTime.Ok t ∧ SentPage p t k m.dwrd

/-- Word `k` of `p` (sent at `t`, if `k = 0`) arrives from satellite `s` in `ops`. -/
def ArrivesGal (s : Byte) (p : GalParams) (t : GalTime) (k : Nat) (ops : List NavOp) : Prop :=
  ∃ j m, NavOp.sfrbx j m ∈ ops ∧ m.gnssId = 2 ∧ m.svId = s ∧ SentPage p t k m.dwrd

end Ublox.Nav
