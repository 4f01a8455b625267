import Verif.Spec.Bits
import Verif.Spec.Crc
import Verif.Spec.NavGps

/-!
# What a Galileo I/NAV page says (Galileo OS SIS ICD, section 4.3), independently of the decoder

An SFRBX message for Galileo holds eight 32-bit words (each stored little endian): words 1-4 begin with the even page
part, words 5-8 with the odd page part.
-/

namespace Ublox.Nav

/-- Bit `p` (0..255) of the eight words, most significant first; the odd page part begins at 128. -/
def galBit (d : List Byte) (p : Nat) : Bool :=
  (d.getD (4 * (p / 32) + 3 - p % 32 / 8) 0).getLsbD (7 - p % 8)

/-- Bytes with the given bits, first bit most significant. -/
def packBits (f : Nat → Bool) (n : Nat) : List Byte := (List.range n).map fun k => BitVec.ofNat 8 (bitsVal f (8 * k) 8)

/-- The protected part of a page with its CRC: four zero bits (to fill up the first byte), the 114 bits of the even part,
the first 82 bits of the odd part, and the 24 CRC bits that follow them. -/
def galFrame (d : List Byte) : List Byte :=
  packBits (fun i => if i < 4 then false else if i < 118 then galBit d (i - 4) else galBit d (128 + (i - 118))) 28

/-- Bit `i` (0..127) of the page's data word: 112 bits from the even part, 16 from the odd part. -/
def wordBit (d : List Byte) (i : Nat) : Bool := if i < 112 then galBit d (2 + i) else galBit d (130 + (i - 112))

/-- The number in bits `a .. a+n-1` of the data word. -/
def wU (d : List Byte) (a n : Nat) : Nat := bitsVal (wordBit d) a n

/-- The same as a two's complement number. -/
def wS (d : List Byte) (a n : Nat) : Int := twosComp n (wU d a n)

/-- Word type. -/
def wType (d : List Byte) : Nat := wU d 0 6

/-- A page to be accepted: both parts nominal, even part first, correct CRC, word type 0..6. -/
structure GoodPage (d : List Byte) : Prop where
  nominal : galBit d 1 = false ∧ galBit d 129 = false
  order : galBit d 0 = false ∧ galBit d 128 = true
  crc : CrcValid (galFrame d)
  type : wType d ≤ 6

open Classical in
/-- The pages accepted from Galileo satellite `s` in a history, oldest first. -/
noncomputable def pagesOf (s : Byte) (ops : List NavOp) : List (List Byte) :=
  ops.filterMap fun
    | .sfrbx _ m => if m.gnssId = 2 ∧ m.svId = s ∧ GoodPage m.dwrd then some m.dwrd else none
    | _ => none

/-- The pages from the latest word of type 2 on (all pages if there is none). -/
def sinceWord2 (ds : List (List Byte)) : List (List Byte) :=
  ds.foldl (fun acc d => if wType d = 2 then [d] else acc ++ [d]) []

/-- The latest word of type `k`. -/
def latestW (k : Nat) (ds : List (List Byte)) : Option (List Byte) := (ds.filter (wType · = k)).getLast?

/-- The issue of data of a word of type 1..4. -/
def iodNav (d : List Byte) : Nat := wU d 6 10

/-- Words 0 to 4 form a dated ephemeris of one issue of data. -/
def Consistent (d0 d1 d2 d3 d4 : List Byte) : Prop :=
  wU d0 6 2 = 2 ∧ iodNav d1 = iodNav d2 ∧ iodNav d1 = iodNav d3 ∧ iodNav d1 = iodNav d4

/-- Galileo week, and second of week, of transmission (word 0). -/
def galWeek (d0 : List Byte) : Nat := wU d0 96 12
def galTow (d0 : List Byte) : Nat := wU d0 108 20
/-- Second of week of the ephemeris (word 1) and of the clock parameters (word 4). -/
def galToe (d1 : List Byte) : Nat := wU d1 16 14 * 60
def galToc (d4 : List Byte) : Nat := wU d4 54 14 * 60

/-- The week (Galileo week, before the offset of 1024 to GPS weeks) of the ephemeris: the transmission week, corrected
when the time of ephemeris is more than half a week away. -/
def toeWeek (d0 d1 : List Byte) : Int :=
  if (galToe d1 : Int) - galTow d0 > 302400 then (galWeek d0 : Int) - 1
  else if (galToe d1 : Int) - galTow d0 < -302400 then (galWeek d0 : Int) + 1
  else galWeek d0

/-- The dates of the ephemeris are less than 2^31 seconds after the GPS epoch (January 2048). -/
def DatesFit (d0 d1 d4 : List Byte) : Prop :=
  (toeWeek d0 d1 + 1024) * 604800 + galToe d1 ≤ 2147483647 ∧ (toeWeek d0 d1 + 1024) * 604800 + galToc d4 ≤ 2147483647

instance (d0 d1 d4 : List Byte) : Decidable (DatesFit d0 d1 d4) := inferInstanceAs (Decidable (_ ∧ _))

/-- `e` is the ephemeris of Galileo satellite `s` transmitted in words 0 to 5 (the other members of `e` are not written
by the Galileo decoder). -/
structure CarriesGal (e : Eph) (s : Byte) (d0 d1 d2 d3 d4 d5 : List Byte) : Prop where
  sat : e.sat = s
  gnss : e.gnssID = 2
  toes : e.toes = galToe d1
  m0 : e.m0 = ⟨wS d1 30 32, [.p2 31, .pi]⟩
  ecc : e.ecc = ⟨wU d1 62 32, [.p2 33]⟩
  sqrta : e.sqrta = ⟨wU d1 94 32, [.p2 19]⟩
  omega0 : e.omega0 = ⟨wS d2 16 32, [.p2 31, .pi]⟩
  i0 : e.i0 = ⟨wS d2 48 32, [.p2 31, .pi]⟩
  w : e.w = ⟨wS d2 80 32, [.p2 31, .pi]⟩
  idot : e.idot = ⟨wS d2 112 14, [.p2 43, .pi]⟩
  omegadot : e.omegadot = ⟨wS d3 16 24, [.p2 43, .pi]⟩
  deltaN : e.deltaN = ⟨wS d3 40 16, [.p2 43, .pi]⟩
  cuc : e.cuc = ⟨wS d3 56 16, [.p2 29]⟩
  cus : e.cus = ⟨wS d3 72 16, [.p2 29]⟩
  crc : e.crc = ⟨wS d3 88 16, [.p2 5]⟩
  crs : e.crs = ⟨wS d3 104 16, [.p2 5]⟩
  cic : e.cic = ⟨wS d4 22 16, [.p2 29]⟩
  cis : e.cis = ⟨wS d4 38 16, [.p2 29]⟩
  af0 : e.af0 = ⟨wS d4 68 31, [.p2 34]⟩
  af1 : e.af1 = ⟨wS d4 99 21, [.p2 46]⟩
  af2 : e.af2 = ⟨wS d4 120 6, [.p2 59]⟩
  tgd0 : e.tgd0 = ⟨wS d5 47 10, [.p2 32]⟩
  tgd1 : e.tgd1 = ⟨wS d5 57 10, [.p2 32]⟩
  iodc : e.iodc = iodNav d1
  iode : e.iode = iodNav d1 % 256
  week : (e.week : Int) = toeWeek d0 d1 + 1024
  toe : e.toe = ⟨315964818 + (toeWeek d0 d1 + 1024) * 604800 + galToe d1, 0⟩
  toc : e.toc = ⟨315964818 + (toeWeek d0 d1 + 1024) * 604800 + galToc d4, 0⟩

end Ublox.Nav
