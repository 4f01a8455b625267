import Verif.Model.EphDbl
import Verif.Lemmas.NavInv
import Verif.Lemmas.Double
import Verif.Props.Scale

/-!
# C95: the numbers of a reported ephemeris, in IEEE double arithmetic
-/

namespace Ublox.Nav

open Dbl64

/-- The scales the decoders use. -/
abbrev Scales : List (List K) :=
  [[], [.p2 5], [.p2 19], [.p2 29], [.p2 30], [.p2 31], [.p2 32], [.p2 33], [.p2 34], [.p2 40], [.p2 43], [.p2 46],
   [.p2 55], [.p2 59], [.p2 31, .pi], [.p2 43, .pi], [.p2 20, .e3], [.p2 30, .e3], [.p2 11, .e3]]

/-- Those that are exact in binary floating point. -/
abbrev ExactScales : List (List K) :=
  [[], [.p2 5], [.p2 19], [.p2 29], [.p2 30], [.p2 31], [.p2 20, .e3], [.p2 30, .e3], [.p2 11, .e3]]

/-- A 32-bit integer times one of the scales `S`. -/
def Good (S : List (List K)) (d : Dbl) : Prop := |d.raw| < 2 ^ 32 ∧ d.scale ∈ S

/-- All floating-point members of an ephemeris. -/
def Eph.doubles (e : Eph) : List Dbl :=
  [e.tgd0, e.tgd1, e.tgd2, e.tgd3, e.af2, e.af1, e.af0, e.m0, e.deltaN, e.ecc, e.sqrta, e.omega0, e.i0, e.w, e.omegadot,
   e.idot, e.cuc, e.cus, e.crc, e.crs, e.cic, e.cis]

/-- All floating-point members of a GLONASS ephemeris. -/
def GEph.doubles (g : GEph) : List Dbl :=
  [g.pos0, g.pos1, g.pos2, g.vel0, g.vel1, g.vel2, g.acc0, g.acc1, g.acc2, g.taun, g.gamn, g.dtaun]

/-- The harmonic coefficients and the root of the semi-major axis: their scale factors are exact in binary. -/
def Eph.plain (e : Eph) : List Dbl := [e.sqrta, e.cuc, e.cus, e.crc, e.crs, e.cic, e.cis]

/-- Position, velocity, acceleration and the clock terms, but for the frequency bias. -/
def GEph.plain (g : GEph) : List Dbl :=
  [g.pos0, g.pos1, g.pos2, g.vel0, g.vel1, g.vel2, g.acc0, g.acc1, g.acc2, g.taun, g.dtaun]

def EphGood (e : Eph) : Prop :=
  Good Scales e.tgd0 ∧ Good Scales e.tgd1 ∧ Good Scales e.tgd2 ∧ Good Scales e.tgd3 ∧ Good Scales e.af2 ∧
  Good Scales e.af1 ∧ Good Scales e.af0 ∧ Good Scales e.m0 ∧ Good Scales e.deltaN ∧ Good Scales e.ecc ∧
  Good ExactScales e.sqrta ∧ Good Scales e.omega0 ∧ Good Scales e.i0 ∧ Good Scales e.w ∧ Good Scales e.omegadot ∧
  Good Scales e.idot ∧ Good ExactScales e.cuc ∧ Good ExactScales e.cus ∧ Good ExactScales e.crc ∧ Good ExactScales e.crs ∧
  Good ExactScales e.cic ∧ Good ExactScales e.cis

def GEphGood (g : GEph) : Prop :=
  Good ExactScales g.pos0 ∧ Good ExactScales g.pos1 ∧ Good ExactScales g.pos2 ∧ Good ExactScales g.vel0 ∧
  Good ExactScales g.vel1 ∧ Good ExactScales g.vel2 ∧ Good ExactScales g.acc0 ∧ Good ExactScales g.acc1 ∧
  Good ExactScales g.acc2 ∧ Good ExactScales g.taun ∧ Good Scales g.gamn ∧ Good ExactScales g.dtaun

theorem good_zero {S : List (List K)} (h : [] ∈ S := by decide) : Good S .zero := ⟨by decide, h⟩

theorem good_nat {v n : Nat} {ks : List K} {S : List (List K)} (h : v < 2 ^ n) (hn : n ≤ 32 := by decide) (hk : ks ∈ S := by decide) :
    Good S ⟨v, ks⟩ := by
  refine ⟨?_, hk⟩
  have : v < 2 ^ 32 := lt_of_lt_of_le h (Nat.pow_le_pow_right (by decide) hn)
  show |(v : Int)| < 2 ^ 32
  rw [abs_of_nonneg (by omega)]
  exact_mod_cast this

theorem good_range {x : Int} {n : Nat} {ks : List K} {S : List (List K)} (h : -(2 : Int) ^ (n - 1) ≤ x ∧ x < 2 ^ (n - 1)) (hn : n ≤ 32)
    (hk : ks ∈ S) : Good S ⟨x, ks⟩ := by
  refine ⟨?_, hk⟩
  have : (2 : Int) ^ (n - 1) ≤ 2 ^ 31 := pow_le_pow_right₀ (by decide) (by omega)
  show |x| < 2 ^ 32
  rw [abs_lt]
  constructor <;> omega

theorem FieldIn_of_getBit {n : Nat} {b : List Byte} {p v : Nat} (h : getBit n b p = .ok v) (h1 : 1 ≤ n) (h2 : n ≤ 56) :
    FieldIn b.length p n := by
  rw [c35_getBit n p b h1 h2] at h
  by_contra hc
  rw [if_neg hc] at h
  cases h

theorem good_S {n : Nat} {b : List Byte} {p : Nat} {x : Int} {ks : List K} {S : List (List K)} (h : getBitS n b p = .ok x)
    (h1 : 1 ≤ n := by decide) (hn : n ≤ 32 := by decide) (hk : ks ∈ S := by decide) : Good S ⟨x, ks⟩ := by
  have hin : FieldIn b.length p n := by
    unfold getBitS at h
    rw [bind_ok] at h
    obtain ⟨v, hv, -⟩ := h
    exact FieldIn_of_getBit hv h1 (by omega)
  rw [c36_getBitS n p b h1 (by omega) hin] at h
  rw [← Except.ok.inj h]
  have := c36_twosComp_range n (fieldVal b p n) h1 (bitsVal_lt _ _ _)
  exact good_range ⟨this.1, this.2.1⟩ hn hk

theorem good_RtS {n : Nat} {b : List Byte} {p : Nat} {x : Int} {ks : List K} {S : List (List K)} (h : getBitRtS b p n = .ok x)
    (h1 : 1 ≤ n := by decide) (hn : n ≤ 32 := by decide) (hk : ks ∈ S := by decide) : Good S ⟨x, ks⟩ := by
  have hin : FieldIn b.length p n := by
    unfold getBitRtS at h
    rw [bind_ok] at h
    obtain ⟨v, hv, -⟩ := h
    rw [c35_getBitRt n p b h1 hn] at hv
    by_contra hc
    rw [if_neg hc] at hv
    cases hv
  rw [c36_getBitRtS n p b h1 (by omega) hin] at h
  rw [← Except.ok.inj h]
  have := c36_twosComp_range n (fieldVal b p n) h1 (bitsVal_lt _ _ _)
  exact good_range ⟨this.1, this.2.1⟩ hn hk

theorem good_Glo {n : Nat} {b : List Byte} {p : Nat} {x : Int} {ks : List K} {S : List (List K)} (h : getBitGlo n b p = .ok x)
    (h1 : 2 ≤ n := by decide) (hn : n ≤ 32 := by decide) (hk : ks ∈ S := by decide) : Good S ⟨x, ks⟩ := by
  have hin : FieldIn b.length p n := by
    unfold getBitGlo at h
    rw [bind_ok] at h
    obtain ⟨v, hv, h⟩ := h
    rw [bind_ok] at h
    obtain ⟨w, hw, -⟩ := h
    have a1 := FieldIn_of_getBit hv (by omega) (by omega)
    have a2 := FieldIn_of_getBit hw (by omega) (by omega)
    unfold FieldIn at *
    omega
  rw [c39_getBitGlo n p b h1 (by omega) hin] at h
  rw [← Except.ok.inj h]
  have hl : fieldVal b (p + 1) (n - 1) < 2 ^ (n - 1) := bitsVal_lt _ _ _
  have hl' : (fieldVal b (p + 1) (n - 1) : Int) < 2 ^ (n - 1) := by exact_mod_cast hl
  refine good_range ?_ hn hk
  split <;> constructor <;> omega

/-! ### Every decoder keeps them good -/

attribute [local irreducible] Good

theorem eg_iff {e : Eph} : EphGood e ↔
    Good Scales e.tgd0 ∧ Good Scales e.tgd1 ∧ Good Scales e.tgd2 ∧ Good Scales e.tgd3 ∧ Good Scales e.af2 ∧
    Good Scales e.af1 ∧ Good Scales e.af0 ∧ Good Scales e.m0 ∧ Good Scales e.deltaN ∧ Good Scales e.ecc ∧
    Good ExactScales e.sqrta ∧ Good Scales e.omega0 ∧ Good Scales e.i0 ∧ Good Scales e.w ∧ Good Scales e.omegadot ∧
    Good Scales e.idot ∧ Good ExactScales e.cuc ∧ Good ExactScales e.cus ∧ Good ExactScales e.crc ∧
    Good ExactScales e.crs ∧ Good ExactScales e.cic ∧ Good ExactScales e.cis := Iff.rfl

theorem gg_iff {g : GEph} : GEphGood g ↔
    Good ExactScales g.pos0 ∧ Good ExactScales g.pos1 ∧ Good ExactScales g.pos2 ∧ Good ExactScales g.vel0 ∧
    Good ExactScales g.vel1 ∧ Good ExactScales g.vel2 ∧ Good ExactScales g.acc0 ∧ Good ExactScales g.acc1 ∧
    Good ExactScales g.acc2 ∧ Good ExactScales g.taun ∧ Good Scales g.gamn ∧ Good ExactScales g.dtaun := Iff.rfl

theorem good_fresh : EphGood Eph.fresh :=
  eg_iff.2 ⟨good_zero, good_zero, good_zero, good_zero, good_zero, good_zero, good_zero, good_zero, good_zero, good_zero,
    good_zero, good_zero, good_zero, good_zero, good_zero, good_zero, good_zero, good_zero, good_zero, good_zero, good_zero,
    good_zero⟩

theorem good_sub1 {b : List Byte} {e e' : Eph} (hf : EphGood e) (h : sub1 b e = .ok e') : EphGood e' := by
  unfold sub1 at h
  iterate 12
    rw [bind_ok] at h
    obtain ⟨_, _, h⟩ := h
  rename_i week h1 code h2 ura h3 health h4 iodc0 h5 l2p h6 tgd h7 iode h8 tocs h9 af2 h10 af1 h11 af0 h12
  obtain ⟨-, -, -, -, -, -, -, o⟩ := eg_iff.1 hf
  have := Except.ok.inj h
  rw [← this]
  refine eg_iff.2 ⟨?_, good_zero, good_zero, good_zero, good_S h10, good_S h11, good_S h12, o⟩
  show Good Scales (if tgd = -128 then .zero else ⟨tgd, [.p2 31]⟩)
  split
  · exact good_zero
  · exact good_S h7

theorem good_sub2 {b : List Byte} {e e' : Eph} (hf : EphGood e) (h : sub2 b e = .ok e') : EphGood e' := by
  unfold sub2 at h
  iterate 10
    rw [bind_ok] at h
    obtain ⟨_, _, h⟩ := h
  rename_i iode h1 crs h2 deltaN h3 m0 h4 cuc h5 ecc h6 cus h7 sqrta h8 toes h9 fit h10
  obtain ⟨o1, o2, o3, o4, o5, o6, o7, -, -, -, -, o12, o13, o14, o15, o16, -, -, o19, -, o21, o22⟩ := eg_iff.1 hf
  have := Except.ok.inj h
  rw [← this]
  exact eg_iff.2 ⟨o1, o2, o3, o4, o5, o6, o7, good_S h4, good_S h3, good_nat (Ros.getBit_lt h6), good_nat (Ros.getBit_lt h8),
    o12, o13, o14, o15, o16, good_S h5, good_S h7, o19, good_S h2, o21, o22⟩

theorem good_sub3 {b : List Byte} {e e' : Eph} (hf : EphGood e) (h : sub3 b e = .ok e') : EphGood e' := by
  unfold sub3 at h
  iterate 9
    rw [bind_ok] at h
    obtain ⟨_, _, h⟩ := h
  rename_i cic h1 omega0 h2 cis h3 i0 h4 crc h5 w h6 omegadot h7 iode3 h8 idot h9
  obtain ⟨o1, o2, o3, o4, o5, o6, o7, o8, o9, o10, o11, -, -, -, -, -, o17, o18, -, o20, -, -⟩ := eg_iff.1 hf
  have := Except.ok.inj h
  rw [← this]
  exact eg_iff.2 ⟨o1, o2, o3, o4, o5, o6, o7, o8, o9, o10, o11, good_S h2, good_S h4, good_S h6, good_S h7, good_S h9, o17,
    o18, good_S h5, o20, good_S h1, good_S h3⟩

theorem good_finish {t : UTCTime} {e : Eph} {o : GpsOut} (hf : EphGood e) (h : gpsFinish t e = .ok o) :
    EphGood o.eph ∧ ∀ r ∈ o.reports, EphGood r := by
  unfold gpsFinish at h
  split at h
  · rw [bind_ok] at h
    obtain ⟨toe, h1, h⟩ := h
    rw [bind_ok] at h
    obtain ⟨toc, h2, h⟩ := h
    have := Except.ok.inj h
    rw [← this]
    refine ⟨eg_iff.2 (eg_iff.1 hf), fun r hr => ?_⟩
    rw [List.mem_singleton.1 hr]
    exact eg_iff.2 (eg_iff.1 hf)
  · have := Except.ok.inj h
    rw [← this]
    exact ⟨hf, fun _ hr => (List.not_mem_nil hr).elim⟩

theorem good_gps {junk d : List Byte} {t : UTCTime} {e : Eph} {o : GpsOut} (hf : EphGood e)
    (h : decodeGPS junk t d e = .ok o) : EphGood o.eph ∧ ∀ r ∈ o.reports, EphGood r := by
  have hf0 : EphGood { e with gnssID := 0 } := eg_iff.2 (eg_iff.1 hf)
  unfold decodeGPS at h
  dsimp only at h
  rw [bind_ok] at h
  obtain ⟨sf, -, h⟩ := h
  rw [bind_ok] at h
  obtain ⟨b5, -, h⟩ := h
  split at h
  · have := Except.ok.inj h
    rw [← this]; exact ⟨hf0, fun _ hr => (List.not_mem_nil hr).elim⟩
  · split at h
    · rw [bind_ok] at h
      obtain ⟨e1, h1, h⟩ := h
      exact good_finish (good_sub1 hf0 h1) h
    · rw [bind_ok] at h
      obtain ⟨e1, h1, h⟩ := h
      exact good_finish (good_sub2 hf0 h1) h
    · rw [bind_ok] at h
      obtain ⟨e1, h1, h⟩ := h
      exact good_finish (good_sub3 hf0 h1) h
    · have := Except.ok.inj h
      rw [← this]; exact ⟨hf0, fun _ hr => (List.not_mem_nil hr).elim⟩

theorem good_inav {b : List Byte} {e e' : Eph} {g : Bool} (hf : EphGood e) (h : galInav b e = .ok (e', g)) : EphGood e' := by
  unfold galInav at h
  iterate 40
    rw [bind_ok] at h
    obtain ⟨_, _, h⟩ := h
  rename_i type0 h1 timeF h2 week h3 tow h4 type1 h5 iod0 h6 toes h7 m0 h8 ecc h9 sqrtA h10 type2 h11 iod1 h12 omega0 h13 i0
    h14 w h15 idot h16 type3 h17 iod2 h18 omegadot h19 deltaN h20 cuc h21 cus h22 crc h23 crs h24 type4 h25 iod3 h26 svid h27
    cic h28 cis h29 toc h30 af0 h31 af1 h32 af2 h33 type5 h34 tgd0 h35 tgd1 h36 e5bHs h37 e1bHs h38 e5bDvs h39 e1bDvs h40
  dsimp only at h
  obtain ⟨-, -, o3, o4, -, -, -, -, -, -, o11, -⟩ := eg_iff.1 hf
  have key : ∀ (t1 t2 : UTCTime) (c i w' t : Nat) (s : Dbl), Good ExactScales s → EphGood { e with
    toes := t
    m0 := ⟨m0, [.p2 31, .pi]⟩
    ecc := ⟨ecc, [.p2 33]⟩
    omega0 := ⟨omega0, [.p2 31, .pi]⟩
    i0 := ⟨i0, [.p2 31, .pi]⟩
    w := ⟨w, [.p2 31, .pi]⟩
    idot := ⟨idot, [.p2 43, .pi]⟩
    omegadot := ⟨omegadot, [.p2 43, .pi]⟩
    deltaN := ⟨deltaN, [.p2 43, .pi]⟩
    cuc := ⟨cuc, [.p2 29]⟩
    cus := ⟨cus, [.p2 29]⟩
    crc := ⟨crc, [.p2 5]⟩
    crs := ⟨crs, [.p2 5]⟩
    cic := ⟨cic, [.p2 29]⟩
    cis := ⟨cis, [.p2 29]⟩
    af0 := ⟨af0, [.p2 34]⟩
    af1 := ⟨af1, [.p2 46]⟩
    af2 := ⟨af2, [.p2 59]⟩
    tgd0 := ⟨tgd0, [.p2 32]⟩
    tgd1 := ⟨tgd1, [.p2 32]⟩
    sqrta := s
    iodc := c
    iode := i
    toe := t1
    toc := t2
    week := w' } := fun t1 t2 c i w' t s hs =>
    eg_iff.2 ⟨good_RtS h35, good_RtS h36, o3, o4, good_RtS h33, good_RtS h32, good_RtS h31, good_RtS h8, good_RtS h20,
      good_nat (getBitRt_lt h9), hs, good_RtS h13, good_RtS h14, good_RtS h15, good_RtS h19, good_RtS h16, good_RtS h21,
      good_RtS h22, good_RtS h23, good_RtS h24, good_RtS h28, good_RtS h29⟩
  split at h
  · have := (Prod.mk.inj (Except.ok.inj h)).1
    rw [← this]
    exact key _ _ _ _ _ _ _ o11
  split at h
  · have := (Prod.mk.inj (Except.ok.inj h)).1
    rw [← this]
    exact key _ _ _ _ _ _ _ o11
  split at h
  · have := (Prod.mk.inj (Except.ok.inj h)).1
    rw [← this]
    exact key _ _ _ _ _ _ _ o11
  · iterate 4
      rw [bind_ok] at h
      obtain ⟨_, -, h⟩ := h
    have := (Prod.mk.inj (Except.ok.inj h)).1
    rw [← this]
    exact key _ _ _ _ _ _ _ (good_nat (getBitRt_lt h10))

theorem good_galileo {md : Mode} {d row : List Byte} {e : Eph} {o : GalOut} (hf : EphGood e)
    (h : decodeGalileo md d row e = .ok o) : EphGood o.eph ∧ ∀ r ∈ o.reports, EphGood r := by
  have triv : ∀ {row : List Byte} {b : Bool}, (Except.ok ⟨row, e, [], b⟩ : M GalOut) = .ok o →
      EphGood o.eph ∧ ∀ r ∈ o.reports, EphGood r := by
    intro row b h
    have := Except.ok.inj h
    rw [← this]; exact ⟨hf, fun _ hr => (List.not_mem_nil hr).elim⟩
  unfold decodeGalileo at h
  iterate 5
    rw [bind_ok] at h
    obtain ⟨_, -, h⟩ := h
  split at h
  · exact triv h
  split at h
  · exact triv h
  iterate 4
    rw [bind_ok] at h
    obtain ⟨_, -, h⟩ := h
  split at h
  · exact triv h
  rw [bind_ok] at h
  obtain ⟨_, -, h⟩ := h
  split at h
  · exact triv h
  split at h
  · cases h
  unfold galAccept at h
  iterate 5
    rw [bind_ok] at h
    obtain ⟨_, -, h⟩ := h
  split at h
  · exact triv h
  rw [bind_ok] at h
  obtain ⟨⟨e1, g⟩, h1, h⟩ := h
  have hf1 := good_inav hf h1
  dsimp only at h
  split at h
  · have := Except.ok.inj h
    rw [← this]; exact ⟨hf1, fun _ hr => (List.not_mem_nil hr).elim⟩
  · rw [bind_ok] at h
    obtain ⟨_, -, h⟩ := h
    have := Except.ok.inj h
    rw [← this]
    exact ⟨hf1, fun r hr => by rw [List.mem_singleton.1 hr]; exact hf1⟩

theorem good_gfresh (s : Byte) : GEphGood { GEph.fresh with sat := s } :=
  gg_iff.2 ⟨good_zero, good_zero, good_zero, good_zero, good_zero, good_zero, good_zero, good_zero, good_zero, good_zero,
    good_zero, good_zero⟩

theorem good_frame {md : Mode} {t : UTCTime} {num : Nat} {b : List Byte} {g g' : GEph} (hf : GEphGood g)
    (h : gloFrame md t num b g = .ok g') : GEphGood g' := by
  obtain ⟨o1, o2, o3, o4, o5, o6, o7, o8, o9, o10, o11, o12⟩ := gg_iff.1 hf
  unfold gloFrame at h
  split at h
  · unfold gloFrame1 at h
    iterate 8
      rw [bind_ok] at h
      obtain ⟨_, _, h⟩ := h
    rename_i x1 h1 x2 h2 x3 h3 vel h4 acc h5 pos h6 tof h7 u h8
    have e := Except.ok.inj h
    rw [← e]
    exact gg_iff.2 ⟨good_Glo h6, o2, o3, good_Glo h4, o5, o6, good_Glo h5, o8, o9, o10, o11, o12⟩
  · unfold gloFrame2 at h
    iterate 7
      rw [bind_ok] at h
      obtain ⟨_, _, h⟩ := h
    rename_i x1 h1 x2 h2 vel h4 acc h5 pos h6 tof h7 u h8
    have e := Except.ok.inj h
    rw [← e]
    exact gg_iff.2 ⟨o1, good_Glo h6, o3, o4, good_Glo h4, o6, o7, good_Glo h5, o9, o10, o11, o12⟩
  · unfold gloFrame3 at h
    iterate 5
      rw [bind_ok] at h
      obtain ⟨_, _, h⟩ := h
    rename_i x1 h1 vel h4 acc h5 pos h6 u h8
    have e := Except.ok.inj h
    rw [← e]
    exact gg_iff.2 ⟨o1, o2, good_Glo h6, o4, o5, good_Glo h4, o7, o8, good_Glo h5, o10, good_Glo h1, o12⟩
  · unfold gloFrame4 at h
    iterate 5
      rw [bind_ok] at h
      obtain ⟨_, _, h⟩ := h
    rename_i x1 h1 x2 h2 x3 h3 x4 h4 u h8
    have e := Except.ok.inj h
    rw [← e]
    exact gg_iff.2 ⟨o1, o2, o3, o4, o5, o6, o7, o8, o9, good_Glo h1, o11, good_Glo h2⟩

theorem good_string {md : Mode} {t : UTCTime} {b : List Byte} {g g' : GEph} {r : Bool} (hf : GEphGood g)
    (h : gloString md t b g = .ok (g', r)) : GEphGood g' := by
  unfold gloString at h
  rw [bind_ok] at h
  obtain ⟨num, -, h⟩ := h
  split at h
  · rw [← (Prod.mk.inj (Except.ok.inj h)).1]; exact hf
  · rw [bind_ok] at h
    obtain ⟨g1, h1, h⟩ := h
    have hf1 := good_frame hf h1
    split at h
    · rw [← (Prod.mk.inj (Except.ok.inj h)).1]; exact hf1
    · rw [← (Prod.mk.inj (Except.ok.inj h)).1]
      exact gg_iff.2 (gg_iff.1 hf1)

theorem good_glonass {md : Mode} {t : UTCTime} {gn sv fr : Byte} {d : List Byte} {g : GEph} {o : GloOut}
    (hf : GEphGood g) (h : decodeGlonass md t gn sv fr d g = .ok o) :
    GEphGood o.geph ∧ ∀ r ∈ o.reports, GEphGood r := by
  unfold decodeGlonass at h
  split at h
  · have e := Except.ok.inj h
    rw [← e]; exact ⟨hf, fun _ hr => (List.not_mem_nil hr).elim⟩
  split at h
  · have e := Except.ok.inj h
    rw [← e]; exact ⟨hf, fun _ hr => (List.not_mem_nil hr).elim⟩
  · rw [bind_ok] at h
    obtain ⟨b, -, h⟩ := h
    rw [bind_ok] at h
    obtain ⟨good, -, h⟩ := h
    split at h
    · have e := Except.ok.inj h
      rw [← e]; exact ⟨hf, fun _ hr => (List.not_mem_nil hr).elim⟩
    · rw [bind_ok] at h
      obtain ⟨b12, -, h⟩ := h
      rw [bind_ok] at h
      obtain ⟨b13, -, h⟩ := h
      dsimp only at h
      rw [bind_ok] at h
      obtain ⟨⟨g3, done⟩, h1, h⟩ := h
      have hf2 : GEphGood g3 := by
        refine good_string ?_ h1
        split
        · exact gg_iff.2 (gg_iff.1 hf)
        · exact gg_iff.2 (gg_iff.1 hf)
      dsimp only at h
      split at h
      · have e := Except.ok.inj h
        rw [← e]; exact ⟨hf2, fun _ hr => (List.not_mem_nil hr).elim⟩
      · have e := Except.ok.inj h
        have hf3 : GEphGood { g3 with frq := (fr.toNat : Int) - 7, sat := sv, gnssID := gn } := gg_iff.2 (gg_iff.1 hf2)
        rw [← e]
        exact ⟨hf3, fun r hr => by rw [List.mem_singleton.1 hr]; exact hf3⟩

theorem good_kept (md : Mode) : Kept md EphGood GEphGood where
  fresh := good_fresh
  id _ _ _ h := eg_iff.2 (eg_iff.1 h)
  gps _ _ _ _ _ hf h := good_gps hf h
  gal _ _ _ _ hf h := good_galileo hf h
  gfresh := good_gfresh
  glo _ _ _ _ _ _ _ hf h := good_glonass hf h

/-! ### The numbers -/

theorem literal_ge {k : K} {q : ℚ} (h : k.literal = some q) : (2 : ℚ) ^ (-60 : ℤ) ≤ q := by
  cases k with
  | pi => rw [← Option.some.inj h]; norm_num
  | e3 => rw [← Option.some.inj h]; norm_num
  | p2 n =>
    unfold K.literal at h
    split at h <;> first
      | (cases h; done)
      | (rename_i heq
         first
          | (cases heq; rw [← Option.some.inj h]; norm_num)
          | cases heq)

theorem half_of_rel {x v : ℚ} (h : |v - x| ≤ |x| * 2 ^ (-53 : ℤ)) : |x| / 2 ≤ |v| := by
  have h1 := abs_sub_abs_le_abs_sub x v
  rw [abs_sub_comm] at h1
  have h2 : |x| * 2 ^ (-53 : ℤ) ≤ |x| / 2 := by
    rw [div_eq_mul_inv]
    exact mul_le_mul_of_nonneg_left (by norm_num) (abs_nonneg _)
  have h3 := h.trans h2
  clear h h2
  linarith

theorem close_rne {x : ℚ} (h : x = 0 ∨ (2 : ℚ) ^ (-1022 : ℤ) ≤ |x|) : Close unit ((rne x : ℚ) : ℝ) (x : ℝ) := by
  unfold Close unit
  rcases h with rfl | h
  · rw [rne_zero]; simp
  · have := rne_rel h
    have h' : ((|rne x - x| : ℚ) : ℝ) ≤ ((|x| * 2 ^ (-53 : ℤ) : ℚ) : ℝ) := by exact_mod_cast this
    push_cast at h'
    calc _ ≤ _ := h'
      _ = _ := by rw [mul_comm]; norm_num

/-- The value of a product step is one that `Computes` describes, and it does not get too small. -/
theorem step_computes {n : Int} {ks : List K} {k : K} {x q : ℚ} {j : ℤ} (hv : Computes ⟨n, ks⟩ (x : ℝ))
    (hx : x = 0 ∨ (2 : ℚ) ^ j ≤ |x|) (hj : -900 ≤ j) (hk : k.literal = some q) :
    Computes ⟨n, ks ++ [k]⟩ ((rne (x * rne q) : ℚ) : ℝ) ∧
      (rne (x * rne q) = 0 ∨ (2 : ℚ) ^ (j - 62) ≤ |rne (x * rne q)|) := by
  have hq := literal_ge hk
  have hq0 : 0 < q := lt_of_lt_of_le (two_zpow_pos _) hq
  have hqn : (2 : ℚ) ^ (-1022 : ℤ) ≤ |q| := by
    rw [abs_of_pos hq0]
    exact le_trans (zpow_le_zpow_right₀ (by norm_num) (by norm_num)) hq
  have hc : (2 : ℚ) ^ (-61 : ℤ) ≤ |rne q| := by
    have := half_of_rel (rne_rel hqn)
    rw [abs_of_pos hq0] at this
    have e : (2 : ℚ) ^ (-61 : ℤ) = 2 ^ (-60 : ℤ) / 2 := by norm_num
    rw [e]
    exact le_trans (div_le_div_of_nonneg_right hq (by norm_num)) this
  have hp : x * rne q = 0 ∨ (2 : ℚ) ^ (j - 61) ≤ |x * rne q| := by
    rcases hx with rfl | hx
    · left; rw [zero_mul]
    · right
      rw [abs_mul, show j - 61 = j + -61 by omega, zpow_add₀ (by norm_num)]
      exact mul_le_mul hx hc (le_of_lt (two_zpow_pos _)) (abs_nonneg _)
  have hp' : x * rne q = 0 ∨ (2 : ℚ) ^ (-1022 : ℤ) ≤ |x * rne q| :=
    hp.imp_right fun h => le_trans (zpow_le_zpow_right₀ (by norm_num) (by omega)) h
  refine ⟨.mul hv hk (close_rne (.inr hqn)) ?_, ?_⟩
  · have := close_rne hp'
    push_cast at this
    exact this
  · rcases hp with h | h
    · left; rw [h, rne_zero]
    · right
      have h2 := half_of_rel (rne_rel (hp'.resolve_left fun e => by
        rw [e, abs_zero] at h; exact absurd (two_zpow_pos (j - 61)) (by linarith)))
      have e : (2 : ℚ) ^ (j - 62) = 2 ^ (j - 61) / 2 := by
        rw [show j - 61 = (j - 62) + 1 by omega, zpow_add₀ (by norm_num)]; norm_num
      rw [e]; linarith

theorem rne_raw {n : Int} (h : |n| < 2 ^ 32) : rne (n : ℚ) = n :=
  rne_dbl (isDbl_int (lt_trans h (by norm_num)))

theorem raw_ge (n : Int) : (n : ℚ) = 0 ∨ (2 : ℚ) ^ (0 : ℤ) ≤ |(n : ℚ)| := by
  by_cases h : n = 0
  · left; rw [h]; rfl
  · right
    have : 1 ≤ |n| := Int.one_le_abs h
    rw [zpow_zero]
    exact_mod_cast this

/-- The scales all consist of constants the code defines. -/
theorem scales_defined {ks : List K} (h : ks ∈ Scales) :
    ks = [] ∨ (∃ k q, ks = [k] ∧ k.literal = some q) ∨
      ∃ k1 k2 q1 q2, ks = [k1, k2] ∧ k1.literal = some q1 ∧ k2.literal = some q2 := by
  simp only [Scales, List.mem_cons, List.not_mem_nil, or_false] at h
  rcases h with rfl | rfl | rfl | rfl | rfl | rfl | rfl | rfl | rfl | rfl | rfl | rfl | rfl | rfl | rfl | rfl | rfl | rfl | rfl
  · exact .inl rfl
  iterate 13 exact .inr (.inl ⟨_, _, rfl, rfl⟩)
  all_goals exact .inr (.inr ⟨_, _, _, _, rfl, rfl, rfl⟩)

theorem ieee_computes {d : Dbl} (h : Good Scales d) : ∃ v, d.ieee = some v ∧ IsDbl v ∧ Computes d (v : ℝ) := by
  unfold Good at h
  obtain ⟨n, ks⟩ := d
  obtain ⟨hr, hs⟩ := h
  have hr : |n| < 2 ^ 32 := hr
  have h0 : Computes ⟨n, []⟩ (((n : ℚ) : ℚ) : ℝ) := by
    have := Computes.raw n
    push_cast
    exact this
  rcases scales_defined hs with e | ⟨k, q, e, hk⟩ | ⟨k1, k2, q1, q2, e, hk1, hk2⟩
  · have e : ks = [] := e
    subst e
    exact ⟨n, by show some (rne (n : ℚ)) = _; rw [rne_raw hr], isDbl_int (lt_trans hr (by norm_num)), h0⟩
  · have e : ks = [k] := e
    subst e
    refine ⟨rne (n * rne q), ?_, isDbl_rne _, (step_computes h0 (raw_ge n) (by norm_num) hk).1⟩
    show mulConst (some (rne (n : ℚ))) k = _
    unfold mulConst
    rw [hk, rne_raw hr]
  · have e : ks = [k1, k2] := e
    subst e
    obtain ⟨c1, g1⟩ := step_computes h0 (raw_ge n) (by norm_num) hk1
    refine ⟨rne (rne (n * rne q1) * rne q2), ?_, isDbl_rne _, (step_computes c1 g1 (by norm_num) hk2).1⟩
    show mulConst (mulConst (some (rne (n : ℚ))) k1) k2 = _
    unfold mulConst
    rw [hk1, rne_raw hr]
    dsimp only
    rw [hk2]

/-- The scale factor the interface document gives. -/
noncomputable def Dbl.unitValue (d : Dbl) : ℝ := (d.scale.map K.exact).prod

theorem unitValue_pos (d : Dbl) : 0 < d.unitValue := by
  unfold Dbl.unitValue
  refine List.prod_pos fun x hx => ?_
  obtain ⟨k, -, rfl⟩ := List.mem_map.1 hx
  exact exact_pos k

/-- What C95 says of one number: it is a finite double, equal to the interface document's value to a relative 10^-14, and
close enough to give back the transmitted integer. -/
def Faithful (d : Dbl) : Prop :=
  ∃ v, d.ieee = some v ∧ IsDbl v ∧ |(v : ℝ) - d.raw * d.unitValue| ≤ 1e-14 * |d.raw * d.unitValue| ∧
    round ((v : ℝ) / d.unitValue) = d.raw

theorem good_faithful {d : Dbl} (h : Good Scales d) : Faithful d := by
  obtain ⟨v, e, hv, hc⟩ := ieee_computes h
  unfold Good at h
  have hl : d.scale.length ≤ 4 := by
    rcases scales_defined h.2 with e | ⟨k, q, e, hk⟩ | ⟨k1, k2, q1, q2, e, hk1, hk2⟩ <;> rw [e] <;> simp
  have hcl : |(v : ℝ) - d.raw * d.unitValue| ≤ 1e-14 * |d.raw * d.unitValue| := c69_fields d v hc hl
  refine ⟨v, e, hv, hcl, ?_⟩
  have hu := unitValue_pos d
  have hr : |(d.raw : ℝ)| < 2 ^ 32 := by exact_mod_cast h.1
  have h2 : |(v : ℝ) / d.unitValue - d.raw| < 1 / 2 := by
    have : (v : ℝ) / d.unitValue - d.raw = (v - d.raw * d.unitValue) / d.unitValue := by
      field_simp
    rw [this, abs_div, abs_of_pos hu, div_lt_iff₀ hu]
    rw [abs_mul, abs_of_pos hu, ← mul_assoc] at hcl
    refine lt_of_le_of_lt hcl (mul_lt_mul_of_pos_right ?_ hu)
    nlinarith [abs_nonneg (d.raw : ℝ)]
  rw [round_eq, Int.floor_eq_iff]
  rw [abs_lt] at h2
  constructor <;> linarith [h2.1, h2.2]

theorem good_weaken {d : Dbl} (h : Good ExactScales d) : Good Scales d := by
  unfold Good at *
  refine ⟨h.1, ?_⟩
  have h2 := h.2
  simp only [ExactScales, List.mem_cons, List.not_mem_nil, or_false] at h2
  rcases h2 with e | e | e | e | e | e | e | e | e <;> rw [e] <;> decide

theorem eph_all {e : Eph} (h : EphGood e) : ∀ d ∈ e.doubles, Good Scales d := by
  obtain ⟨o1, o2, o3, o4, o5, o6, o7, o8, o9, o10, o11, o12, o13, o14, o15, o16, o17, o18, o19, o20, o21, o22⟩ := h
  unfold Eph.doubles
  simp only [List.forall_mem_cons]
  exact ⟨o1, o2, o3, o4, o5, o6, o7, o8, o9, o10, good_weaken o11, o12, o13, o14, o15, o16, good_weaken o17, good_weaken o18,
    good_weaken o19, good_weaken o20, good_weaken o21, good_weaken o22, fun _ h => (List.not_mem_nil h).elim⟩

theorem eph_plain {e : Eph} (h : EphGood e) : ∀ d ∈ e.plain, Good ExactScales d := by
  obtain ⟨o1, o2, o3, o4, o5, o6, o7, o8, o9, o10, o11, o12, o13, o14, o15, o16, o17, o18, o19, o20, o21, o22⟩ := h
  unfold Eph.plain
  simp only [List.forall_mem_cons]
  exact ⟨o11, o17, o18, o19, o20, o21, o22, fun _ h => (List.not_mem_nil h).elim⟩

theorem geph_all {g : GEph} (h : GEphGood g) : ∀ d ∈ g.doubles, Good Scales d := by
  obtain ⟨o1, o2, o3, o4, o5, o6, o7, o8, o9, o10, o11, o12⟩ := h
  unfold GEph.doubles
  simp only [List.forall_mem_cons]
  exact ⟨good_weaken o1, good_weaken o2, good_weaken o3, good_weaken o4, good_weaken o5, good_weaken o6, good_weaken o7,
    good_weaken o8, good_weaken o9, good_weaken o10, o11, good_weaken o12, fun _ h => (List.not_mem_nil h).elim⟩

theorem geph_plain {g : GEph} (h : GEphGood g) : ∀ d ∈ g.plain, Good ExactScales d := by
  obtain ⟨o1, o2, o3, o4, o5, o6, o7, o8, o9, o10, o11, o12⟩ := h
  unfold GEph.plain
  simp only [List.forall_mem_cons]
  exact ⟨o1, o2, o3, o4, o5, o6, o7, o8, o9, o10, o12, fun _ h => (List.not_mem_nil h).elim⟩

/-- **C95.** Whatever subframe messages were received before: every floating-point member of every ephemeris handed to a
callback is, in IEEE double arithmetic, a finite number within a relative 10^-14 of the interface document's value, and gives
back the transmitted integer when divided by the scale factor and rounded. -/
theorem c95_faithful (md : Mode) (ops : List NavOp) (n : Nav) (cs : List (List NavCall))
    (hrun : Nav.init.run md ops = .ok (n, cs)) :
    ∀ c ∈ cs, (∀ i e, .eph i e ∈ c → ∀ d ∈ e.doubles, Faithful d) ∧ ∀ i g, .geph i g ∈ c → ∀ d ∈ g.doubles, Faithful d := by
  intro c hc
  obtain ⟨h1, h2⟩ := (kept_run (good_kept md) ops kept_init hrun).2 c hc
  exact ⟨fun i e he d hd => good_faithful (eph_all (h1 i e he) d hd), fun i g hg d hd => good_faithful (geph_all (h2 i g hg) d hd)⟩

/-- What the interface document says, for the scales without π. -/
def Dbl.rational (d : Dbl) : ℚ :=
  d.raw * (d.scale.map fun | .p2 n => (2 : ℚ)⁻¹ ^ n | .e3 => 1000 | .pi => 0).prod

theorem rne_p2 {n : Nat} {q : ℚ} (h : (K.p2 n).literal = some q) (hn : n ∈ [5, 11, 19, 20, 29, 30, 31]) :
    rne q = 2 ^ (-n : ℤ) := by
  simp only [List.mem_cons, List.not_mem_nil, or_false] at hn
  rcases hn with rfl | rfl | rfl | rfl | rfl | rfl | rfl <;>
    (rw [← Option.some.inj h]; decide +kernel)

theorem exact_one {m : Int} (hm : |m| < 2 ^ 32) {n : Nat} {q : ℚ} (h : (K.p2 n).literal = some q)
    (hn : n ∈ [5, 11, 19, 20, 29, 30, 31]) : rne (m * rne q) = m * 2 ^ (-n : ℤ) := by
  rw [rne_p2 h hn]
  refine rne_dbl (isDbl_of (lt_trans hm (by norm_num)) ?_)
  simp only [List.mem_cons, List.not_mem_nil, or_false] at hn
  omega

theorem exact_two {m : Int} (hm : |m| < 2 ^ 32) {n : Nat} (hn : n ∈ [5, 11, 19, 20, 29, 30, 31]) :
    rne ((m : ℚ) * 2 ^ (-n : ℤ) * rne 1000) = m * 2 ^ (-n : ℤ) * 1000 := by
  have h1000 : rne 1000 = 1000 := by decide +kernel
  rw [h1000]
  have e : (m : ℚ) * 2 ^ (-n : ℤ) * 1000 = ((m * 1000 : ℤ) : ℚ) * 2 ^ (-n : ℤ) := by push_cast; ring
  rw [e]
  refine rne_dbl (isDbl_of ?_ ?_)
  · rw [abs_mul]
    rw [show |(1000 : ℤ)| = 1000 by decide]
    omega
  · simp only [List.mem_cons, List.not_mem_nil, or_false] at hn
    omega

theorem good_exact {d : Dbl} (h : Good ExactScales d) : d.ieee = some d.rational := by
  unfold Good at h
  obtain ⟨m, ks⟩ := d
  obtain ⟨hm, hs⟩ := h
  have hm : |m| < 2 ^ 32 := hm
  have hs : ks ∈ ExactScales := hs
  have z : ∀ n : Nat, (2 : ℚ)⁻¹ ^ n = 2 ^ (-n : ℤ) := fun n => by rw [zpow_neg, zpow_natCast, inv_pow]
  simp only [ExactScales, List.mem_cons, List.not_mem_nil, or_false] at hs
  have one : ∀ (n : Nat) (q : ℚ), (K.p2 n).literal = some q → n ∈ [5, 11, 19, 20, 29, 30, 31] →
      Dbl.ieee ⟨m, [.p2 n]⟩ = some (Dbl.rational ⟨m, [.p2 n]⟩) := by
    intro n q hq hn
    show mulConst (some (rne (m : ℚ))) (.p2 n) = _
    unfold mulConst Dbl.rational
    rw [hq, rne_raw hm]
    simp only [List.map_cons, List.map_nil, List.prod_singleton, z]
    rw [exact_one hm hq hn]
  have two : ∀ (n : Nat) (q : ℚ), (K.p2 n).literal = some q → n ∈ [5, 11, 19, 20, 29, 30, 31] →
      Dbl.ieee ⟨m, [.p2 n, .e3]⟩ = some (Dbl.rational ⟨m, [.p2 n, .e3]⟩) := by
    intro n q hq hn
    show mulConst (mulConst (some (rne (m : ℚ))) (.p2 n)) .e3 = _
    unfold mulConst Dbl.rational
    rw [hq, rne_raw hm]
    simp only [List.map_cons, List.map_nil, List.prod_cons, List.prod_nil, mul_one, z, K.literal]
    rw [exact_one hm hq hn, exact_two hm hn, mul_assoc]
  rcases hs with rfl | rfl | rfl | rfl | rfl | rfl | rfl | rfl | rfl
  · show some (rne (m : ℚ)) = _
    rw [rne_raw hm]
    simp [Dbl.rational]
  iterate 5 exact one _ _ rfl (by decide)
  all_goals exact two _ _ rfl (by decide)

/-- **C95, exact members.** ... and the harmonic coefficients and the root of the semi-major axis, and for GLONASS
everything but the frequency bias, are the interface document's value without any error. -/
theorem c95_exact (md : Mode) (ops : List NavOp) (n : Nav) (cs : List (List NavCall))
    (hrun : Nav.init.run md ops = .ok (n, cs)) :
    ∀ c ∈ cs, (∀ i e, .eph i e ∈ c → ∀ d ∈ e.plain, d.ieee = some d.rational) ∧
      ∀ i g, .geph i g ∈ c → ∀ d ∈ g.plain, d.ieee = some d.rational := by
  intro c hc
  obtain ⟨h1, h2⟩ := (kept_run (good_kept md) ops kept_init hrun).2 c hc
  exact ⟨fun i e he d hd => good_exact (eph_plain (h1 i e he) d hd), fun i g hg d hd => good_exact (geph_plain (h2 i g hg) d hd)⟩

/-- The constants `P2_n` with n above 31 are written with too few digits to be the power of two exactly; the others, and the
MSM constants up to 31, are. -/
theorem c95_constants (n : Nat) (q : ℚ) (h : (K.p2 n).literal = some q) : rne q = 2 ^ (-n : ℤ) ↔ n ≤ 31 := by
  unfold K.literal at h
  split at h <;> first
    | (cases h; done)
    | (rename_i heq
       first
        | (cases heq; rw [← Option.some.inj h]; decide +kernel)
        | cases heq)

open Data in
/-- The hypotheses are met: three GPS subframes of satellite 7 lead to one reported ephemeris; the eccentricity of the
transmitted integer 1 would not be exactly 2^-33 (an example of the inexact members). -/
example : (callsAfter .strict [.addEphCb, gps 7 gps1, gps 7 gps2, gps 7 gps3]).map (·.map List.length) = .ok [0, 0, 0, 1] ∧
    Dbl.ieee ⟨1, [.p2 33]⟩ ≠ some (2 ^ (-33 : ℤ)) ∧ Dbl.ieee ⟨-12345, [.p2 29]⟩ = some (-12345 / 536870912) ∧
    (Dbl.ieee ⟨1600000000, [.p2 31, .pi]⟩).isSome := by
  refine ⟨by decide +kernel, by decide +kernel, by decide +kernel, by decide +kernel⟩

/-- π as written in `nav.h` and `M_PI` of the C library are the same double. -/
example : rne 3.1415926535897932 = rne 3.14159265358979323846 := by decide +kernel

end Ublox.Nav
