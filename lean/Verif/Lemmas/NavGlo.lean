import Verif.Lemmas.NavGloTest
import Verif.Lemmas.NavEntry
import Verif.Props.Time

/-! Helper lemmas: GLONASS string decoding equals the ICD's reading. -/

namespace Ublox.Nav

/-- Bit `p` of the byte-swapped words. -/
def rawBit (d : List Byte) (p : Nat) : Bool :=
  (d.getD (4 * (p / 32) + 3 - p % 32 / 8) 0).getLsbD (7 - p % 8)

theorem swapWords_ok (d : List Byte) (n : Nat) : ∀ i, 4 * (i + n) ≤ d.length →
    ∃ buf, swapWords d n i = .ok buf ∧ buf.length = 4 * n ∧
      ∀ k, k < 4 * n → buf[k]? = some (d.getD (4 * (i + k / 4) + 3 - k % 4) 0) := by
  induction n with
  | zero => intro i _; exact ⟨[], rfl, rfl, fun k hk => by omega⟩
  | succ n ih =>
    intro i hi
    obtain ⟨rest, h1, h2, h3⟩ := ih (i + 1) (by omega)
    have g : ∀ j (hj : j < d.length), d.getD j 0 = d[j] := fun j hj => by
      simp [List.getD, List.getElem?_eq_getElem hj]
    refine ⟨d[4 * i + 3] :: d[4 * i + 2] :: d[4 * i + 1] :: d[4 * i] :: rest, ?_, ?_, ?_⟩
    · simp only [swapWords, rd_ok (show 4 * i + 3 < d.length by omega), rd_ok (show 4 * i + 2 < d.length by omega),
        rd_ok (show 4 * i + 1 < d.length by omega), rd_ok (show 4 * i < d.length by omega), ok_bind, h1]
    · simp [h2]; omega
    · intro k hk
      rcases k with _ | _ | _ | _ | k
      · rw [g _ (by omega)]; simp
      · rw [g _ (by omega)]; simp
      · rw [g _ (by omega)]; simp
      · rw [g _ (by omega)]; simp
      · simp only [List.getElem?_cons_succ]
        rw [h3 k (by omega)]
        congr 2; omega

/-- A buffer holding the words of `d`. -/
def HoldsW (n : Nat) (buf d : List Byte) : Prop := buf.length = 4 * n ∧ ∀ p, p < 32 * n → bitAt buf p = rawBit d p

theorem swap_holds (d : List Byte) (n : Nat) (h : 4 * n ≤ d.length) :
    ∃ buf, swapWords d n 0 = .ok buf ∧ HoldsW n buf d ∧
      ∀ k, k < 4 * n → buf[k]? = some (d.getD (4 * (k / 4) + 3 - k % 4) 0) := by
  obtain ⟨buf, h1, h2, h3⟩ := swapWords_ok d n 0 (by omega)
  simp only [Nat.zero_add] at h3
  refine ⟨buf, h1, ⟨h2, fun p hp => ?_⟩, h3⟩
  unfold bitAt
  rw [h3 (p / 8) (by omega)]
  unfold rawBit
  dsimp only
  congr 2; omega

theorem gloBit_raw (d : List Byte) (b : Nat) : gloBit d b = rawBit d (85 - b) := rfl

theorem HoldsW.str {buf d : List Byte} (h : HoldsW 4 buf d) : strBit buf = gloBit d := by
  funext b
  unfold strBit
  rw [h.2 _ (by omega), gloBit_raw]

theorem HoldsW.f {buf d : List Byte} (h : HoldsW 4 buf d) (n p hi lo : Nat) (hp : p = 85 - hi) (hn : n = hi + 1 - lo)
    (h1 : 1 ≤ lo) (h3 : hi ≤ 85) : fieldVal buf p n = gloU d hi lo := by
  unfold fieldVal gloU
  rw [← hn]
  apply bitsVal_congr
  intro k hk
  rw [h.2 _ (by omega), Nat.zero_add, gloBit_raw, show 85 - (hi - k) = p + k by omega]

theorem HoldsW.getU {buf d : List Byte} (h : HoldsW 4 buf d) (n p hi lo : Nat) (hp : p = 85 - hi := by decide)
    (hn : n = hi + 1 - lo := by decide) (h1 : 1 ≤ lo := by decide) (h2 : lo ≤ hi := by decide)
    (h3 : hi ≤ 85 := by decide) (h4 : n ≤ 56 := by decide) : getBit n buf p = .ok (gloU d hi lo) := by
  rw [getBit_ok (by omega) h4 (by rw [h.1]; omega), h.f n p hi lo hp hn h1 h3]

theorem HoldsW.getS {buf d : List Byte} (h : HoldsW 4 buf d) (n p hi lo : Nat) (hp : p = 85 - hi := by decide)
    (hn : n = hi + 1 - lo := by decide) (h1 : 1 ≤ lo := by decide) (h2 : lo < hi := by decide)
    (h3 : hi ≤ 85 := by decide) (h4 : n ≤ 56 := by decide) : getBitGlo n buf p = .ok (gloS d hi lo) := by
  rw [c39_getBitGlo n p buf (by omega) (by omega) (by unfold FieldIn; rw [h.1]; omega),
    h.f (n - 1) (p + 1) (hi - 1) lo (by omega) (by omega) h1 (by omega), h.2 p (by omega), gloS, gloBit_raw, hp]

theorem gloU_lt (d : List Byte) (hi lo : Nat) : gloU d hi lo < 2 ^ (hi + 1 - lo) := bitsVal_lt _ _ _

attribute [local irreducible] gloU gloS

def gupd1 (tof : UTCTime) (d : List Byte) (g : GEph) : GEph :=
  { g with vel0 := ⟨gloS d 64 41, [.p2 20, .e3]⟩, acc0 := ⟨gloS d 40 36, [.p2 30, .e3]⟩,
           pos0 := ⟨gloS d 35 9, [.p2 11, .e3]⟩, tof := tof, got1 := true }

def gupd2 (toe : UTCTime) (d : List Byte) (g : GEph) : GEph :=
  { g with svh := gloU d 80 78, iode := gloU d 76 70, vel1 := ⟨gloS d 64 41, [.p2 20, .e3]⟩,
           acc1 := ⟨gloS d 40 36, [.p2 30, .e3]⟩, pos1 := ⟨gloS d 35 9, [.p2 11, .e3]⟩, toe := toe, got2 := true }

def gupd3 (d : List Byte) (g : GEph) : GEph :=
  { g with gamn := ⟨gloS d 79 69, [.p2 40]⟩, vel2 := ⟨gloS d 64 41, [.p2 20, .e3]⟩,
           acc2 := ⟨gloS d 40 36, [.p2 30, .e3]⟩, pos2 := ⟨gloS d 35 9, [.p2 11, .e3]⟩, got3 := true }

def gupd4 (d : List Byte) (g : GEph) : GEph :=
  { g with taun := ⟨gloS d 80 59, [.p2 30]⟩, dtaun := ⟨gloS d 58 54, [.p2 30]⟩, age := gloU d 53 49,
           sva := gloU d 33 30, got4 := true }

/-- Frame 1 with its time. -/
theorem gloFrame1_eq {md : Mode} {T : UTCTime} {buf d : List Byte} (h : HoldsW 4 buf d) (g : GEph) :
    gloFrame1 md T buf g = (do
      let tof ← UTCTime.fromGlonassTimeOfDay T ((frameTod d * 1000 : Nat) : Int)
      offEnd md
      .ok (gupd1 tof d g)) := by
  simp only [gloFrame1, h.getU 5 9 76 72, h.getU 6 14 71 66, h.getU 1 20 65 65, h.getS 24 21 64 41, h.getS 5 45 40 36,
    h.getS 27 50 35 9, ok_bind, frameTod, gupd1]

theorem gloFrame2_eq {md : Mode} {T : UTCTime} {buf d : List Byte} (h : HoldsW 4 buf d) (g : GEph) :
    gloFrame2 md T buf g = (do
      let toe ← UTCTime.fromGlonassTimeOfDay T ((ephTod d * 1000 : Nat) : Int)
      offEnd md
      .ok (gupd2 toe d g)) := by
  simp only [gloFrame2, h.getU 3 5 80 78, h.getU 7 9 76 70, h.getS 24 21 64 41, h.getS 5 45 40 36,
    h.getS 27 50 35 9, ok_bind, ephTod, gupd2]
  rw [show gloU d 76 70 * 60 * 15 * 1000 = gloU d 76 70 * 900 * 1000 by omega]

theorem gloFrame3_eq {md : Mode} {buf d : List Byte} (h : HoldsW 4 buf d) (g : GEph) :
    gloFrame3 md buf g = (do
      offEnd md
      .ok (gupd3 d g)) := by
  simp only [gloFrame3, h.getS 11 6 79 69, h.getS 24 21 64 41, h.getS 5 45 40 36,
    h.getS 27 50 35 9, ok_bind, gupd3]

theorem gloFrame4_eq {md : Mode} {buf d : List Byte} (h : HoldsW 4 buf d) (g : GEph) :
    gloFrame4 md buf g = (do
      offEnd md
      .ok (gupd4 d g)) := by
  simp only [gloFrame4, h.getS 22 5 80 59, h.getS 5 27 58 54, h.getU 5 32 53 49, h.getU 4 52 33 30, ok_bind, gupd4]

/-! ## Times -/

/-- Near enough to be corrected by one day. -/
def Near (T t : UTCTime) (tod : Nat) : Prop :=
  t.nsec = 0 ∧ UTCTime.moscowTod t.sec = (tod : Int) % 86400 ∧ -129600 < t.sec - T.sec ∧ t.sec - T.sec ≤ 129600

/-- In the Moscow day of `T`, or the time of day is past its end. -/
def SameDay (T t : UTCTime) (tod : Nat) : Prop :=
  t.nsec = 0 ∧ UTCTime.moscowTod t.sec = (tod : Int) % 86400 ∧ -86400 < t.sec - T.sec ∧ t.sec - T.sec ≤ tod

theorem SameDay.near {T T' t : UTCTime} {tod : Nat} {D : Int} (h : SameDay T t tod) (hD : D ≤ 43199) (ht : tod + D ≤ 129600)
    (h1 : T.sec - T'.sec ≤ D) (h2 : T'.sec - T.sec ≤ D) : Near T' t tod := by
  obtain ⟨a, b, c, d⟩ := h
  exact ⟨a, b, by omega, by omega⟩

theorem tod_near {T : UTCTime} (h0 : 0 ≤ T.sec) {tod : Nat} (ht : tod < 120000) :
    (T.sec ≤ 2147000000 → UTCTime.int32 (T.glonassWeek * UTCTime.SEC_IN_WEEK) = .ok (T.glonassWeek * UTCTime.SEC_IN_WEEK)) ∧
    ∃ t, UTCTime.fromGlonassTimeOfDay T ((tod * 1000 : Nat) : Int) =
      (do let _ ← UTCTime.int32 (T.glonassWeek * UTCTime.SEC_IN_WEEK); .ok t) ∧ SameDay T t tod := by
  have hw : T.glonassWeek = (T.sec + 10800) / 604800 := by
    simp only [UTCTime.glonassWeek, UTCTime.SEC_IN_WEEK, UTCTime.GLO_UTC_OFFSET]
    rw [Int.tdiv_eq_ediv_of_nonneg (by omega)]; omega
  have hd : T.glonassDayOfWeek = (T.sec + 10800) % 604800 / 86400 := by
    simp only [UTCTime.glonassDayOfWeek, UTCTime.SEC_IN_WEEK, UTCTime.GLO_UTC_OFFSET, UTCTime.SEC_IN_DAY]
    rw [Int.tmod_eq_emod_of_nonneg (by omega), Int.tdiv_eq_ediv_of_nonneg (by omega)]; omega
  have hb : (T.glonassDayOfWeek * UTCTime.SEC_IN_DAY * 1000 + ((tod * 1000 : Nat) : Int)).bmod (2 ^ 32)
      = (T.glonassDayOfWeek * 86400 + tod) * 1000 := by
    rw [hd, Int.bmod_eq_of_le]
    all_goals simp only [UTCTime.SEC_IN_DAY]
    all_goals omega
  generalize hq : T.glonassDayOfWeek * 86400 + (tod : Int) = q at hb
  have q0 : 0 ≤ q := by rw [← hq, hd]; omega
  have e1 : (q * 1000).tdiv 1000 = q := by rw [Int.tdiv_eq_ediv_of_nonneg (by omega)]; omega
  have e2 : (q * 1000).tmod 1000 = 0 := by rw [Int.tmod_eq_emod_of_nonneg (by omega)]; omega
  have b1 : T.sec ≤ 2147000000 →
      UTCTime.int32 (T.glonassWeek * UTCTime.SEC_IN_WEEK) = .ok (T.glonassWeek * UTCTime.SEC_IN_WEEK) := by
    intro h1
    unfold UTCTime.int32 UTCTime.SEC_IN_WEEK; rw [if_pos (by rw [hw]; omega)]
  have e3 : UTCTime.wrapNsec ⟨T.glonassWeek * UTCTime.SEC_IN_WEEK + q + UTCTime.GLO_UTC_OFFSET, 0 * UTCTime.E9⟩ =
      ⟨T.glonassWeek * 604800 + q - 10800, 0⟩ := by
    unfold UTCTime.wrapNsec UTCTime.E9 UTCTime.SEC_IN_WEEK UTCTime.GLO_UTC_OFFSET
    simp only [Int.zero_mul]
    rw [if_neg (by omega), if_neg (by omega)]
    rw [UTCTime.mk.injEq]; exact ⟨by omega, rfl⟩
  refine ⟨b1, ⟨T.glonassWeek * 604800 + q - 10800, 0⟩, ?_, rfl, ?_, ?_, ?_⟩
  · unfold UTCTime.fromGlonassTimeOfDay UTCTime.fromGlonass
    rw [hb, e1, e2]
    cases hi : UTCTime.int32 (T.glonassWeek * UTCTime.SEC_IN_WEEK) with
    | error u => rfl
    | ok w =>
      have : w = T.glonassWeek * UTCTime.SEC_IN_WEEK := by
        unfold UTCTime.int32 at hi
        split at hi
        · injection hi with hi; exact hi.symm
        · cases hi
      rw [ok_bind, ok_bind, this, e3]
  · unfold UTCTime.moscowTod
    dsimp only
    rw [← hq, hw, hd]
    generalize T.sec = r at *
    omega
  · dsimp only
    rw [← hq, hw, hd]
    generalize T.sec = r at *
    omega
  · dsimp only
    rw [← hq, hw, hd]
    generalize T.sec = r at *
    omega

theorem tod_ok {T : UTCTime} (hT : 0 ≤ T.sec ∧ T.sec ≤ 2147000000) {tod : Nat} (ht : tod < 120000) :
    ∃ t, UTCTime.fromGlonassTimeOfDay T ((tod * 1000 : Nat) : Int) = .ok t := by
  obtain ⟨h1, t, h2, -⟩ := tod_near hT.1 ht
  rw [h2, h1 hT.2]; exact ⟨_, rfl⟩

theorem tod_res {T t : UTCTime} (hT : 0 ≤ T.sec) {tod : Nat} (ht : tod < 120000)
    (h : UTCTime.fromGlonassTimeOfDay T ((tod * 1000 : Nat) : Int) = .ok t) : SameDay T t tod := by
  obtain ⟨-, t', h2, near⟩ := tod_near hT ht
  rw [h2, bind_ok] at h
  obtain ⟨_, -, h⟩ := h
  injection h with h; rw [← h]; exact near

theorem sub_ns {a b : UTCTime} (ha : a.Norm) (hb : b.nsec = 0) :
    (a.sub b).sec * UTCTime.E9 + (a.sub b).nsec = a.ns - b.ns := by
  unfold UTCTime.Norm at ha
  unfold UTCTime.sub UTCTime.wrapNsec UTCTime.ns UTCTime.E9
  dsimp only
  rw [if_neg (by omega), if_neg (by omega), hb]
  dsimp only
  omega

/-- The correction by a day gives the closest instant. -/
theorem dayWrap_closest {T t : UTCTime} {tod : Nat} (hT : T.Norm) (h : Near T t tod) :
    ClosestTod T (dayWrap T t) tod := by
  obtain ⟨h0, h1, h2, h3⟩ := h
  have hs := sub_ns (b := t) hT h0
  have hTn : T.ns = T.sec * 1000000000 + T.nsec := rfl
  have htn : t.ns = t.sec * 1000000000 + t.nsec := rfl
  obtain ⟨hn1, hn2⟩ := hT
  unfold dayWrap
  have key : ∀ x : Int, ((T.sub t).sec * UTCTime.E9 + (T.sub t).nsec) > x * UTCTime.E9 ↔ T.ns - t.ns > x * 1000000000 := by
    intro x; rw [hs]; exact Iff.rfl
  have key2 : ∀ x : Int, ((T.sub t).sec * UTCTime.E9 + (T.sub t).nsec) < x * UTCTime.E9 ↔ T.ns - t.ns < x * 1000000000 := by
    intro x; rw [hs]; exact Iff.rfl
  by_cases c1 : T.ns - t.ns > 43200 * 1000000000
  · rw [if_pos (by unfold secGt; rw [decide_eq_true_eq]; exact (key 43200).mpr c1)]
    refine ⟨h0, ?_, ?_, ?_⟩
    · show UTCTime.moscowTod (t.sec + 86400) = _
      rw [← h1]; unfold UTCTime.moscowTod; omega
    · show (t.sec + 86400) * 1000000000 + t.nsec - T.ns ≤ _
      omega
    · show T.ns - ((t.sec + 86400) * 1000000000 + t.nsec) ≤ _
      omega
  · rw [if_neg (by unfold secGt; rw [decide_eq_true_eq]; exact fun h => c1 ((key 43200).mp h))]
    by_cases c2 : T.ns - t.ns < -43200 * 1000000000
    · rw [if_pos (by unfold secLt; rw [decide_eq_true_eq]; exact (key2 (-43200)).mpr c2)]
      refine ⟨h0, ?_, ?_, ?_⟩
      · show UTCTime.moscowTod (t.sec - 86400) = _
        rw [← h1]; unfold UTCTime.moscowTod; omega
      · show (t.sec - 86400) * 1000000000 + t.nsec - T.ns ≤ _
        omega
      · show T.ns - ((t.sec - 86400) * 1000000000 + t.nsec) ≤ _
        omega
    · rw [if_neg (by unfold secLt; rw [decide_eq_true_eq]; exact fun h => c2 ((key2 (-43200)).mp h))]
      exact ⟨h0, h1, by omega, by omega⟩

theorem closest_near {T T' t : UTCTime} {tod : Nat} {D : Int} (hT : T.Norm) (h : ClosestTod T t tod) (hD : D ≤ 43199)
    (d1 : T.sec - T'.sec ≤ D) (d2 : T'.sec - T.sec ≤ D) : Near T' t tod := by
  obtain ⟨h0, h1, h2, h3⟩ := h
  unfold UTCTime.Norm at hT
  unfold UTCTime.ns at *
  exact ⟨h0, h1, by omega, by omega⟩

end Ublox.Nav
