import Verif.Lemmas.NavGlo
import Verif.Lemmas.NavIso

/-! Helper lemmas: what the GLONASS decoder has collected, over whole histories. -/

namespace Ublox.Nav

attribute [local irreducible] gloU gloS

structure GC1 (g : GEph) (d : List Byte) : Prop where
  vel0 : g.vel0 = ⟨gloS d 64 41, [.p2 20, .e3]⟩
  acc0 : g.acc0 = ⟨gloS d 40 36, [.p2 30, .e3]⟩
  pos0 : g.pos0 = ⟨gloS d 35 9, [.p2 11, .e3]⟩

structure GC2 (g : GEph) (d : List Byte) : Prop where
  svh : g.svh = gloU d 80 78
  iode : g.iode = gloU d 76 70
  vel1 : g.vel1 = ⟨gloS d 64 41, [.p2 20, .e3]⟩
  acc1 : g.acc1 = ⟨gloS d 40 36, [.p2 30, .e3]⟩
  pos1 : g.pos1 = ⟨gloS d 35 9, [.p2 11, .e3]⟩

structure GC3 (g : GEph) (d : List Byte) : Prop where
  gamn : g.gamn = ⟨gloS d 79 69, [.p2 40]⟩
  vel2 : g.vel2 = ⟨gloS d 64 41, [.p2 20, .e3]⟩
  acc2 : g.acc2 = ⟨gloS d 40 36, [.p2 30, .e3]⟩
  pos2 : g.pos2 = ⟨gloS d 35 9, [.p2 11, .e3]⟩

structure GC4 (g : GEph) (d : List Byte) : Prop where
  taun : g.taun = ⟨gloS d 80 59, [.p2 30]⟩
  dtaun : g.dtaun = ⟨gloS d 58 54, [.p2 30]⟩
  age : g.age = gloU d 53 49
  sva : g.sva = gloU d 33 30

/-- `x` is the latest string `k` in `P`, and from some point before it on the reference time was one of `ts`. -/
def Since (k : Nat) (ts : List UTCTime) (P : List (UTCTime × List Byte)) (x : UTCTime × List Byte) : Prop :=
  ∃ A B, P = A ++ B ∧ (∀ y ∈ B, y.1 ∈ ts) ∧ latestG k B = some x

/-- The entry `g` holds what was collected from the strings `P`. -/
structure GColl (P : List (UTCTime × List Byte)) (g : GEph) : Prop where
  mark : ∀ y ∈ P, gloMark y.2 = g.timeMark
  got1 : g.got1 = (latestG 1 P).isSome
  got2 : g.got2 = (latestG 2 P).isSome
  got3 : g.got3 = (latestG 3 P).isSome
  got4 : g.got4 = (latestG 4 P).isSome
  c1 : ∀ x, latestG 1 P = some x → GC1 g x.2
  c2 : ∀ x, latestG 2 P = some x → GC2 g x.2
  c3 : ∀ x, latestG 3 P = some x → GC3 g x.2
  c4 : ∀ x, latestG 4 P = some x → GC4 g x.2
  t1 : ∀ ts D x, Since 1 ts P x → Refs D ts → D ≤ 43199 → frameTod x.2 + D ≤ 129600 → ∀ T ∈ ts, Near T g.tof (frameTod x.2)
  t2 : ∀ ts D x, Since 2 ts P x → Refs D ts → D ≤ 43199 → ephTod x.2 + D ≤ 129600 → ∀ T ∈ ts, Near T g.toe (ephTod x.2)

theorem latestG_snoc (k : Nat) (P : List (UTCTime × List Byte)) (x : UTCTime × List Byte) :
    latestG k (P ++ [x]) = if gloNum x.2 = k then some x else latestG k P := by
  unfold latestG
  rw [List.filter_append]
  by_cases h : gloNum x.2 = k
  · simp [h]
  · simp [h]

theorem since_nil {k : Nat} {ts : List UTCTime} {x : UTCTime × List Byte} (h : Since k ts [] x) : False := by
  obtain ⟨A, B, e, -, hl⟩ := h
  have hB : B = [] := by
    have := congrArg List.length e
    rw [List.length_append, List.length_nil] at this
    exact List.length_eq_zero_iff.mp (by omega)
  rw [hB] at hl
  cases hl

theorem since_last {k : Nat} {T : UTCTime} {ts : List UTCTime} {P : List (UTCTime × List Byte)} {d : List Byte} {x : UTCTime × List Byte}
    (h : Since k ts (P ++ [(T, d)]) x) : T ∈ ts ∧ (gloNum d = k → x = (T, d)) ∧ (gloNum d ≠ k → Since k ts P x) := by
  obtain ⟨A, B, e, ha, hl⟩ := h
  rcases List.eq_nil_or_concat B with rfl | ⟨B', b, rfl⟩
  · cases hl
  · rw [List.concat_eq_append, ← List.append_assoc] at e
    obtain ⟨e1, e2⟩ := List.append_inj' e rfl
    injection e2 with e2
    subst e2
    rw [List.concat_eq_append] at hl ha
    rw [latestG_snoc] at hl
    refine ⟨ha (T, d) (by simp), fun hk => ?_, fun hk => ?_⟩
    · rw [if_pos hk] at hl
      exact (Option.some.inj hl).symm
    · rw [if_neg hk] at hl
      exact ⟨A, B', e1, fun y hy => ha y (List.mem_append_left _ hy), hl⟩

theorem gcoll_nil (g : GEph) (h1 : g.got1 = false) (h2 : g.got2 = false) (h3 : g.got3 = false) (h4 : g.got4 = false) :
    GColl [] g :=
  ⟨by simp, h1, h2, h3, h4, by simp [latestG], by simp [latestG], by simp [latestG], by simp [latestG],
    fun _ _ _ h => (since_nil h).elim, fun _ _ _ h => (since_nil h).elim⟩

/-- The time mark handling of `decodeGlonass`. -/
def markUpd (tm : Nat) (g : GEph) : GEph :=
  { (if tm ≠ g.timeMark then { g with got1 := false, got2 := false, got3 := false, got4 := false } else g) with
    timeMark := tm }

theorem markUpd_same {tm : Nat} {g : GEph} (h : tm = g.timeMark) : markUpd tm g = g := by
  unfold markUpd
  rw [if_neg (fun hn => hn h)]
  cases g; simp only at h; rw [h]

theorem markUpd_ne {tm : Nat} {g : GEph} (h : tm ≠ g.timeMark) : (markUpd tm g).got1 = false ∧
    (markUpd tm g).got2 = false ∧ (markUpd tm g).got3 = false ∧ (markUpd tm g).got4 = false := by
  unfold markUpd
  rw [if_pos h]
  exact ⟨rfl, rfl, rfl, rfl⟩

theorem gcoll_mark {P : List (UTCTime × List Byte)} {g : GEph} (h : GColl P g) (tm : Nat) :
    GColl (if ∀ y ∈ P, gloMark y.2 = tm then P else []) (markUpd tm g) ∧ (markUpd tm g).timeMark = tm := by
  refine ⟨?_, rfl⟩
  by_cases hm : tm = g.timeMark
  · rw [markUpd_same hm, if_pos (by intro y hy; rw [hm]; exact h.mark y hy)]
    exact h
  · obtain ⟨f1, f2, f3, f4⟩ := markUpd_ne hm
    split
    · rename_i hall
      have : P = [] := by
        cases P with
        | nil => rfl
        | cons y P => exact absurd ((hall y (by simp)).symm.trans (h.mark y (by simp))) hm
      subst this
      exact gcoll_nil _ f1 f2 f3 f4
    · exact gcoll_nil _ f1 f2 f3 f4

theorem gcoll_add0 {P : List (UTCTime × List Byte)} {g : GEph} {T : UTCTime} {d : List Byte} (h : GColl P g)
    (hm : gloMark d = g.timeMark) (hk : gloNum d < 1 ∨ 4 < gloNum d) : GColl (P ++ [(T, d)]) g := by
  have e : ∀ k, 1 ≤ k → k ≤ 4 → latestG k (P ++ [(T, d)]) = latestG k P := by
    intro k k1 k4
    rw [latestG_snoc, if_neg (by dsimp only; omega)]
  refine ⟨?_, ?_, ?_, ?_, ?_, ?_, ?_, ?_, ?_, ?_, ?_⟩
  · intro y hy
    rw [List.mem_append, List.mem_singleton] at hy
    rcases hy with hy | rfl
    · exact h.mark y hy
    · exact hm
  · rw [e 1 (by omega) (by omega)]; exact h.got1
  · rw [e 2 (by omega) (by omega)]; exact h.got2
  · rw [e 3 (by omega) (by omega)]; exact h.got3
  · rw [e 4 (by omega) (by omega)]; exact h.got4
  · rw [e 1 (by omega) (by omega)]; exact h.c1
  · rw [e 2 (by omega) (by omega)]; exact h.c2
  · rw [e 3 (by omega) (by omega)]; exact h.c3
  · rw [e 4 (by omega) (by omega)]; exact h.c4
  · intro ts D x hx hr
    exact h.t1 ts D x ((since_last hx).2.2 (by omega)) hr
  · intro ts D x hx hr
    exact h.t2 ts D x ((since_last hx).2.2 (by omega)) hr

theorem gcoll_add1 {P : List (UTCTime × List Byte)} {g : GEph} {T tof : UTCTime} {d : List Byte} (h : GColl P g)
    (hm : gloMark d = g.timeMark) (hk : gloNum d = 1) (ht : GoodRef T → SameDay T tof (frameTod d)) :
    GColl (P ++ [(T, d)]) (gupd1 tof d g) := by
  have e1 : latestG 1 (P ++ [(T, d)]) = some (T, d) := by rw [latestG_snoc, if_pos hk]
  have e : ∀ k, 1 ≠ k → latestG k (P ++ [(T, d)]) = latestG k P := by
    intro k k1; rw [latestG_snoc, if_neg (by dsimp only; omega)]
  cases g
  refine ⟨?_, ?_, ?_, ?_, ?_, ?_, ?_, ?_, ?_, ?_, ?_⟩
  · intro y hy
    rw [List.mem_append, List.mem_singleton] at hy
    rcases hy with hy | rfl
    · exact h.mark y hy
    · exact hm
  · rw [e1]; rfl
  · rw [e 2 (by omega)]; exact h.got2
  · rw [e 3 (by omega)]; exact h.got3
  · rw [e 4 (by omega)]; exact h.got4
  · rw [e1]; intro x hx; injection hx with hx; subst hx; exact ⟨rfl, rfl, rfl⟩
  · rw [e 2 (by omega)]; intro x hx; obtain ⟨a, b, c, d, e⟩ := h.c2 x hx; exact ⟨a, b, c, d, e⟩
  · rw [e 3 (by omega)]; intro x hx; obtain ⟨a, b, c, d⟩ := h.c3 x hx; exact ⟨a, b, c, d⟩
  · rw [e 4 (by omega)]; intro x hx; obtain ⟨a, b, c, d⟩ := h.c4 x hx; exact ⟨a, b, c, d⟩
  · intro ts D x hx hr hD ht' T' hT'
    obtain ⟨hT, hx, -⟩ := since_last hx
    rw [hx hk] at ht' ⊢
    exact (ht (hr T hT).1).near hD ht' ((hr T hT).2 T' hT') ((hr T' hT').2 T hT)
  · intro ts D x hx hr
    exact h.t2 ts D x ((since_last hx).2.2 (by omega)) hr

theorem gcoll_add2 {P : List (UTCTime × List Byte)} {g : GEph} {T toe : UTCTime} {d : List Byte} (h : GColl P g)
    (hm : gloMark d = g.timeMark) (hk : gloNum d = 2) (ht : GoodRef T → SameDay T toe (ephTod d)) :
    GColl (P ++ [(T, d)]) (gupd2 toe d g) := by
  have e1 : latestG 2 (P ++ [(T, d)]) = some (T, d) := by rw [latestG_snoc, if_pos hk]
  have e : ∀ k, 2 ≠ k → latestG k (P ++ [(T, d)]) = latestG k P := by
    intro k k1; rw [latestG_snoc, if_neg (by dsimp only; omega)]
  cases g
  refine ⟨?_, ?_, ?_, ?_, ?_, ?_, ?_, ?_, ?_, ?_, ?_⟩
  · intro y hy
    rw [List.mem_append, List.mem_singleton] at hy
    rcases hy with hy | rfl
    · exact h.mark y hy
    · exact hm
  · rw [e 1 (by omega)]; exact h.got1
  · rw [e1]; rfl
  · rw [e 3 (by omega)]; exact h.got3
  · rw [e 4 (by omega)]; exact h.got4
  · rw [e 1 (by omega)]; intro x hx; obtain ⟨a, b, c⟩ := h.c1 x hx; exact ⟨a, b, c⟩
  · rw [e1]; intro x hx; injection hx with hx; subst hx; exact ⟨rfl, rfl, rfl, rfl, rfl⟩
  · rw [e 3 (by omega)]; intro x hx; obtain ⟨a, b, c, d⟩ := h.c3 x hx; exact ⟨a, b, c, d⟩
  · rw [e 4 (by omega)]; intro x hx; obtain ⟨a, b, c, d⟩ := h.c4 x hx; exact ⟨a, b, c, d⟩
  · intro ts D x hx hr
    exact h.t1 ts D x ((since_last hx).2.2 (by omega)) hr
  · intro ts D x hx hr hD ht' T' hT'
    obtain ⟨hT, hx, -⟩ := since_last hx
    rw [hx hk] at ht' ⊢
    exact (ht (hr T hT).1).near hD ht' ((hr T hT).2 T' hT') ((hr T' hT').2 T hT)

theorem gcoll_add3 {P : List (UTCTime × List Byte)} {g : GEph} {T : UTCTime} {d : List Byte} (h : GColl P g)
    (hm : gloMark d = g.timeMark) (hk : gloNum d = 3) :
    GColl (P ++ [(T, d)]) (gupd3 d g) := by
  have e1 : latestG 3 (P ++ [(T, d)]) = some (T, d) := by rw [latestG_snoc, if_pos hk]
  have e : ∀ k, 3 ≠ k → latestG k (P ++ [(T, d)]) = latestG k P := by
    intro k k1; rw [latestG_snoc, if_neg (by dsimp only; omega)]
  cases g
  refine ⟨?_, ?_, ?_, ?_, ?_, ?_, ?_, ?_, ?_, ?_, ?_⟩
  · intro y hy
    rw [List.mem_append, List.mem_singleton] at hy
    rcases hy with hy | rfl
    · exact h.mark y hy
    · exact hm
  · rw [e 1 (by omega)]; exact h.got1
  · rw [e 2 (by omega)]; exact h.got2
  · rw [e1]; rfl
  · rw [e 4 (by omega)]; exact h.got4
  · rw [e 1 (by omega)]; intro x hx; obtain ⟨a, b, c⟩ := h.c1 x hx; exact ⟨a, b, c⟩
  · rw [e 2 (by omega)]; intro x hx; obtain ⟨a, b, c, d, e⟩ := h.c2 x hx; exact ⟨a, b, c, d, e⟩
  · rw [e1]; intro x hx; injection hx with hx; subst hx; exact ⟨rfl, rfl, rfl, rfl⟩
  · rw [e 4 (by omega)]; intro x hx; obtain ⟨a, b, c, d⟩ := h.c4 x hx; exact ⟨a, b, c, d⟩
  · intro ts D x hx hr
    exact h.t1 ts D x ((since_last hx).2.2 (by omega)) hr
  · intro ts D x hx hr
    exact h.t2 ts D x ((since_last hx).2.2 (by omega)) hr

theorem gcoll_add4 {P : List (UTCTime × List Byte)} {g : GEph} {T : UTCTime} {d : List Byte} (h : GColl P g)
    (hm : gloMark d = g.timeMark) (hk : gloNum d = 4) :
    GColl (P ++ [(T, d)]) (gupd4 d g) := by
  have e1 : latestG 4 (P ++ [(T, d)]) = some (T, d) := by rw [latestG_snoc, if_pos hk]
  have e : ∀ k, 4 ≠ k → latestG k (P ++ [(T, d)]) = latestG k P := by
    intro k k1; rw [latestG_snoc, if_neg (by dsimp only; omega)]
  cases g
  refine ⟨?_, ?_, ?_, ?_, ?_, ?_, ?_, ?_, ?_, ?_, ?_⟩
  · intro y hy
    rw [List.mem_append, List.mem_singleton] at hy
    rcases hy with hy | rfl
    · exact h.mark y hy
    · exact hm
  · rw [e 1 (by omega)]; exact h.got1
  · rw [e 2 (by omega)]; exact h.got2
  · rw [e 3 (by omega)]; exact h.got3
  · rw [e1]; rfl
  · rw [e 1 (by omega)]; intro x hx; obtain ⟨a, b, c⟩ := h.c1 x hx; exact ⟨a, b, c⟩
  · rw [e 2 (by omega)]; intro x hx; obtain ⟨a, b, c, d, e⟩ := h.c2 x hx; exact ⟨a, b, c, d, e⟩
  · rw [e 3 (by omega)]; intro x hx; obtain ⟨a, b, c, d⟩ := h.c3 x hx; exact ⟨a, b, c, d⟩
  · rw [e1]; intro x hx; injection hx with hx; subst hx; exact ⟨rfl, rfl, rfl, rfl⟩
  · intro ts D x hx hr
    exact h.t1 ts D x ((since_last hx).2.2 (by omega)) hr
  · intro ts D x hx hr
    exact h.t2 ts D x ((since_last hx).2.2 (by omega)) hr

/-- The last step: correction of the times and identification. -/
def gfin (T : UTCTime) (gn sv fr : Byte) (g : GEph) : GEph :=
  { g with toe := dayWrap T g.toe, tof := dayWrap T g.tof, frq := (fr.toNat : Int) - 7, sat := sv, gnssID := gn }

theorem gcoll_fin {P : List (UTCTime × List Byte)} {g : GEph} {T : UTCTime} {d : List Byte} (gn sv fr : Byte)
    (h : GColl (P ++ [(T, d)]) g) :
    GColl (P ++ [(T, d)]) (gfin T gn sv fr g) ∧
    (∀ ts D x, Refs D ts → D ≤ 43199 →
      (Since 1 ts (P ++ [(T, d)]) x → frameTod x.2 + D ≤ 129600 → ClosestTod T (gfin T gn sv fr g).tof (frameTod x.2)) ∧
      (Since 2 ts (P ++ [(T, d)]) x → ephTod x.2 + D ≤ 129600 → ClosestTod T (gfin T gn sv fr g).toe (ephTod x.2))) := by
  have key : ∀ ts D x, Refs D ts → D ≤ 43199 →
      (Since 1 ts (P ++ [(T, d)]) x → frameTod x.2 + D ≤ 129600 → ClosestTod T (gfin T gn sv fr g).tof (frameTod x.2)) ∧
      (Since 2 ts (P ++ [(T, d)]) x → ephTod x.2 + D ≤ 129600 → ClosestTod T (gfin T gn sv fr g).toe (ephTod x.2)) := by
    intro ts D x hr hD
    constructor
    · intro hx ht
      have hT := (since_last hx).1
      exact dayWrap_closest (hr T hT).1.1 (h.t1 ts D x hx hr hD ht T hT)
    · intro hx ht
      have hT := (since_last hx).1
      exact dayWrap_closest (hr T hT).1.1 (h.t2 ts D x hx hr hD ht T hT)
  refine ⟨?_, key⟩
  refine ⟨h.mark, h.got1, h.got2, h.got3, h.got4, ?_, ?_, ?_, ?_, ?_, ?_⟩
  · intro x hx; obtain ⟨a, b, c⟩ := h.c1 x hx; exact ⟨a, b, c⟩
  · intro x hx; obtain ⟨a, b, c, d, e⟩ := h.c2 x hx; exact ⟨a, b, c, d, e⟩
  · intro x hx; obtain ⟨a, b, c, d⟩ := h.c3 x hx; exact ⟨a, b, c, d⟩
  · intro x hx; obtain ⟨a, b, c, d⟩ := h.c4 x hx; exact ⟨a, b, c, d⟩
  · intro ts D x hx hr hD ht T' hT'
    have hT := (since_last hx).1
    exact closest_near (hr T hT).1.1 ((key ts D x hr hD).1 hx ht) hD ((hr T hT).2 T' hT') ((hr T' hT').2 T hT)
  · intro ts D x hx hr hD ht T' hT'
    have hT := (since_last hx).1
    exact closest_near (hr T hT).1.1 ((key ts D x hr hD).2 hx ht) hD ((hr T hT).2 T' hT') ((hr T' hT').2 T hT)

/-- A message that `decodeGlonass` looks into. -/
def Seen (T : UTCTime) (sv : Byte) (d : List Byte) : Prop := sv ≠ 255 ∧ T ≠ ⟨0, 0⟩ ∧ usable (gloBit d) = true

theorem eq_zero (T : UTCTime) : T.eq (UTCTime.ofInts 0 0) = true ↔ T = ⟨0, 0⟩ := by
  have : UTCTime.ofInts 0 0 = ⟨0, 0⟩ := by decide
  rw [this]
  unfold UTCTime.eq
  cases T
  simp [UTCTime.mk.injEq]

/-- What is decoded, in terms of the ICD. -/
def gloBody (md : Mode) (T : UTCTime) (d : List Byte) (g : GEph) : M GEph :=
  match gloNum d with
  | 1 => do
    let tof ← UTCTime.fromGlonassTimeOfDay T ((frameTod d * 1000 : Nat) : Int)
    offEnd md
    .ok (gupd1 tof d g)
  | 2 => do
    let toe ← UTCTime.fromGlonassTimeOfDay T ((ephTod d * 1000 : Nat) : Int)
    offEnd md
    .ok (gupd2 toe d g)
  | 3 => do
    offEnd md
    .ok (gupd3 d g)
  | _ => do
    offEnd md
    .ok (gupd4 d g)

theorem gloFrame_eq {md : Mode} {T : UTCTime} {buf d : List Byte} (h : HoldsW 4 buf d) (g : GEph) :
    gloFrame md T (gloNum d) buf g = gloBody md T d g := by
  unfold gloFrame gloBody
  generalize gloNum d = k
  match k with
  | 0 => exact gloFrame4_eq h g
  | 1 => exact gloFrame1_eq h g
  | 2 => exact gloFrame2_eq h g
  | 3 => exact gloFrame3_eq h g
  | k + 4 => exact gloFrame4_eq h g

theorem decodeGlonass_unseen {md : Mode} {T : UTCTime} {gn sv fr : Byte} {d : List Byte} (hd : 16 ≤ d.length) (g : GEph)
    (h : ¬ Seen T sv d) : ∃ r, decodeGlonass md T gn sv fr d g = .ok r ∧ r.geph = g ∧ r.reports = [] := by
  unfold decodeGlonass
  by_cases h1 : sv = 255
  · rw [if_pos h1]; exact ⟨_, rfl, rfl, rfl⟩
  rw [if_neg h1]
  by_cases h2 : T = ⟨0, 0⟩
  · rw [if_pos ((eq_zero T).mpr h2)]; exact ⟨_, rfl, rfl, rfl⟩
  rw [if_neg (fun hh => h2 ((eq_zero T).mp hh))]
  obtain ⟨buf, b1, b2, b3⟩ := swap_holds d 4 (by omega)
  have h3 : usable (gloBit d) = false := by
    cases hu : usable (gloBit d) with
    | false => rfl
    | true => exact absurd ⟨h1, h2, hu⟩ h
  rw [b1, ok_bind, gloTest_ok buf (by rw [b2.1]; omega), ok_bind, b2.str, h3]
  exact ⟨_, rfl, rfl, rfl⟩

theorem decodeGlonass_seen {md : Mode} {T : UTCTime} {gn sv fr : Byte} {d : List Byte} (hd : 16 ≤ d.length) (g : GEph)
    (h : Seen T sv d) : decodeGlonass md T gn sv fr d g =
      if gloNum d < 1 ∨ 4 < gloNum d then .ok ⟨markUpd (gloMark d) g, [], false⟩
      else (do
        let g1 ← gloBody md T d (markUpd (gloMark d) g)
        if !g1.got1 || !g1.got2 || !g1.got3 || !g1.got4 || gloNum d != 4 then .ok ⟨g1, [], false⟩
        else .ok ⟨gfin T gn sv fr g1, [gfin T gn sv fr g1], true⟩) := by
  unfold decodeGlonass
  obtain ⟨h1, h2, h3⟩ := h
  rw [if_neg h1, if_neg (fun hh => h2 ((eq_zero T).mp hh))]
  obtain ⟨buf, b1, b2, b3⟩ := swap_holds d 4 (by omega)
  have r12 : rd buf 12 = .ok (d.getD 15 0) := by unfold rd; rw [b3 12 (by omega)]
  have r13 : rd buf 13 = .ok (d.getD 14 0) := by unfold rd; rw [b3 13 (by omega)]
  rw [b1, ok_bind, gloTest_ok buf (by rw [b2.1]; omega), ok_bind, b2.str, h3]
  simp only [Bool.not_true, Bool.false_eq_true, if_false]
  rw [r12, ok_bind, r13, ok_bind]
  have hm : ({ (if (d.getD 15 0).toNat * 256 + (d.getD 14 0).toNat ≠ g.timeMark then
      { g with got1 := false, got2 := false, got3 := false, got4 := false } else g) with
      timeMark := (d.getD 15 0).toNat * 256 + (d.getD 14 0).toNat } : GEph) = markUpd (gloMark d) g := rfl
  have hn : getBit 4 buf 1 = .ok (gloNum d) := b2.getU 4 1 84 81
  rw [hm]
  unfold gloString
  rw [hn, ok_bind]
  by_cases hk : gloNum d < 1 ∨ 4 < gloNum d
  · rw [if_pos hk, if_pos hk]; rfl
  · rw [if_neg hk, if_neg hk, gloFrame_eq b2]
    cases hb : gloBody md T d (markUpd (gloMark d) g) with
    | error u => rfl
    | ok g1 =>
      simp only [ok_bind]
      by_cases hc : (!g1.got1 || !g1.got2 || !g1.got3 || !g1.got4 || gloNum d != 4) = true
      · rw [if_pos hc, if_pos hc]; rfl
      · rw [if_neg hc, if_neg hc]; rfl

theorem frameTod_lt (d : List Byte) : frameTod d < 120000 := by
  have := gloU_lt d 76 72
  have := gloU_lt d 71 66
  have := gloU_lt d 65 65
  unfold frameTod
  simp only [Nat.reduceAdd, Nat.reduceSub, Nat.reducePow] at *
  omega

theorem ephTod_lt (d : List Byte) : ephTod d < 120000 := by
  have := gloU_lt d 76 70
  unfold ephTod
  simp only [Nat.reduceAdd, Nat.reduceSub, Nat.reducePow] at *
  omega

theorem gloBody_coll {md : Mode} {T : UTCTime} {d : List Byte} {g g1 : GEph} {P : List (UTCTime × List Byte)}
    (hc : GColl P g) (hm : gloMark d = g.timeMark) (hk : ¬ (gloNum d < 1 ∨ 4 < gloNum d))
    (h : gloBody md T d g = .ok g1) : GColl (P ++ [(T, d)]) g1 := by
  have hk' : gloNum d = 1 ∨ gloNum d = 2 ∨ gloNum d = 3 ∨ gloNum d = 4 := by omega
  unfold gloBody at h
  rcases hk' with hk | hk | hk | hk
  · rw [hk] at h
    simp only [bind_ok] at h
    obtain ⟨tof, h1, _, -, h⟩ := h
    injection h with h; subst h
    refine gcoll_add1 hc hm hk (fun hr => ?_)
    exact tod_res hr.2 (frameTod_lt d) h1
  · rw [hk] at h
    simp only [bind_ok] at h
    obtain ⟨tof, h1, _, -, h⟩ := h
    injection h with h; subst h
    refine gcoll_add2 hc hm hk (fun hr => ?_)
    exact tod_res hr.2 (ephTod_lt d) h1
  · rw [hk] at h
    simp only [bind_ok] at h
    obtain ⟨_, -, h⟩ := h
    injection h with h; subst h
    exact gcoll_add3 hc hm hk
  · rw [hk] at h
    simp only [bind_ok] at h
    obtain ⟨_, -, h⟩ := h
    injection h with h; subst h
    exact gcoll_add4 hc hm hk

/-- Adding a string to the frame. -/
def addStr (P : List (UTCTime × List Byte)) (T : UTCTime) (d : List Byte) : List (UTCTime × List Byte) :=
  if ∀ y ∈ P, gloMark y.2 = gloMark d then P ++ [(T, d)] else [(T, d)]

theorem addStr_eq (P : List (UTCTime × List Byte)) (T : UTCTime) (d : List Byte) :
    addStr P T d = (if ∀ y ∈ P, gloMark y.2 = gloMark d then P else []) ++ [(T, d)] := by
  unfold addStr; split <;> rfl

/-- A string `decodeGlonass` looks into: collected, and reported iff it is string 4 and the frame is complete. -/
theorem decode_coll {md : Mode} {T : UTCTime} {gn sv fr : Byte} {d : List Byte} {g : GEph} {r : GloOut}
    {P : List (UTCTime × List Byte)} (hd : 16 ≤ d.length) (hs : Seen T sv d) (hc : GColl P g)
    (h : decodeGlonass md T gn sv fr d g = .ok r) :
    GColl (addStr P T d) r.geph ∧
    ((r.reports = [] ∧ r.ret = false ∧ ¬ (gloNum d = 4 ∧ (latestG 1 (addStr P T d)).isSome ∧
        (latestG 2 (addStr P T d)).isSome ∧ (latestG 3 (addStr P T d)).isSome)) ∨
     (r.reports = [r.geph] ∧ r.ret = true ∧ gloNum d = 4 ∧ ∃ x1 x2 x3, latestG 1 (addStr P T d) = some x1 ∧
        latestG 2 (addStr P T d) = some x2 ∧ latestG 3 (addStr P T d) = some x3 ∧
        latestG 4 (addStr P T d) = some (T, d) ∧
        r.geph.sat = sv ∧ r.geph.gnssID = gn ∧ r.geph.frq = (fr.toNat : Int) - 7 ∧
        (∀ ts D x, Refs D ts → D ≤ 43199 →
          (Since 1 ts (addStr P T d) x → frameTod x.2 + D ≤ 129600 → ClosestTod T r.geph.tof (frameTod x.2)) ∧
          (Since 2 ts (addStr P T d) x → ephTod x.2 + D ≤ 129600 → ClosestTod T r.geph.toe (ephTod x.2))))) := by
  rw [decodeGlonass_seen hd g hs] at h
  obtain ⟨hm, ht⟩ := gcoll_mark hc (gloMark d)
  rw [addStr_eq]
  generalize markUpd (gloMark d) g = g0 at hm ht h
  generalize (if ∀ y ∈ P, gloMark y.2 = gloMark d then P else []) = P0 at hm
  by_cases hk : gloNum d < 1 ∨ 4 < gloNum d
  · rw [if_pos hk] at h
    injection h with h; subst h
    exact ⟨gcoll_add0 hm ht.symm hk, .inl ⟨rfl, rfl, fun hh => by omega⟩⟩
  · rw [if_neg hk, bind_ok] at h
    obtain ⟨g1, h1, h⟩ := h
    have hc1 := gloBody_coll hm ht.symm hk h1
    by_cases hcnd : (!g1.got1 || !g1.got2 || !g1.got3 || !g1.got4 || gloNum d != 4) = true
    · rw [if_pos hcnd] at h
      injection h with h; subst h
      refine ⟨hc1, .inl ⟨rfl, rfl, ?_⟩⟩
      rintro ⟨k4, a1, a2, a3⟩
      rw [← hc1.got1] at a1; rw [← hc1.got2] at a2; rw [← hc1.got3] at a3
      have a4 : g1.got4 = true := by rw [hc1.got4, latestG_snoc, if_pos k4]; rfl
      rw [a1, a2, a3, a4, k4] at hcnd
      simp at hcnd
    · rw [if_neg hcnd] at h
      injection h with h; subst h
      simp only [Bool.or_eq_true, Bool.not_eq_true', bne_iff_ne, ne_eq, not_or, Bool.not_eq_false, not_not] at hcnd
      obtain ⟨⟨⟨⟨a1, a2⟩, a3⟩, a4⟩, k4⟩ := hcnd
      obtain ⟨f1, f2⟩ := gcoll_fin gn sv fr hc1
      refine ⟨f1, .inr ⟨rfl, rfl, k4, ?_⟩⟩
      rw [hc1.got1] at a1; rw [hc1.got2] at a2; rw [hc1.got3] at a3
      obtain ⟨x1, a1⟩ := Option.isSome_iff_exists.mp a1
      obtain ⟨x2, a2⟩ := Option.isSome_iff_exists.mp a2
      obtain ⟨x3, a3⟩ := Option.isSome_iff_exists.mp a3
      refine ⟨x1, x2, x3, a1, a2, a3, by rw [latestG_snoc, if_pos k4], rfl, rfl, rfl, f2⟩

theorem decode_total {T : UTCTime} {gn sv fr : Byte} {d : List Byte} (g : GEph)
    (hd : 16 ≤ d.length) (hT : 0 ≤ T.sec ∧ T.sec ≤ 2147000000) : ∃ r, decodeGlonass .lenient T gn sv fr d g = .ok r := by
  by_cases hs : Seen T sv d
  · rw [decodeGlonass_seen hd g hs]
    by_cases hk : gloNum d < 1 ∨ 4 < gloNum d
    · rw [if_pos hk]; exact ⟨_, rfl⟩
    · rw [if_neg hk]
      obtain ⟨t1, e1⟩ := tod_ok hT (frameTod_lt d)
      obtain ⟨t2, e2⟩ := tod_ok hT (ephTod_lt d)
      have : ∃ g1, gloBody .lenient T d (markUpd (gloMark d) g) = .ok g1 := by
        unfold gloBody
        split
        · rw [e1]; exact ⟨_, rfl⟩
        · rw [e2]; exact ⟨_, rfl⟩
        · exact ⟨_, rfl⟩
        · exact ⟨_, rfl⟩
      obtain ⟨g1, hg⟩ := this
      rw [hg, ok_bind]
      split <;> exact ⟨_, rfl⟩
  · obtain ⟨r, h, -⟩ := decodeGlonass_unseen (md := .lenient) (gn := gn) (fr := fr) hd g hs
    exact ⟨r, h⟩

/-! ## Histories -/

/-- One operation (with the GPS reference time before it), seen as bookkeeping of the usable strings received for GLONASS
satellite `s` in the current frame: strings that arrive while the reference time is unset are ignored, a string with
another time mark starts a new frame. -/
def frameStep (s : Byte) (P : List (UTCTime × List Byte)) (x : NavOp × UTCTime) : List (UTCTime × List Byte) :=
  match x.1 with
  | .sfrbx _ m =>
    if m.gnssId = GLONASS ∧ m.svId = s ∧ x.2 ≠ ⟨0, 0⟩ ∧ usable (gloBit m.dwrd) = true then
      (if ∀ y ∈ P, gloMark y.2 = gloMark m.dwrd then P ++ [(x.2, m.dwrd)] else [(x.2, m.dwrd)])
    else P
  | _ => P

/-- The strings of the current frame of satellite `s`, oldest first, each with the reference time at its arrival. -/
def frame (s : Byte) (xs : List (NavOp × UTCTime)) : List (UTCTime × List Byte) := xs.foldl (frameStep s) []


theorem gcur_of_gentry {n n' : Nav} {s : Byte} (h : n'.gentry s = n.gentry s) : n'.gcur s = n.gcur s := by
  unfold Nav.gcur; rw [h]

theorem refTimes_snoc (md : Mode) (ops : List NavOp) (op : NavOp) : ∀ (n n1 : Nav) (cs : List (List NavCall)),
    n.run md ops = .ok (n1, cs) →
    (refTimes md n ops).length = ops.length ∧ refTimes md n (ops ++ [op]) = refTimes md n ops ++ [n1.gpsTime] := by
  induction ops with
  | nil =>
    intro n n1 cs h
    rw [run_nil] at h
    rw [h.1]
    refine ⟨rfl, ?_⟩
    simp only [List.nil_append, refTimes]
    cases n.step md op <;> rfl
  | cons o ops ih =>
    intro n n1 cs h
    rw [run_cons] at h
    obtain ⟨n2, c, cs', h1, h2, -⟩ := h
    obtain ⟨i1, i2⟩ := ih n2 n1 cs' h2
    simp only [List.cons_append, refTimes, h1, i2, List.length_cons, i1, and_self]

theorem timed_snoc {md : Mode} {ops : List NavOp} (op : NavOp) {n n1 : Nav} {cs : List (List NavCall)}
    (h : n.run md ops = .ok (n1, cs)) : timed md n (ops ++ [op]) = timed md n ops ++ [(op, n1.gpsTime)] := by
  obtain ⟨h1, h2⟩ := refTimes_snoc md ops op n n1 cs h
  unfold timed
  rw [h2, List.zip_append h1.symm]
  rfl

theorem frame_snoc {md : Mode} {ops : List NavOp} (s : Byte) (op : NavOp) {n n1 : Nav} {cs : List (List NavCall)}
    (h : n.run md ops = .ok (n1, cs)) :
    frame s (timed md n (ops ++ [op])) = frameStep s (frame s (timed md n ops)) (op, n1.gpsTime) := by
  rw [timed_snoc op h]
  unfold frame
  rw [List.foldl_append]
  rfl

theorem gcoll_step (md : Mode) (s : Byte) (hs255 : s ≠ 255) (op : NavOp) (n n' : Nav) (c : List NavCall)
    (P : List (UTCTime × List Byte)) (hop : op.WF) (IH : GColl P (n.gcur s))
    (hs : n.step md op = .ok (n', c)) : GColl (frameStep s P (op, n.gpsTime)) (n'.gcur s) := by
  cases op with
  | setTime t =>
    injection hs with hs
    injection hs with hs _
    have : n'.gcur s = n.gcur s := by rw [← hs]; rfl
    rw [this]; exact IH
  | addEphCb =>
    injection hs with hs
    injection hs with hs _
    have : n'.gcur s = n.gcur s := by rw [← hs]; rfl
    rw [this]; exact IH
  | addGephCb =>
    injection hs with hs
    injection hs with hs _
    have : n'.gcur s = n.gcur s := by rw [← hs]; rfl
    rw [this]; exact IH
  | sfrbx junk m =>
    by_cases hg : m.gnssId = GLONASS
    · obtain ⟨r, hr, -, nx⟩ := step_glo hg hs
      by_cases hsv : m.svId = s
      · have hcur : n'.gcur s = r.geph := by unfold Nav.gcur; rw [← hsv, nx.own]; rfl
        rw [hcur]
        rw [hsv] at hr
        have hlen : 16 ≤ m.dwrd.length := by rw [hop.2]; omega
        by_cases hseen : Seen n.gpsTime s m.dwrd
        · have := (decode_coll hlen hseen IH hr).1
          unfold frameStep
          dsimp only
          rw [if_pos ⟨hg, hsv, hseen.2⟩]
          exact this
        · obtain ⟨r', e1, e2, -⟩ := decodeGlonass_unseen (md := md) (gn := m.gnssId) (fr := m.freqId) hlen (n.gcur s) hseen
          rw [e1] at hr; injection hr with hr; subst hr
          rw [e2]
          unfold frameStep
          dsimp only
          rw [if_neg (fun h => hseen ⟨hs255, h.2.2⟩)]
          exact IH
      · have : n'.gcur s = n.gcur s := gcur_of_gentry (nx.other s (fun h => hsv h.symm))
        rw [this]
        unfold frameStep
        dsimp only
        rw [if_neg (fun h => hsv h.2.1)]
        exact IH
    · obtain ⟨r, -, -, nx⟩ := step_eph hg hs
      have : n'.gcur s = n.gcur s := by unfold Nav.gcur Nav.gentry; rw [nx.geph]
      rw [this]
      unfold frameStep
      dsimp only
      rw [if_neg (fun h => hg h.1)]
      exact IH

/-- Invariant over histories: the GLONASS entry of satellite `s` holds the strings of the current frame. -/
theorem gcoll_run (md : Mode) (s : Byte) (hs255 : s ≠ 255) (ops : List NavOp) :
    ∀ (n : Nav) (cs : List (List NavCall)), (∀ op ∈ ops, op.WF) → Nav.init.run md ops = .ok (n, cs) →
    GColl (frame s (timed md Nav.init ops)) (n.gcur s) := by
  induction ops using List.reverseRec with
  | nil =>
    intro n cs _ h
    rw [run_nil] at h
    rw [h.1]
    exact gcoll_nil _ rfl rfl rfl rfl
  | append_singleton ops op ih =>
    intro n cs hwf h
    rw [run_append] at h
    obtain ⟨n1, c1, c2, h1, h2, rfl⟩ := h
    rw [run_cons] at h2
    obtain ⟨n2, c, cs', hs, h3, rfl⟩ := h2
    rw [run_nil] at h3
    rw [h3.1, frame_snoc s op h1]
    exact gcoll_step md s hs255 op n1 n2 c _ (hwf op (by simp)) (ih n1 c1 (fun o ho => hwf o (List.mem_append_left _ ho)) h1) hs

theorem gephCalls_one (k : Nat) (g : GEph) : gephCalls k [g] = greportTo k g := by
  unfold gephCalls greportTo
  simp

theorem frameStep_heard (s : Byte) (P : List (UTCTime × List Byte)) (x : NavOp × UTCTime) :
    frameStep s P x = (match heard1 s x with
      | some y => addStr P y.1 y.2
      | none => P) := by
  unfold frameStep heard1 addStr
  cases x.1 with
  | sfrbx j m =>
    dsimp only
    by_cases h : m.gnssId = GLONASS ∧ m.svId = s ∧ x.2 ≠ ⟨0, 0⟩ ∧ usable (gloBit m.dwrd) = true
    · rw [if_pos h, if_pos h]
    · rw [if_neg h, if_neg h]
  | _ => rfl

theorem heard_append (s : Byte) (a b : List (NavOp × UTCTime)) : heard s (a ++ b) = heard s a ++ heard s b :=
  List.filterMap_append

theorem addStr_last (P : List (UTCTime × List Byte)) (T : UTCTime) (d : List Byte) :
    (addStr P T d).getLast? = some (T, d) := by
  unfold addStr; split <;> simp

theorem frame_last (s : Byte) (xs : List (NavOp × UTCTime)) : (frame s xs).getLast? = (heard s xs).getLast? := by
  induction xs using List.reverseRec with
  | nil => rfl
  | append_singleton xs x ih =>
    have : frame s (xs ++ [x]) = frameStep s (frame s xs) x := by unfold frame; rw [List.foldl_append]; rfl
    rw [this, heard_append, frameStep_heard]
    cases h : heard1 s x with
    | none =>
      have : heard s [x] = [] := by simp [heard, h]
      rw [this, List.append_nil]; exact ih
    | some y =>
      have : heard s [x] = [y] := by simp [heard, h]
      rw [this]
      dsimp only
      rw [addStr_last]; simp

theorem frame_suffix (s : Byte) (mark : Nat) (suf : List (NavOp × UTCTime)) :
    ∀ P0 : List (UTCTime × List Byte), (∀ y ∈ heard s suf, gloMark y.2 = mark) →
    ((P0 = [] ∨ ∃ y ∈ P0, gloMark y.2 ≠ mark) → suf.foldl (frameStep s) P0 = if heard s suf = [] then P0 else heard s suf) ∧
    ((∀ y ∈ P0, gloMark y.2 = mark) → suf.foldl (frameStep s) P0 = P0 ++ heard s suf) := by
  induction suf with
  | nil => intro P0 _; simp [heard]
  | cons x suf ih =>
    intro P0 hall
    rw [List.foldl_cons, frameStep_heard]
    cases h : heard1 s x with
    | none =>
      have e : heard s (x :: suf) = heard s suf := by simp [heard, h]
      rw [e] at hall ⊢
      exact ih P0 hall
    | some y =>
      have e : heard s (x :: suf) = y :: heard s suf := by simp [heard, h]
      rw [e] at hall ⊢
      have hy : gloMark y.2 = mark := hall y (by simp)
      have hrest : ∀ z ∈ heard s suf, gloMark z.2 = mark := fun z hz => hall z (by simp [hz])
      dsimp only
      refine ⟨fun hp => ?_, fun hp => ?_⟩
      · have : addStr P0 y.1 y.2 = [y] := by
          unfold addStr
          rcases hp with rfl | ⟨z, hz, hne⟩
          · simp
          · rw [if_neg (fun hh => hne ((hh z hz).trans hy))]
        rw [this, (ih [y] hrest).2 (by simpa using hy), if_neg (by simp)]
        rfl
      · have : addStr P0 y.1 y.2 = P0 ++ [y] := by
          unfold addStr
          rw [if_pos (fun z hz => (hp z hz).trans hy.symm)]
        rw [this, (ih (P0 ++ [y]) hrest).2 (by
          intro z hz
          rw [List.mem_append, List.mem_singleton] at hz
          rcases hz with hz | rfl
          · exact hp z hz
          · exact hy)]
        simp

/-- The frame with one more string is the strings heard in the current frame and that string. -/
theorem frame_current {s : Byte} {xs suf : List (NavOp × UTCTime)} {T : UTCTime} {d : List Byte}
    (h : CurrentFrame s xs (gloMark d) suf) : addStr (frame s xs) T d = heard s suf ++ [(T, d)] := by
  obtain ⟨pre, rfl, hall, hlast⟩ := h
  have e : frame s (pre ++ suf) = suf.foldl (frameStep s) (frame s pre) := by unfold frame; rw [List.foldl_append]
  rw [e]
  have hP : frame s pre = [] ∨ ∃ y ∈ frame s pre, gloMark y.2 ≠ gloMark d := by
    cases hl : (frame s pre).getLast? with
    | none => left; exact List.getLast?_eq_none_iff.mp hl
    | some y =>
      right
      refine ⟨y, List.mem_of_getLast? hl, hlast y ?_⟩
      rw [← frame_last]; exact hl
  rw [(frame_suffix s (gloMark d) suf _ hall).1 hP]
  by_cases hs : heard s suf = []
  · rw [if_pos hs, hs]
    unfold addStr
    rcases hP with hP | ⟨y, hy, hne⟩
    · rw [hP]; simp
    · rw [if_neg (fun hh => hne (hh y hy))]; rfl
  · rw [if_neg hs]
    unfold addStr
    rw [if_pos hall]

theorem exists_currentFrame (s : Byte) (mark : Nat) (xs : List (NavOp × UTCTime)) :
    ∃ suf, CurrentFrame s xs mark suf := by
  induction xs using List.reverseRec with
  | nil => exact ⟨[], [], rfl, by simp [heard], by simp [heard]⟩
  | append_singleton xs x ih =>
    obtain ⟨suf, pre, rfl, h1, h2⟩ := ih
    by_cases hx : ∀ y, heard1 s x = some y → gloMark y.2 = mark
    · refine ⟨suf ++ [x], pre, by simp, ?_, h2⟩
      intro y hy
      rw [heard_append, List.mem_append] at hy
      rcases hy with hy | hy
      · exact h1 y hy
      · simp only [heard, List.mem_filterMap, List.mem_singleton] at hy
        obtain ⟨a, rfl, ha⟩ := hy
        exact hx y ha
    · obtain ⟨y, hy⟩ := not_forall.mp hx
      rw [Classical.not_imp] at hy
      refine ⟨[], pre ++ suf ++ [x], by simp, by simp [heard], ?_⟩
      intro z hz
      rw [heard_append, show heard s [x] = [y] by simp [heard, hy.1]] at hz
      simp at hz
      rw [← hz]; exact hy.2

/-! ## Ignored messages -/

/-- The two parsers cannot be told apart. -/
structure SameNav (n n2 : Nav) : Prop where
  entry : ∀ s, n2.gcur s = n.gcur s
  rest : n2 = { n with geph := n2.geph }

theorem sameNav_fields {n n2 : Nav} (h : SameNav n n2) : n2.ephCbs = n.ephCbs ∧ n2.gephCbs = n.gephCbs ∧
    n2.eph = n.eph ∧ n2.gpsTime = n.gpsTime ∧ n2.gal = n.gal := by
  have := h.rest
  cases n; cases n2; simp_all

theorem SameNav.symm {n n2 : Nav} (h : SameNav n n2) : SameNav n2 n := by
  obtain ⟨f1, f2, f3, f4, f5⟩ := sameNav_fields h
  exact ⟨fun s => (h.entry s).symm, nav_ext f1.symm f2.symm f3.symm f4.symm f5.symm⟩

theorem sameNav_step {md : Mode} {n n2 n' : Nav} {op : NavOp} {c : List NavCall} (hs : SameNav n n2)
    (h : n.step md op = .ok (n', c)) : ∃ n2', n2.step md op = .ok (n2', c) ∧ SameNav n' n2' := by
  obtain ⟨f1, f2, f3, f4, f5⟩ := sameNav_fields hs
  cases op with
  | setTime t =>
    injection h with h; injection h with ha hb; subst ha; subst hb
    exact ⟨_, rfl, ⟨hs.entry, nav_ext f1 f2 f3 rfl f5⟩⟩
  | addGephCb =>
    injection h with h; injection h with ha hb; subst ha; subst hb
    exact ⟨_, rfl, ⟨hs.entry, nav_ext f1 (by show n2.gephCbs + 1 = _; rw [f2]) f3 f4 f5⟩⟩
  | addEphCb =>
    injection h with h; injection h with ha hb; subst ha; subst hb
    exact ⟨_, rfl, ⟨hs.entry, nav_ext (by show n2.ephCbs + 1 = _; rw [f1]) f2 f3 f4 f5⟩⟩
  | sfrbx junk m =>
    by_cases hg : m.gnssId = GLONASS
    · obtain ⟨r, h1, h2, nx⟩ := step_glo hg h
      rw [← hs.entry, ← f4] at h1
      obtain ⟨n2', h4, nx2⟩ := (convertGlo_spec md n2 m).1 _ h1
      refine ⟨n2', ?_, ⟨?_, ?_⟩⟩
      · unfold Nav.step convertUBX
        dsimp only
        rw [if_pos hg, h4, ok_bind, h2, f2]
      · intro s
        by_cases hsv : s = m.svId
        · unfold Nav.gcur; rw [hsv, nx.own, nx2.own]
        · rw [gcur_of_gentry (nx.other s hsv), gcur_of_gentry (nx2.other s hsv)]
          exact hs.entry s
      · exact nav_ext (by rw [nx2.cbs.1, nx.cbs.1, f1]) (by rw [nx2.cbs.2, nx.cbs.2, f2]) (by rw [nx2.eph, nx.eph, f3])
          (by rw [nx2.time, nx.time, f4]) (by rw [nx2.rows, nx.rows, f5])
    · unfold Nav.step convertUBX at h
      dsimp only at h
      rw [if_neg hg, bind_ok] at h
      obtain ⟨o, h1, h⟩ := h
      injection h with h; injection h with ha hb; subst ha; subst hb
      obtain ⟨h2, h3⟩ := convertEph_geph md junk n m n2.geph o h1
      rw [← hs.rest] at h2
      refine ⟨{ o.nav with geph := n2.geph }, ?_, ⟨?_, rfl⟩⟩
      · unfold Nav.step convertUBX
        dsimp only
        rw [if_neg hg, h2, ok_bind]
      · intro s
        have := hs.entry s
        unfold Nav.gcur Nav.gentry at *
        dsimp only
        rw [this, h3]

theorem convertEph_geph_err (md : Mode) (junk : List Byte) (n : Nav) (m : Sfrbx) (g : List GEph) (u : UB)
    (h : convertEph md junk n m = .error u) : convertEph md junk { n with geph := g } m = .error u := by
  have spec := convertEph_spec md junk n m
  have spec2 := convertEph_spec md junk { n with geph := g } m
  cases hr : ephStep md junk n.gpsTime (n.gal m.svId.toNat) m (n.cur m.svId) with
  | ok r => obtain ⟨n', h1, -⟩ := spec.1 r hr; rw [h1] at h; cases h
  | error v => rw [spec.2 v hr] at h; injection h with h; subst h; exact spec2.2 v hr

theorem sameNav_step_err {md : Mode} {n n2 : Nav} {op : NavOp} {u : UB} (hs : SameNav n n2)
    (h : n.step md op = .error u) : n2.step md op = .error u := by
  obtain ⟨f1, f2, f3, f4, f5⟩ := sameNav_fields hs
  cases op with
  | setTime t => cases h
  | addGephCb => cases h
  | addEphCb => cases h
  | sfrbx junk m =>
    unfold Nav.step convertUBX at *
    dsimp only at *
    by_cases hg : m.gnssId = GLONASS
    · rw [if_pos hg] at *
      cases hr : decodeGlonass md n.gpsTime m.gnssId m.svId m.freqId m.dwrd (n.gcur m.svId) with
      | ok r =>
        obtain ⟨n', e, -⟩ := (convertGlo_spec md n m).1 r hr
        rw [e] at h; cases h
      | error v =>
        rw [(convertGlo_spec md n m).2 v hr] at h
        rw [← hs.entry, ← f4] at hr
        rw [(convertGlo_spec md n2 m).2 v hr]
        exact h
    · rw [if_neg hg] at *
      cases hr : convertEph md junk n m with
      | ok o => rw [hr] at h; cases h
      | error v =>
        rw [hr] at h
        have := convertEph_geph_err md junk n m n2.geph v hr
        rw [← hs.rest] at this
        rw [this]; exact h

theorem sameNav_run {md : Mode} {ops : List NavOp} : ∀ {n n2 : Nav}, SameNav n n2 →
    (n2.run md ops).map (·.2) = (n.run md ops).map (·.2) := by
  induction ops with
  | nil => intro n n2 _; rfl
  | cons op ops ih =>
    intro n n2 hs
    unfold Nav.run
    cases h : n.step md op with
    | error u => rw [sameNav_step_err hs h]
    | ok r =>
      obtain ⟨n', c⟩ := r
      obtain ⟨n2', h2, hs'⟩ := sameNav_step hs h
      rw [h2, ok_bind, ok_bind]
      have := ih hs'
      dsimp only
      cases ha : n'.run md ops with
      | error u =>
        rw [ha] at this
        cases hb : n2'.run md ops with
        | error v => rw [hb] at this; injection this with this; subst this; rfl
        | ok r => rw [hb] at this; cases this
      | ok r =>
        rw [ha] at this
        cases hb : n2'.run md ops with
        | error v => rw [hb] at this; cases this
        | ok r2 =>
          rw [hb] at this
          injection this with this
          have this : r2.2 = r.2 := this
          show Except.ok (c :: r2.2) = Except.ok (c :: r.2)
          rw [this]

theorem skip_run {md : Mode} {ops : List NavOp} {op : NavOp} {n n' : Nav} (h : n.step md op = .ok (n', []))
    (hs : SameNav n n') : (n.run md (op :: ops)).map (·.2) = (n.run md ops).map (fun r => [] :: r.2) := by
  have := sameNav_run (md := md) (ops := ops) hs
  conv => lhs; unfold Nav.run
  rw [h, ok_bind]
  dsimp only
  cases ha : n.run md ops with
  | error u =>
    rw [ha] at this
    cases hb : n'.run md ops with
    | error v => rw [hb] at this; injection this with this; subst this; rfl
    | ok r => rw [hb] at this; cases this
  | ok r =>
    rw [ha] at this
    cases hb : n'.run md ops with
    | error v => rw [hb] at this; cases this
    | ok r2 =>
      rw [hb] at this
      injection this with this
      have this : r2.2 = r.2 := this
      show Except.ok ([] :: r2.2) = Except.ok ([] :: r.2)
      rw [this]

/-- A GLONASS message that is not looked into has no effect. -/
theorem unseen_step {md : Mode} {n : Nav} {junk : List Byte} {m : Sfrbx} (hg : m.gnssId = GLONASS)
    (hd : 16 ≤ m.dwrd.length) (h : ¬ Seen n.gpsTime m.svId m.dwrd) :
    ∃ n', n.step md (.sfrbx junk m) = .ok (n', []) ∧ SameNav n n' := by
  obtain ⟨r, h1, h2, h3⟩ := decodeGlonass_unseen (md := md) (gn := m.gnssId) (fr := m.freqId) hd (n.gcur m.svId) h
  obtain ⟨n', h4, nx⟩ := (convertGlo_spec md n m).1 _ h1
  refine ⟨n', ?_, ?_, nav_ext nx.cbs.1 nx.cbs.2 nx.eph nx.time nx.rows⟩
  · unfold Nav.step convertUBX
    dsimp only
    rw [if_pos hg, h4, ok_bind, h3]; rfl
  · intro s
    by_cases hsv : s = m.svId
    · subst hsv
      conv => lhs; unfold Nav.gcur
      rw [nx.own, h2]; rfl
    · exact gcur_of_gentry (nx.other s hsv)

end Ublox.Nav
