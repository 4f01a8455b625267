import Verif.Model.TimePrint
import Verif.Spec.Calendar
import Verif.Lemmas.Base

/-!
# C97: printed times
-/

namespace Ublox.UTCTime

open Calendar

/-- What POSIX says of `gmtime`: for every time whose year fits an `int` it returns the calendar fields of that second. -/
structure IsGmtime (f : Int → Option Tm) : Prop where
  total : ∀ s, -60000000000000000 ≤ s → s ≤ 60000000000000000 → f s ≠ none
  right : ∀ s d, f s = some d → ∃ c : Stamp, c.Valid ∧ c.posix = s ∧
    d = ⟨c.year - 1900, c.month - 1, c.day, c.hour, c.min, c.sec⟩

/-- The text of a stamp: `year/month/day hour:minute:second`. -/
def text (c : Stamp) : List Char :=
  decInt c.year ++ '/' :: (decNat c.month ++ '/' :: (decNat c.day ++ ' ' :: (decNat c.hour ++ ':' ::
    (decNat c.min ++ ':' :: decNat c.sec))))

/-! ### Decimal numbers -/

/-- Reading a digit. -/
def undigit (c : Char) : Nat := c.toNat - 48

theorem undigit_digit {n : Nat} (h : n < 10) : undigit (digit n) = n := by
  have : ∀ n < 10, undigit (digit n) = n := by decide
  exact this n h

theorem digit_ne {n : Nat} (h : n < 10) : digit n ≠ '/' ∧ digit n ≠ ' ' ∧ digit n ≠ ':' ∧ digit n ≠ '-' := by
  have : ∀ n < 10, digit n ≠ '/' ∧ digit n ≠ ' ' ∧ digit n ≠ ':' ∧ digit n ≠ '-' := by decide
  exact this n h

/-- Reading a decimal number. -/
def undec (l : List Char) : Nat := l.foldl (fun a c => 10 * a + undigit c) 0

theorem undec_decNat (n : Nat) : undec (decNat n) = n := by
  induction n using Nat.strongRecOn with
  | _ n ih =>
    rw [decNat]
    split
    · rename_i h
      show 10 * 0 + undigit (digit n) = n
      rw [undigit_digit h]; omega
    · rename_i h
      unfold undec at *
      rw [List.foldl_append, ih (n / 10) (by omega)]
      show 10 * (n / 10) + undigit (digit (n % 10)) = n
      rw [undigit_digit (by omega)]; omega

theorem decNat_chars (n : Nat) : ∀ c ∈ decNat n, c ≠ '/' ∧ c ≠ ' ' ∧ c ≠ ':' ∧ c ≠ '-' := by
  induction n using Nat.strongRecOn with
  | _ n ih =>
    rw [decNat]
    split
    · rename_i h
      intro c hc
      rw [List.mem_singleton.1 hc]; exact digit_ne h
    · rename_i h
      intro c hc
      rcases List.mem_append.1 hc with hc | hc
      · exact ih (n / 10) (by omega) c hc
      · rw [List.mem_singleton.1 hc]; exact digit_ne (by omega)

theorem decNat_inj {a b : Nat} (h : decNat a = decNat b) : a = b := by
  rw [← undec_decNat a, h, undec_decNat]

theorem decInt_chars (n : Int) : ∀ c ∈ decInt n, c ≠ '/' ∧ c ≠ ' ' ∧ c ≠ ':' := by
  unfold decInt
  intro c hc
  split at hc
  · rcases List.mem_cons.1 hc with rfl | hc
    · decide
    · have := decNat_chars _ c hc; exact ⟨this.1, this.2.1, this.2.2.1⟩
  · have := decNat_chars _ c hc; exact ⟨this.1, this.2.1, this.2.2.1⟩

theorem decInt_inj {a b : Int} (h : decInt a = decInt b) : a = b := by
  unfold decInt at h
  split at h <;> split at h
  · have := decNat_inj (List.cons.inj h).2; omega
  · exfalso
    exact (decNat_chars _ '-' (by rw [← h]; simp)).2.2.2 rfl
  · exfalso
    exact (decNat_chars _ '-' (by rw [h]; simp)).2.2.2 rfl
  · have := decNat_inj h; omega

theorem decInt_nat (n : Nat) : decInt n = decNat n := by
  unfold decInt
  rw [if_neg (by omega)]
  rfl

/-- A separator that occurs in neither first part splits equal texts. -/
theorem split_eq {c : Char} : ∀ {a a' b b' : List Char}, (∀ x ∈ a, x ≠ c) → (∀ x ∈ a', x ≠ c) →
    a ++ c :: b = a' ++ c :: b' → a = a' ∧ b = b'
  | [], [], _, _, _, _, h => ⟨rfl, (List.cons.inj h).2⟩
  | [], x :: _, _, _, _, h', h => absurd (List.cons.inj h).1.symm (h' x (by simp))
  | x :: _, [], _, _, h', _, h => absurd (List.cons.inj h).1 (h' x (by simp))
  | x :: a, y :: a', b, b', h1, h2, h => by
    obtain ⟨e1, e2⟩ := List.cons.inj h
    obtain ⟨e3, e4⟩ := split_eq (a := a) (a' := a') (fun z hz => h1 z (by simp [hz])) (fun z hz => h2 z (by simp [hz])) e2
    exact ⟨by rw [e1, e3], e4⟩

/-- The text determines the stamp. -/
theorem text_inj {c c' : Stamp} (h : text c = text c') : c = c' := by
  unfold text at h
  obtain ⟨e1, h⟩ := split_eq (fun x hx => (decInt_chars _ x hx).1) (fun x hx => (decInt_chars _ x hx).1) h
  obtain ⟨e2, h⟩ := split_eq (fun x hx => (decNat_chars _ x hx).1) (fun x hx => (decNat_chars _ x hx).1) h
  obtain ⟨e3, h⟩ := split_eq (fun x hx => (decNat_chars _ x hx).2.1) (fun x hx => (decNat_chars _ x hx).2.1) h
  obtain ⟨e4, h⟩ := split_eq (fun x hx => (decNat_chars _ x hx).2.2.1) (fun x hx => (decNat_chars _ x hx).2.2.1) h
  obtain ⟨e5, h⟩ := split_eq (fun x hx => (decNat_chars _ x hx).2.2.1) (fun x hx => (decNat_chars _ x hx).2.2.1) h
  obtain ⟨y, m, d, hh, mi, ss⟩ := c
  obtain ⟨y', m', d', hh', mi', ss'⟩ := c'
  simp only [Stamp.mk.injEq]
  exact ⟨decInt_inj e1, decNat_inj e2, decNat_inj e3, decNat_inj e4, decNat_inj e5, decNat_inj h⟩

/-! ### The calendar -/

theorem monthDays_bounds (y m : Int) : 28 ≤ monthDays y m ∧ monthDays y m ≤ 31 := by
  unfold monthDays
  split
  · split <;> omega
  · split <;> omega

theorem daysBefore_one (y : Int) : daysBefore y 1 = 0 := rfl

theorem daysBefore_succ (y : Int) {m : Nat} (h : 1 ≤ m) : daysBefore y (m + 1) = daysBefore y m + monthDays y m := by
  obtain ⟨k, rfl⟩ : ∃ k, m = k + 1 := ⟨m - 1, by omega⟩
  unfold daysBefore
  show (((List.range (k + 1)).map fun i => monthDays y (i + 1 : Nat)).sum) = _
  rw [List.range_succ, List.map_append, List.sum_append]
  simp

theorem daysBefore_nonneg (y : Int) (m : Nat) : 0 ≤ daysBefore y m := by
  have key : ∀ k, 0 ≤ daysBefore y (k + 1) := by
    intro k
    induction k with
    | zero => exact le_refl _
    | succ k ih =>
      rw [daysBefore_succ y (by omega)]
      have := (monthDays_bounds y (k + 1 : Nat)).1
      omega
  by_cases h : m = 0
  · subst h; exact le_refl _
  · have := key (m - 1)
    rwa [show m - 1 + 1 = m by omega] at this

theorem daysBefore_13 (y : Int) : daysBefore y 13 = yearDays y := by
  by_cases h : Leap y <;>
    simp [daysBefore, yearDays, List.range_succ, monthDays, h]

/-- Every day lies in a year. -/
theorem exists_year (n : Int) : ∃ y, daysTo y ≤ n ∧ n < daysTo (y + 1) := by
  have hy : ∀ y, 365 ≤ yearDays y := by intro y; unfold yearDays; split <;> omega
  induction n using Int.induction_on with
  | zero => exact ⟨1970, by decide, by decide⟩
  | succ n ih =>
    obtain ⟨y, h1, h2⟩ := ih
    by_cases h : (n : Int) + 1 < daysTo (y + 1)
    · exact ⟨y, by omega, h⟩
    · refine ⟨y + 1, by omega, ?_⟩
      have := daysTo_succ (y + 1); have := hy (y + 1)
      omega
  | pred n ih =>
    obtain ⟨y, h1, h2⟩ := ih
    by_cases h : daysTo y ≤ -(n : Int) - 1
    · exact ⟨y, h, by omega⟩
    · refine ⟨y - 1, ?_, ?_⟩
      · have := daysTo_succ (y - 1); have := hy (y - 1)
        rw [show y - 1 + 1 = y by omega] at *
        omega
      · rw [show y - 1 + 1 = y by omega]; omega

/-- Every day of a year lies in a month. -/
theorem exists_month (y k : Int) (h0 : 0 ≤ k) (h : k < yearDays y) : ∃ m : Nat, (1 ≤ m ∧ m ≤ 12) ∧ daysBefore y m ≤ k ∧
    k < daysBefore y m + monthDays y m := by
  rw [← daysBefore_13] at h
  have key : ∀ n : Nat, k < daysBefore y (n + 1) → ∃ m : Nat, (1 ≤ m ∧ m ≤ n) ∧ daysBefore y m ≤ k ∧
      k < daysBefore y m + monthDays y m := by
    intro n
    induction n with
    | zero => intro h; rw [daysBefore_one] at h; omega
    | succ n ih =>
      intro h
      by_cases h' : k < daysBefore y (n + 1)
      · obtain ⟨m, a, b, c⟩ := ih h'
        exact ⟨m, ⟨a.1, by omega⟩, b, c⟩
      · rw [daysBefore_succ y (by omega)] at h
        exact ⟨n + 1, ⟨by omega, le_refl _⟩, by omega, h⟩
  exact key 12 h

/-- Every POSIX second has a calendar stamp. -/
theorem exists_stamp (s : Int) : ∃ c : Stamp, c.Valid ∧ c.posix = s := by
  obtain ⟨y, a, b⟩ := exists_year (s / 86400)
  obtain ⟨m, hm, c, d⟩ := exists_month y (s / 86400 - daysTo y) (by omega) (by have := daysTo_succ y; omega)
  refine ⟨⟨y, m, (s / 86400 - daysTo y - daysBefore y m + 1).toNat, (s % 86400 / 3600).toNat, (s % 3600 / 60).toNat,
    (s % 60).toNat⟩, ⟨hm, ⟨?_, ?_⟩, ?_, ?_, ?_⟩, ?_⟩
  all_goals first | (show _ ≤ _; dsimp only; omega) | (show _ < _; dsimp only; omega) | skip
  unfold Stamp.posix
  dsimp only
  omega

theorem daysBefore_le (y : Int) {m : Nat} (h : m ≤ 12) : daysBefore y m ≤ 341 := by
  have key : ∀ k, (((List.range k).map fun i => monthDays y (i + 1 : Nat)).sum) ≤ 31 * k := by
    intro k
    induction k with
    | zero => simp
    | succ k ih =>
      rw [List.range_succ, List.map_append, List.sum_append]
      have := (monthDays_bounds y (k + 1 : Nat)).2
      simp only [List.map_cons, List.map_nil, List.sum_singleton]
      push_cast at *
      omega
  have := key (m - 1)
  unfold daysBefore
  omega

theorem daysTo_mono {y y' : Int} (h : y ≤ y') : daysTo y ≤ daysTo y' := by
  unfold daysTo
  omega

theorem daysBefore_mono (y : Int) {m m' : Nat} (h1 : 1 ≤ m) (h : m ≤ m') : daysBefore y m ≤ daysBefore y m' := by
  induction m', h using Nat.le_induction with
  | base => exact le_refl _
  | succ k hk ih =>
    rw [daysBefore_succ y (by omega)]
    have := (monthDays_bounds y k).1
    omega

/-- Different valid stamps are different seconds. -/
theorem stamp_unique {c c' : Stamp} (hv : c.Valid) (hv' : c'.Valid) (h : c.posix = c'.posix) : c = c' := by
  obtain ⟨y, m, d, hh, mi, ss⟩ := c
  obtain ⟨y', m', d', hh', mi', ss'⟩ := c'
  obtain ⟨m1, d1, h1, i1, s1⟩ := hv
  obtain ⟨m2, d2, h2, i2, s2⟩ := hv'
  unfold Stamp.posix at h
  dsimp only at *
  have hd : daysTo y + daysBefore y m + d = daysTo y' + daysBefore y' m' + d' := by omega
  have b0 : ∀ y (m : Nat), 1 ≤ m ∧ m ≤ 12 → daysBefore y m + monthDays y m ≤ yearDays y := by
    intro y m hm
    rw [← daysBefore_13, ← daysBefore_succ y hm.1]
    exact daysBefore_mono y (by omega) (by omega)
  have a1 := b0 y m m1
  have a2 := b0 y' m' m2
  have n1 := daysBefore_nonneg y m
  have n2 := daysBefore_nonneg y' m'
  have t1 := daysTo_succ y
  have t2 := daysTo_succ y'
  have hy : y = y' := by
    rcases lt_trichotomy y y' with hlt | rfl | hlt
    · have := daysTo_mono (show y + 1 ≤ y' by omega); omega
    · rfl
    · have := daysTo_mono (show y' + 1 ≤ y by omega); omega
  subst hy
  have hm : m = m' := by
    rcases Nat.lt_trichotomy m m' with hlt | rfl | hlt
    · have := daysBefore_mono y (by omega) (show m + 1 ≤ m' by omega)
      rw [daysBefore_succ y m1.1] at this; omega
    · rfl
    · have := daysBefore_mono y (by omega) (show m' + 1 ≤ m by omega)
      rw [daysBefore_succ y m2.1] at this; omega
  subst hm
  simp only [Stamp.mk.injEq, true_and]
  omega

/-- A valid stamp's year is bounded by its second. -/
theorem year_bounds {c : Stamp} (hv : c.Valid) (h1 : -1400000000000000 ≤ c.posix) (h2 : c.posix ≤ 1400000000000000) :
    -50000000 ≤ c.year ∧ c.year ≤ 50000000 := by
  have a := daysBefore_nonneg c.year c.month
  have b := daysBefore_le c.year hv.month.2
  have d := (monthDays_bounds c.year c.month).2
  have e := hv.day
  have f := hv.hour
  have g := hv.min
  have i := hv.sec
  unfold Stamp.posix daysTo at *
  omega

/-- Such a `gmtime` exists. -/
theorem exists_gmtime : ∃ f, IsGmtime f := by
  refine ⟨fun s => some ((fun c : Stamp => ⟨c.year - 1900, c.month - 1, c.day, c.hour, c.min, c.sec⟩)
    (exists_stamp s).choose), ⟨fun s _ _ => nofun, fun s d h => ?_⟩⟩
  exact ⟨_, (exists_stamp s).choose_spec.1, (exists_stamp s).choose_spec.2, (Option.some.inj h).symm⟩

/-- **C97.** For every time within 41 million years of 1970: what is printed is the text of its UTC calendar date and time of
day, and there is exactly one such date. -/
theorem c97_calendar (f : Int → Option Tm) (hf : IsGmtime f) (t : UTCTime) (h1 : -1298798110915200 < t.sec)
    (h2 : t.sec < 1298798110310400) : ∃ c : Stamp, (c.Valid ∧ c.posix = t.sec ∧ ∀ c' : Stamp, c'.Valid → c'.posix = t.sec → c' = c) ∧
      print f t = .ok (text c) := by
  cases hd : f t.sec with
  | none => exact absurd hd (hf.total _ (by omega) (by omega))
  | some d =>
    obtain ⟨c, hv, hp, rfl⟩ := hf.right _ _ hd
    refine ⟨c, ⟨hv, hp, fun c' v p => stamp_unique v hv (by rw [p, hp])⟩, ?_⟩
    obtain ⟨y1, y2⟩ := year_bounds hv (by omega) (by omega)
    have m := hv.month
    unfold print floorToInt
    have hw : int32 (t.sec.tdiv SEC_IN_WEEK) = .ok (t.sec.tdiv SEC_IN_WEEK) := by
      unfold int32 SEC_IN_WEEK
      refine if_pos ?_
      rcases Int.le_total 0 t.sec with h | h
      · rw [Int.tdiv_eq_ediv_of_nonneg h]; omega
      · obtain ⟨k, hk⟩ : ∃ k, t.sec = -k := ⟨-t.sec, by omega⟩
        rw [hk, Int.neg_tdiv, Int.tdiv_eq_ediv_of_nonneg (by omega)]; omega
    rw [hw, ok_bind, hd]
    dsimp only
    have hy : int32 (1900 + (c.year - 1900)) = .ok c.year := by
      rw [show 1900 + (c.year - 1900) = c.year by omega]
      unfold int32
      exact if_pos (by omega)
    have hm : int32 (1 + ((c.month : Int) - 1)) = .ok (c.month : Int) := by
      rw [show 1 + ((c.month : Int) - 1) = c.month by omega]
      unfold int32
      exact if_pos (by omega)
    rw [hy, ok_bind, hm, ok_bind]
    unfold text
    simp only [decInt_nat]

/-- **C97, the range.** Outside that range printing is undefined (an unused week number does not fit an `int`). -/
theorem c97_range (f : Int → Option Tm) (t : UTCTime) (h : t.sec ≤ -1298798110915200 ∨ 1298798110310400 ≤ t.sec) :
    ∃ e, print f t = .error e := by
  unfold print floorToInt
  have hw : ∃ e, int32 (t.sec.tdiv SEC_IN_WEEK) = .error e := by
    unfold int32 SEC_IN_WEEK
    refine ⟨_, if_neg ?_⟩
    rcases Int.le_total 0 t.sec with h | h
    · rw [Int.tdiv_eq_ediv_of_nonneg h]; omega
    · obtain ⟨k, hk⟩ : ∃ k, t.sec = -k := ⟨-t.sec, by omega⟩
      rw [hk, Int.neg_tdiv, Int.tdiv_eq_ediv_of_nonneg (by omega)]; omega
  obtain ⟨e, hw⟩ := hw
  exact ⟨e, by rw [hw]; rfl⟩

/-- **C97, telling times apart.** Two such times are printed alike exactly if they lie in the same second. -/
theorem c97_distinct (f : Int → Option Tm) (hf : IsGmtime f) (t t' : UTCTime) (h1 : -1298798110915200 < t.sec)
    (h2 : t.sec < 1298798110310400) (h1' : -1298798110915200 < t'.sec) (h2' : t'.sec < 1298798110310400) :
    print f t = print f t' ↔ t.sec = t'.sec := by
  constructor
  · intro h
    obtain ⟨c, ⟨-, p, -⟩, e⟩ := c97_calendar f hf t h1 h2
    obtain ⟨c', ⟨-, p', -⟩, e'⟩ := c97_calendar f hf t' h1' h2'
    rw [e, e'] at h
    rw [← p, ← p', text_inj (Except.ok.inj h)]
  · intro h
    unfold print
    rw [h]

/-- The last second of 29 February 2000; the fields are not padded. -/
theorem c97_example (f : Int → Option Tm) (hf : IsGmtime f) :
    print f ⟨951868799, 0⟩ = .ok ['2', '0', '0', '0', '/', '2', '/', '2', '9', ' ', '2', '3', ':', '5', '9', ':', '5', '9'] ∧
    print f ⟨0, 0⟩ = .ok ['1', '9', '7', '0', '/', '1', '/', '1', ' ', '0', ':', '0', ':', '0'] := by
  constructor
  · obtain ⟨c, ⟨-, -, u⟩, e⟩ := c97_calendar f hf ⟨951868799, 0⟩ (by decide) (by decide)
    rw [e, ← u ⟨2000, 2, 29, 23, 59, 59⟩ ⟨by decide, by decide, by decide, by decide, by decide⟩ (by decide)]
    simp [text, decInt, decNat, digit]
  · obtain ⟨c, ⟨-, -, u⟩, e⟩ := c97_calendar f hf ⟨0, 0⟩ (by decide) (by decide)
    rw [e, ← u ⟨1970, 1, 1, 0, 0, 0⟩ ⟨by decide, by decide, by decide, by decide, by decide⟩ (by decide)]
    simp [text, decInt, decNat, digit]

end Ublox.UTCTime
