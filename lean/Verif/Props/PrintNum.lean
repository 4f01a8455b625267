import Verif.Spec.PrintNum
import Verif.Model.PrintNum
import Verif.Lemmas.Double
import Verif.Props.TimePrint
import Mathlib.Tactic.Linarith
import Mathlib.Tactic.Ring
import Mathlib.Tactic.FieldSimp
import Mathlib.Tactic.NormNum

/-!
# C130: printed numbers
-/

namespace Ublox.Print

open UTCTime (decNat decInt digit undec undec_decNat undigit undigit_digit)
open Dbl64 PrintSpec

/-! ### Digits -/

theorem natOf_append (a b : List Char) : natOf (a ++ b) = natOf a * 10 ^ b.length + natOf b := by
  unfold natOf
  rw [List.foldl_append]
  generalize a.foldl (fun a c => 10 * a + (c.toNat - 48)) 0 = x
  have : ∀ (b : List Char) (x y : Nat), b.foldl (fun a c => 10 * a + (c.toNat - 48)) (x + y) =
      x * 10 ^ b.length + b.foldl (fun a c => 10 * a + (c.toNat - 48)) y := by
    intro b
    induction b with
    | nil => intro x y; simp
    | cons c b ih =>
      intro x y
      simp only [List.foldl_cons, List.length_cons]
      rw [show 10 * (x + y) + (c.toNat - 48) = 10 * x + (10 * y + (c.toNat - 48)) by ring, ih, Nat.pow_succ]
      ring
  have := this b x 0
  rw [Nat.add_zero] at this
  exact this

theorem natOf_decNat (n : Nat) : natOf (decNat n) = n := undec_decNat n

theorem digit_isDigit {n : Nat} (h : n < 10) : (digit n).isDigit = true ∧ digit n ≠ '.' ∧ digit n ≠ 'e' ∧ digit n ≠ '-' := by
  have : ∀ n < 10, (digit n).isDigit = true ∧ digit n ≠ '.' ∧ digit n ≠ 'e' ∧ digit n ≠ '-' := by decide
  exact this n h

theorem isDigit_ne {c : Char} (h : c.isDigit = true) : c ≠ '.' ∧ c ≠ 'e' ∧ c ≠ '-' := by
  refine ⟨?_, ?_, ?_⟩ <;> rintro rfl <;> exact absurd h (by decide)

theorem decNat_digits (n : Nat) : Digits (decNat n) = true := by
  have h : ∀ n, decNat n ≠ [] ∧ ∀ c ∈ decNat n, c.isDigit = true := by
    intro n
    induction n using Nat.strongRecOn with
    | _ n ih =>
      rw [decNat]
      split
      · rename_i h
        exact ⟨by simp, fun c hc => by rw [List.mem_singleton.1 hc]; exact (digit_isDigit h).1⟩
      · refine ⟨by simp, fun c hc => ?_⟩
        rcases List.mem_append.1 hc with hc | hc
        · exact (ih (n / 10) (by omega)).2 c hc
        · rw [List.mem_singleton.1 hc]; exact (digit_isDigit (by omega)).1
  unfold Digits
  rw [Bool.and_eq_true]
  exact ⟨decide_eq_true (h n).1, List.all_eq_true.2 (h n).2⟩

theorem padNat_length (n k : Nat) : (padNat n k).length = n := by
  induction n generalizing k with
  | zero => rfl
  | succ n ih => rw [padNat, List.length_append, ih]; rfl

theorem padNat_isDigit (n k : Nat) : ∀ c ∈ padNat n k, c.isDigit = true := by
  induction n generalizing k with
  | zero => intro c hc; cases hc
  | succ n ih =>
    intro c hc
    rw [padNat] at hc
    rcases List.mem_append.1 hc with hc | hc
    · exact ih _ c hc
    · rw [List.mem_singleton.1 hc]; exact (digit_isDigit (by omega)).1

theorem natOf_padNat (n k : Nat) : natOf (padNat n k) = k % 10 ^ n := by
  induction n generalizing k with
  | zero => rw [padNat, Nat.pow_zero, Nat.mod_one]; rfl
  | succ n ih =>
    rw [padNat, natOf_append, ih]
    have : natOf [digit (k % 10)] = k % 10 := by
      have := undigit_digit (n := k % 10) (by omega)
      show 10 * 0 + undigit (digit (k % 10)) = _
      omega
    rw [this, List.length_singleton, Nat.pow_one, Nat.pow_succ, Nat.mul_comm (10 ^ n) 10, Nat.mod_mul]
    omega

/-! ### Reading back -/

theorem takeWhile_all {p : Char → Bool} {l r : List Char} (h : ∀ c ∈ l, p c = true) (hr : ∀ c ∈ r.head?, p c = false) :
    (l ++ r).takeWhile p = l ∧ (l ++ r).dropWhile p = r := by
  induction l with
  | nil =>
    cases r with
    | nil => exact ⟨rfl, rfl⟩
    | cons c r =>
      have := hr c rfl
      simp [this]
  | cons c l ih =>
    have hc := h c List.mem_cons_self
    obtain ⟨a, b⟩ := ih fun x hx => h x (List.mem_cons_of_mem _ hx)
    exact ⟨by rw [List.cons_append, List.takeWhile_cons, if_pos hc, a], by rw [List.cons_append, List.dropWhile_cons, if_pos hc, b]⟩

theorem digits_iff {l : List Char} : Digits l = true ↔ l ≠ [] ∧ ∀ c ∈ l, c.isDigit = true := by
  unfold Digits
  rw [Bool.and_eq_true, decide_eq_true_iff, List.all_eq_true]

/-- The text of an unsigned number, as `readPos` reads it. -/
theorem readPos_text {ip fp ex : List Char} {e : Int} (hi : Digits ip = true) (hf : ∀ c ∈ fp, c.isDigit = true)
    (he : readExp ex = some e) (hx : ∀ c ∈ ex.head?, c = 'e') :
    readPos (ip ++ (if fp = [] then [] else '.' :: fp) ++ ex) = some ((natOf (ip ++ fp) : ℚ) / 10 ^ fp.length * (10 : ℚ) ^ e) := by
  obtain ⟨hi1, hi2⟩ := digits_iff.1 hi
  generalize hm : ip ++ (if fp = [] then [] else '.' :: fp) = mant
  have hm' : ∀ c ∈ mant, (decide (c ≠ 'e')) = true := by
    intro c hc
    rw [← hm] at hc
    refine decide_eq_true ?_
    rcases List.mem_append.1 hc with hc | hc
    · exact (isDigit_ne (hi2 c hc)).2.1
    · split at hc
      · cases hc
      · rcases List.mem_cons.1 hc with rfl | hc
        · decide
        · exact (isDigit_ne (hf c hc)).2.1
  obtain ⟨t1, t2⟩ := takeWhile_all (p := fun c => decide (c ≠ 'e')) (l := mant) (r := ex) hm' (fun c hc => by
    rw [hx c hc]; decide)
  obtain ⟨s1, s2⟩ := takeWhile_all (p := fun c => decide (c ≠ '.')) (l := ip) (r := if fp = [] then [] else '.' :: fp)
    (fun c hc => decide_eq_true (isDigit_ne (hi2 c hc)).1) (fun c hc => by
      split at hc
      · cases hc
      · cases Option.some.inj hc; decide)
  rw [hm] at s1 s2
  unfold readPos
  dsimp only
  rw [t2, he, t1, s1, s2]
  dsimp only
  by_cases hn : fp = []
  · subst hn
    rw [if_pos rfl] at hm ⊢
    rw [List.append_nil] at hm
    rw [if_pos ⟨hi, .inl hm.symm⟩]
    rfl
  · rw [if_neg hn]
    rw [List.drop_one, List.tail_cons, if_pos ⟨hi, .inr (digits_iff.2 ⟨hn, hf⟩)⟩]

theorem readNum_pos {l : List Char} (h : ∀ c ∈ l.head?, c ≠ '-') : readNum l = readPos l := by
  unfold readNum
  split
  · rename_i r
    exact absurd rfl (h '-' rfl)
  · rfl

/-- Reading a signed text. -/
theorem readNum_sign {q v : ℚ} {l : List Char} (h : readPos l = some v) (hh : ∀ c ∈ l.head?, c ≠ '-') :
    readNum (signText q ++ l) = some (if q < 0 then -v else v) := by
  unfold signText
  split
  · show (readPos l).map _ = _
    rw [h]; rfl
  · rw [List.nil_append, readNum_pos hh, h]

theorem head_digits {l r : List Char} (h : Digits l = true) : ∀ c ∈ (l ++ r).head?, c ≠ '-' := by
  obtain ⟨h1, h2⟩ := digits_iff.1 h
  cases l with
  | nil => exact absurd rfl h1
  | cons x l =>
    intro c hc
    cases Option.some.inj hc
    exact (isDigit_ne (h2 _ List.mem_cons_self)).2.2

theorem abs_sign {q v : ℚ} {tol : ℚ} (h : |v - abs q| ≤ tol) : |(if q < 0 then -v else v) - q| ≤ tol := by
  split
  · rename_i hq
    rw [abs_of_neg hq] at h
    rw [show -v - q = -(v - -q) by ring, abs_neg]
    exact h
  · rename_i hq
    rw [abs_of_nonneg (not_lt.1 hq)] at h
    exact h

theorem toNat_cast {z : ℤ} (h : 0 ≤ z) : ((z.toNat : Nat) : ℚ) = (z : ℚ) := by
  have : ((z.toNat : Nat) : ℤ) = z := Int.toNat_of_nonneg h
  exact_mod_cast congrArg (fun x : ℤ => (x : ℚ)) this

/-! ### `%.nf` -/

/-- C130. `printf("%.nf", q)` writes a decimal number that differs from `q` by at most half a unit of the last place. -/
theorem c130_fixed (n : Nat) (hn : 0 < n) (q : ℚ) : ShowsNum (fixText n q) q (1 / 2 / 10 ^ n) := by
  have hp : (0 : ℚ) < 10 ^ n := by positivity
  unfold fixText
  dsimp only
  have h0 : 0 ≤ roundEven (|q| * 10 ^ n) := roundEven_ge (by push_cast; positivity)
  generalize hm : (roundEven (|q| * 10 ^ n)).toNat = m
  have hmq : (m : ℚ) = roundEven (|q| * 10 ^ n) := by rw [← hm]; exact toNat_cast h0
  have hne : padNat n (m % 10 ^ n) ≠ [] := by
    intro h
    have := padNat_length n (m % 10 ^ n)
    rw [h] at this
    simp at this; omega
  have hr := readPos_text (ip := decNat (m / 10 ^ n)) (fp := padNat n (m % 10 ^ n)) (ex := []) (e := 0) (decNat_digits _)
    (padNat_isDigit _ _) rfl (by intro c hc; cases hc)
  rw [if_neg hne, List.append_nil] at hr
  refine ⟨_, by rw [List.append_assoc]; exact readNum_sign hr (head_digits (decNat_digits _)), abs_sign ?_⟩
  rw [natOf_append, natOf_decNat, natOf_padNat, padNat_length, Nat.mod_mod, Nat.div_add_mod' m (10 ^ n), zpow_zero, mul_one, hmq]
  have := roundEven_err (|q| * 10 ^ n)
  rw [show (roundEven (|q| * 10 ^ n) : ℚ) / 10 ^ n - |q| = (roundEven (|q| * 10 ^ n) - |q| * 10 ^ n) / 10 ^ n by field_simp, abs_div,
    abs_of_pos hp]
  gcongr

/-! ### `%g` -/

theorem strip_zeros (l : List Char) : ∃ k, l = (l.reverse.dropWhile (· == '0')).reverse ++ List.replicate k '0' := by
  have h := List.takeWhile_append_dropWhile (p := (· == '0')) (l := l.reverse)
  have h2 : ∀ c ∈ l.reverse.takeWhile (· == '0'), c = '0' := by
    intro c hc
    have : ∀ (l : List Char), ∀ c ∈ l.takeWhile (· == '0'), c = '0' := by
      intro l
      induction l with
      | nil => intro c hc; cases hc
      | cons x l ih =>
        intro c hc
        rw [List.takeWhile_cons] at hc
        split at hc
        · rename_i hx
          rcases List.mem_cons.1 hc with rfl | hc
          · simpa using hx
          · exact ih c hc
        · cases hc
    exact this _ c hc
  refine ⟨(l.reverse.takeWhile (· == '0')).length, ?_⟩
  have h3 := congrArg List.reverse h
  rw [List.reverse_append, List.reverse_reverse] at h3
  conv_lhs => rw [← h3]
  congr 1
  rw [List.eq_replicate_of_mem h2, List.reverse_replicate, List.length_replicate]

theorem natOf_zeros (k : Nat) : natOf (List.replicate k '0') = 0 := by
  induction k with
  | zero => rfl
  | succ k ih => rw [List.replicate_succ', natOf_append, ih]; rfl

/-- Trailing zeros after the point do not matter. -/
theorem value_strip (ip l : List Char) :
    (natOf (ip ++ (l.reverse.dropWhile (· == '0')).reverse) : ℚ) / 10 ^ ((l.reverse.dropWhile (· == '0')).reverse).length =
      (natOf (ip ++ l) : ℚ) / 10 ^ l.length := by
  obtain ⟨k, hk⟩ := strip_zeros l
  generalize (l.reverse.dropWhile (· == '0')).reverse = s at hk
  subst hk
  rw [← List.append_assoc, natOf_append (ip ++ s), natOf_zeros, List.length_append, List.length_replicate, Nat.add_zero, pow_add,
    Nat.cast_mul, Nat.cast_pow, Nat.cast_ofNat]
  have : (10 : ℚ) ^ k ≠ 0 := by positivity
  field_simp

theorem readPos_general {m n : Nat} {ex : List Char} {e : Int} (he : readExp ex = some e) (hx : ∀ c ∈ ex.head?, c = 'e') :
    readPos (decNat (m / 10 ^ n) ++ fracText (padNat n (m % 10 ^ n)) ++ ex) = some ((m : ℚ) / 10 ^ n * (10 : ℚ) ^ e) := by
  have hr := readPos_text (ip := decNat (m / 10 ^ n)) (fp := ((padNat n (m % 10 ^ n)).reverse.dropWhile (· == '0')).reverse) (ex := ex)
    (e := e) (decNat_digits _) (fun c hc => padNat_isDigit _ _ c (by
      have := List.mem_reverse.1 hc
      exact List.mem_reverse.1 (List.dropWhile_subset _ this))) he hx
  rw [value_strip, natOf_append, natOf_decNat, natOf_padNat, padNat_length, Nat.mod_mod, Nat.div_add_mod' m (10 ^ n)] at hr
  exact hr

theorem readExp_text (e : Int) : readExp (expText e) = some e := by
  have hd : ∀ k : Nat, Digits (if k < 10 then padNat 2 k else decNat k) = true ∧ natOf (if k < 10 then padNat 2 k else decNat k) = k := by
    intro k
    split
    · rename_i h
      refine ⟨digits_iff.2 ⟨?_, padNat_isDigit _ _⟩, ?_⟩
      · intro hh; have := padNat_length 2 k; rw [hh] at this; cases this
      · rw [natOf_padNat]; exact Nat.mod_eq_of_lt (by omega)
    · exact ⟨decNat_digits _, natOf_decNat _⟩
  obtain ⟨h1, h2⟩ := hd e.natAbs
  unfold expText
  split
  · show (if Digits _ then _ else none) = _
    rw [if_pos h1, h2]
    congr 1; omega
  · show (if Digits _ then _ else none) = _
    rw [if_pos h1, h2]
    congr 1; omega

theorem ten_log {q : ℚ} (hq : q ≠ 0) : (10 : ℚ) ^ Int.log 10 |q| ≤ |q| ∧ |q| < (10 : ℚ) ^ (Int.log 10 |q| + 1) := by
  have h := abs_pos.2 hq
  exact ⟨by exact_mod_cast Int.zpow_log_le_self (b := 10) (by norm_num) h, by exact_mod_cast Int.lt_zpow_succ_log_self (b := 10) (by norm_num) |q|⟩

theorem sixDigits_spec {q : ℚ} (hq : q ≠ 0) :
    100000 ≤ (sixDigits q).1 ∧ (sixDigits q).1 < 1000000 ∧
      |((sixDigits q).1 : ℚ) * 10 ^ ((sixDigits q).2 - 5) - abs q| ≤ |q| * (5 / 10 ^ 6) := by
  obtain ⟨h1, h2⟩ := ten_log hq
  unfold sixDigits
  dsimp only
  generalize Int.log 10 |q| = e at h1 h2 ⊢
  generalize hz : |q| * 10 ^ (5 - e) = z
  have hp : (0 : ℚ) < 10 ^ (5 - e) := zpow_pos (by norm_num) _
  have z1 : ((100000 : ℤ) : ℚ) ≤ z := by
    rw [← hz]
    have := mul_le_mul_of_nonneg_right h1 hp.le
    rw [← zpow_add₀ (by norm_num), show e + (5 - e) = 5 by ring] at this
    norm_num at this ⊢
    linarith
  have z2 : z ≤ ((1000000 : ℤ) : ℚ) := by
    rw [← hz]
    have := mul_le_mul_of_nonneg_right h2.le hp.le
    rw [← zpow_add₀ (by norm_num), show e + 1 + (5 - e) = 6 by ring] at this
    norm_num at this ⊢
    linarith
  have r1 := roundEven_ge z1
  have r2 := roundEven_le z2
  have r3 := roundEven_err z
  generalize roundEven z = r at r1 r2 r3 ⊢
  have hr : ((r.toNat : Nat) : ℚ) = r := toNat_cast (by omega)
  have hinv : (10 : ℚ) ^ (5 - e) * 10 ^ (e - 5) = 1 := by rw [← zpow_add₀ (by norm_num), show 5 - e + (e - 5) = 0 by ring, zpow_zero]
  have hq' : |q| = z * 10 ^ (e - 5) := by rw [← hz, mul_assoc, hinv, mul_one]
  have hpe : (0 : ℚ) < 10 ^ (e - 5) := zpow_pos (by norm_num) _
  have herr : |(r : ℚ) * 10 ^ (e - 5) - abs q| ≤ |q| * (5 / 10 ^ 6) := by
    rw [hq', ← sub_mul, abs_mul, abs_of_pos hpe]
    have : |(r : ℚ) - z| ≤ z * (5 / 10 ^ 6) := by
      have hz5 : (100000 : ℚ) ≤ z := by exact_mod_cast z1
      linarith
    calc |(r : ℚ) - z| * 10 ^ (e - 5) ≤ z * (5 / 10 ^ 6) * 10 ^ (e - 5) := mul_le_mul_of_nonneg_right this hpe.le
      _ = _ := by ring
  split
  · rename_i hm
    refine ⟨by norm_num, by norm_num, ?_⟩
    have hr6 : (r : ℚ) = 1000000 := by rw [← hr, hm]; norm_num
    have : ((100000 : Nat) : ℚ) * 10 ^ (e + 1 - 5) = (r : ℚ) * 10 ^ (e - 5) := by
      rw [show e + 1 - 5 = 1 + (e - 5) by ring, zpow_add₀ (by norm_num), zpow_one, hr6]
      push_cast; ring
    rw [this]
    exact herr
  · rename_i hm
    refine ⟨by omega, by omega, ?_⟩
    dsimp only
    rw [hr]
    exact herr

/-- C130. `std::ostream << q` (default settings) writes a decimal number, with at most six significant digits, that differs from
`q` by at most five units of the seventh digit: one part in 200000. -/
theorem c130_general (q : ℚ) : ShowsNum (genText q) q (|q| * (5 / 10 ^ 6)) ∧
    ∃ (m : Nat) (k : Int), m < 10 ^ 6 ∧ readNum (genText q) = some ((if q < 0 then -1 else 1 : ℚ) * ((m : ℚ) * (10 : ℚ) ^ k)) := by
  by_cases hq : q = 0
  · subst hq
    have : readNum (genText 0) = some 0 := by decide +kernel
    exact ⟨⟨0, this, by norm_num⟩, 0, 0, by norm_num, by rw [this]; norm_num⟩
  obtain ⟨s1, s2, s3⟩ := sixDigits_spec hq
  have key : readNum (genText q) = some (if q < 0 then -(((sixDigits q).1 : ℚ) * 10 ^ ((sixDigits q).2 - 5)) else
      ((sixDigits q).1 : ℚ) * 10 ^ ((sixDigits q).2 - 5)) := by
    unfold genText
    rw [if_neg hq]
    generalize hme : sixDigits q = me at s1 s2 s3
    obtain ⟨m, e⟩ := me
    dsimp only at s1 s2 s3 ⊢
    split
    · rename_i he
      have hr := readPos_general (m := m) (n := (5 - e).toNat) (ex := []) (e := 0) rfl (by intro c hc; cases hc)
      rw [List.append_nil] at hr
      rw [readNum_sign hr (head_digits (decNat_digits _))]
      have : (m : ℚ) / 10 ^ (5 - e).toNat * 10 ^ (0 : ℤ) = m * 10 ^ (e - 5) := by
        rw [zpow_zero, mul_one, ← zpow_natCast, Int.toNat_of_nonneg (by omega), div_eq_mul_inv, ← zpow_neg]
        congr 2; ring
      rw [this]
    · have hr := readPos_general (m := m) (n := 5) (ex := expText e) (e := e) (readExp_text e) (by intro c hc; cases Option.some.inj hc; rfl)
      rw [show (10 : Nat) ^ 5 = 100000 by norm_num] at hr
      rw [readNum_sign hr (by rw [List.append_assoc]; exact head_digits (decNat_digits _))]
      have : (m : ℚ) / 10 ^ 5 * 10 ^ e = m * 10 ^ (e - 5) := by
        rw [zpow_sub₀ (by norm_num)]; norm_num; ring
      rw [this]
  refine ⟨⟨_, key, abs_sign s3⟩, (sixDigits q).1, (sixDigits q).2 - 5, by norm_num; exact s2, ?_⟩
  rw [key]
  congr 1
  split <;> ring

example : genText (-1 / 3) = "-0.333333".toList ∧ genText 5153 = "5153".toList ∧ genText (1 / 4294967296) = "2.32831e-10".toList ∧
    genText 999999.5 = "1e+06".toList ∧ genText (123456789 / 10) = "1.23457e+07".toList ∧ fixText 3 (-5 / 4) = "-1.250".toList := by
  decide +kernel

end Ublox.Print
