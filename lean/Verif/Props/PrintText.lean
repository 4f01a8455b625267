import Verif.Props.PrintNum
import Verif.Props.RosDbl
import Verif.Props.Console

/-!
# C130: the characters the example programs write for the numbers of a message
-/

namespace Ublox.Print

open UTCTime (decNat decInt digit)
open Dbl64 PrintSpec

theorem leU_lt (b : List Byte) : ∀ n off, leU b off n < 256 ^ n
  | 0, _ => by simp [leU]
  | n + 1, off => by
    have h1 := leU_lt b n (off + 1)
    have h2 := (b.getD off 0).isLt
    rw [leU, pow_succ]
    omega

theorem read_abs (t : Ty) (b : List Byte) (off : Nat) (ht : t.size ≤ 4) : |t.read b off| ≤ 2 ^ 32 := by
  have key : ∀ n, n ≤ 4 → (256 : Nat) ^ n ≤ 2 ^ 32 := fun n hn => by
    calc (256 : Nat) ^ n ≤ 256 ^ 4 := Nat.pow_le_pow_right (by norm_num) hn
      _ = _ := by norm_num
  have key' : ∀ n, n ≤ 4 → |(leU b off n : Int)| ≤ 2 ^ 32 := fun n hn => by
    have := leU_lt b n off
    have := key n hn
    rw [abs_of_nonneg (Int.natCast_nonneg _)]
    have h3 : leU b off n ≤ 2 ^ 32 := by omega
    exact_mod_cast h3
  cases t with
  | u n => exact key' n ht
  | r n => exact key' n ht
  | pad n => exact key' n ht
  | i n =>
    unfold Ty.read toSigned
    dsimp only
    split
    · exact key' n ht
    · have h1 := leU_lt b n off
      have h2 := key n ht
      have h3 : (leU b off n : Int) < 256 ^ n := by exact_mod_cast h1
      have h4 : (256 : Int) ^ n ≤ 2 ^ 32 := by exact_mod_cast h2
      rw [abs_le]
      omega

theorem get_abs {l : Layout} {name : String} {o : Nat} {t : Ty} (b : List Byte) (hf : l.find name = some (o, t))
    (ht : t.size ≤ 4) : |l.get name b| ≤ 2 ^ 32 := by
  unfold Layout.get
  rw [hf]
  exact read_abs t b _ ht

theorem scaled_near (n : Int) {k : ℚ} (hk : 1 / 2 ^ 60 ≤ k) : |scaled n k - n * k| ≤ |(n : ℚ) * k| / 2 ^ 50 := by
  have := Ros.close_of (Ros.within_scaled n hk) (by norm_num)
  exact this

theorem scaled_bound (n : Int) {k : ℚ} (hn : |n| ≤ 2 ^ 32) (hk : 1 / 2 ^ 60 ≤ k) (hk' : k ≤ 1 / 100) :
    |scaled n k - n * k| ≤ 1 / 2 ^ 24 := by
  refine le_trans (scaled_near n hk) ?_
  have h0 : 0 ≤ k := le_trans (by norm_num) hk
  have h1 : |(n : ℚ)| ≤ 2 ^ 32 := by exact_mod_cast hn
  rw [abs_mul, abs_of_nonneg h0]
  have := mul_le_mul h1 hk' h0 (by norm_num)
  have e : (2 : ℚ) ^ 32 * (1 / 100) / 2 ^ 50 ≤ 1 / 2 ^ 24 := by norm_num
  refine le_trans ?_ e
  exact div_le_div_of_nonneg_right this (by norm_num)

theorem shows_near {n : Nat} {v q : ℚ} (hn : 0 < n) (h : |v - q| ≤ 1 / 10 ^ 7) :
    ShowsNum (fixText n v) q (1 / 2 / 10 ^ n + 1 / 10 ^ 7) := by
  obtain ⟨w, hw, he⟩ := c130_fixed n hn v
  refine ⟨w, hw, ?_⟩
  calc |w - q| = |(w - v) + (v - q)| := by ring_nf
    _ ≤ |w - v| + |v - q| := abs_add_le _ _
    _ ≤ _ := add_le_add he h

theorem shows_scaled {n : Nat} (m : Int) {k q : ℚ} (hn : 0 < n) (hm : |m| ≤ 2 ^ 32) (hk : 1 / 2 ^ 60 ≤ k) (hk' : k ≤ 1 / 100)
    (hq : (m : ℚ) * k = q) : ShowsNum (fixText n (scaled m k)) q (1 / 2 / 10 ^ n + 1 / 10 ^ 7) := by
  refine shows_near hn ?_
  rw [← hq]
  exact le_trans (scaled_bound m hm hk hk') (by norm_num)

theorem shows_pos (m hp : Int) (hm : |m| ≤ 2 ^ 32) (hhp : |hp| ≤ 2 ^ 32) :
    ShowsNum (fixText 6 (rne (scaled m (1 / 100) + scaled hp (1 / 10000)))) ((m : ℚ) / 100 + hp / 10000)
      (1 / 2 / 10 ^ 6 + 1 / 10 ^ 7) := by
  have e1 := scaled_near m (k := 1 / 100) (by norm_num)
  have e2 := scaled_near hp (k := 1 / 10000) (by norm_num)
  have m1 : |(m : ℚ)| ≤ 2 ^ 32 := by exact_mod_cast hm
  have m2 : |(hp : ℚ)| ≤ 2 ^ 32 := by exact_mod_cast hhp
  rw [abs_mul, abs_of_pos (by norm_num : (0 : ℚ) < 1 / 100)] at e1
  rw [abs_mul, abs_of_pos (by norm_num : (0 : ℚ) < 1 / 10000)] at e2
  generalize scaled m (1 / 100) = x at *
  generalize scaled hp (1 / 10000) = y at *
  rw [abs_le] at e1 e2 m1 m2
  have hs : |x + y| < (2 : ℚ) ^ (26 : ℤ) := by
    norm_num at *
    rw [abs_lt]
    have := abs_le.2 m1
    have := abs_le.2 m2
    constructor <;> linarith
  have hr := le_trans (rne_err (x + y)) (div_le_div_of_nonneg_right
    (zpow_le_zpow_right₀ (by norm_num : (1 : ℚ) ≤ 2) (ulpExp_le hs)) (by norm_num))
  refine shows_near (by norm_num) ?_
  have hA := abs_le.2 m1
  have hB := abs_le.2 m2
  rw [abs_le] at hr ⊢
  norm_num at *
  constructor <;> linarith


theorem fixText_places (n : Nat) (q : ℚ) : Places n (fixText n q) := by
  unfold fixText
  dsimp only
  refine ⟨_, _, rfl, padNat_length _ _, fun h => ?_⟩
  exact (isDigit_ne (padNat_isDigit _ _ _ h)).1 rfl

/-! ### Floating-point members -/

theorem ieee_single (b : Nat) : ofBits32 b = ieee 8 23 b := by
  unfold ofBits32 ieee
  dsimp only
  have hs : b.testBit 31 = decide (b / 2 ^ (8 + 23) % 2 = 1) := by rw [Nat.testBit_eq_decide_div_mod_eq]
  rw [hs]
  simp only [decide_eq_true_eq]
  generalize (if b / 2 ^ (8 + 23) % 2 = 1 then (-1 : ℚ) else 1) = s
  generalize b / 2 ^ 23 % 2 ^ 8 = ex
  generalize b % 2 ^ 23 = fr
  rw [show (2 : Nat) ^ 8 - 1 = 255 by norm_num]
  split
  · rfl
  · split
    · congr 1
      norm_num [zpow_neg, zpow_ofNat]
      ring
    · congr 1
      have e : (2 : ℚ) ^ ((ex : ℤ) - (2 ^ (8 - 1) - 1)) = 2 ^ ((ex : ℤ) - 150) * 2 ^ 23 := by
        rw [← zpow_natCast, ← zpow_add₀ (by norm_num)]
        congr 1
        push_cast; ring
      rw [e]
      push_cast
      ring

theorem ieee_double (b : Nat) : ofBits b = ieee 11 52 b := by
  unfold ofBits ieee
  dsimp only
  have hs : b.testBit 63 = decide (b / 2 ^ (11 + 52) % 2 = 1) := by rw [Nat.testBit_eq_decide_div_mod_eq]
  rw [hs]
  simp only [decide_eq_true_eq]
  generalize (if b / 2 ^ (11 + 52) % 2 = 1 then (-1 : ℚ) else 1) = s
  generalize b / 2 ^ 52 % 2 ^ 11 = ex
  generalize b % 2 ^ 52 = fr
  rw [show (2 : Nat) ^ 11 - 1 = 2047 by norm_num]
  split
  · rfl
  · split
    · congr 1
      have e : (2 : ℚ) ^ ((1 : ℤ) - (2 ^ (11 - 1) - 1)) = 2 ^ (-1074 : ℤ) * 2 ^ 52 := by
        rw [← zpow_natCast, ← zpow_add₀ (by norm_num)]
        rfl
      rw [e]
      ring
    · congr 1
      have e : (2 : ℚ) ^ ((ex : ℤ) - (2 ^ (11 - 1) - 1)) = 2 ^ ((ex : ℤ) - 1075) * 2 ^ 52 := by
        rw [← zpow_natCast, ← zpow_add₀ (by norm_num)]
        congr 1
        push_cast; ring
      rw [e]
      push_cast
      ring

/-- The sign bit is the sign of the value. -/
theorem ieee_sign {e f b : Nat} {q : ℚ} (h : ieee e f b = some q) :
    if b.testBit (e + f) then q = -|q| else q = |q| := by
  unfold ieee at h
  dsimp only at h
  have hs : b.testBit (e + f) = decide (b / 2 ^ (e + f) % 2 = 1) := by rw [Nat.testBit_eq_decide_div_mod_eq]
  rw [hs]
  have hz : ∀ z : ℤ, (0 : ℚ) < 2 ^ z := fun z => zpow_pos (by norm_num) z
  have hf : (0 : ℚ) ≤ (b % 2 ^ f : Nat) / 2 ^ f := by positivity
  split at h
  · cases h
  by_cases hb : b / 2 ^ (e + f) % 2 = 1
  · simp only [hb, decide_true, if_true] at h ⊢
    rw [abs_of_nonpos, neg_neg]
    split at h
    · cases h; nlinarith [hz (1 - (2 ^ (e - 1) - 1)), mul_nonneg (hz (1 - (2 ^ (e - 1) - 1))).le hf]
    · cases h
      have := mul_pos (hz ((b / 2 ^ f % 2 ^ e : Nat) - (2 ^ (e - 1) - 1))) (by linarith : (0 : ℚ) < 1 + (b % 2 ^ f : Nat) / 2 ^ f)
      linarith
  · rw [if_neg hb] at h
    rw [if_neg (by simpa using hb)]
    rw [abs_of_nonneg]
    split at h
    · cases h; rw [one_mul]; exact mul_nonneg (hz _).le hf
    · cases h; rw [one_mul]; exact mul_nonneg (hz _).le (by linarith)

theorem fixText_abs {n : Nat} (hn : 0 < n) (neg : Bool) {q : ℚ} (h : if neg then q = -|q| else q = |q|) :
    ShowsNum ((if neg then ['-'] else []) ++ fixText n |q|) q (1 / 2 / 10 ^ n) := by
  obtain ⟨v, hv, he⟩ := c130_fixed n hn |q|
  cases neg with
  | false => rw [if_neg (by simp)] at h; rw [← h] at hv he ⊢; exact ⟨v, hv, he⟩
  | true =>
    rw [if_pos rfl] at h
    have hp : readPos (fixText n |q|) = some v := by
      rw [← hv, readNum_pos]
      unfold fixText signText
      rw [if_neg (by have := abs_nonneg q; linarith)]
      dsimp only
      rw [List.nil_append]
      exact head_digits (decNat_digits _)
    refine ⟨-v, ?_, ?_⟩
    · show (readPos (fixText n |q|)).map _ = _
      rw [hp]; rfl
    · rw [show -v - q = -(v - |q|) by linarith, abs_neg]; exact he

theorem renders_real {size n : Nat} (hs : size = 4 ∨ size = 8) (hn : 0 < n) (bits : Int) {ps : List Piece} {t : List Char}
    (h : Renders ps t) : Renders (.real size n bits :: ps) (realText size n bits ++ t) := by
  have key : ∀ (m : Option ℚ) (neg : Bool) (frac : Nat), member size bits = m →
      (∀ q, m = some q → if neg then q = -|q| else q = |q|) →
      Renders (.real size n bits :: ps) ((match m with
        | some q => (if neg then ['-'] else []) ++ fixText n |q|
        | none => (if neg then ['-'] else []) ++ (if frac = 0 then "inf" else "nan").toList) ++ t) := by
    intro m neg frac hm hq
    cases m with
    | none =>
      refine .word size n bits _ ps t hm ?_ h
      unfold Word
      cases neg <;> dsimp only <;> by_cases hf : frac = 0 <;> simp only [hf, if_true, if_false] <;> decide
    | some q =>
      refine .real size n bits q _ ps t hm (fixText_abs hn neg (hq q rfl)) ?_ h
      obtain ⟨a, b, h1, h2, h3⟩ := fixText_places n |q|
      exact ⟨(if neg then ['-'] else []) ++ a, b, by dsimp only; rw [h1, List.append_assoc], h2, h3⟩
  unfold realText
  dsimp only
  rcases hs with rfl | rfl
  · refine key _ _ _ ?_ ?_
    · unfold member
      rw [if_pos rfl, if_pos rfl, ieee_single]
    · intro q hq
      rw [if_pos rfl, ieee_single] at hq
      exact ieee_sign hq
  · refine key _ _ _ ?_ ?_
    · unfold member
      rw [if_neg (by decide), if_neg (by decide), ieee_double]
    · intro q hq
      rw [if_neg (by decide), ieee_double] at hq
      exact ieee_sign hq

/-! ### The reports -/

theorem renders_append {p1 p2 : List Piece} {t1 t2 : List Char} (h1 : Renders p1 t1) (h2 : Renders p2 t2) :
    Renders (p1 ++ p2) (t1 ++ t2) := by
  induction h1 with
  | nil => exact h2
  | txt s ps t _ ih => rw [List.append_assoc]; exact .txt _ _ _ ih
  | fixed n q a ps t hs hp _ ih => rw [List.append_assoc]; exact .fixed _ _ _ _ _ hs hp ih
  | real z n b q a ps t hm hs hp _ ih => rw [List.append_assoc]; exact .real _ _ _ _ _ _ _ hm hs hp ih
  | word z n b a ps t hm hw _ ih => rw [List.append_assoc]; exact .word _ _ _ _ _ _ hm hw ih

theorem r_lit (s : String) {ps : List Piece} {t : List Char} (h : Renders ps t) : Renders (lit s :: ps) (s.toList ++ t) := .txt _ _ _ h
theorem r_dec (n : Int) {ps : List Piece} {t : List Char} (h : Renders ps t) : Renders (dec n :: ps) (decInt n ++ t) := .txt _ _ _ h
theorem r_u32 (n : Int) {ps : List Piece} {t : List Char} (h : Renders ps t) :
    Renders (decU32 n :: ps) (decInt (if n < 2 ^ 31 then n else n - 2 ^ 32) ++ t) := .txt _ _ _ h

theorem r_pvt (name : String) {o : Nat} {t : Ty} (b : List Byte) (hf : navPvt.find name = some (o, t)) (ht : t.size ≤ 4)
    {k d : ℚ} (hk : 1 / 2 ^ 60 ≤ k) (hk' : k ≤ 1 / 100) (hd : k = 1 / d) {ps : List Piece} {tx : List Char} (h : Renders ps tx) :
    Renders (.fixed 3 (navPvt.get name b / d) :: ps) (fixText 3 (scaled (navPvt.get name b) k) ++ tx) :=
  .fixed _ _ _ _ _ (shows_scaled _ (by norm_num) (get_abs b hf ht) hk hk' (by rw [hd]; ring)) (fixText_places _ _) h

/-- C130: the characters `read_log` writes for a NAV-PVT message are the report of C105 with every number written out. -/
theorem c130_pvt (p : List Byte) : Renders (pvt p) (pvtText p) := by
  unfold pvt pvtText
  dsimp only
  simp only [List.append_assoc]
  iterate 15 first | apply r_lit | apply r_dec
  refine r_pvt "lat" p (o := 28) (t := .i 4) (by decide) (by decide) (by norm_num) (by norm_num) (by norm_num) ?_
  apply r_lit
  refine r_pvt "lon" p (o := 24) (t := .i 4) (by decide) (by decide) (by norm_num) (by norm_num) (by norm_num) ?_
  apply r_lit
  refine r_pvt "height" p (o := 32) (t := .i 4) (by decide) (by decide) (by norm_num) (by norm_num) (by norm_num) ?_
  apply r_lit
  refine r_pvt "velN" p (o := 48) (t := .i 4) (by decide) (by decide) (by norm_num) (by norm_num) (by norm_num) ?_
  apply r_lit
  refine r_pvt "velE" p (o := 52) (t := .i 4) (by decide) (by decide) (by norm_num) (by norm_num) (by norm_num) ?_
  apply r_lit
  refine r_pvt "velD" p (o := 56) (t := .i 4) (by decide) (by decide) (by norm_num) (by norm_num) (by norm_num) ?_
  apply r_lit
  apply r_lit
  apply r_u32
  rw [← List.append_nil "\n".toList]
  exact r_lit _ .nil

theorem r_svin (name hp : String) {o o' : Nat} {t t' : Ty} (b : List Byte) (hf : navSvin.find name = some (o, t)) (ht : t.size ≤ 4)
    (hf' : navSvin.find hp = some (o', t')) (ht' : t'.size ≤ 4) {ps : List Piece} {tx : List Char} (h : Renders ps tx) :
    Renders (.fixed 6 (navSvin.get name b / 100 + navSvin.get hp b / 10000) :: ps)
      (fixText 6 (rne (scaled (navSvin.get name b) (1 / 100) + scaled (navSvin.get hp b) (1 / 10000))) ++ tx) :=
  .fixed _ _ _ _ _ (shows_pos _ _ (get_abs b hf ht) (get_abs b hf' ht')) (fixText_places _ _) h

/-- C130: the characters `base` writes for a NAV-SVIN message are the report of C105 with every number written out. -/
theorem c130_svin (p : List Byte) : Renders (svin p) (svinText p) := by
  unfold svin svinText
  dsimp only
  simp only [List.append_assoc]
  apply r_lit
  apply r_u32
  apply r_lit
  rw [show (if navSvin.get "active" p ≠ 0 then lit "ACTIVE" else lit "INACTIVE") =
    lit (if navSvin.get "active" p ≠ 0 then "ACTIVE" else "INACTIVE") by split <;> rfl]
  apply r_lit
  apply r_lit
  apply r_u32
  apply r_lit
  refine r_svin "meanX" "meanXHP" p (o := 12) (t := .u 4) (o' := 24) (t' := .u 1) (by decide) (by decide) (by decide) (by decide) ?_
  apply r_lit
  refine r_svin "meanY" "meanYHP" p (o := 16) (t := .u 4) (o' := 25) (t' := .u 1) (by decide) (by decide) (by decide) (by decide) ?_
  apply r_lit
  refine r_svin "meanZ" "meanZHP" p (o := 20) (t := .u 4) (o' := 26) (t' := .u 1) (by decide) (by decide) (by decide) (by decide) ?_
  apply r_lit
  refine .fixed _ _ _ _ _ (shows_scaled _ (by norm_num) (get_abs (o := 28) (t := .u 4) p (by decide) (by decide)) (by norm_num)
    (by norm_num) (by ring)) (fixText_places _ _) ?_
  rw [← List.append_nil "\n".toList]
  exact r_lit _ .nil

theorem rawxLine_renders (p : List Byte) (i : Nat) :
    (∀ ps, rawxLine p i = .ok ps → ∃ t, rawxLineText p i = .ok t ∧ Renders ps t) ∧
    (∀ e, rawxLine p i = .error e → rawxLineText p i = .error e) := by
  unfold rawxLine rawxLineText
  cases measGet p i "gnssId" with
  | error e => exact ⟨fun ps h => (by cases h), fun e' h => by cases h; rfl⟩
  | ok gnss =>
  cases measGet p i "svId" with
  | error e => exact ⟨fun ps h => (by cases h), fun e' h => by cases h; rfl⟩
  | ok sv =>
  cases measGet p i "prMeas" with
  | error e => exact ⟨fun ps h => (by cases h), fun e' h => by cases h; rfl⟩
  | ok pr =>
  cases measGet p i "cpMeas" with
  | error e => exact ⟨fun ps h => (by cases h), fun e' h => by cases h; rfl⟩
  | ok cp =>
  cases measGet p i "doMeas" with
  | error e => exact ⟨fun ps h => (by cases h), fun e' h => by cases h; rfl⟩
  | ok dm =>
  refine ⟨fun ps h => ?_, fun e' h => by cases h⟩
  cases h
  refine ⟨_, rfl, ?_⟩
  simp only [List.append_assoc]
  apply r_lit
  apply r_dec
  apply r_lit
  apply renders_real (.inr rfl) (by norm_num)
  apply r_lit
  apply r_dec
  apply r_lit
  apply r_dec
  apply r_lit
  apply renders_real (.inr rfl) (by norm_num)
  apply r_lit
  apply renders_real (.inr rfl) (by norm_num)
  apply r_lit
  apply renders_real (.inl rfl) (by norm_num)
  rw [← List.append_nil "\n".toList]
  exact r_lit _ .nil

theorem rawxLoop_renders (p : List Byte) : ∀ (n i : Nat),
    (∀ ls, rawxLoop p i n = .ok ls → ∃ t, rawxLoopText p i n = .ok t ∧ Renders ls.flatten t) ∧
    (∀ e, rawxLoop p i n = .error e → rawxLoopText p i n = .error e)
  | 0, i => ⟨fun ls h => (by cases h; exact ⟨[], rfl, .nil⟩), fun e h => by cases h⟩
  | n + 1, i => by
    have hl := rawxLine_renders p i
    have hr := rawxLoop_renders p n (i + 1)
    unfold rawxLoop rawxLoopText
    cases h1 : rawxLine p i with
    | error e => rw [hl.2 e h1]; exact ⟨fun ls h => (by cases h), fun e' h => by cases h; rfl⟩
    | ok a =>
      obtain ⟨t, ht, hrt⟩ := hl.1 a h1
      rw [ht]
      cases h2 : rawxLoop p (i + 1) n with
      | error e => rw [hr.2 e h2]; exact ⟨fun ls h => (by cases h), fun e' h => by cases h; rfl⟩
      | ok r =>
        obtain ⟨t', ht', hrt'⟩ := hr.1 r h2
        rw [ht']
        exact ⟨fun ls h => (by cases h; exact ⟨_, rfl, renders_append hrt hrt'⟩), fun e' h => by cases h⟩

/-- C130: the characters for a NAV-RELPOSNED message. -/
theorem c130_relposned (p : List Byte) : Renders (relposned p) (relposnedText p) := by
  unfold relposned relposnedText
  dsimp only
  have opt : ∀ (c : Bool) (s : String) {ps t}, Renders ps t → Renders ((if c then [lit s] else []) ++ ps) ((if c then s else "").toList ++ t) := by
    intro c s ps t h
    cases c with
    | true => exact r_lit s h
    | false => exact h
  split
  · simp only [List.append_assoc, List.singleton_append]
    apply r_lit
    apply opt
    rw [show ∀ c d : Bool, (if c then [lit " , Floating \n"] else if d then [lit " , Fixed \n"] else []) =
      (if c then [lit " , Floating \n"] else []) ++ (if !c && d then [lit " , Fixed \n"] else []) by decide]
    rw [show ∀ c d : Bool, (if c then " , Floating \n" else if d then " , Fixed \n" else "").toList =
      (if c then " , Floating \n" else "").toList ++ (if !c && d then " , Fixed \n" else "").toList by decide]
    simp only [List.append_assoc]
    apply opt
    apply opt
    apply opt
    iterate 10 first | apply r_lit | apply r_dec
    rw [← List.append_nil "\n".toList]
    exact r_lit _ .nil
  · rw [← List.append_nil "No RTK \n".toList]
    exact r_lit _ .nil

/-! ### The whole output -/

/-- The characters of a handler are those of its pieces. -/
def Writes (got : Byte → Byte → List Byte → M (List Piece)) (text : Byte → Byte → List Byte → M (List Char)) : Prop :=
  ∀ c i m ps, got c i m = .ok ps → ∃ t, text c i m = .ok t ∧ Renders ps t

theorem console_writes {got : Byte → Byte → List Byte → M (List Piece)} {text : Byte → Byte → List Byte → M (List Char)}
    (hw : Writes got text) : ∀ (es : List Eff) (ps : List Piece), console got es = .ok ps → ∃ t, consoleText text es = .ok t ∧ Renders ps t
  | [], ps, h => by cases h; exact ⟨[], rfl, .nil⟩
  | e :: es, ps, h => by
    cases e with
    | ubx k c i m =>
      unfold console at h
      obtain ⟨a, ha, h⟩ := bind_ok.1 h
      obtain ⟨r, hr, h⟩ := bind_ok.1 h
      cases h
      obtain ⟨t, ht, h1⟩ := hw _ _ _ _ ha
      obtain ⟨t', ht', h2⟩ := console_writes hw es r hr
      refine ⟨t ++ t', ?_, renders_append h1 h2⟩
      unfold consoleText
      rw [ht, ht']
      rfl
    | _ => exact console_writes hw es ps h

theorem rover_writes : Writes roverGot roverGotText := by
  intro c i m ps h
  unfold roverGot at h
  unfold roverGotText
  split at h
  · rename_i hc; rw [if_pos hc]; cases h; exact ⟨_, rfl, c130_relposned m⟩
  · rename_i hc; rw [if_neg hc]; cases h; exact ⟨_, rfl, .nil⟩

theorem base_writes : Writes baseGot baseGotText := by
  intro c i m ps h
  unfold baseGot at h
  unfold baseGotText
  split at h
  · rename_i hc; rw [if_pos hc]; cases h; exact ⟨_, rfl, c130_svin m⟩
  · rename_i hc; rw [if_neg hc]; cases h; exact ⟨_, rfl, .nil⟩

theorem readLog_writes : Writes readLogGot readLogGotText := by
  intro c i m ps h
  unfold readLogGot at h
  unfold readLogGotText
  split at h
  · rename_i hc; rw [if_pos hc]; cases h; exact ⟨_, rfl, r_lit _ (c130_pvt m)⟩
  rename_i hc
  rw [if_neg hc]
  split at h
  · rename_i hd
    rw [if_pos hd]
    obtain ⟨ls, hl, h⟩ := bind_ok.1 h
    cases h
    obtain ⟨t, ht, hr⟩ := (rawxLoop_renders m _ 0).1 ls hl
    unfold rawxText
    rw [ht]
    exact ⟨_, rfl, r_lit _ hr⟩
  · rename_i hd
    rw [if_neg hd]
    cases h
    refine ⟨_, rfl, ?_⟩
    have := r_lit "GOT UBX MESSAGE\n" .nil
    rwa [List.append_nil] at this

/-- C130: whatever messages reach the three example programs, the characters they write are the reports of C105, C123 in order,
every number being written out in decimal with its number of places and correct to half a unit of the last one. -/
theorem c130_programs (es : List Eff) (ps : List Piece) :
    (console roverGot es = .ok ps → ∃ t, consoleText roverGotText es = .ok t ∧ Renders ps t) ∧
    (console baseGot es = .ok ps → ∃ t, consoleText baseGotText es = .ok t ∧ Renders ps t) ∧
    (console readLogGot es = .ok ps → ∃ t, consoleText readLogGotText es = .ok t ∧ Renders ps t) :=
  ⟨console_writes rover_writes es ps, console_writes base_writes es ps, console_writes readLog_writes es ps⟩

open Dev in
/-- C130, `read_log`, from the log to the characters: for every log what is written is, character by character, the reports of the
NAV-PVT and RXM-RAWX messages with good checksums, in order, numbers written out (besides the ephemeris reports). -/
theorem c130_read_log {md : Nav.Mode} {d d' : Dev} {evs : List Ev} {es0 es : List Eff} {s : List Byte}
    (h : Reach md d evs es0) (hc : calls evs = readLogCalls) (hu : d.ubx.parsingMessage = false)
    (hs : d.step md (.rx s) = .ok (d', es))
    (hl : ∀ p, .ubx 0x01 0x07 p ∈ goodMsgs (scan d.ubx.prev s).1 → 92 ≤ p.length)
    (hl2 : ∀ p, .ubx 0x02 0x15 p ∈ goodMsgs (scan d.ubx.prev s).1 → 16 ≤ p.length ∧
      16 + 32 * RosSpec.doc MsgSpec.rxmRawx "numMeas" p ≤ p.length ∧ RosSpec.doc MsgSpec.rxmRawx "numMeas" p ≤ 30) :
    ∃ t, consoleText readLogGotText es = .ok t ∧ Renders ((goodMsgs (scan d.ubx.prev s).1).flatMap readLogOn) t :=
  (c130_programs es _).2.2 (c123_read_log_partial h hc hu hs hl hl2)

open Dev in
/-- C130, `base`, from the receiver's bytes to the characters. -/
theorem c130_base {md : Nav.Mode} {d d' : Dev} {evs : List Ev} {es0 es : List Eff} {s : List Byte}
    (h : Reach md d evs es0) (hc : calls evs = baseCalls) (hu : d.ubx.parsingMessage = false)
    (hr : d.rtcm.parsingMessage = false) (hs : d.step md (.rx s) = .ok (d', es))
    (hl : ∀ p, .ubx 0x01 0x3B p ∈ (demux d.ubx.prev s).1 → 40 ≤ p.length ∧
      ∀ name ∈ ["meanX", "meanY", "meanZ", "meanXHP", "meanYHP", "meanZHP"], 0 ≤ RosSpec.doc MsgSpec.navSvin name p) :
    ∃ t, consoleText baseGotText es = .ok t ∧ Renders ((demux d.ubx.prev s).1.flatMap baseOn) t :=
  (c130_programs es _).2.1 (c123_base_partial h hc hu hr hs hl)

/-- A payload with latitude 40.2463724, longitude -111.6474138, height 1406.221 m, velocity (-0.012, 0.5, 1) m/s. -/
def exPvt : List Byte :=
  [0x10, 0x27, 0, 0, 0xE3, 0x07, 7, 14, 12, 5, 9, 0, 0, 0, 0, 0, 0x40, 0x59, 0x73, 0x07, 3, 0, 0, 0] ++
  [0xD6, 0x0C, 0x74, 0xBD, 0x6C, 0x1B, 0xFD, 0x17, 0xFD, 0x74, 0x15, 0] ++ List.replicate 12 0 ++
  [0xF4, 0xFF, 0xFF, 0xFF, 0xF4, 1, 0, 0, 0xE8, 3, 0, 0] ++ List.replicate 32 0

/-- The characters for a concrete message. -/
example : pvtText exPvt = ("t: 2019 7/14, 12:5:9.125, lla: 40.246, -111.647, 1406.205, vel: -0.012, 0.500, 1.000\n" ++
    "tow: 10000\n").toList := by decide +kernel

/-- -0.1, 2.5f, an infinity, a negative zero. -/
example : realText 8 3 0xBFB999999999999A = "-0.100".toList ∧ realText 4 3 0x40200000 = "2.500".toList ∧
    realText 8 3 0xFFF0000000000000 = "-inf".toList ∧ realText 4 3 0x80000000 = "-0.000".toList := by decide +kernel

/-- `Renders` rejects a text with a digit too few, and one with a wrong digit. -/
example : ¬ Renders [.fixed 3 (5 / 4)] "1.25".toList ∧ ¬ Renders [.fixed 3 (5 / 4)] "1.251".toList := by
  constructor
  · rintro h
    generalize ht : "1.25".toList = t at h
    cases h with
    | fixed n q a ps t hs hp hr =>
      cases hr
      rw [List.append_nil] at ht
      subst ht
      obtain ⟨x, y, h1, h2, h3⟩ := hp
      have : x.length + (1 + y.length) = 4 := by
        have := congrArg List.length h1
        rw [List.length_append, List.length_cons] at this
        have e : "1.25".toList.length = 4 := by decide
        omega
      have hx : x = [] := List.length_eq_zero_iff.1 (by omega)
      subst hx
      exact absurd (congrArg List.head? h1) (by simp)
  · rintro h
    generalize ht : "1.251".toList = t at h
    cases h with
    | fixed n q a ps t hs hp hr =>
      cases hr
      rw [List.append_nil] at ht
      subst ht
      obtain ⟨v, hv, he⟩ := hs
      have : readNum "1.251".toList = some (1251 / 1000) := by decide +kernel
      rw [this] at hv
      cases hv
      norm_num [abs_le] at he

end Ublox.Print
