import Verif.Model.Scale
import Verif.Model.NavGal
import Mathlib.Analysis.Real.Pi.Bounds
import Mathlib.Tactic.NormNum
import Mathlib.Tactic.Linarith
import Mathlib.Tactic.Positivity
import Mathlib.Tactic.FieldSimp
import Mathlib.Tactic.Ring

/-!
# C69: the scale constants, and what rounding does to a scaled field
-/

namespace Ublox.Nav

/-- What a constant is meant to be. -/
noncomputable def K.exact : K → ℝ
  | .p2 n => (2 : ℝ)⁻¹ ^ n
  | .pi => Real.pi
  | .e3 => 1000

/-- `a` is within relative distance `ε` of `b`. -/
def Close (ε a b : ℝ) : Prop := |a - b| ≤ ε * |b|

/-- The unit roundoff of IEEE double: a literal or a product is stored with a relative error of at most this. -/
noncomputable def unit : ℝ := (2 : ℝ)⁻¹ ^ 53

theorem exact_pos (k : K) : 0 < k.exact := by
  cases k with
  | p2 n => unfold K.exact; positivity
  | pi => exact Real.pi_pos
  | e3 => unfold K.exact; norm_num

/-- The literal itself. -/
theorem literal_near (k : K) (q : ℚ) (h : k.literal = some q) : Close 2e-15 (q : ℝ) k.exact := by
  unfold Close
  rw [abs_of_pos (exact_pos k)]
  cases k with
  | pi =>
    have : q = 3.1415926535897932 := (Option.some.inj h).symm
    subst this
    have h1 := Real.pi_gt_d20
    have h2 := Real.pi_lt_d20
    unfold K.exact
    rw [abs_le]
    constructor <;> push_cast <;> norm_num <;> linarith
  | e3 =>
    have : q = 1000 := (Option.some.inj h).symm
    subst this
    unfold K.exact
    norm_num
  | p2 n =>
    unfold K.exact
    unfold K.literal at h
    split at h <;> first
      | (cases h; done)
      | (rename_i heq
         first
          | (cases heq; rw [← Option.some.inj h, abs_le]; constructor <;> push_cast <;> norm_num)
          | cases heq)

/-- A literal near its meaning, rounded to a double, is still near it. -/
theorem stored_near {x q stored : ℝ} (hp : 0 < x) (h1 : Close 2e-15 q x) (hs : Close unit stored q) :
    Close 2.2e-15 stored x := by
  unfold Close at *
  rw [abs_of_pos hp] at *
  have hq : |q| ≤ (1 + 2e-15) * x := by
    have := abs_sub_abs_le_abs_sub q x
    rw [abs_of_pos hp] at this
    linarith
  have hu : unit ≤ 1.2e-16 := by unfold unit; norm_num
  have hu0 : 0 ≤ unit := by unfold unit; positivity
  calc |stored - x| ≤ |stored - q| + |q - x| := abs_sub_le _ _ _
    _ ≤ unit * |q| + 2e-15 * x := add_le_add hs h1
    _ ≤ 1.2e-16 * ((1 + 2e-15) * x) + 2e-15 * x := by gcongr
    _ ≤ 2.2e-15 * x := by nlinarith

theorem Close.mono {ε ε' a b : ℝ} (h : Close ε a b) (hle : ε ≤ ε') : Close ε' a b :=
  h.trans (mul_le_mul_of_nonneg_right hle (abs_nonneg _))

/-- **C69.** Every constant the ephemeris decoders scale with — the powers of two, and π — as the compiler stores it
(the literal, rounded to a double) is the number it is named for, to a relative accuracy better than 10^-14. -/
theorem c69_constants (k : K) (q : ℚ) (h : k.literal = some q) (stored : ℝ) (hs : Close unit stored (q : ℝ)) :
    Close 1e-14 stored k.exact :=
  (stored_near (exact_pos k) (literal_near k q h) hs).mono (by norm_num)

/-- The MSM constants. -/
theorem c69_msm (n : Nat) (q : ℚ) (h : (n, q) ∈ msmLiterals) (stored : ℝ) (hs : Close unit stored (q : ℝ)) :
    Close 1e-14 stored ((2 : ℝ)⁻¹ ^ n) := by
  refine (stored_near (by positivity) ?_ hs).mono (by norm_num)
  clear hs
  unfold Close
  rw [abs_of_pos (show (0 : ℝ) < 2⁻¹ ^ n by positivity)]
  simp only [msmLiterals, List.mem_cons, Prod.mk.injEq, List.not_mem_nil, or_false] at h
  rcases h with ⟨rfl, rfl⟩ | ⟨rfl, rfl⟩ | ⟨rfl, rfl⟩ | ⟨rfl, rfl⟩ | ⟨rfl, rfl⟩ <;>
  · rw [abs_le]; constructor <;> push_cast <;> norm_num

/-- `v` is a value the C++ expression `raw * k₁ * k₂ …` can have: every constant is its literal rounded to a double,
every product is rounded (the raw values have at most 32 bits and are exact; nothing underflows). -/
inductive Computes : Dbl → ℝ → Prop
  | raw (n : Int) : Computes ⟨n, []⟩ n
  | mul {n : Int} {ks : List K} {k : K} {v : ℝ} {q : ℚ} {c w : ℝ} (hv : Computes ⟨n, ks⟩ v) (hk : k.literal = some q)
      (hc : Close unit c (q : ℝ)) (hw : Close unit w (v * c)) : Computes ⟨n, ks ++ [k]⟩ w

/-- What the field is meant to be. -/
noncomputable def Dbl.exact (d : Dbl) : ℝ := d.raw * (d.scale.map K.exact).prod

theorem near_mul_step {a v c x w k : ℝ} (ha : 0 ≤ a) (hv : Close a v x) (hc : Close 2.2e-15 c k)
    (hw : Close unit w (v * c)) (ha1 : a ≤ 1e-14) : Close (a + 2.5e-15) w (x * k) := by
  unfold Close at *
  have hu : unit ≤ 1.2e-16 := by unfold unit; norm_num
  have hvx : |v| ≤ (1 + a) * |x| := by
    have := abs_sub_abs_le_abs_sub v x; linarith
  have hck : |c| ≤ (1 + 2.2e-15) * |k| := by
    have := abs_sub_abs_le_abs_sub c k; linarith
  have h1 : |v * c - x * k| ≤ |v| * |c - k| + |v - x| * |k| := by
    have : v * c - x * k = v * (c - k) + (v - x) * k := by ring
    rw [this]
    exact (abs_add_le _ _).trans (by rw [abs_mul, abs_mul])
  have h2 : |v| * |c - k| ≤ (1 + a) * |x| * (2.2e-15 * |k|) :=
    mul_le_mul hvx hc (abs_nonneg _) (by positivity)
  have h3 : |v - x| * |k| ≤ a * |x| * |k| := mul_le_mul_of_nonneg_right hv (abs_nonneg _)
  have h4 : |v * c| ≤ (1 + a) * |x| * ((1 + 2.2e-15) * |k|) := by
    rw [abs_mul]; exact mul_le_mul hvx hck (abs_nonneg _) (by positivity)
  have h5 : |w - v * c| ≤ 1.2e-16 * ((1 + a) * |x| * ((1 + 2.2e-15) * |k|)) :=
    hw.trans (mul_le_mul hu h4 (abs_nonneg _) (by norm_num))
  have h6 : |w - x * k| ≤ |w - v * c| + |v * c - x * k| := abs_sub_le _ _ _
  rw [abs_mul]
  have hxk : 0 ≤ |x| * |k| := by positivity
  nlinarith [mul_nonneg ha hxk, mul_le_mul_of_nonneg_right ha1 hxk]

theorem computes_near {d : Dbl} {v : ℝ} (h : Computes d v) (hl : d.scale.length ≤ 4) :
    Close (d.scale.length * 2.5e-15) v d.exact := by
  induction h with
  | raw n => simp [Close, Dbl.exact]
  | @mul n ks k v q c w hv hk hc hw ih =>
    simp only [List.length_append, List.length_singleton] at hl ⊢
    have ih := ih (by show ks.length ≤ 4; omega)
    have hlen : ks.length ≤ 3 := by omega
    have hcn : Close 2.2e-15 c k.exact := stored_near (exact_pos k) (literal_near k q hk) hc
    have hk3 : ((ks.length : ℕ) : ℝ) ≤ 3 := by exact_mod_cast hlen
    have := near_mul_step (a := ks.length * 2.5e-15) (by positivity) ih hcn hw (by linarith)
    have e : Dbl.exact ⟨n, ks ++ [k]⟩ = Dbl.exact ⟨n, ks⟩ * k.exact := by
      unfold Dbl.exact
      simp only [List.map_append, List.prod_append, List.map_cons, List.map_nil, List.prod_singleton]
      ring
    rw [e]
    unfold Close at *
    push_cast
    calc _ ≤ _ := this
      _ = _ := by ring

/-- **C69, for a decoded field.** Whatever way the compiler rounds, a field computed as `raw * k₁ * …` with at most four
constants is its interface-document value `raw · k₁ · …` (exact powers of two, exact π) to a relative 10^-14. -/
theorem c69_fields (d : Dbl) (v : ℝ) (h : Computes d v) (hl : d.scale.length ≤ 4) : Close 1e-14 v d.exact := by
  have := computes_near h hl
  have h4 : ((d.scale.length : ℕ) : ℝ) ≤ 4 := by exact_mod_cast hl
  unfold Close at *
  exact this.trans (mul_le_mul_of_nonneg_right (by linarith) (abs_nonneg _))

/-- The hypotheses can be met: an inclination `raw * P2_31 * PI`, computed without any rounding error beyond the
literals. -/
example : ∃ v, Computes ⟨-123456, [.p2 31, .pi]⟩ v := by
  have hn : ∀ x : ℝ, Close unit x x := fun x => by
    unfold Close unit; rw [sub_self, abs_zero]; positivity
  exact ⟨_, .mul (ks := [.p2 31]) (.mul (ks := []) (.raw _) (k := .p2 31) rfl (hn _) (hn _)) (k := .pi) rfl
    (hn _) (hn _)⟩

end Ublox.Nav
