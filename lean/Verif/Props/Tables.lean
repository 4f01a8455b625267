import Verif.Model.Tables
import Verif.Spec.Tables
import Mathlib.Tactic.Tauto

/-!
# C65: the identifier tables
-/

namespace Ublox

open TableSpec

theorem sysId_in {sv : Int} {b : Block} (hb : b ∈ blocks) (h : b.first ≤ sv ∧ sv ≤ b.last) : sysId sv = b.gnss := by
  obtain ⟨h1, h2⟩ := h
  unfold sysId
  simp only [blocks, List.mem_cons, List.not_mem_nil, or_false] at hb
  rcases hb with rfl | rfl | rfl | rfl | rfl | rfl | rfl | rfl <;> dsimp only at h1 h2 ⊢ <;>
  · repeat' split
    all_goals first | rfl | omega

theorem sysId_out {sv : Int} (h : ∀ b ∈ blocks, ¬ (b.first ≤ sv ∧ sv ≤ b.last)) : sysId sv = -1 := by
  simp only [blocks, List.mem_cons, List.not_mem_nil, or_false, forall_eq_or_imp, forall_eq] at h
  unfold sysId
  repeat' split
  all_goals first | rfl | omega

theorem gnss_ne {b : Block} (hb : b ∈ blocks) : b.gnss ≠ -1 := by
  simp only [blocks, List.mem_cons, List.not_mem_nil, or_false] at hb
  rcases hb with rfl | rfl | rfl | rfl | rfl | rfl | rfl | rfl <;> decide

/-- **C65, satellites.** For every integer, `sysId` answers a constellation exactly when the number lies in one of that
constellation's blocks, and -1 exactly when it lies in none. -/
theorem c65_sys (sv g : Int) :
    (g ≠ -1 → (sysId sv = g ↔ ∃ b ∈ blocks, b.gnss = g ∧ b.first ≤ sv ∧ sv ≤ b.last)) ∧
    (sysId sv = -1 ↔ ∀ b ∈ blocks, ¬ (b.first ≤ sv ∧ sv ≤ b.last)) := by
  constructor
  · intro hg
    constructor
    · intro h
      apply Classical.byContradiction
      intro hn
      apply hg
      rw [← h]
      refine sysId_out fun b hb hin => hn ⟨b, hb, ?_, hin⟩
      rw [← h, sysId_in hb hin]
    · rintro ⟨b, hb, rfl, hin⟩
      exact sysId_in hb hin
  · refine ⟨fun h b hb hin => ?_, sysId_out⟩
    rw [sysId_in hb hin] at h
    exact gnss_ne hb h

/-- **C65, no satellite number belongs to two constellations.** -/
theorem c65_unambiguous (sv : Int) (a b : Block) (ha : a ∈ blocks) (hb : b ∈ blocks)
    (h1 : a.first ≤ sv ∧ sv ≤ a.last) (h2 : b.first ≤ sv ∧ sv ≤ b.last) : a.gnss = b.gnss := by
  rw [← sysId_in ha h1, sysId_in hb h2]

theorem sigId_in {n : Nat} {p : Int × Int} (h : signals[n]? = some p) : sigId p.1 p.2 = (n : Int) := by
  have hn : n < 14 := by
    apply Classical.byContradiction
    intro hn
    rw [List.getElem?_eq_none (by show 14 ≤ n; omega)] at h
    cases h
  have : n = 0 ∨ n = 1 ∨ n = 2 ∨ n = 3 ∨ n = 4 ∨ n = 5 ∨ n = 6 ∨ n = 7 ∨ n = 8 ∨ n = 9 ∨ n = 10 ∨ n = 11 ∨
      n = 12 ∨ n = 13 := by omega
  rcases this with rfl | rfl | rfl | rfl | rfl | rfl | rfl | rfl | rfl | rfl | rfl | rfl | rfl | rfl <;>
  · rw [← Option.some.inj h]; decide

theorem sigId_out {g s : Int} (h : (g, s) ∉ signals) : sigId g s = -1 := by
  have key : ∀ a b : Int, (a, b) ∈ signals → ¬ (g = a ∧ s = b) := by
    rintro a b hab ⟨rfl, rfl⟩; exact h hab
  unfold sigId
  rw [if_neg (key _ _ (by decide)), if_neg (key _ _ (by decide)), if_neg (key _ _ (by decide)),
    if_neg (key _ _ (by decide)), if_neg (key _ _ (by decide)), if_neg (key _ _ (by decide)),
    if_neg (key _ _ (by decide)), if_neg (key _ _ (by decide)), if_neg (key _ _ (by decide)),
    if_neg (key _ _ (by decide)), if_neg (key _ _ (by decide)), if_neg (key _ _ (by decide)),
    if_neg (key _ _ (by decide)), if_neg (key _ _ (by decide))]

/-- **C65, signals.** For all pairs of integers, `sigId` answers `n` exactly when the pair is the `n`-th of the documented
signals, and -1 exactly when it is none of them. -/
theorem c65_sig (g s : Int) :
    (∀ n : Nat, sigId g s = (n : Int) ↔ signals[n]? = some (g, s)) ∧ (sigId g s = -1 ↔ (g, s) ∉ signals) := by
  have hin : (g, s) ∈ signals → ∃ m : Nat, signals[m]? = some (g, s) ∧ sigId g s = (m : Int) := by
    intro h
    obtain ⟨m, hm⟩ := List.mem_iff_getElem?.1 h
    exact ⟨m, hm, sigId_in hm⟩
  constructor
  · intro n
    refine ⟨fun h => ?_, fun h => sigId_in h⟩
    by_cases hm : (g, s) ∈ signals
    · obtain ⟨m, h1, h2⟩ := hin hm
      have : m = n := by rw [h2] at h; omega
      rw [← this]; exact h1
    · rw [sigId_out hm] at h; omega
  · refine ⟨fun h hm => ?_, sigId_out⟩
    obtain ⟨m, h1, h2⟩ := hin hm
    rw [h2] at h; omega

/-- **C65, injectivity.** Two pairs with the same code, other than -1, are the same pair. -/
theorem c65_injective (g s g' s' : Int) (h : sigId g s = sigId g' s') (hk : sigId g s ≠ -1) : g = g' ∧ s = s' := by
  have hm : (g, s) ∈ signals := Classical.byContradiction fun hm => hk (sigId_out hm)
  obtain ⟨n, hn⟩ := List.mem_iff_getElem?.1 hm
  have h1 := sigId_in hn
  have h2 := ((c65_sig g' s').1 n).1 (by rw [← h]; exact h1)
  rw [hn] at h2
  exact ⟨(Prod.mk.inj (Option.some.inj h2)).1, (Prod.mk.inj (Option.some.inj h2)).2⟩

/-- **C65, names.** The name printed for an ephemeris tells its constellation, for the five constellations the driver
can decode or name; every other identifier (SBAS included) is `Unknown`. -/
theorem c65_type (a b : Byte) (h : ephType a = ephType b) (hk : ephType a ≠ "Unknown") : a = b := by
  unfold ephType at h hk
  repeat' split at h
  all_goals simp_all

/-- **C65, which names.** The name printed is that of the receiver's constellation number, and `Unknown` for the rest. -/
theorem c65_names (g : Byte) :
    (∀ name, (g.toNat, name) ∈ gnssNames → ephType g = name) ∧
    ((∀ name, (g.toNat, name) ∉ gnssNames) → ephType g = "Unknown") := by
  have q : ∀ n : Nat, n < 256 → (g = BitVec.ofNat 8 n ↔ g.toNat = n) := fun n hn =>
    ⟨fun h => by rw [h, BitVec.toNat_ofNat]; omega,
     fun h => by apply BitVec.eq_of_toNat_eq; rw [h, BitVec.toNat_ofNat]; omega⟩
  have q0 : g = 0 ↔ g.toNat = 0 := q 0 (by omega)
  have q2 : g = 2 ↔ g.toNat = 2 := q 2 (by omega)
  have q3 : g = 3 ↔ g.toNat = 3 := q 3 (by omega)
  have q5 : g = 5 ↔ g.toNat = 5 := q 5 (by omega)
  have q6 : g = 6 ↔ g.toNat = 6 := q 6 (by omega)
  unfold ephType
  simp only [q0, q2, q3, q5, q6, gnssNames, List.mem_cons, Prod.mk.injEq, List.not_mem_nil, or_false]
  constructor
  · rintro name (⟨h, rfl⟩ | ⟨h, rfl⟩ | ⟨h, rfl⟩ | ⟨h, rfl⟩ | ⟨h, rfl⟩) <;> simp [h]
  · intro h
    have n0 : g.toNat ≠ 0 := fun e => h "GPS" (by simp [e])
    have n2 : g.toNat ≠ 2 := fun e => h "Galileo" (by simp [e])
    have n3 : g.toNat ≠ 3 := fun e => h "Beidou" (by simp [e])
    have n5 : g.toNat ≠ 5 := fun e => h "Qzss" (by simp [e])
    have n6 : g.toNat ≠ 6 := fun e => h "Glonass" (by simp [e])
    rw [if_neg n0, if_neg n2, if_neg n6, if_neg n5, if_neg n3]

example : sysId 70 = 6 ∧ sysId 100 = -1 ∧ sigId 2 6 = 6 ∧ sigId 4 0 = -1 ∧ ephType 6 = "Glonass" := by decide

end Ublox
