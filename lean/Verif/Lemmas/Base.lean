import Verif.Model.Base

/-! Generic lemmas about `M` and bounds-checked access. -/

namespace Ublox

theorem bind_ok {α β : Type} {x : M α} {f : α → M β} {b : β} :
    (x >>= f) = .ok b ↔ ∃ a, x = .ok a ∧ f a = .ok b := by
  cases x with
  | error e => simp [bind, Except.bind]
  | ok a => simp [bind, Except.bind]

theorem bind_err {α β : Type} {x : M α} {f : α → M β} {e : UB} :
    (x >>= f) = .error e ↔ x = .error e ∨ ∃ a, x = .ok a ∧ f a = .error e := by
  cases x with
  | error e' => simp [bind, Except.bind]
  | ok a => simp [bind, Except.bind]

@[simp] theorem ok_bind {α β : Type} (a : α) (f : α → M β) : ((.ok a : M α) >>= f) = f a := rfl

@[simp] theorem error_bind {α β : Type} (e : UB) (f : α → M β) : ((.error e : M α) >>= f) = .error e := rfl

/-- The undefined behaviour a computation runs into, if any. -/
def errOf {α : Type} : M α → Option UB
  | .ok _ => none
  | .error e => some e

theorem errOf_some {α : Type} {m : M α} {e : UB} (h : errOf m = some e) : m = .error e := by
  cases m with
  | ok => simp [errOf] at h
  | error => simp only [errOf, Option.some.injEq] at h; rw [h]

end Ublox
