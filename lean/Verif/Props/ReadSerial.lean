import Verif.Model.ReadSerial
import Verif.Props.Attribution
import Verif.Props.NavData
import Verif.Props.NavGps

/-!
# C101: the satellites listed by read_serial
-/

namespace Ublox.ReadSerial

open Nav

theorem mem_setInsert {x y : Nat} {l : List Nat} : y ∈ setInsert x l ↔ y = x ∨ y ∈ l := by
  induction l with
  | nil => simp [setInsert]
  | cons z zs ih =>
    unfold setInsert
    split
    · simp
    · split
      · rename_i h; subst h; simp
      · simp only [List.mem_cons, ih]; tauto

theorem sorted_setInsert {x : Nat} {l : List Nat} (h : l.Pairwise (· < ·)) : (setInsert x l).Pairwise (· < ·) := by
  induction l with
  | nil => simp [setInsert]
  | cons z zs ih =>
    obtain ⟨h1, h2⟩ := List.pairwise_cons.1 h
    unfold setInsert
    split
    · rename_i hx
      refine List.pairwise_cons.2 ⟨fun y hy => ?_, h⟩
      rcases List.mem_cons.1 hy with rfl | hy
      · exact hx
      · exact hx.trans (h1 y hy)
    · split
      · exact h
      · refine List.pairwise_cons.2 ⟨fun y hy => ?_, ih h2⟩
        rcases mem_setInsert.1 hy with rfl | hy
        · omega
        · exact h1 y hy

/-- A sorted list without repetitions. -/
abbrev Inc (l : List Nat) : Prop := l.Pairwise (· < ·)

/-- What the callbacks record, call by call. -/
theorem calls_spec (cs : List NavCall) : ∀ (f : Found), Inc f.gps → Inc f.gal → Inc f.glo →
    (Inc (calls f cs).1.gps ∧ Inc (calls f cs).1.gal ∧ Inc (calls f cs).1.glo) ∧
    (∀ s, s ∈ (calls f cs).1.gps ↔ s ∈ f.gps ∨ ∃ i e, .eph i e ∈ cs ∧ e.gnssID = 0 ∧ e.sat.toNat = s) ∧
    (∀ s, s ∈ (calls f cs).1.gal ↔ s ∈ f.gal ∨ ∃ i e, .eph i e ∈ cs ∧ e.gnssID = 2 ∧ e.sat.toNat = s) ∧
    (∀ s, s ∈ (calls f cs).1.glo ↔ s ∈ f.glo ∨ ∃ i g, .geph i g ∈ cs ∧ g.sat.toNat = s) := by
  induction cs with
  | nil => intro f h1 h2 h3; exact ⟨⟨h1, h2, h3⟩, by simp [calls], by simp [calls], by simp [calls]⟩
  | cons c cs ih =>
    intro f h1 h2 h3
    cases c with
    | eph i e =>
      show (Inc (calls (ephCallback f e).1 cs).1.gps ∧ Inc (calls (ephCallback f e).1 cs).1.gal ∧
          Inc (calls (ephCallback f e).1 cs).1.glo) ∧
        (∀ s, s ∈ (calls (ephCallback f e).1 cs).1.gps ↔ _) ∧ (∀ s, s ∈ (calls (ephCallback f e).1 cs).1.gal ↔ _) ∧
        (∀ s, s ∈ (calls (ephCallback f e).1 cs).1.glo ↔ _)
      by_cases g0 : e.gnssID = 0
      · have hc : (ephCallback f e).1 = { f with gps := setInsert e.sat.toNat f.gps } := by
          unfold ephCallback; rw [if_pos g0]
        rw [hc]
        obtain ⟨a, b, c, d⟩ := ih { f with gps := setInsert e.sat.toNat f.gps } (sorted_setInsert h1) h2 h3
        refine ⟨a, fun s => ?_, fun s => ?_, fun s => ?_⟩
        · rw [b, mem_setInsert]
          constructor
          · rintro ((rfl | h) | ⟨j, e', h, h'⟩)
            · exact .inr ⟨i, e, by simp, g0, rfl⟩
            · exact .inl h
            · exact .inr ⟨j, e', by simp [h], h'⟩
          · rintro (h | ⟨j, e', h, h', h''⟩)
            · exact .inl (.inr h)
            · rcases List.mem_cons.1 h with h | h
              · injection h with _ h; subst h; exact .inl (.inl h''.symm)
              · exact .inr ⟨j, e', h, h', h''⟩
        · rw [c]
          constructor
          · rintro (h | ⟨j, e', h, h'⟩)
            · exact .inl h
            · exact .inr ⟨j, e', by simp [h], h'⟩
          · rintro (h | ⟨j, e', h, h', h''⟩)
            · exact .inl h
            · rcases List.mem_cons.1 h with h | h
              · injection h with _ h; subst h; rw [g0] at h'; exact absurd h' (by decide)
              · exact .inr ⟨j, e', h, h', h''⟩
        · rw [d]
          simp
      · by_cases g2 : e.gnssID = 2
        · have hc : (ephCallback f e).1 = { f with gal := setInsert e.sat.toNat f.gal } := by
            unfold ephCallback; rw [if_neg g0, if_pos g2]
          rw [hc]
          obtain ⟨a, b, c, d⟩ := ih { f with gal := setInsert e.sat.toNat f.gal } h1 (sorted_setInsert h2) h3
          refine ⟨a, fun s => ?_, fun s => ?_, fun s => ?_⟩
          · rw [b]
            constructor
            · rintro (h | ⟨j, e', h, h'⟩)
              · exact .inl h
              · exact .inr ⟨j, e', by simp [h], h'⟩
            · rintro (h | ⟨j, e', h, h', h''⟩)
              · exact .inl h
              · rcases List.mem_cons.1 h with h | h
                · injection h with _ h; subst h; rw [g2] at h'; exact absurd h' (by decide)
                · exact .inr ⟨j, e', h, h', h''⟩
          · rw [c, mem_setInsert]
            constructor
            · rintro ((rfl | h) | ⟨j, e', h, h'⟩)
              · exact .inr ⟨i, e, by simp, g2, rfl⟩
              · exact .inl h
              · exact .inr ⟨j, e', by simp [h], h'⟩
            · rintro (h | ⟨j, e', h, h', h''⟩)
              · exact .inl (.inr h)
              · rcases List.mem_cons.1 h with h | h
                · injection h with _ h; subst h; exact .inl (.inl h''.symm)
                · exact .inr ⟨j, e', h, h', h''⟩
          · rw [d]
            simp
        · have hc : (ephCallback f e).1 = f := by
            unfold ephCallback; rw [if_neg g0, if_neg g2]
          rw [hc]
          obtain ⟨a, b, c, d⟩ := ih f h1 h2 h3
          refine ⟨a, fun s => ?_, fun s => ?_, fun s => ?_⟩
          · rw [b]
            constructor
            · rintro (h | ⟨j, e', h, h'⟩)
              · exact .inl h
              · exact .inr ⟨j, e', by simp [h], h'⟩
            · rintro (h | ⟨j, e', h, h', h''⟩)
              · exact .inl h
              · rcases List.mem_cons.1 h with h | h
                · injection h with _ h; subst h; exact absurd h' g0
                · exact .inr ⟨j, e', h, h', h''⟩
          · rw [c]
            constructor
            · rintro (h | ⟨j, e', h, h'⟩)
              · exact .inl h
              · exact .inr ⟨j, e', by simp [h], h'⟩
            · rintro (h | ⟨j, e', h, h', h''⟩)
              · exact .inl h
              · rcases List.mem_cons.1 h with h | h
                · injection h with _ h; subst h; exact absurd h' g2
                · exact .inr ⟨j, e', h, h', h''⟩
          · rw [d]
            simp
    | geph i g =>
      show (Inc (calls (gephCallback f g).1 cs).1.gps ∧ Inc (calls (gephCallback f g).1 cs).1.gal ∧
          Inc (calls (gephCallback f g).1 cs).1.glo) ∧
        (∀ s, s ∈ (calls (gephCallback f g).1 cs).1.gps ↔ _) ∧ (∀ s, s ∈ (calls (gephCallback f g).1 cs).1.gal ↔ _) ∧
        (∀ s, s ∈ (calls (gephCallback f g).1 cs).1.glo ↔ _)
      obtain ⟨a, b, c, d⟩ := ih { f with glo := setInsert g.sat.toNat f.glo } h1 h2 (sorted_setInsert h3)
      refine ⟨a, fun s => ?_, fun s => ?_, fun s => ?_⟩
      · refine (b s).trans ?_; simp
      · refine (c s).trans ?_; simp
      · refine (d s).trans ?_
        rw [mem_setInsert]
        constructor
        · rintro ((rfl | h) | ⟨j, e', h, h'⟩)
          · exact .inr ⟨i, g, by simp, rfl⟩
          · exact .inl h
          · exact .inr ⟨j, e', by simp [h], h'⟩
        · rintro (h | ⟨j, e', h, h'⟩)
          · exact .inl (.inr h)
          · rcases List.mem_cons.1 h with h | h
            · injection h with _ h; subst h; exact .inl (.inl h'.symm)
            · exact .inr ⟨j, e', h, h'⟩

/-- Every printed line gives the size of a list in increasing order. -/
theorem calls_lines (cs : List NavCall) : ∀ (f : Found), Inc f.gps → Inc f.gal → Inc f.glo →
    ∀ l ∈ (calls f cs).2, ∃ n s, (l = .gps n s ∨ l = .gal n s ∨ l = .glo n s) ∧ n = s.length ∧ Inc s := by
  induction cs with
  | nil => intro f _ _ _ l hl; exact absurd hl (by simp [calls])
  | cons c cs ih =>
    intro f h1 h2 h3 l hl
    cases c with
    | eph i e =>
      have hl : l ∈ (ephCallback f e).2 ++ (calls (ephCallback f e).1 cs).2 := hl
      rcases List.mem_append.1 hl with hl | hl
      · unfold ephCallback at hl
        split at hl
        · rw [List.mem_singleton.1 hl]; exact ⟨_, _, .inl rfl, rfl, sorted_setInsert h1⟩
        · split at hl
          · rw [List.mem_singleton.1 hl]; exact ⟨_, _, .inr (.inl rfl), rfl, sorted_setInsert h2⟩
          · exact absurd hl (by simp)
      · refine ih _ ?_ ?_ ?_ l hl <;> (unfold ephCallback; split <;> [skip; split])
        all_goals first | exact h1 | exact h2 | exact h3 | exact sorted_setInsert h1 | exact sorted_setInsert h2
    | geph i g =>
      have hl : l ∈ (gephCallback f g).2 ++ (calls (gephCallback f g).1 cs).2 := hl
      rcases List.mem_append.1 hl with hl | hl
      · rw [List.mem_singleton.1 hl]; exact ⟨_, _, .inr (.inr rfl), rfl, sorted_setInsert h3⟩
      · exact ih { f with glo := setInsert g.sat.toNat f.glo } h1 h2 (sorted_setInsert h3) l hl

/-- The ephemeris was reported for message number `k` of the history. -/
def Reported (md : Mode) (ops : List NavOp) (call : NavCall) : Prop :=
  ∃ n cs c, Nav.init.run md ops = .ok (n, cs) ∧ c ∈ cs ∧ call ∈ c

/-- **C101.** In every run, the three lists are exactly the satellites for which an ephemeris of that constellation was
reported, without repetitions and in increasing order; every satellite in them sent a subframe message of that constellation;
and each printed total is the number of satellites printed. -/
theorem c101_found (md : Mode) (before mid after : List (List Byte × Sfrbx)) (f : Found) (ls : List Line)
    (h : main md before mid after = .ok (f, ls)) :
    (Inc f.gps ∧ Inc f.gal ∧ Inc f.glo) ∧
    (∀ s, s ∈ f.gps ↔ ∃ i e, Reported md (history before mid after) (.eph i e) ∧ e.gnssID = 0 ∧ e.sat.toNat = s) ∧
    (∀ s, s ∈ f.gal ↔ ∃ i e, Reported md (history before mid after) (.eph i e) ∧ e.gnssID = 2 ∧ e.sat.toNat = s) ∧
    (∀ s, s ∈ f.glo ↔ ∃ i g, Reported md (history before mid after) (.geph i g) ∧ g.sat.toNat = s) ∧
    (∀ s, s ∈ f.gps → ∃ x ∈ before ++ mid ++ after, x.2.gnssId = 0 ∧ x.2.svId.toNat = s) ∧
    (∀ s, s ∈ f.gal → ∃ x ∈ before ++ mid ++ after, x.2.gnssId = 2 ∧ x.2.svId.toNat = s) ∧
    (∀ s, s ∈ f.glo → ∃ x ∈ before ++ mid ++ after, x.2.gnssId = 6 ∧ x.2.svId.toNat = s) ∧
    ∀ l ∈ ls, ∃ n s, (l = .gps n s ∨ l = .gal n s ∨ l = .glo n s) ∧ n = s.length ∧ Inc s := by
  unfold main at h
  obtain ⟨⟨n, cs⟩, hr, h⟩ := bind_ok.1 h
  have h := Except.ok.inj h
  have hf : (calls ⟨[], [], []⟩ cs.flatten).1 = f := by rw [h]
  have hls : (calls ⟨[], [], []⟩ cs.flatten).2 = ls := by rw [h]
  obtain ⟨a, b, c, d⟩ := calls_spec cs.flatten ⟨[], [], []⟩ .nil .nil .nil
  have hrep : ∀ call, call ∈ cs.flatten ↔ Reported md (history before mid after) call := by
    intro call
    rw [List.mem_flatten]
    constructor
    · rintro ⟨c, hc, hm⟩; exact ⟨n, cs, c, hr, hc, hm⟩
    · rintro ⟨n', cs', c, hr', hc, hm⟩
      have e := (Prod.mk.inj (Except.ok.inj (hr.symm.trans hr'))).2
      exact ⟨c, by rw [e]; exact hc, hm⟩
  have b' : ∀ s, s ∈ f.gps ↔ ∃ i e, Reported md (history before mid after) (.eph i e) ∧ e.gnssID = 0 ∧ e.sat.toNat = s := by
    intro s; rw [← hf, b]; simp [hrep]
  have c' : ∀ s, s ∈ f.gal ↔ ∃ i e, Reported md (history before mid after) (.eph i e) ∧ e.gnssID = 2 ∧ e.sat.toNat = s := by
    intro s; rw [← hf, c]; simp [hrep]
  have d' : ∀ s, s ∈ f.glo ↔ ∃ i g, Reported md (history before mid after) (.geph i g) ∧ g.sat.toNat = s := by
    intro s; rw [← hf, d]; simp [hrep]
  have hsrc : ∀ call, Reported md (history before mid after) call → ∃ x ∈ before ++ mid ++ after,
      match call with
      | .eph _ e => e.sat = x.2.svId ∧ e.gnssID = x.2.gnssId
      | .geph _ g => g.sat = x.2.svId ∧ x.2.gnssId = 6 := by
    rintro call ⟨n', cs', c, hr', hc, hm⟩
    obtain ⟨hl, hat⟩ := c100_attributed md _ n' cs' hr'
    obtain ⟨k, hk⟩ := List.mem_iff_getElem?.1 hc
    have hk' : k < cs'.length := (List.getElem?_eq_some_iff.1 hk).1
    have hop := List.getElem?_eq_getElem (show k < (history before mid after).length by omega)
    have hat := hat k _ c hop hk
    have hmem := List.mem_of_getElem? hop
    generalize (history before mid after)[k]'(by omega) = op at hat hmem
    cases op with
    | setTime t => rw [hat] at hm; exact absurd hm (by simp)
    | addEphCb => rw [hat] at hm; exact absurd hm (by simp)
    | addGephCb => rw [hat] at hm; exact absurd hm (by simp)
    | sfrbx j m =>
      have hx : ∃ x ∈ before ++ mid ++ after, x.2 = m := by
        have : (j, m) ∈ before ++ mid ++ after := by
          simpa [history, or_assoc] using hmem
        exact ⟨_, this, rfl⟩
      obtain ⟨x, hx, rfl⟩ := hx
      refine ⟨x, hx, ?_⟩
      rcases hat with hat | ⟨e, a, b, -, hat⟩ | ⟨g, a, b, g6, -, hat⟩
      · rw [hat] at hm; exact absurd hm (by simp)
      · rw [hat] at hm
        obtain ⟨i, -, rfl⟩ := List.mem_map.1 hm
        exact ⟨a, b⟩
      · rw [hat] at hm
        obtain ⟨i, -, rfl⟩ := List.mem_map.1 hm
        exact ⟨a, g6⟩
  refine ⟨by rw [← hf]; exact a, b', c', d', fun s hs => ?_, fun s hs => ?_, fun s hs => ?_, ?_⟩
  · obtain ⟨i, e, hr, g, rfl⟩ := (b' s).1 hs
    obtain ⟨x, hx, h1, h2⟩ := hsrc _ hr
    exact ⟨x, hx, h2.symm.trans g, by rw [h1]⟩
  · obtain ⟨i, e, hr, g, rfl⟩ := (c' s).1 hs
    obtain ⟨x, hx, h1, h2⟩ := hsrc _ hr
    exact ⟨x, hx, h2.symm.trans g, by rw [h1]⟩
  · obtain ⟨i, e, hr, rfl⟩ := (d' s).1 hs
    obtain ⟨x, hx, h1, h2⟩ := hsrc _ hr
    exact ⟨x, hx, h2, by rw [h1]⟩
  · rw [← hls]
    exact calls_lines _ _ .nil .nil .nil

open Data in
/-- Two GPS satellites, interleaved: both are listed once, in order, with running totals. -/
example : main .strict [] [] ([(8, gps1), (7, gps1), (8, gps2), (7, gps2), (8, gps3), (7, gps3)].map
      fun x : Byte × List Byte => (List.replicate 30 0, ⟨0, x.1, 0, x.2⟩)) =
    .ok (⟨[7, 8], [], []⟩, [.gps 1 [8], .gps 2 [7, 8]]) := by
  decide +kernel

end Ublox.ReadSerial
