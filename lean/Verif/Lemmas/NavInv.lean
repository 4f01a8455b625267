import Verif.Props.RosEph

/-!
# A property of ephemerides kept by every decoder holds of everything reported
-/

namespace Ublox.Nav

/-- `P` and `Q` are kept by the decoders. -/
structure Kept (md : Mode) (P : Eph → Prop) (Q : GEph → Prop) : Prop where
  fresh : P Eph.fresh
  id : ∀ e s g, P e → P { e with sat := s, gnssID := g }
  gps : ∀ junk t d e o, P e → decodeGPS junk t d e = .ok o → P o.eph ∧ ∀ r ∈ o.reports, P r
  gal : ∀ d row e o, P e → decodeGalileo md d row e = .ok o → P o.eph ∧ ∀ r ∈ o.reports, P r
  gfresh : ∀ s, Q { GEph.fresh with sat := s }
  glo : ∀ t gn sv fr d g o, Q g → decodeGlonass md t gn sv fr d g = .ok o → Q o.geph ∧ ∀ r ∈ o.reports, Q r

variable {md : Mode} {P : Eph → Prop} {Q : GEph → Prop}

/-- What is kept along a history. -/
def AllKept (P : Eph → Prop) (Q : GEph → Prop) (n : Nav) : Prop := (∀ e ∈ n.eph, P e) ∧ ∀ g ∈ n.geph, Q g

theorem kept_ephCalls {n : Nat} {rs : List Eph} (hrs : ∀ r ∈ rs, P r) :
    (∀ i e, NavCall.eph i e ∈ ephCalls n rs → P e) ∧ ∀ i g, NavCall.geph i g ∈ ephCalls n rs → Q g := by
  refine ⟨fun i e he => ?_, fun i g hg => ?_⟩
  · obtain ⟨r, hr, he⟩ := List.mem_flatMap.1 he
    obtain ⟨j, -, he⟩ := List.mem_map.1 he
    injection he with _ he
    rw [← he]; exact hrs r hr
  · obtain ⟨r, hr, he⟩ := List.mem_flatMap.1 hg
    obtain ⟨j, -, he⟩ := List.mem_map.1 he
    cases he

theorem kept_gephCalls {n : Nat} {rs : List GEph} (hrs : ∀ r ∈ rs, Q r) :
    (∀ i e, NavCall.eph i e ∈ gephCalls n rs → P e) ∧ ∀ i g, NavCall.geph i g ∈ gephCalls n rs → Q g := by
  refine ⟨fun i e he => ?_, fun i g hg => ?_⟩
  · obtain ⟨r, hr, he⟩ := List.mem_flatMap.1 he
    obtain ⟨j, -, he⟩ := List.mem_map.1 he
    cases he
  · obtain ⟨r, hr, he⟩ := List.mem_flatMap.1 hg
    obtain ⟨j, -, he⟩ := List.mem_map.1 he
    injection he with _ he
    rw [← he]; exact hrs r hr

theorem kept_ephTail (hk : Kept md P Q) {junk : List Byte} {n : Nav} {m : Sfrbx} {o : NavOut} {ephs : List Eph} {i : Nat}
    (hg : ∀ g ∈ n.geph, Q g) (hm : ∀ e ∈ ephs, P e)
    (h : (match ephs[i]? with
      | none => .error .oobRead
      | some e0 =>
        let e := { e0 with sat := m.svId, gnssID := m.gnssId }
        if m.gnssId = 0 then do
          let o ← decodeGPS junk n.gpsTime m.dwrd e
          .ok ⟨{ n with eph := ephs.set i o.eph, gpsTime := o.gpsTime }, ephCalls n.ephCbs o.reports, some o.ret⟩
        else if m.gnssId = 2 then do
          let o ← decodeGalileo md m.dwrd (n.gal m.svId.toNat) e
          .ok ⟨{ n with eph := ephs.set i o.eph,
                        gal := fun s => if s = m.svId.toNat then o.row else n.gal s },
               ephCalls n.ephCbs o.reports, some o.ret⟩
        else do
          offEnd md
          .ok ⟨{ n with eph := ephs.set i e }, [], none⟩ : M NavOut) = .ok o) :
    AllKept P Q o.nav ∧ (∀ i e, .eph i e ∈ o.calls → P e) ∧ ∀ i g, .geph i g ∈ o.calls → Q g := by
  cases hi : ephs[i]? with
  | none => rw [hi] at h; cases h
  | some e0 =>
    rw [hi] at h
    have h0 := hm e0 (List.mem_of_getElem? hi)
    have hf0 := hk.id e0 m.svId m.gnssId h0
    have hset : ∀ {e' : Eph}, P e' → ∀ e ∈ ephs.set i e', P e := by
      intro e' h' e he
      rcases Ros.mem_set' he with he | he
      · exact hm e he
      · rw [he]; exact h'
    dsimp only at h
    split at h
    · rw [bind_ok] at h
      obtain ⟨r, hr, h⟩ := h
      obtain ⟨a, b⟩ := hk.gps _ _ _ _ _ hf0 hr
      have e := Except.ok.inj h
      rw [← e]
      exact ⟨⟨hset a, hg⟩, kept_ephCalls b⟩
    · split at h
      · rw [bind_ok] at h
        obtain ⟨r, hr, h⟩ := h
        obtain ⟨a, b⟩ := hk.gal _ _ _ _ hf0 hr
        have e := Except.ok.inj h
        rw [← e]
        exact ⟨⟨hset a, hg⟩, kept_ephCalls b⟩
      · rw [bind_ok] at h
        obtain ⟨_, -, h⟩ := h
        have e := Except.ok.inj h
        rw [← e]
        exact ⟨⟨hset hf0, hg⟩, fun _ _ hh => (List.not_mem_nil hh).elim, fun _ _ hh => (List.not_mem_nil hh).elim⟩

theorem kept_convertEph (hk : Kept md P Q) {junk : List Byte} {n : Nav} {m : Sfrbx} {o : NavOut} (hf : AllKept P Q n)
    (h : convertEph md junk n m = .ok o) :
    AllKept P Q o.nav ∧ (∀ i e, .eph i e ∈ o.calls → P e) ∧ ∀ i g, .geph i g ∈ o.calls → Q g := by
  unfold convertEph at h
  cases hfl : findLast m.svId (n.eph.map (·.sat)) 0 none with
  | some i => rw [hfl] at h; exact kept_ephTail hk hf.2 hf.1 h
  | none =>
    rw [hfl] at h
    refine kept_ephTail hk hf.2 (ephs := n.eph ++ [Eph.fresh]) (fun e he => ?_) h
    rcases List.mem_append.1 he with he | he
    · exact hf.1 e he
    · rw [List.mem_singleton.1 he]; exact hk.fresh

theorem kept_gloTail (hk : Kept md P Q) {n : Nav} {m : Sfrbx} {o : NavOut} {gephs : List GEph} {i : Nat} (hf : ∀ e ∈ n.eph, P e)
    (hm : ∀ e ∈ gephs, Q e)
    (h : (match gephs[i]? with
      | none => .error .oobRead
      | some g => do
        let o ← decodeGlonass md n.gpsTime m.gnssId m.svId m.freqId m.dwrd g
        .ok ⟨{ n with geph := gephs.set i o.geph }, gephCalls n.gephCbs o.reports, some o.ret⟩ : M NavOut) = .ok o) :
    AllKept P Q o.nav ∧ (∀ i e, .eph i e ∈ o.calls → P e) ∧ ∀ i g, .geph i g ∈ o.calls → Q g := by
  cases hi : gephs[i]? with
  | none => rw [hi] at h; cases h
  | some e0 =>
    rw [hi] at h
    have h0 := hm e0 (List.mem_of_getElem? hi)
    dsimp only at h
    rw [bind_ok] at h
    obtain ⟨r, hr, h⟩ := h
    obtain ⟨a, b⟩ := hk.glo _ _ _ _ _ _ _ h0 hr
    have e := Except.ok.inj h
    rw [← e]
    refine ⟨⟨hf, fun e he => ?_⟩, kept_gephCalls b⟩
    rcases Ros.mem_set' he with he | he
    · exact hm e he
    · rw [he]; exact a

theorem kept_convertGlo (hk : Kept md P Q) {n : Nav} {m : Sfrbx} {o : NavOut} (hf : AllKept P Q n)
    (h : convertGlo md n m = .ok o) :
    AllKept P Q o.nav ∧ (∀ i e, .eph i e ∈ o.calls → P e) ∧ ∀ i g, .geph i g ∈ o.calls → Q g := by
  unfold convertGlo at h
  cases hfl : findLast m.svId (n.geph.map (·.sat)) 0 none with
  | some i => rw [hfl] at h; exact kept_gloTail hk hf.1 hf.2 h
  | none =>
    rw [hfl] at h
    refine kept_gloTail hk hf.1 (gephs := n.geph ++ [{ GEph.fresh with sat := m.svId }]) (fun e he => ?_) h
    rcases List.mem_append.1 he with he | he
    · exact hf.2 e he
    · rw [List.mem_singleton.1 he]; exact hk.gfresh _

theorem kept_step (hk : Kept md P Q) {n n' : Nav} {op : NavOp} {c : List NavCall} (hf : AllKept P Q n)
    (h : n.step md op = .ok (n', c)) :
    AllKept P Q n' ∧ (∀ i e, .eph i e ∈ c → P e) ∧ ∀ i g, .geph i g ∈ c → Q g := by
  cases op with
  | setTime t =>
    obtain ⟨e1, e2⟩ := Prod.mk.inj (Except.ok.inj h)
    rw [← e1, ← e2]
    exact ⟨⟨hf.1, hf.2⟩, fun _ _ hh => (List.not_mem_nil hh).elim, fun _ _ hh => (List.not_mem_nil hh).elim⟩
  | addEphCb =>
    obtain ⟨e1, e2⟩ := Prod.mk.inj (Except.ok.inj h)
    rw [← e1, ← e2]
    exact ⟨⟨hf.1, hf.2⟩, fun _ _ hh => (List.not_mem_nil hh).elim, fun _ _ hh => (List.not_mem_nil hh).elim⟩
  | addGephCb =>
    obtain ⟨e1, e2⟩ := Prod.mk.inj (Except.ok.inj h)
    rw [← e1, ← e2]
    exact ⟨⟨hf.1, hf.2⟩, fun _ _ hh => (List.not_mem_nil hh).elim, fun _ _ hh => (List.not_mem_nil hh).elim⟩
  | sfrbx junk m =>
    unfold Nav.step at h
    rw [bind_ok] at h
    obtain ⟨o, ho, h⟩ := h
    obtain ⟨e1, e2⟩ := Prod.mk.inj (Except.ok.inj h)
    rw [← e1, ← e2]
    unfold convertUBX at ho
    split at ho
    · exact kept_convertGlo hk hf ho
    · exact kept_convertEph hk hf ho

theorem kept_run (hk : Kept md P Q) (ops : List NavOp) : ∀ {n n' : Nav} {cs : List (List NavCall)}, AllKept P Q n →
    n.run md ops = .ok (n', cs) →
    AllKept P Q n' ∧ ∀ c ∈ cs, (∀ i e, .eph i e ∈ c → P e) ∧ ∀ i g, .geph i g ∈ c → Q g := by
  induction ops with
  | nil =>
    intro n n' cs hf h
    rw [run_nil] at h
    rw [h.1, h.2]
    exact ⟨hf, fun _ h => (List.not_mem_nil h).elim⟩
  | cons op ops ih =>
    intro n n' cs hf h
    rw [run_cons] at h
    obtain ⟨n1, c, cs', h1, h2, h3⟩ := h
    obtain ⟨a, b⟩ := kept_step hk hf h1
    obtain ⟨a', b'⟩ := ih a h2
    refine ⟨a', fun x hx => ?_⟩
    rw [h3] at hx
    rcases List.mem_cons.1 hx with rfl | hx
    · exact b
    · exact b' x hx

theorem kept_init : AllKept P Q Nav.init :=
  ⟨fun _ h => (List.not_mem_nil h).elim, fun _ h => (List.not_mem_nil h).elim⟩

end Ublox.Nav
