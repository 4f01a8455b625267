import Verif.Spec.ConfigItems
import Verif.Lemmas.UbxCmd
import Verif.Props.Ubx
import Verif.Props.DeviceCtor

/-!
# C102: configuration items as the receiver reads them
-/

namespace Ublox
open Ubx

/-! ## Reading little-endian fields back -/

theorem leBytes_inj {k a b : Nat} (ha : a < 256 ^ k) (hb : b < 256 ^ k) (h : leBytes k a = leBytes k b) : a = b := by
  induction k generalizing a b with
  | zero => simp at ha hb; omega
  | succ k ih =>
    simp only [leBytes, List.cons.injEq] at h
    obtain ⟨h1, h2⟩ := h
    have h1 := congrArg BitVec.toNat h1
    simp only [BitVec.toNat_ofNat] at h1
    have := ih (a := a / 256) (b := b / 256) (by rw [Nat.pow_succ] at ha; omega) (by rw [Nat.pow_succ] at hb; omega) h2
    omega

/-- Too few bytes for a key and at least one byte of value. -/
theorem no_items_short {p : List Byte} (h0 : p ≠ []) (h : p.length < 5) (its : List (Nat × Nat)) :
    ¬ IsItemList p its := by
  intro hi
  cases hi with
  | nil => exact h0 rfl
  | @cons k v w rest its hk hw hv hr =>
    have : 1 ≤ w := by
      revert hw; unfold keyWidth; split <;> intro hw <;> simp at hw <;> omega
    simp only [List.length_append, leBytes_length] at h
    omega

/-- The first item of a list is determined by the bytes. -/
theorem items_head {k : Nat} {tl : List Byte} {its : List (Nat × Nat)} (hk : k < 2 ^ 32)
    (h : IsItemList (leBytes 4 k ++ tl) its) :
    ∃ w v rest its', keyWidth k = some w ∧ v < 256 ^ w ∧ tl = leBytes w v ++ rest ∧ its = (k, v) :: its' ∧
      IsItemList rest its' := by
  generalize hp : leBytes 4 k ++ tl = p at h
  cases h with
  | nil => exact absurd (congrArg List.length hp) (by simp [leBytes_length])
  | @cons k' v w rest its hk' hw hv hr =>
    rw [List.append_assoc] at hp
    obtain ⟨e1, e2⟩ := List.append_inj hp (by rw [leBytes_length, leBytes_length])
    have : k = k' := leBytes_inj (k := 4) (by simpa using hk) (by simpa using hk') e1
    subst this
    exact ⟨w, v, rest, its, hw, hv, e2, rfl, hr⟩

theorem items_nil {its : List (Nat × Nat)} (h : IsItemList [] its) : its = [] := by
  generalize hp : ([] : List Byte) = p at h
  cases h with
  | nil => rfl
  | @cons k v w rest its hk hw hv hr =>
    have := congrArg List.length hp
    simp only [List.length_append, leBytes_length, List.length_nil] at this
    omega

/-- A key followed by four bytes is a list of items exactly if the key announces a four-byte value. -/
theorem items_word (k n : Nat) (hk : k < 2 ^ 32) (hn : n < 2 ^ 32) (its : List (Nat × Nat)) :
    IsItemList (leBytes 4 k ++ leBytes 4 n) its ↔ keyWidth k = some 4 ∧ its = [(k, n)] := by
  constructor
  · intro h
    obtain ⟨w, v, rest, its', hw, hv, e, rfl, hr⟩ := items_head hk h
    have hl : 4 = w + rest.length := by
      have := congrArg List.length e
      simpa [leBytes_length] using this
    by_cases h4 : w = 4
    · subst h4
      have : rest = [] := List.eq_nil_of_length_eq_zero (by omega)
      subst this
      rw [List.append_nil] at e
      have := leBytes_inj (k := 4) (by simpa using hn) hv e
      subst this
      rw [items_nil hr]
      exact ⟨hw, rfl⟩
    · exfalso
      have : 1 ≤ w := by
        revert hw; unfold keyWidth; split <;> intro hw <;> simp at hw <;> omega
      exact no_items_short (p := rest) (by intro h; rw [h] at hl; simp at hl; omega) (by omega) its' hr
  · rintro ⟨hw, rfl⟩
    have := IsItemList.cons hk hw (v := n) (by simpa using hn) .nil
    rwa [List.append_nil] at this

theorem valset_payload (d : BitVec 64) (s : Byte) :
    (if s = 1 then leBytes 1 d.toNat ++ [0, 0, 0] else if s = 2 then leBytes 4 d.toNat else [0, 0, 0, 0]) =
      leBytes 4 (sentWord d.toNat s.toNat) := by
  unfold sentWord
  by_cases h1 : s = 1
  · subst h1
    rw [if_pos rfl, if_pos (by decide)]
    simp only [leBytes, List.cons_append, List.nil_append, List.cons.injEq, and_true]
    refine ⟨?_, ?_, ?_, ?_⟩ <;> apply BitVec.eq_of_toNat_eq <;> simp only [BitVec.toNat_ofNat] <;>
      (try show (0 : Nat) = _) <;> omega
  · have h1' : s.toNat ≠ 1 := fun h => h1 (BitVec.eq_of_toNat_eq h)
    rw [if_neg h1, if_neg h1']
    by_cases h2 : s = 2
    · subst h2
      rw [if_pos rfl, if_pos (by decide), leBytes4_mod]
    · have h2' : s.toNat ≠ 2 := fun h => h2 (BitVec.eq_of_toNat_eq h)
      rw [if_neg h2, if_neg h2']
      rfl

theorem sentWord_lt (d s : Nat) : sentWord d s < 2 ^ 32 := by
  unfold sentWord
  split
  · omega
  · split <;> omega

/-- C102, exactly which items a `configure` call sets: it writes one CFG-VALSET message, and the receiver can read that
message as a list of items if and only if the key is one with a four-byte value; the list is then that one key with the
four bytes sent (`size` 2: the low 32 bits of the value; `size` 1: its low byte; any other `size`: zero). -/
theorem c102_configure_exact {u : Ubx} (hu : u.outMsg.length = 2048) (v l : Byte) (d : BitVec 64) (k : BitVec 32)
    (s : Byte) :
    ∃ u' p, (Command.configure v l d k s).run u = .ok (u', wireBytes [(0x06, 0x8A, p)]) ∧
      ∀ its, SetsItems v l p its ↔ keyWidth k.toNat = some 4 ∧ its = [(k.toNat, sentWord d.toNat s.toNat)] := by
  obtain ⟨u', e⟩ := c21_partial hu (.configure v l d k s) (by simp)
  refine ⟨u', _, e, ?_⟩
  intro its
  rw [← items_word k.toNat _ k.isLt (sentWord_lt _ _)]
  constructor
  · rintro ⟨body, hb, hi⟩
    rw [List.append_assoc] at hb
    have := List.append_cancel_left hb
    rw [valset_payload] at this
    rw [this]; exact hi
  · intro h
    refine ⟨_, ?_, h⟩
    rw [← valset_payload, List.append_assoc]

/-- C102, what holds: with a four-byte key and `size` 2, a `configure` call sets exactly the key asked for, to the value
asked for (a value of at most 32 bits).  Missing: every other width of key. -/
theorem c102_partial {u : Ubx} (hu : u.outMsg.length = 2048) (v l : Byte) (d : BitVec 64) (k : BitVec 32)
    (hk : keyWidth k.toNat = some 4) (hd : d.toNat < 2 ^ 32) :
    ∃ u' p, (Command.configure v l d k 2).run u = .ok (u', wireBytes [(0x06, 0x8A, p)]) ∧
      ∀ its, SetsItems v l p its ↔ its = [(k.toNat, d.toNat)] := by
  obtain ⟨u', p, e, h⟩ := c102_configure_exact hu v l d k 2
  refine ⟨u', p, e, fun its => ?_⟩
  rw [h]
  have : sentWord d.toNat (2 : Byte).toNat = d.toNat := by
    show d.toNat % 2 ^ 32 = _
    exact Nat.mod_eq_of_lt hd
  rw [this]
  exact ⟨fun h => h.2, fun h => ⟨hk, h⟩⟩

/-- C102, what a receiver that stops after the first item sees (narrow keys): the message starts with the right key and
the right value, and the rest of the four value bytes are zeros. -/
theorem c102_first_item_partial {u : Ubx} (hu : u.outMsg.length = 2048) (v l : Byte) (d : BitVec 64) (k : BitVec 32)
    (w : Nat) (hw : w = 1 ∨ w = 2) (hd : d.toNat < 256) :
    ∃ u', (Command.configure v l d k 1).run u = .ok (u', wireBytes [(0x06, 0x8A,
      [v, l, 0, 0] ++ leBytes 4 k.toNat ++ leBytes w d.toNat ++ List.replicate (4 - w) 0)]) := by
  obtain ⟨u', e⟩ := c21_partial hu (.configure v l d k 1) (by simp)
  refine ⟨u', ?_⟩
  rw [e]
  show Except.ok (u', wireBytes [(0x06, 0x8A, [v, l, 0, 0] ++ leBytes 4 k.toNat ++ (leBytes 1 d.toNat ++ [0, 0, 0]))]) = _
  have : leBytes 1 d.toNat ++ [0, 0, 0] = leBytes w d.toNat ++ List.replicate (4 - w) 0 := by
    rcases hw with rfl | rfl
    · rfl
    · simp only [leBytes, List.cons_append, List.nil_append, List.cons.injEq, true_and]
      refine ⟨?_, rfl⟩
      apply BitVec.eq_of_toNat_eq
      simp only [BitVec.toNat_ofNat]
      have : d.toNat / 256 = 0 := by omega
      rw [this]; rfl
  rw [this, List.append_assoc _ (leBytes w _)]

theorem no_items_narrow (k n : Nat) (hk : k < 2 ^ 32) (hn : n < 2 ^ 32) (h : keyWidth k ≠ some 4)
    (its : List (Nat × Nat)) : ¬ SetsItems 0 1 ([0, 1, 0, 0] ++ leBytes 4 k ++ leBytes 4 n) its := by
  rintro ⟨body, hb, hi⟩
  rw [List.append_assoc] at hb
  rw [← List.append_cancel_left hb] at hi
  exact h ((items_word k n hk hn its).1 hi).1

/-- C102 is false of the code: on a receiver with the new protocol, none of the messages by which the driver sets the
navigation rate, switches NMEA off or sets the dynamic model is a list of configuration items: each value is followed by
two or three bytes that belong to no item. -/
theorem c102_refuted {u : Ubx} (hu : u.outMsg.length = 2048) (hm : 23 < u.major) (c : Command)
    (hc : c = .disableNmea ∨ c = .setDynamicMode ∨ ∃ p, c = .setNavRate p) :
    ∃ u' ms, c.run u = .ok (u', wireBytes ms) ∧ ms ≠ [] ∧
      ∀ m ∈ ms, m.1 = 0x06 ∧ m.2.1 = 0x8A ∧ ∀ its, ¬ SetsItems 0 1 m.2.2 its := by
  have key := @no_items_narrow
  obtain ⟨u', e⟩ := c21_partial hu c (by rcases hc with rfl | rfl | ⟨p, rfl⟩ <;> simp)
  refine ⟨u', _, e, ?_⟩
  rcases hc with rfl | rfl | ⟨p, rfl⟩
  · simp only [expectedMessages]
    rw [if_neg (by omega)]
    refine ⟨by simp, ?_⟩
    intro m hm
    simp only [List.mem_cons, List.not_mem_nil, or_false] at hm
    rcases hm with rfl | rfl
    · exact ⟨rfl, rfl, key 0x10770002 0 (by decide) (by decide) (by decide)⟩
    · exact ⟨rfl, rfl, key 0x10780002 0 (by decide) (by decide) (by decide)⟩
  · simp only [expectedMessages]
    rw [if_neg (by omega)]
    refine ⟨by simp, ?_⟩
    intro m hm
    simp only [List.mem_cons, List.not_mem_nil, or_false] at hm
    subst hm
    exact ⟨rfl, rfl, key 0x20110021 6 (by decide) (by decide) (by decide)⟩
  · simp only [expectedMessages]
    rw [if_neg (by omega)]
    refine ⟨by simp, ?_⟩
    intro m hm
    simp only [List.mem_cons, List.not_mem_nil, or_false] at hm
    rcases hm with rfl | rfl | rfl
    · exact ⟨rfl, rfl, key 0x30210001 p.toNat (by decide) (by have := p.isLt; omega) (by decide)⟩
    · exact ⟨rfl, rfl, key 0x30210002 1 (by decide) (by decide) (by decide)⟩
    · exact ⟨rfl, rfl, key 0x20210003 0 (by decide) (by decide) (by decide)⟩

/-- C102 is false of the code, at the level of the device: whatever has happened before, `config_rover` sends seven
CFG-VALSET messages and none of them is a list of configuration items. -/
theorem c102_rover_refuted {md : Nav.Mode} {d : Dev} {evs : List Dev.Ev} {es0 : List Eff}
    (h : Dev.Reach md d evs es0) (i : Nat) :
    ∃ d' ms, d.step md (.configRover i) = .ok (d', [.toReceiver (wireBytes ms)]) ∧ ms.length = 7 ∧
      ∀ m ∈ ms, m.1 = 0x06 ∧ m.2.1 = 0x8A ∧ ∀ its, ¬ SetsItems 0 1 m.2.2 its := by
  obtain ⟨d', e⟩ := Dev.c75_rover h i
  refine ⟨d', _, e, rfl, ?_⟩
  intro m hm
  simp only [rtcmRates, List.map_cons, List.map_nil, List.mem_cons, List.not_mem_nil, or_false] at hm
  have key := fun k hk hw => no_items_narrow k 0 hk (by decide) hw
  rcases hm with rfl | rfl | rfl | rfl | rfl | rfl | rfl <;>
    exact ⟨rfl, rfl, key _ (by decide) (by decide)⟩

/-- C102 is false of the code: a `get_configuration` call asks for three keys, the one asked for and twice the key zero,
which is no key. -/
theorem c102_poll_refuted {u : Ubx} (hu : u.outMsg.length = 2048) (v l : Byte) (k : BitVec 32) :
    ∃ u' p, (Command.getConfiguration v l k).run u = .ok (u', wireBytes [(0x06, 0x8B, p)]) ∧
      AsksKeys v l p [k.toNat, 0, 0] ∧ ¬ AsksKeys v l p [k.toNat] ∧ keyWidth 0 = none := by
  obtain ⟨u', e⟩ := c21_partial hu (.getConfiguration v l k) (by simp)
  refine ⟨u', _, e, ⟨?_, ?_⟩, ?_, rfl⟩
  · rw [List.append_assoc]; rfl
  · intro x hx
    simp only [List.mem_cons, List.not_mem_nil, or_false] at hx
    rcases hx with rfl | rfl | rfl
    · exact k.isLt
    · decide
    · decide
  · rintro ⟨h, -⟩
    exact absurd (congrArg List.length h) (by simp [leBytes_length])

/-- The survey-in accuracy limit is one of the two items the driver sets with a four-byte key. -/
example : keyWidth 0x40030011 = some 4 ∧ keyWidth 0x40030010 = some 4 ∧ keyWidth 0x30210001 = some 2 ∧
    keyWidth 0x10770002 = some 1 ∧ keyWidth 0x20910301 = some 1 := by decide

/-- The hypotheses of `c102_partial` are met by the driver's own call for the accuracy limit. -/
example : ∃ u' p, (Command.configure 0 1 500000 0x40030011 2).run exU = .ok (u', wireBytes [(0x06, 0x8A, p)]) ∧
    ∀ its, SetsItems 0 1 p its ↔ its = [(0x40030011, 500000)] :=
  c102_partial exU_out 0 1 500000 0x40030011 (by decide) (by decide)

/-- The hypotheses of `c102_refuted` are met by a receiver with protocol 27. -/
example : ∃ u' ms, Command.disableNmea.run { exU with major := 27 } = .ok (u', wireBytes ms) ∧ ms ≠ [] ∧
    ∀ m ∈ ms, m.1 = 0x06 ∧ m.2.1 = 0x8A ∧ ∀ its, ¬ SetsItems 0 1 m.2.2 its :=
  c102_refuted (u := { exU with major := 27 }) exU_out (by decide) _ (.inl rfl)

end Ublox
