import Verif.Model.Logger
import Verif.Props.Device

/-!
# C64, C77: recording, replay and the serial fan-out
-/

namespace Ublox.Logger

/-- The buffers given to one listener, in order. -/
def heardBy (l : Nat) (cs : List SerialCall) : List (List Byte) :=
  (cs.filter fun c => c.sink = .listener l).map (·.bytes)

theorem heardBy_append (l : Nat) (a b : List SerialCall) : heardBy l (a ++ b) = heardBy l a ++ heardBy l b := by
  simp [heardBy]

theorem heardBy_round {l : Nat} {ls : List Nat} (hl : ls.count l = 1) (buf : List Byte) :
    heardBy l (ls.map fun k => ⟨.listener k, buf⟩) = [buf] := by
  induction ls with
  | nil => simp at hl
  | cons k ks ih =>
    rw [List.map_cons]
    by_cases hk : k = l
    · subst hk
      have h0 : ks.count k = 0 := by simpa using hl
      have hn : k ∉ ks := List.count_eq_zero.1 h0
      have : heardBy k (ks.map fun j => ⟨.listener j, buf⟩) = [] := by
        unfold heardBy
        rw [List.map_eq_nil_iff, List.filter_eq_nil_iff]
        intro c hc
        obtain ⟨j, hj, rfl⟩ := List.mem_map.1 hc
        have : j ≠ k := fun h => hn (h ▸ hj)
        simpa using this
      simpa [heardBy] using this
    · have := ih (by simpa [List.count_cons, hk] using hl)
      simpa [heardBy, hk] using this

theorem loop_ok (ls : List Nat) (buffer : List Byte) (idx : Nat) (hle : idx ≤ buffer.length)
    (hlen : buffer.length < 2 ^ 31) :
    ∃ chunks : List (List Byte),
      loop ls buffer buffer.length idx = .ok (chunks.flatMap fun c => ls.map fun l => ⟨.listener l, c⟩) ∧
      chunks.flatten = buffer.drop idx ∧ (∀ c ∈ chunks, 0 < c.length ∧ c.length ≤ 14) := by
  generalize hn : buffer.length - idx = n
  induction n using Nat.strongRecOn generalizing idx with
  | ind n ih =>
    rw [loop]
    by_cases h : idx < buffer.length
    · rw [dif_pos h]
      have hpos := chunkSize_pos h
      have hsz : chunkSize buffer.length idx ≤ 14 ∧ idx + chunkSize buffer.length idx ≤ buffer.length := by
        unfold chunkSize; split <;> omega
      dsimp only
      rw [if_neg (by omega)]
      obtain ⟨chunks, e, hf, hb⟩ := ih (buffer.length - (idx + chunkSize buffer.length idx)) (by omega)
        (idx + chunkSize buffer.length idx) hsz.2 rfl
      rw [e]
      refine ⟨(buffer.drop idx).take (chunkSize buffer.length idx) :: chunks, rfl, ?_, ?_⟩
      · rw [List.flatten_cons, hf, ← List.drop_drop, List.take_append_drop]
      · intro c hc
        rcases List.mem_cons.1 hc with rfl | hc
        · rw [List.length_take, List.length_drop]; omega
        · exact hb c hc
    · rw [dif_neg h]
      refine ⟨[], rfl, ?_, by simp⟩
      rw [List.drop_eq_nil_of_le (by omega)]; rfl

theorem record_ok {g : Logger} (h1 : g.type = .write) (h2 : g.isOpen = true) (bufs : List (List Byte)) :
    g.record bufs = .ok { g with file := g.file ++ bufs.flatten } := by
  induction bufs generalizing g with
  | nil => simp [record]
  | cons b bs ih =>
    have e : g.readCb b = .ok { g with file := g.file ++ b } := by
      rw [readCb, if_neg (by simp [h1]), if_neg (by simp [h2])]
    rw [record, e]
    dsimp only
    rw [ih (g := { g with file := g.file ++ b }) h1 h2]
    simp

/-- **C64, recording.** A logger opened for writing on any writable name and given the received buffers one by one
leaves in its file exactly the received bytes, whatever was there before. -/
theorem c64_record (old : List Byte) (bufs : List (List Byte)) :
    ∃ g g', create .write (some old) = .ok g ∧ g.record bufs = .ok g' ∧ g'.file = bufs.flatten := by
  refine ⟨_, _, rfl, record_ok rfl rfl bufs, by simp⟩

/-- **C64, replay (partial).** Playing a log shorter than 2 GiB calls the listeners, chunk by chunk and each chunk in
order of registration; the chunks are non-empty, at most 14 bytes, and concatenate to the recorded bytes.  Missing
from the claim: longer logs (`c64_long_logs`). -/
theorem c64_replay_partial (file : List Byte) (hlen : file.length < 2 ^ 31) (ls : List Nat) :
    ∃ chunks : List (List Byte),
      (play { type := .read, isOpen := true, file, listeners := ls }) =
        .ok (chunks.flatMap fun c => ls.map fun l => ⟨.listener l, c⟩) ∧
      chunks.flatten = file ∧ ∀ c ∈ chunks, 0 < c.length ∧ c.length ≤ 14 := by
  obtain ⟨chunks, e, hf, hb⟩ := loop_ok ls file 0 (Nat.zero_le _) hlen
  refine ⟨chunks, ?_, by simpa using hf, hb⟩
  rw [play, if_neg (by simp)]
  dsimp only
  rw [Nat.mod_eq_of_lt (by omega), List.take_length, e]

theorem heardBy_rounds {l : Nat} {ls : List Nat} (hl : ls.count l = 1) (chunks : List (List Byte)) :
    heardBy l (chunks.flatMap fun c => ls.map fun k => ⟨.listener k, c⟩) = chunks := by
  induction chunks with
  | nil => rfl
  | cons c cs ih =>
    rw [List.flatMap_cons, heardBy_append, heardBy_round hl, ih]; rfl

/-- **C64, record then replay (partial).** Record any buffers, replay the file to a set of listeners: a device that
listens once and starts in the same state makes the same callbacks and ends in the same state (or meets the same
undefined behaviour) as it would on the live buffers.  Missing: recordings of 2 GiB and more. -/
theorem c64_same_callbacks_partial (old : List Byte) (bufs : List (List Byte)) (hlen : bufs.flatten.length < 2 ^ 31)
    (ls : List Nat) (l : Nat) (hl : ls.count l = 1) (md : Nav.Mode) (d : Dev) :
    ∃ g g' r cs, create .write (some old) = .ok g ∧ g.record bufs = .ok g' ∧
      create .read (some g'.file) = .ok r ∧ play { r with listeners := ls } = .ok cs ∧
      Dev.run md d ((heardBy l cs).map .rx) = Dev.run md d (bufs.map .rx) := by
  obtain ⟨g, g', e1, e2, e3⟩ := c64_record old bufs
  obtain ⟨chunks, e4, e5, -⟩ := c64_replay_partial g'.file (by rw [e3]; exact hlen) ls
  refine ⟨g, g', _, _, e1, e2, rfl, e4, ?_⟩
  rw [heardBy_rounds hl]
  exact Dev.c04_two_ways md d _ _ (by rw [e5, e3])

theorem loop_overflow (ls : List Nat) (buffer : List Byte) (len idx : Nat) (h1 : idx < 2 ^ 31) (h2 : 2 ^ 31 ≤ len) :
    loop ls buffer len idx = .error .overflow := by
  generalize hn : 2 ^ 31 - idx = n
  induction n using Nat.strongRecOn generalizing idx with
  | ind n ih =>
    have hpos := chunkSize_pos (show idx < len by omega)
    rw [loop, dif_pos (show idx < len by omega)]
    dsimp only
    by_cases h : idx + chunkSize len idx ≥ 2 ^ 31
    · rw [if_pos h]
    · rw [if_neg h, ih (2 ^ 31 - (idx + chunkSize len idx)) (by omega) _ (by omega) rfl]
      rfl

/-- **C64 fails on long logs.** On every log whose length, reduced modulo 2^32, is 2 GiB or more, with or without
listeners, `play` overflows its `int` index. -/
theorem c64_long_logs (file : List Byte) (h : 2 ^ 31 ≤ file.length % 2 ^ 32) (ls : List Nat) :
    play { type := .read, isOpen := true, file, listeners := ls } = .ub .overflow := by
  rw [play, if_neg (by simp)]
  dsimp only
  rw [loop_overflow ls _ _ 0 (by decide) h]

/-- **C64 refuted as stated.** A log of exactly 4 GiB (of any contents) is replayed as if it were empty. -/
theorem c64_refuted (file : List Byte) (h : file.length = 2 ^ 32) (ls : List Nat) :
    play { type := .read, isOpen := true, file, listeners := ls } = .ok [] := by
  rw [play, if_neg (by simp)]
  dsimp only
  rw [h, Nat.mod_self, loop, dif_neg (by omega)]

example : ∃ file : List Byte, file.length = 2 ^ 32 := ⟨List.replicate (2 ^ 32) 0, List.length_replicate⟩
example : ∃ file : List Byte, 2 ^ 31 ≤ file.length % 2 ^ 32 :=
  ⟨List.replicate (2 ^ 31) 0, by rw [List.length_replicate]; decide⟩

/-- A log of 20 bytes replayed to two listeners: two chunks, of 14 and 6 bytes. -/
example : (play { type := .read, isOpen := true, file := List.replicate 20 7, listeners := [3, 5] }) =
    .ok [⟨.listener 3, List.replicate 14 7⟩, ⟨.listener 5, List.replicate 14 7⟩,
         ⟨.listener 3, List.replicate 6 7⟩, ⟨.listener 5, List.replicate 6 7⟩] := by
  decide +kernel

/-- **C64, modes.** A player refuses to record and a recorder refuses to play, and neither changes the file. -/
theorem c64_modes (g : Logger) (buf : List Byte) :
    (g.type = .read → g.readCb buf = .throw) ∧ (g.type = .write → g.play = .throw) := by
  refine ⟨fun h => ?_, fun h => ?_⟩
  · rw [readCb, if_pos (by simp [h])]
  · rw [play, if_pos (by simp [h])]

end Ublox.Logger

namespace Ublox.SerialIf

open Logger (heardBy heardBy_round)

/-- The registrations a program makes on a serial interface. -/
inductive Reg where
  | listener (l : Nat)
  | callback (c : Nat)

/-- Carry them out, from a fresh interface. -/
def register (rs : List Reg) : SerialIf :=
  rs.foldl (fun s r => match r with | .listener l => s.addListener l | .callback c => s.addCallback c) ⟨[], none⟩

/-- **C77.** Whatever was registered, in whatever order, every received buffer goes, unchanged and as a whole, first to
the callback registered last (if any), then to every listener in order of registration, once per registration; and a
callback registered earlier hears nothing more. -/
theorem c77_fanout (rs : List Reg) (bufs : List (List Byte)) :
    bufs.flatMap (register rs).receive =
      bufs.flatMap fun b =>
        ((rs.filterMap fun | .callback c => some c | .listener _ => none).getLast?.toList.map
          fun c => (⟨.callback c, b⟩ : SerialCall)) ++
        ((rs.filterMap fun | .listener l => some l | .callback _ => none).map
          fun l => (⟨.listener l, b⟩ : SerialCall)) := by
  have key : (register rs).cb = (rs.filterMap fun | .callback c => some c | .listener _ => none).getLast? ∧
      (register rs).listeners = rs.filterMap fun | .listener l => some l | .callback _ => none := by
    unfold register
    induction rs using List.reverseRecOn with
    | nil => exact ⟨rfl, rfl⟩
    | append_singleton rs r ih =>
      rw [List.foldl_append, List.filterMap_append, List.filterMap_append]
      generalize List.foldl _ _ rs = t at ih ⊢
      cases r with
      | listener l => exact ⟨by simpa [addListener] using ih.1, by simp [addListener, ih.2]⟩
      | callback c => exact ⟨by simp [addCallback], by simpa [addCallback] using ih.2⟩
  congr 1
  funext b
  rw [receive, key.1, key.2]

example : (register [.listener 1, .callback 9, .listener 2, .callback 8]).receive [5] =
    [⟨.callback 8, [5]⟩, ⟨.listener 1, [5]⟩, ⟨.listener 2, [5]⟩] := by decide

end Ublox.SerialIf
