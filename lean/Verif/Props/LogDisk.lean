import Verif.Spec.LogDisk
import Verif.Props.Logger

/-!
# C136, C137: recording is interrupted; the disk is full
-/

namespace Ublox

theorem given_append (a b : List RecEv) : given (a ++ b) = given a ++ given b := List.filterMap_append ..

namespace Recorder

theorem run_append (r : Recorder) (a b : List RecEv) : r.run (a ++ b) = (r.run a).bind fun r' => r'.run b := by
  induction a generalizing r with
  | nil => rfl
  | cons e es ih =>
    show (r.step e).bind _ = ((r.step e).bind _).bind _
    cases r.step e with
    | none => rfl
    | some r' => exact ih r'

/-- The recorder writes and its file is open; what is on disk, followed by what waits if nothing failed, is the beginning
of `s`, all of it if nothing failed. -/
structure Rec (r : Recorder) (s : List Byte) : Prop where
  type : r.type = .write
  opened : r.out.isOpen = true
  good : r.out.bad = false → r.out.disk ++ r.out.pending = s
  pre : r.out.disk <+: s

theorem Rec.step {r : Recorder} {s : List Byte} (h : Rec r s) (e : RecEv) :
    ∃ r', r.step e = some r' ∧ Rec r' (s ++ (given [e]).flatten) ∧ r.out.disk <+: r'.out.disk ∧
      (r.out.bad = true → r'.out.disk = r.out.disk ∧ r'.out.bad = true) ∧
      (r.out.bad = false → (∀ n, e ≠ .fail n) → r'.out.bad = false) := by
  obtain ⟨⟨ty⟩, ⟨disk, pending, bad, op⟩⟩ := r
  · cases h.type
  obtain ⟨-, h1, h2, h3⟩ := h
  dsimp only at h1 h2 h3
  subst h1
  cases e with
  | data buf =>
    have eg : (given [RecEv.data buf]).flatten = buf := by simp [given]
    rw [eg]
    refine ⟨_, rfl, ?_⟩
    cases bad with
    | true => exact ⟨⟨rfl, rfl, fun h => (by cases h), h3.trans (List.prefix_append ..)⟩, List.prefix_refl _,
        fun _ => ⟨rfl, rfl⟩, fun h => (by cases h)⟩
    | false =>
      refine ⟨⟨rfl, rfl, fun _ => ?_, h3.trans (List.prefix_append ..)⟩, List.prefix_refl _, fun h => (by cases h),
        fun _ _ => rfl⟩
      show disk ++ (pending ++ buf) = _
      rw [← List.append_assoc, h2 rfl]
  | flush n =>
    have eg : (given [RecEv.flush n]).flatten = [] := rfl
    rw [eg, List.append_nil]
    refine ⟨_, rfl, ?_⟩
    cases bad with
    | true => exact ⟨⟨rfl, rfl, fun h => (by cases h), h3⟩, List.prefix_refl _, fun _ => ⟨rfl, rfl⟩, fun h => (by cases h)⟩
    | false =>
      have e : (disk ++ pending.take n) ++ pending.drop n = s := by
        rw [List.append_assoc, List.take_append_drop]; exact h2 rfl
      exact ⟨⟨rfl, rfl, fun _ => e, ⟨pending.drop n, e⟩⟩, List.prefix_append .., fun h => (by cases h), fun _ _ => rfl⟩
  | fail n =>
    have eg : (given [RecEv.fail n]).flatten = [] := rfl
    rw [eg, List.append_nil]
    refine ⟨_, rfl, ?_⟩
    cases bad with
    | true => exact ⟨⟨rfl, rfl, fun h => (by cases h), h3⟩, List.prefix_refl _, fun _ => ⟨rfl, rfl⟩, fun h => (by cases h)⟩
    | false =>
      have e : (disk ++ pending.take n) ++ pending.drop n = s := by
        rw [List.append_assoc, List.take_append_drop]; exact h2 rfl
      exact ⟨⟨rfl, rfl, fun h => (by cases h), ⟨pending.drop n, e⟩⟩, List.prefix_append .., fun h => (by cases h),
        fun _ h => absurd rfl (h n)⟩

theorem Rec.run {r : Recorder} {s : List Byte} (h : Rec r s) (evs : List RecEv) :
    ∃ r', r.run evs = some r' ∧ Rec r' (s ++ (given evs).flatten) ∧ r.out.disk <+: r'.out.disk ∧
      (r.out.bad = true → r'.out.disk = r.out.disk ∧ r'.out.bad = true) ∧
      (r.out.bad = false → NoFailure evs → r'.out.bad = false) := by
  induction evs generalizing r s with
  | nil => exact ⟨r, rfl, by simpa [given] using h, List.prefix_refl _, fun h => ⟨rfl, h⟩, fun h _ => h⟩
  | cons e es ih =>
    obtain ⟨r1, e1, h1, p1, b1, n1⟩ := h.step e
    obtain ⟨r2, e2, h2, p2, b2, n2⟩ := ih h1
    refine ⟨r2, ?_, ?_, p1.trans p2, fun hb => ?_, fun hb hn => ?_⟩
    · show (r.step e).bind _ = _
      rw [e1]
      exact e2
    · have : given (e :: es) = given [e] ++ given es := given_append [e] es
      rw [this, List.flatten_append, ← List.append_assoc]
      exact h2
    · obtain ⟨x, y⟩ := b1 hb
      obtain ⟨z, w⟩ := b2 y
      exact ⟨z.trans x, w⟩
    · exact n2 (n1 hb fun n e' => hn n (by rw [e']; simp)) fun n hmem => hn n (by simp [hmem])

theorem rec_create : Rec create [] := ⟨rfl, rfl, fun _ => rfl, List.prefix_refl _⟩

/-- **C136.** Whatever the library and the operating system do meanwhile, and whenever the recording is cut short: the file
holds an initial part of the bytes received since the recording began, and what was in the file at any earlier moment is
still there. -/
theorem c136_prefix (evs more : List RecEv) :
    ∃ r r', create.run evs = some r ∧ create.run (evs ++ more) = some r' ∧
      r.out.disk <+: (given evs).flatten ∧ r.out.disk <+: r'.out.disk := by
  obtain ⟨r, e1, h1, -⟩ := rec_create.run evs
  obtain ⟨r', e2, h2, p2, -⟩ := h1.run more
  refine ⟨r, r', e1, ?_, by simpa using h1.pre, p2⟩
  rw [run_append, e1]
  exact e2

/-- **C136, orderly end.** If nothing failed, the file has every byte once the recorder is destroyed. -/
theorem c136_complete (evs : List RecEv) (h : NoFailure evs) :
    ∃ r, create.run evs = some r ∧ r.out.close.disk = (given evs).flatten := by
  obtain ⟨r, e1, h1, -, -, n1⟩ := rec_create.run evs
  refine ⟨r, e1, ?_⟩
  have hb := n1 rfl h
  have := h1.good hb
  rw [List.nil_append] at this
  rw [← this]
  show (r.out.flush r.out.pending.length).disk = _
  unfold OutStream.flush
  rw [hb]
  show r.out.disk ++ r.out.pending.take r.out.pending.length = _
  rw [List.take_length]

end Recorder

namespace Dev

open Nav (Mode)

/-- The effects of an initial part of the bytes are an initial part of the effects. -/
theorem rx_prefix {md : Mode} {d d1 : Dev} {p s : List Byte} {es : List Eff} (hp : p <+: s)
    (h : readCb md d s = .ok (d1, es)) : ∃ d2 es2, readCb md d p = .ok (d2, es2) ∧ es2 <+: es := by
  obtain ⟨q, rfl⟩ := hp
  obtain ⟨d2, e1, e2, h1, -, rfl⟩ := readCb_append_ok h
  exact ⟨d2, e1, h1, List.prefix_append ..⟩

end Dev

namespace Recorder

open Logger (play heardBy)

/-- **C136, replay.** The log left behind by an interrupted recording, replayed to a device, makes an initial part of the
calls and writes that the live data made (or would have made) on a device in the same state: nothing is invented, changed or
reordered. -/
theorem c136_replay (evs : List RecEv) (hlen : (given evs).flatten.length < 2 ^ 31) (ls : List Nat) (l : Nat)
    (hl : ls.count l = 1) (md : Nav.Mode) (d d1 : Dev) (es : List Eff)
    (hlive : Dev.run md d ((given evs).map .rx) = .ok (d1, es)) :
    ∃ r g cs d2 es2, create.run evs = some r ∧ Logger.create .read (some r.out.disk) = .ok g ∧
      play { g with listeners := ls } = .ok cs ∧
      Dev.run md d ((heardBy l cs).map .rx) = .ok (d2, es2) ∧ es2 <+: es := by
  obtain ⟨r, e1, h1, -⟩ := rec_create.run evs
  have hp : r.out.disk <+: (given evs).flatten := by simpa using h1.pre
  have hle := hp.length_le
  obtain ⟨chunks, e4, e5, -⟩ := Logger.c64_replay_partial r.out.disk (by omega) ls
  rw [Dev.c04_chunking] at hlive
  obtain ⟨d2, es2, k1, k2⟩ := Dev.rx_prefix hp hlive
  refine ⟨r, _, _, d2, es2, e1, rfl, e4, ?_, k2⟩
  rw [Logger.heardBy_rounds hl, Dev.c04_chunking, e5]
  exact k1

/-- **C137 refuted.** Once the disk does not take any more, every further call of `read_cb` returns normally, and not one of
its bytes is recorded, not even when the recorder is destroyed. -/
theorem c137_refuted (evs more : List RecEv) (n : Nat) :
    ∃ r r', create.run (evs ++ [.fail n]) = some r ∧ create.run (evs ++ [.fail n] ++ more) = some r' ∧
      r'.out.disk = r.out.disk ∧ r'.out.close.disk = r.out.disk ∧ r.out.disk <+: (given evs).flatten := by
  obtain ⟨r, e1, h1, -⟩ := rec_create.run (evs ++ [.fail n])
  have hb : r.out.bad = true := by
    obtain ⟨r0, e0, h0, -⟩ := rec_create.run evs
    rw [run_append, e0] at e1
    have e1 : (r0.step (.fail n)).bind (fun r' => r'.run []) = some r := e1
    have := Option.some.inj e1
    rw [← this]
    show (r0.out.fail n).bad = true
    unfold OutStream.fail
    split
    · assumption
    · rfl
  obtain ⟨r', e2, h2, -, b2, -⟩ := h1.run more
  obtain ⟨x, y⟩ := b2 hb
  refine ⟨r, r', e1, ?_, x, ?_, ?_⟩
  · rw [run_append, e1]; exact e2
  · rw [← x]
    show (r'.out.flush _).disk = _
    unfold OutStream.flush
    rw [y]
    rfl
  · have := h1.pre
    rw [List.nil_append, given_append] at this
    simpa [given] using this

/-- **C137 (partial).** The only failures that are reported are those of opening: on a file that could be opened `read_cb`
never throws; on a recorder in reading mode, or not open, it always does.  Missing: failures while recording
(`c137_refuted`). -/
theorem c137_partial (evs : List RecEv) :
    (∃ r, create.run evs = some r) ∧
    ∀ (r : Recorder) (b : List Byte), r.readCb b = none ↔ r.type = .read ∨ r.out.isOpen = false := by
  refine ⟨?_, fun r b => ?_⟩
  · obtain ⟨r, e, -⟩ := rec_create.run evs; exact ⟨r, e⟩
  · unfold readCb
    obtain ⟨⟨ty⟩, ⟨disk, pending, bad, op⟩⟩ := r
    · simp
    · cases op <;> simp

/-! ### Examples -/

-- 5 bytes given, 3 of them in the file when the program is killed; all of them after an orderly end
example : (create.run [.data [1, 2], .flush 1, .data [3, 4, 5], .flush 2]).map (fun r => (r.out.disk, r.out.close.disk)) =
    some ([1, 2, 3], [1, 2, 3, 4, 5]) := by decide

-- a base that is recorded: with all bytes a position message and a frame are passed on; killed 14 bytes into the file, the
-- log replays to the position message alone
open Dev in
example : (exRun (exBase ++ [.rx (ubxFrame 0x01 0x07 [1, 2, 3] ++ exFrame)])).map (fun x => x.2.filterMap brief) =
      some [(5, [0x01, 0x07, 1, 2, 3, 0, 0]), (9, exFrame)] ∧
    (exRun (exBase ++ [.rx ((ubxFrame 0x01 0x07 [1, 2, 3] ++ exFrame).take 14)])).map (fun x => x.2.filterMap brief) =
      some [(5, [0x01, 0x07, 1, 2, 3, 0, 0])] := by decide +kernel

-- the disk is full after 3 bytes: everything later is lost, without an exception
example : (create.run [.data [1, 2], .flush 2, .data [3, 4, 5], .fail 1, .data [6], .flush 9, .data [7]]).map
    (fun r => (r.out.disk, r.out.close.disk)) = some ([1, 2, 3], [1, 2, 3]) := by decide

end Recorder
end Ublox
