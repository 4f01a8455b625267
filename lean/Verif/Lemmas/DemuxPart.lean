import Verif.Lemmas.DeviceRun
/-! # Where a mixed stream stands in the middle of well-formed messages -/

namespace Ublox.Dev

/-- The tail of a mixed stream is not an RTCM frame that announces more than 1018 bytes. -/
def ShortTail (t : MixTail) : Prop := ∀ b1 b2 rest, t = .rtcm (0xD3 :: b1 :: b2 :: rest) → rtcmLen b1 b2 ≤ 1018

theorem demux_nil (prev : Byte) : demux prev [] = ([], .idle prev) := by unfold demux; rfl

theorem demux_part_ubx (prev c i : Byte) (p : List Byte) (h2 : p.length ≤ 2048) (k : Nat)
    (hk : k < (ubxFrame c i p).length) : ShortTail (demux prev ((ubxFrame c i p).take k)).2 := by
  have hl := Ubx.len_bytes p.length (by omega)
  rw [Ubx.ubxFrame_length] at hk
  rw [Ubx.ubxFrame_eq']
  generalize BitVec.ofNat 8 p.length = lo at hl
  generalize BitVec.ofNat 8 (p.length / 256) = hi at hl
  have hq : ∃ q : List Byte, q.length = 2 ∧ p ++ [fletcherA (ubxBody c i p), fletcherB (ubxBody c i p)] = p ++ q := ⟨_, rfl, rfl⟩
  obtain ⟨q, hq2, e⟩ := hq
  rw [e]
  match k, hk with
  | 0, _ => rw [List.take_zero, demux_nil]; rintro b1 b2 rest ⟨⟩
  | k + 1, hk =>
    rw [List.take_succ_cons, demux.eq_def]
    simp only
    rw [if_neg (by rintro ⟨-, h⟩; exact absurd h (by decide)), if_neg (by decide)]
    match k, hk with
    | 0, _ => rw [List.take_zero, demux_nil]; rintro b1 b2 rest ⟨⟩
    | k + 1, hk =>
      rw [List.take_succ_cons, demux.eq_def]
      simp only
      rw [if_pos ⟨trivial, trivial⟩]
      match k, hk with
      | 0, _ => rintro b1 b2 rest ⟨⟩
      | 1, _ => rintro b1 b2 rest ⟨⟩
      | 2, _ => rintro b1 b2 rest ⟨⟩
      | 3, _ => rintro b1 b2 rest ⟨⟩
      | k + 4, hk =>
        simp only [List.take_succ_cons]
        rw [if_neg (by omega)]
        split
        · rintro b1 b2 rest ⟨⟩
        · split
          next a x r heq =>
            have := congrArg List.length heq
            simp only [List.length_drop, List.length_take, List.length_append, List.length_cons, List.length_nil] at this
            omega
          next => rintro b1 b2 rest ⟨⟩

theorem demux_part_rtcm (prev : Byte) {p f : List Byte} (h : RtcmFrame p f) (h1 : 1 ≤ p.length) (h2 : p.length ≤ 1018) (k : Nat)
    (hk : k < f.length) : ShortTail (demux prev (f.take k)).2 := by
  obtain ⟨⟨b1, b2, c0, c1, c2, rfl, hl⟩, hv⟩ := h
  match k, hk with
  | 0, _ => rw [List.take_zero, demux_nil]; rintro b1 b2 rest ⟨⟩
  | k + 1, hk =>
    rw [List.take_succ_cons, demux.eq_def]
    simp only
    rw [if_neg (by rintro ⟨-, h⟩; exact absurd h (by decide)), if_pos trivial]
    match k, hk with
    | 0, _ => rintro b1 b2 rest ⟨⟩
    | 1, _ => rintro b1 b2 rest ⟨⟩
    | k + 2, hk =>
      simp only [List.take_succ_cons]
      simp only [List.length_cons, List.length_append, List.length_nil] at hk
      rw [if_neg (by omega), if_neg (by simp; omega)]
      rintro x1 x2 rest ⟨⟩
      omega

/-- At no moment during well-formed messages is an RTCM frame open that announces more than 1018 bytes. -/
theorem demux_short (ms : List Msg) (hw : ∀ m ∈ ms, m.WF) : ∀ (prev : Byte) (k : Nat),
    ShortTail (demux prev ((wire ms).take k)).2 := by
  induction ms with
  | nil => intro prev k; rw [show wire [] = [] from rfl, List.take_nil, demux_nil]; rintro b1 b2 rest ⟨⟩
  | cons m ms ih =>
    intro prev k
    have hm := hw m (by simp)
    have ih := ih fun m' hm' => hw m' (by simp [hm'])
    have e : wire (m :: ms) = m.bytes ++ wire ms := by simp [wire]
    rw [e]
    by_cases hk : k < m.bytes.length
    · rw [List.take_append_of_le_length (by omega)]
      cases m with
      | ubx c i p => exact demux_part_ubx prev c i p hm.2 k hk
      | rtcm f =>
        obtain ⟨p, hf, h1, h2⟩ := hm
        exact demux_part_rtcm prev hf h1 h2 k hk
    · rw [List.take_append, List.take_of_length_le (by omega)]
      cases m with
      | ubx c i p =>
        show ShortTail (demux prev (ubxFrame c i p ++ _)).2
        rw [demux_ubx _ _ _ _ _ hm.1 hm.2]
        exact ih _ _
      | rtcm f =>
        obtain ⟨p, hf, h1, h2⟩ := hm
        show ShortTail (demux prev (f ++ _)).2
        rw [demux_rtcm _ _ hf h1]
        exact ih _ _

end Ublox.Dev
