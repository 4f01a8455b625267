import Verif.Spec.Resync
import Verif.Props.Ubx
import Verif.Props.Rtcm

/-!
# C121: after garbage the parsers fall in step again
-/

namespace Ublox
namespace Ubx

/-- Where a cut at byte `j` falls in a concatenation. -/
theorem cut {α : Type} (L : List (List α)) (j : Nat) (hj : j ≤ L.flatten.length) :
    ∃ k b, (∀ m < k, (L.take m).flatten.length < j) ∧ (L.take k).flatten = L.flatten.take j ++ b ∧
      (b = [] ∨ ∃ f a pre, f ∈ L ∧ f = a ++ b ∧ a ≠ [] ∧ L.flatten.take j = pre ++ a) := by
  induction L generalizing j with
  | nil =>
    refine ⟨0, [], fun m hm => by omega, by simp, .inl rfl⟩
  | cons f L ih =>
    by_cases h0 : j = 0
    · subst h0
      exact ⟨0, [], fun m hm => by omega, by simp, .inl rfl⟩
    · by_cases h1 : j ≤ f.length
      · refine ⟨1, f.drop j, fun m hm => ?_, ?_, ?_⟩
        · have : m = 0 := by omega
          subst this; simp; omega
        · rw [List.flatten_cons, List.take_append_of_le_length h1, List.take_append_drop]; simp
        · right
          refine ⟨f, f.take j, [], by simp, (List.take_append_drop j f).symm, ?_, ?_⟩
          · intro h
            have := congrArg List.length h
            rw [List.length_take, List.length_nil] at this
            omega
          · rw [List.flatten_cons, List.take_append_of_le_length h1]; rfl
      · have hj' : j - f.length ≤ L.flatten.length := by
          rw [List.flatten_cons, List.length_append] at hj; omega
        obtain ⟨k, b, h2, h3, h4⟩ := ih (j - f.length) hj'
        have ht : (f :: L).flatten.take j = f ++ L.flatten.take (j - f.length) := by
          rw [List.flatten_cons, List.take_append, List.take_of_length_le (by omega)]
        refine ⟨k + 1, b, fun m hm => ?_, ?_, ?_⟩
        · cases m with
          | zero => simp; omega
          | succ m =>
            have := h2 m (by omega)
            rw [List.take_succ_cons, List.flatten_cons, List.length_append]
            omega
        · rw [List.take_succ_cons, List.flatten_cons, h3, ht, List.append_assoc]
        · rcases h4 with h4 | ⟨f', a, pre, g1, g2, g3, g4⟩
          · exact .inl h4
          · exact .inr ⟨f', a, f ++ pre, by simp [g1], g2, g3, by rw [ht, g4, List.append_assoc]⟩

theorem tailOf_idle_last {hist : List Byte} {b x : Byte} (h : tailOf (hist ++ [b]) = .idle x) : x = b := by
  rw [tailOf_snoc] at h
  revert h
  cases tailOf hist with
  | idle p =>
    simp only [rxStep]
    split
    · intro h; cases h
    · intro h; cases h; rfl
  | opened bs =>
    simp only [rxStep]
    split
    · split
      · intro h; cases h; rfl
      · split
        · intro h; cases h
        · split
          · intro h; cases h; rfl
          · intro h; cases h
    · intro h; cases h

theorem rxRun_no_start (last : Byte) (b : List Byte)
    (h : ∀ n : Nat, ¬ ((last :: b)[n]? = some 0xB5 ∧ (last :: b)[n + 1]? = some 0x62)) : ∃ x, (rxRun (.idle last) b).1 = .idle x := by
  induction b generalizing last with
  | nil => exact ⟨last, rfl⟩
  | cons y b ih =>
    have h0 := h 0
    simp only [List.getElem?_cons_zero, List.getElem?_cons_succ, Option.some.injEq] at h0
    obtain ⟨x, hx⟩ := ih y (fun n => h (n + 1))
    refine ⟨x, ?_⟩
    unfold rxRun
    have e : rxStep (.idle last) y = (.idle y, none) := if_neg h0
    rw [e]
    exact hx

/-- From inside a clean frame, an idle parser is idle at its end. -/
theorem idle_at_end {u u' : Ubx} {hist a b pre : List Byte} {outs : List Out} {m : UbxMsg} (h : Reach u hist)
    (hp : u.parsingMessage = false) (hm : m.Clean) (hf : m.frame = a ++ b) (ha : a ≠ []) (hh : hist = pre ++ a)
    (hs : feed u b = .ok (u', outs)) : u'.parsingMessage = false := by
  obtain ⟨last, ht, hab⟩ := idle_of_reach h hp
  have hl : ∃ a0, a = a0 ++ [last] := by
    have e := List.dropLast_append_getLast ha
    refine ⟨a.dropLast, ?_⟩
    rw [hh, ← e, ← List.append_assoc] at ht
    rw [tailOf_idle_last ht, e]
  obtain ⟨a0, rfl⟩ := hl
  have key : ∃ x, (rxRun (.idle last) b).1 = .idle x := by
    obtain ⟨h1, h2, h3⟩ := hm
    cases a0 with
    | nil =>
      have e := rxRun_ubxFrame 0 m.cls m.id m.payload h1 h2
      have hf' : ubxFrame m.cls m.id m.payload = last :: b := hf
      have hl : last = 0xB5 := by
        have : (ubxFrame m.cls m.id m.payload).head? = some 0xB5 := rfl
        rw [hf'] at this
        exact Option.some.inj this
      rw [hf'] at e
      subst hl
      refine ⟨_, (congrArg Prod.fst e :)⟩
    | cons y a0 =>
      apply rxRun_no_start
      intro n hn
      apply h3 (a0.length + 1 + n) (by omega)
      have e : m.frame = (y :: a0) ++ (last :: b) := by rw [hf]; simp
      rw [e]
      have q : ∀ i, ((y :: a0) ++ (last :: b))[a0.length + 1 + i]? = (last :: b)[i]? := by
        intro i
        rw [List.getElem?_append_right (by simp)]
        congr 1
        simp
      exact ⟨(q n).trans hn.1, (q (n + 1)).trans hn.2⟩
  obtain ⟨x, hx⟩ := key
  have k := (feed_sim h.inv.wf hab hs).abs
  rw [hx] at k
  have := parsing_iff k
  simpa using this

theorem deliversAll_congr {u v : Ubx} (hl : v.listeners = u.listeners) (hs : v.subs = u.subs) (ms : List UbxMsg) (outs : List Out) :
    DeliversAll v ms outs → DeliversAll u ms outs := by
  induction ms generalizing outs with
  | nil => exact id
  | cons m ms ih =>
    rintro ⟨msg, rest, h1, h2, h3, h4⟩
    refine ⟨msg, rest, h1, h2, ?_, ih _ h4⟩
    rw [h3, hl]
    have : v.subscribed = u.subscribed := by unfold subscribed; rw [hs]
    rw [this]

theorem idle_delivers {u u' : Ubx} {hist : List Byte} {outs : List Out} {ms : List UbxMsg} (h : Reach u hist)
    (hp : u.parsingMessage = false) (hm : ∀ m ∈ ms, m.Clean) (hs : feed u (onWire ms) = .ok (u', outs)) :
    DeliversAll u ms outs ∧ u'.parsingMessage = false := by
  induction ms generalizing u hist outs with
  | nil => cases hs; exact ⟨rfl, hp⟩
  | cons m ms ih =>
    have e : onWire (m :: ms) = ubxFrame m.cls m.id m.payload ++ onWire ms := rfl
    rw [e, feed_append] at hs
    obtain ⟨⟨u1, o1⟩, k1, hs⟩ := bind_ok.1 hs
    obtain ⟨⟨u2, o2⟩, k2, hs⟩ := bind_ok.1 hs
    cases hs
    obtain ⟨g1, g2, -⟩ := hm m (by simp)
    obtain ⟨msg, f1, f2, f3, f4, f5, f6⟩ := (c02_frame_is_delivered h hp m.cls m.id m.payload g1 g2).1 u1 o1 k1
    obtain ⟨i1, i2⟩ := ih (h.feed k1) f4 (fun x hx => hm x (by simp [hx])) k2
    exact ⟨⟨msg, o2, f1, f2, by rw [f3], deliversAll_congr f5 f6 ms o2 i1⟩, i2⟩

/-- C121, UBX. After any history, whatever message may be open, let clean frames arrive.  Unless the history (with what
follows) shows a header announcing length 0 (C07), some number `k` of frames is lost, all of which start within the first 2054
bytes, and all frames from there on are delivered, exactly. -/
theorem c121_ubx {u u' : Ubx} {hist : List Byte} {outs : List Out} {ms : List UbxMsg} (h : Reach u hist)
    (hm : ∀ m ∈ ms, m.Clean) (hz : ∀ pre c i rest, hist ++ onWire ms ≠ pre ++ ([0xB5, 0x62, c, i, 0, 0] ++ rest))
    (hs : feed u (onWire ms) = .ok (u', outs)) :
    ∃ k, (∀ j < k, (onWire (ms.take j)).length < 2054) ∧
      DeliversAll u (ms.drop k) (outs.drop (onWire (ms.take k)).length) := by
  by_cases hlen : 2054 ≤ (onWire ms).length
  · rcases c06_partial h hs hlen with ⟨j, uk, ok, hj, e, hidle⟩ | ⟨pre, c, i, rest, e, -⟩
    · obtain ⟨k, b, h1, h2, h3⟩ := cut (ms.map UbxMsg.frame) j (by
        have : (onWire ms).length = (ms.map UbxMsg.frame).flatten.length := rfl
        omega)
      have hw : ∀ n, ((ms.map UbxMsg.frame).take n).flatten = onWire (ms.take n) := by
        intro n; rw [← List.map_take]; rfl
      have split : onWire ms = onWire (ms.take k) ++ onWire (ms.drop k) := by
        unfold onWire
        rw [← List.flatten_append, ← List.map_append, List.take_append_drop]
      have hb : onWire (ms.take k) = (onWire ms).take j ++ b := by rw [← hw]; exact h2
      have hs0 := hs
      rw [split, feed_append] at hs
      obtain ⟨⟨u1, o1⟩, k1, hs⟩ := bind_ok.1 hs
      obtain ⟨⟨u2, o2⟩, k2, hs⟩ := bind_ok.1 hs
      cases hs
      have k1' := k1
      rw [hb, feed_append] at k1'
      obtain ⟨⟨u4, o4⟩, k4, k1'⟩ := bind_ok.1 k1'
      obtain ⟨⟨u3, o3⟩, k3, k1'⟩ := bind_ok.1 k1'
      cases k1'
      obtain ⟨rfl, rfl⟩ := Prod.mk.inj (Except.ok.inj (e.symm.trans k4))
      have hidle1 : u1.parsingMessage = false := by
        rcases h3 with rfl | ⟨f, a, pre, g1, g2, g3, g4⟩
        · cases k3; exact hidle
        · obtain ⟨m, hmm, rfl⟩ := List.mem_map.1 g1
          have g4' : (onWire ms).take j = pre ++ a := g4
          exact idle_at_end (h.feed e) hidle (hm m hmm) g2 g3 (pre := hist ++ pre)
            (by rw [g4', List.append_assoc]) k3
      refine ⟨k, fun n hn => ?_, ?_⟩
      · have := h1 n hn
        rw [hw] at this
        omega
      · rw [← feed_length k1, List.drop_append_of_le_length (Nat.le_refl _), List.drop_length, List.nil_append]
        have k := feed_sim h.inv.wf h.inv.abs k1
        exact deliversAll_congr k.listeners k.subs _ _
          (idle_delivers (h.feed k1) hidle1 (fun x hx => hm x (List.mem_of_mem_drop hx)) k2).1
    · exact absurd e (hz pre c i rest)
  · refine ⟨ms.length, fun j hj => ?_, ?_⟩
    · have : onWire ms = onWire (ms.take j) ++ onWire (ms.drop j) := by
        unfold onWire
        rw [← List.flatten_append, ← List.map_append, List.take_append_drop]
      rw [this, List.length_append] at hlen
      omega
    · rw [List.take_length, List.drop_length, ← feed_length hs, List.drop_length]
      rfl

/-! ### The hypotheses can be met -/

theorem clean_of {m : UbxMsg} (h1 : 1 ≤ m.payload.length) (h2 : m.payload.length ≤ 2048)
    (h3 : ∀ n < m.frame.length, 1 ≤ n → ¬ (m.frame[n]? = some 0xB5 ∧ m.frame[n + 1]? = some 0x62)) : m.Clean := by
  refine ⟨h1, h2, fun n hn hc => ?_⟩
  by_cases hl : n < m.frame.length
  · exact h3 n hl hn hc
  · rw [List.getElem?_eq_none (by omega)] at hc
    cases hc.1

theorem no_zero_of {s : List Byte}
    (h : ∀ n < s.length, ¬ (s[n]? = some 0xB5 ∧ s[n + 1]? = some 0x62 ∧ s[n + 4]? = some 0 ∧ s[n + 5]? = some 0)) :
    ∀ pre c i rest, s ≠ pre ++ ([0xB5, 0x62, c, i, 0, 0] ++ rest) := by
  intro pre c i rest e
  apply h pre.length (by rw [e]; simp)
  rw [e]
  have q : ∀ k, (pre ++ ([0xB5, 0x62, c, i, 0, 0] ++ rest))[pre.length + k]? = ([0xB5, 0x62, c, i, 0, 0] ++ rest)[k]? := by
    intro k
    rw [List.getElem?_append_right (by omega)]
    congr 1
    omega
  exact ⟨q 0, q 1, q 4, q 5⟩

/-- Three position messages. -/
def exMs : List UbxMsg := [⟨0x01, 0x07, [1, 2, 3]⟩, ⟨0x01, 0x07, [4, 5, 6]⟩, ⟨0x01, 0x07, [7, 0xB5, 9]⟩]

/-- What came before: a header, damaged on the way, that announces twelve bytes. -/
def exGarbage : List Byte := [0x62, 0xB5, 0x62, 0x01, 0x3C, 12, 0]

/-- The hypotheses of `c121_ubx` are met; the first two messages are lost to the damaged header, the third is delivered. -/
example : (∀ m ∈ exMs, m.Clean) ∧ (∀ pre c i rest, exGarbage ++ onWire exMs ≠ pre ++ ([0xB5, 0x62, c, i, 0, 0] ++ rest)) ∧
    ((feed exU exGarbage >>= fun x => feed x.1 (onWire exMs)).toOption.map fun x => x.2.map (·.1)) =
      some (List.replicate 32 false ++ [true]) := by
  refine ⟨?_, no_zero_of (by decide +kernel), by decide +kernel⟩
  intro m hm
  simp only [exMs, List.mem_cons, List.not_mem_nil, or_false] at hm
  rcases hm with rfl | rfl | rfl <;> exact clean_of (by decide) (by decide) (by decide +kernel)

end Ubx

namespace Rtcm

theorem rtRun_no_start (b : List Byte) (h : ∀ n : Nat, b[n]? ≠ some 0xD3) : (rtRun .idle b).1 = .idle := by
  induction b with
  | nil => rfl
  | cons y b ih =>
    have h0 : y ≠ 0xD3 := fun e => h 0 (by rw [e]; rfl)
    have e : rtStep .idle y = (.idle, none) := if_neg h0
    unfold rtRun
    rw [e]
    exact ih fun n => h (n + 1)

theorem readCb_length {r r' : Rtcm} {s : List Byte} {css : List (List RtcmCall)} (h : readCb r s = .ok (r', css)) :
    css.length = s.length := by
  induction s generalizing r css with
  | nil => cases h; rfl
  | cons b s ih =>
    rw [readCb_cons] at h
    obtain ⟨⟨r1, cs⟩, h1, h⟩ := bind_ok.1 h
    obtain ⟨⟨r2, cs2⟩, h2, h⟩ := bind_ok.1 h
    cases h
    simp [ih h2]

theorem frame_length {p f : List Byte} (h : RtcmFrame p f) : f.length = p.length + 6 := by
  obtain ⟨⟨b1, b2, c0, c1, c2, rfl, -⟩, -⟩ := h
  simp

theorem idle_passes {r r' : Rtcm} {hist : List Byte} {css : List (List RtcmCall)} {fs : List (List Byte)} (h : Reach r hist)
    (hp : r.parsingMessage = false) (hf : ∀ f ∈ fs, CleanRtcm f) (hs : readCb r fs.flatten = .ok (r', css)) :
    PassesAll r.listeners fs css := by
  induction fs generalizing r hist css with
  | nil => cases hs; rfl
  | cons f fs ih =>
    rw [List.flatten_cons, readCb_append] at hs
    obtain ⟨⟨r1, c1⟩, k1, hs⟩ := bind_ok.1 hs
    obtain ⟨⟨r2, c2⟩, k2, hs⟩ := bind_ok.1 hs
    cases hs
    obtain ⟨p, g1, g2, g3, -⟩ := hf f (by simp)
    obtain ⟨r1', e1, e2, e3⟩ := c23_frame_is_delivered h hp p f g1 g2 g3
    obtain ⟨rfl, rfl⟩ := Prod.mk.inj (Except.ok.inj (k1.symm.trans e1))
    refine ⟨c2, ?_, ?_⟩
    · rw [frame_length g1]; rfl
    · rw [← e3]
      exact ih (h.feed k1) e2 (fun x hx => hf x (by simp [hx])) k2

/-- C121, RTCM3. After any history, whatever message may be open, let clean frames arrive and be processed (without the
overrun of C24).  Some number `k` of frames is lost, all of which start within the first 1024 bytes, and all frames from there
on are passed on to all listeners, exactly. -/
theorem c121_rtcm {r r' : Rtcm} {hist : List Byte} {css : List (List RtcmCall)} {fs : List (List Byte)} (h : Reach r hist)
    (hf : ∀ f ∈ fs, CleanRtcm f) (hs : readCb r fs.flatten = .ok (r', css)) :
    ∃ k, (∀ j < k, (fs.take j).flatten.length < 1024) ∧
      PassesAll r.listeners (fs.drop k) (css.drop (fs.take k).flatten.length) := by
  have split : ∀ k, fs.flatten = (fs.take k).flatten ++ (fs.drop k).flatten := by
    intro k
    rw [← List.flatten_append, List.take_append_drop]
  by_cases hlen : 1024 ≤ fs.flatten.length
  · obtain ⟨j, rk, ck, hj, e, hidle⟩ := c25_idle_again h hs hlen
    obtain ⟨k, b, h1, h2, h3⟩ := Ubx.cut fs j (by omega)
    rw [split k, readCb_append] at hs
    obtain ⟨⟨r1, c1⟩, k1, hs⟩ := bind_ok.1 hs
    obtain ⟨⟨r2, c2⟩, k2, hs⟩ := bind_ok.1 hs
    cases hs
    have k1' := k1
    rw [h2, readCb_append] at k1'
    obtain ⟨⟨r4, c4⟩, k4, k1'⟩ := bind_ok.1 k1'
    obtain ⟨⟨r3, c3⟩, k3, k1'⟩ := bind_ok.1 k1'
    cases k1'
    obtain ⟨rfl, rfl⟩ := Prod.mk.inj (Except.ok.inj (e.symm.trans k4))
    have hidle1 : r3.parsingMessage = false := by
      rcases h3 with rfl | ⟨f, a, pre, g1, g2, g3, g4⟩
      · cases k3; exact hidle
      · obtain ⟨p, -, -, -, hc⟩ := hf f g1
        have ha := abs_idle (h.feed e) hidle
        have k := (readCb_sim (h.feed e).inv.len ha k3).abs
        rw [rtRun_no_start] at k
        · exact idle_parsing k
        · intro n hn
          have : 1 ≤ a.length := List.length_pos_iff.2 g3
          apply hc (a.length + n) (by omega)
          rw [g2, List.getElem?_append_right (by omega)]
          rw [← hn]
          congr 1
          omega
    refine ⟨k, fun n hn => by have := h1 n hn; omega, ?_⟩
    rw [← readCb_length k1, List.drop_append_of_le_length (Nat.le_refl _), List.drop_length, List.nil_append]
    obtain ⟨t, ha, -⟩ := h.inv.tail
    rw [← (readCb_sim h.inv.len ha k1).listeners]
    exact idle_passes (h.feed k1) hidle1 (fun x hx => hf x (List.mem_of_mem_drop hx)) k2
  · refine ⟨fs.length, fun j hj => ?_, ?_⟩
    · rw [split j, List.length_append] at hlen
      omega
    · rw [List.take_length, List.drop_length, ← readCb_length hs, List.drop_length]
      rfl

/-- The frame of `exFrame`, twice. -/
def exFs : List (List Byte) := [[0xD3, 0x00, 0x01, 0x00, 0x0A, 0x18, 0x8D], [0xD3, 0x00, 0x01, 0x00, 0x0A, 0x18, 0x8D]]

/-- The hypotheses of `c121_rtcm` are met; after a header that announces two bytes the first frame is lost, the second passed
on. -/
example : (∀ f ∈ exFs, CleanRtcm f) ∧
    ((readCb exR [0xD3, 0x00, 0x02] >>= fun x => readCb x.1 exFs.flatten).toOption.map fun x => x.2) =
      some (List.replicate 13 [] ++ [[⟨5, [0xD3, 0x00, 0x01, 0x00, 0x0A, 0x18, 0x8D]⟩]]) := by
  refine ⟨fun f hf => ?_, by decide +kernel⟩
  have : f = [0xD3, 0x00, 0x01, 0x00, 0x0A, 0x18, 0x8D] := by
    simp only [exFs, List.mem_cons, List.not_mem_nil, or_false, or_self] at hf
    exact hf
  subst this
  refine ⟨[0x00], exFrame, by simp, by simp, fun n hn => ?_⟩
  by_cases h : n < 7
  · have : ∀ k < 7, 1 ≤ k → ([0xD3, 0x00, 0x01, 0x00, 0x0A, 0x18, 0x8D] : List Byte)[k]? ≠ some 0xD3 := by decide
    exact this n h hn
  · rw [List.getElem?_eq_none (by simp; omega)]
    intro h; cases h

end Rtcm
end Ublox
