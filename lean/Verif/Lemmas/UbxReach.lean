import Verif.Lemmas.UbxCmd

/-! Invariants of reachable parser states, undefined behaviour, whole-stream refinement. -/

namespace Ublox
namespace Ubx

/-- The scanner's tail after the whole history. -/
def tailOf (hist : List Byte) : Tail := (rxRun (.idle 0) hist).1

/-- The frames completed in the whole history. -/
def itemsOf (hist : List Byte) : List Item := (rxRun (.idle 0) hist).2.filterMap id

theorem scan_zero (hist : List Byte) : scan 0 hist = (itemsOf hist, tailOf hist) := scan_eq_rxRun 0 hist

theorem tailOf_snoc (hist : List Byte) (b : Byte) : tailOf (hist ++ [b]) = (rxStep (tailOf hist) b).1 := by
  unfold tailOf; rw [rxRun_append]; rfl

theorem itemsOf_snoc (hist : List Byte) (b : Byte) :
    itemsOf (hist ++ [b]) = itemsOf hist ++ (rxStep (tailOf hist) b).2.toList := by
  unfold itemsOf; rw [rxRun_append]
  simp only [rxRun, List.filterMap_append]
  unfold tailOf
  cases (rxStep (rxRun (Tail.idle 0) hist).1 b).2 <;> simp

theorem rxRun_hist {t : Tail} {hist : List Byte} (bs : List Byte) (h : TailHist t hist) :
    TailHist (rxRun t bs).1 (hist ++ bs) := by
  induction bs generalizing t hist with
  | nil => simpa [rxRun] using h
  | cons b bs ih => simpa [rxRun] using ih (rxStep_hist h b)

theorem tailHist (hist : List Byte) : TailHist (tailOf hist) hist :=
  rxRun_hist hist (hist := []) (.inl ⟨rfl, rfl⟩)

structure Inv (u : Ubx) (hist : List Byte) : Prop where
  wf : WF u
  abs : Abs u (tailOf hist)
  msgs : u.numMsgs = goods (itemsOf hist) % 2 ^ 32
  errs : u.numErrors = bads (itemsOf hist) % 2 ^ 32

theorem Inv.step {u u' : Ubx} {hist : List Byte} {b : Byte} {r : Bool} {ds : List Delivery}
    (hi : Inv u hist) (h : readCb u b = .ok (u', r, ds)) : Inv u' (hist ++ [b]) := by
  obtain ⟨ha, hs⟩ := readCb_sim hi.wf hi.abs h
  refine ⟨hs.wf, by rw [tailOf_snoc]; exact ha, ?_, ?_⟩
  · rw [hs.msgs, itemsOf_snoc, hi.msgs]
    have hr := hs.ret
    generalize (rxStep (tailOf hist) b).2 = it at *
    unfold goods
    rw [List.countP_append]
    match it with
    | none => simp at hr; simp [hr]
    | some (.good c i p) =>
      have : r = true := hr.2 ⟨c, i, p, rfl⟩
      subst this
      simp [Item.isGood]
    | some .badChecksum => simp at hr; simp [hr, Item.isGood]
    | some .tooLong => simp at hr; simp [hr, Item.isGood]
  · rw [hs.errs, itemsOf_snoc, hi.errs]
    generalize (rxStep (tailOf hist) b).2 = it at *
    unfold bads
    rw [List.countP_append]
    match it with
    | none => simp
    | some (.good c i p) => simp [Item.isGood]
    | some .badChecksum => simp [Item.isGood]
    | some .tooLong => simp [Item.isGood]

theorem Reach.inv {u : Ubx} {hist : List Byte} (h : Reach u hist) : Inv u hist := by
  induction h with
  | init a b c ma mi h1 h2 h3 => exact ⟨⟨h1, h2, h3⟩, ⟨rfl, rfl, rfl⟩, rfl, rfl⟩
  | byte _ hr ih => exact ih.step hr
  | @register u hist l _ ih =>
    refine ⟨⟨ih.wf.1, ih.wf.2, ih.wf.3⟩, ?_, ih.msgs, ih.errs⟩
    have := ih.abs
    revert this
    generalize tailOf hist = t
    cases t <;> exact id
  | @subscribe u hist l c i _ ih =>
    refine ⟨⟨ih.wf.1, ih.wf.2, ih.wf.3⟩, ?_, ih.msgs, ih.errs⟩
    have := ih.abs
    revert this
    generalize tailOf hist = t
    cases t <;> exact id
  | @command u u' hist w c _ hr ih =>
    obtain ⟨o, g, w', ho, e⟩ := run_shape c u ih.wf.2
    rw [e] at hr
    cases hr
    refine ⟨⟨ih.wf.1, ho, ih.wf.3⟩, ?_, ih.msgs, ih.errs⟩
    have := ih.abs
    revert this
    generalize tailOf hist = t
    cases t <;> exact id
  | @clearAck u hist _ ih =>
    refine ⟨⟨ih.wf.1, ih.wf.2, ih.wf.3⟩, ?_, ih.msgs, ih.errs⟩
    have := ih.abs
    revert this
    generalize tailOf hist = t
    cases t <;> exact id

theorem Reach.feed {u u' : Ubx} {hist bs : List Byte} {outs : List Out} (h : Reach u hist)
    (hf : feed u bs = .ok (u', outs)) : Reach u' (hist ++ bs) := by
  induction bs generalizing u hist outs with
  | nil => simp only [feed_nil, Except.ok.injEq, Prod.mk.injEq] at hf; rw [← hf.1]; simpa using h
  | cons b bs ih =>
    rw [feed_cons] at hf
    obtain ⟨⟨u1, r, ds⟩, h1, hf⟩ := bind_ok.1 hf
    obtain ⟨⟨u2, o2⟩, h2, hf⟩ := bind_ok.1 hf
    cases hf
    have := ih (h.byte h1) h2
    simpa using this

/-! ### Undefined behaviour -/

theorem atoiDigits_err {l : List Byte} {acc : Nat} {e : UB} (h : atoiDigits l acc = .error e) : e = .unterminated := by
  induction l generalizing acc with
  | nil => cases h; rfl
  | cons b bs ih =>
    simp only [atoiDigits] at h
    split at h
    · exact ih h
    · cases h

theorem atoi_err {l : List Byte} {e : UB} (h : atoi l = .error e) : e = .unterminated := by
  induction l with
  | nil => cases h; rfl
  | cons b bs ih =>
    simp only [atoi] at h
    split at h
    · exact ih h
    · split at h
      · rcases bind_err.1 h with h | ⟨a, _, h⟩
        · exact atoiDigits_err h
        · cases h
      · split at h
        · rcases bind_err.1 h with h | ⟨a, _, h⟩
          · exact atoiDigits_err h
          · cases h
        · rcases bind_err.1 h with h | ⟨a, _, h⟩
          · exact atoiDigits_err h
          · cases h

theorem majorLoop_ok (buf : List Byte) (n s : Nat) (tmp : List Byte) (h : s + n ≤ buf.length) :
    ∃ t s', majorLoop buf n s tmp = .ok (t, s') ∧ s' ≤ s + n := by
  induction n generalizing s tmp with
  | zero => exact ⟨tmp, s, rfl, by omega⟩
  | succ n ih =>
    simp only [majorLoop, rd_ok (show s < buf.length by omega), ok_bind]
    split
    · exact ⟨_, _, rfl, by omega⟩
    · obtain ⟨t, s', e, hs⟩ := ih (s + 1) _ (by omega)
      exact ⟨t, s', e, by omega⟩

theorem minorLoop_ok (buf : List Byte) (n s : Nat) (tmp : List Byte) (h : s + n ≤ buf.length) :
    ∃ t, minorLoop buf n s tmp = .ok t := by
  induction n generalizing s tmp with
  | zero => exact ⟨tmp, rfl⟩
  | succ n ih =>
    simp only [minorLoop, rd_ok (show s < buf.length by omega), ok_bind]
    split
    · exact ⟨_, rfl⟩
    · exact ih (s + 1) _ (by omega)

theorem modLoop_ok (buf : List Byte) (n i s : Nat) (name : List Byte) (h : s + n ≤ buf.length)
    (h2 : i + n ≤ name.length) : ∃ t, modLoop buf n i s name = .ok t := by
  induction n generalizing i s name with
  | zero => exact ⟨name, rfl⟩
  | succ n ih =>
    simp only [modLoop, rd_ok (show s < buf.length by omega), ok_bind]
    split
    · exact ⟨_, wr_ok (by omega)⟩
    · rw [wr_ok (by omega), ok_bind]
      exact ih _ _ _ (by omega) (by simp; omega)

theorem extractVersion_err {u : Ubx} {off : Nat} {e : UB} (hl : off + 18 ≤ u.inMsg.length)
    (h : extractVersion u off = .error e) : e = .unterminated := by
  unfold extractVersion at h
  obtain ⟨t, s', e1, hs⟩ := majorLoop_ok u.inMsg 5 (off + 8) [] (by omega)
  rw [e1, ok_bind] at h
  rcases bind_err.1 h with h | ⟨a, _, h⟩
  · exact atoi_err h
  obtain ⟨t2, e2⟩ := minorLoop_ok u.inMsg 5 s' [] (by omega)
  simp only [e2, ok_bind] at h
  rcases bind_err.1 h with h | ⟨a, _, h⟩
  · exact atoi_err h
  · cases h

theorem extractModule_ok {u : Ubx} {off : Nat} (hl : off + 14 ≤ u.inMsg.length) (hm : u.modName.length = 10) :
    ∃ u', extractModule u off = .ok u' := by
  unfold extractModule
  obtain ⟨t, e⟩ := modLoop_ok u.inMsg 10 0 (off + 4) u.modName (by omega) (by omega)
  exact ⟨_, by rw [e, ok_bind]⟩

theorem versionRow_err {u : Ubx} {i : Nat} {e : UB} (hi : i < 20) (hl : u.inMsg.length = 2048)
    (hm : u.modName.length = 10) (h : versionRow u i = .error e) : e = .unterminated := by
  unfold versionRow extOff at h
  rcases bind_err.1 h with h | ⟨v, hv, h⟩
  · split at h
    · exact extractVersion_err (by omega) h
    · cases h
  · split at h
    · have hc : SameCore u v := by
        split at hv
        · exact extractVersion_core hv
        · cases hv; exact SameCore.refl _
      obtain ⟨f1, -, -, -, -, -, -, -, f9⟩ := hc.fields
      obtain ⟨w, hw⟩ := extractModule_ok (u := v) (off := 40 + 10 * i) (by rw [f1]; omega) (by rw [f9, hm])
      rw [hw] at h; cases h
    · cases h

theorem versionRows_err {n i : Nat} {u : Ubx} {e : UB} (hi : i + n ≤ 20) (hl : u.inMsg.length = 2048)
    (hm : u.modName.length = 10) (h : versionRows n i u = .error e) : e = .unterminated := by
  induction n generalizing i u with
  | zero => cases h
  | succ n ih =>
    unfold versionRows at h
    rcases bind_err.1 h with h | ⟨v, hv, h⟩
    · exact versionRow_err (by omega) hl hm h
    · obtain ⟨f1, -, -, -, -, -, -, -, f9⟩ := (versionRow_core hv).fields
      exact ih (by omega) (by rw [f1, hl]) (by rw [f9, hm]) h

theorem versionCb_err {u : Ubx} {e : UB} (hl : u.inMsg.length = 2048)
    (hm : u.modName.length = 10) (h : versionCb u = .error e) : e = .unterminated := by
  unfold versionCb at h
  rcases bind_err.1 h with h | ⟨v, hv, h⟩
  · exact versionRows_err (by omega) hl hm h
  · split at h
    · cases h
    · cases h; rfl

/-- The only undefined behaviour the framing can run into is a string function of the version parser, on the last
byte of a well-formed MON-VER frame. -/
theorem readCb_err {u : Ubx} {t : Tail} {b : Byte} {e : UB} (hwf : WF u) (ha : Abs u t)
    (h : readCb u b = .error e) :
    e = .unterminated ∧ ∃ p, (rxStep t b).2 = some (.good 0x0A 0x04 p) := by
  obtain ⟨w1, w2, w3⟩ := hwf
  match t with
  | .idle p =>
    obtain ⟨hs, hst, hp⟩ := ha
    unfold readCb at h
    simp only [hs] at h
    split at h
    · rw [afterSwitch_quiet _ (by simp)] at h; cases h
    · rw [afterSwitch_quiet _ (by simp [hs])] at h; cases h
  | .opened [] =>
    obtain ⟨hst, hen, hs, hh⟩ := ha
    unfold readCb at h
    simp only [hs] at h
    rw [afterSwitch_quiet _ (by simp)] at h
    cases h
  | .opened [c] =>
    obtain ⟨hst, hen, hs, hh, hc⟩ := ha
    unfold readCb at h
    simp only [hs] at h
    rw [afterSwitch_quiet _ (by simp)] at h
    cases h
  | .opened [c, i] =>
    obtain ⟨hst, hen, hs, hh, hc, hi⟩ := ha
    unfold readCb at h
    simp only [hs] at h
    rw [afterSwitch_quiet _ (by simp)] at h
    cases h
  | .opened [c, i, lo] =>
    obtain ⟨hst, hen, hs, hh, hc, hi, hl⟩ := ha
    unfold readCb at h
    simp only [hs] at h
    split at h
    · cases h
    · rw [afterSwitch_quiet _ (by simp)] at h
      cases h
  | .opened (c :: i :: lo :: hi :: p) =>
    obtain ⟨hst, hen, hc, hi', hl, hle, hcase⟩ := ha
    rcases hcase with ⟨h0, hs, hh⟩ | ⟨hpl, hs, hh, hp⟩ | ⟨h0, hpl, hs, hp⟩ | ⟨h0, hpl, hs, hp⟩
    · unfold readCb at h
      simp only [hs] at h
      rw [if_neg (by omega), afterSwitch_quiet _ (by simp [hs])] at h
      cases h
    · unfold readCb at h
      simp only [hs] at h
      rw [if_pos (by omega), hh, wr_ok (by omega)] at h
      simp only [ok_bind] at h
      rw [afterSwitch_quiet _ (by simp only; split <;> simp)] at h
      cases h
    · unfold readCb at h
      simp only [hs] at h
      rw [afterSwitch_quiet _ (by simp)] at h
      cases h
    · unfold readCb at h
      simp only [hs] at h
      unfold afterSwitch at h
      rw [if_pos rfl] at h
      have hbody : u.inMsg.take u.length = p.take u.length := by
        rw [← hp, List.take_append_of_le_length (by simp; omega), List.take_take, Nat.min_self]
      have hd : p = p.take u.length ++ [u.ckA] := by rw [← hbody]; exact hp.symm
      have hlp : (p.take u.length).length = u.length := by simp; omega
      have e : rxStep (.opened (c :: i :: lo :: hi :: p)) b = (.idle b, some
          (if u.ckA = fletcherA (c :: i :: lo :: hi :: p.take u.length) ∧
              b = fletcherB (c :: i :: lo :: hi :: p.take u.length)
           then .good c i (p.take u.length) else .badChecksum)) := by
        simp only [rxStep, List.cons_append]
        rw [if_neg (by omega), if_neg (by omega), if_pos (by simp; omega), ← hl]
        have t1 : (p ++ [b]).take u.length = p.take u.length := List.take_append_of_le_length (by omega)
        have t2 : (p ++ [b]).drop u.length = [u.ckA, b] := by
          rw [hd]
          generalize p.take u.length = q at *
          rw [List.append_assoc, ← hlp, List.drop_left]; rfl
        rw [t1, t2]
        simp
      rw [e]
      rcases bind_err.1 h with h | ⟨⟨v, ok, ds'⟩, hdec, h⟩
      · unfold decodeMessage at h
        simp only [hc, hi', calcChecksum_ok c i lo hi u.length u.inMsg (by omega) hl, hbody, ok_bind] at h
        split at h
        · cases h
        · rename_i hgood
          simp only [ne_eq, not_or, Decidable.not_not] at hgood
          rcases bind_err.1 h with h | ⟨v', hm, h⟩
          · unfold handleMessage CLASS_ACK CLASS_MON MON_VER at h
            simp only at h
            split at h
            · split at h
              · cases h
              · split at h <;> cases h
            · split at h
              · rename_i hmon
                split at h
                · rename_i hver
                  refine ⟨versionCb_err (by simp [w1]) (by simp [w3]) h, p.take u.length, ?_⟩
                  rw [if_pos ⟨hgood.1.symm, hgood.2.symm⟩, hmon, hver]
                · cases h
              · cases h
          · cases h
      · cases ok <;> simp at h

end Ubx
end Ublox
