import Verif.Model.UbxCmd
import Verif.Lemmas.UbxRefine
import Verif.Spec.Commands

/-! Lemmas about the command side. -/

namespace Ublox
namespace Ubx

theorem readN_ok (buf : List Byte) (n i : Nat) (h : i + n ≤ buf.length) :
    readN buf n i = .ok ((buf.drop i).take n) := by
  induction n generalizing i with
  | zero => simp [readN]
  | succ n ih =>
    have hi : i < buf.length := by omega
    simp only [readN, rd_ok hi, ok_bind]
    rw [ih (i + 1) (by omega), ok_bind, List.drop_eq_getElem_cons hi, List.take_succ_cons]

theorem sendMessage_ok (cls id : Byte) (len : Nat) (u : Ubx) (h : len ≤ u.outMsg.length) (h2 : len < 65536) :
    sendMessage cls id len u = .ok (u, ubxFrame cls id (u.outMsg.take len)) := by
  have e1 : len &&& 255 = len % 256 := Nat.and_two_pow_sub_one_eq_mod len 8
  have e2 : (len >>> 8) &&& 255 = len / 256 % 256 := by
    rw [Nat.and_two_pow_sub_one_eq_mod _ 8, Nat.shiftRight_eq_div_pow]
  have e3 : BitVec.ofNat 8 (len % 256) = BitVec.ofNat 8 len := by
    apply BitVec.eq_of_toNat_eq; simp only [BitVec.toNat_ofNat]; omega
  have e4 : BitVec.ofNat 8 (len / 256 % 256) = BitVec.ofNat 8 (len / 256) := by
    apply BitVec.eq_of_toNat_eq; simp only [BitVec.toNat_ofNat]; omega
  have hl : (u.outMsg.take len).length = len := by simp; omega
  unfold sendMessage
  rw [calcChecksum_ok cls id (BitVec.ofNat 8 len) (BitVec.ofNat 8 (len / 256)) len u.outMsg h (by
    simp only [BitVec.toNat_ofNat]; omega)]
  simp only [ok_bind, readN_ok u.outMsg len 0 (by omega), List.drop_zero, e1, e2, e3, e4, ubxFrame, ubxBody, hl]
  simp [START_BYTE_1, START_BYTE_2]

theorem sendMessage_oob (cls id : Byte) (len : Nat) (u : Ubx) (h : u.outMsg.length < len) :
    sendMessage cls id len u = .error .oobRead := by
  unfold sendMessage
  rw [calcChecksum_oob _ _ _ _ h, error_bind]

theorem wrs_ok (buf : List Byte) (off : Nat) (bs : List Byte) (h : off + bs.length ≤ buf.length) :
    wrs buf off bs = .ok (buf.take off ++ bs ++ buf.drop (off + bs.length)) := by
  induction bs generalizing buf off with
  | nil => simp [wrs]
  | cons b bs ih =>
    simp only [List.length_cons] at h
    simp only [wrs]
    rw [wr_ok (by omega), ok_bind, ih _ _ (by simp; omega)]
    congr 1
    rw [take_set_succ b (by omega), List.drop_set_of_lt (by omega)]
    simp only [List.length_cons, List.append_assoc, List.cons_append, List.nil_append]
    congr 3
    congr 1
    omega

theorem setOut_ok (off : Nat) (bs : List Byte) (u : Ubx) (h : off + bs.length ≤ u.outMsg.length) :
    setOut off bs u = .ok ({ u with outMsg := u.outMsg.take off ++ bs ++ u.outMsg.drop (off + bs.length) }, []) := by
  unfold setOut; rw [wrs_ok _ _ _ h, ok_bind]

theorem andThen_ok {c d : Cmd} {u u1 u2 : Ubx} {w1 w2 : List Byte} (h1 : c u = .ok (u1, w1))
    (h2 : d u1 = .ok (u2, w2)) : andThen c d u = .ok (u2, w1 ++ w2) := by
  unfold andThen; rw [h1, ok_bind]; simp only; rw [h2, ok_bind]


theorem andThen_q {c d : Cmd} {u u1 u2 : Ubx} {w : List Byte} (h1 : c u = .ok (u1, []))
    (h2 : d u1 = .ok (u2, w)) : andThen c d u = .ok (u2, w) := andThen_ok h1 h2

theorem memset0_w (n : Nat) (u : Ubx) (h : n ≤ u.outMsg.length) :
    memset0 n u = .ok ({ u with outMsg := List.replicate n 0 ++ u.outMsg.drop n }, []) := by
  unfold memset0; rw [setOut_ok _ _ _ (by simp; omega)]; simp

theorem setOut_w (off : Nat) (bs a rest : List Byte) (u : Ubx) (h : off + bs.length ≤ a.length) :
    setOut off bs { u with outMsg := a ++ rest } =
      .ok ({ u with outMsg := (a.take off ++ bs ++ a.drop (off + bs.length)) ++ rest }, []) := by
  rw [setOut_ok _ _ _ (by simp; omega)]
  simp only
  rw [List.take_append_of_le_length (by omega), List.drop_append_of_le_length (by omega)]
  simp

theorem send_w (cls id : Byte) (len : Nat) (a rest : List Byte) (u : Ubx) (h : a.length = len) (h2 : len < 65536) :
    sendMessage cls id len { u with outMsg := a ++ rest } =
      .ok ({ u with outMsg := a ++ rest }, ubxFrame cls id a) := by
  rw [sendMessage_ok _ _ _ _ (by simp; omega) h2]
  simp only
  rw [← h, List.take_left]

theorem u32le_eq (x : BitVec 32) : u32le x = leBytes 4 x.toNat := by
  have h := x.isLt
  simp only [u32le, leBytes, List.cons.injEq, and_true]
  refine ⟨?_, ?_, ?_, ?_⟩ <;> apply BitVec.eq_of_toNat_eq <;>
    simp [Nat.shiftRight_eq_div_pow] <;> omega

theorem u16le_eq (x : BitVec 16) : u16le x = leBytes 2 x.toNat := by
  simp only [u16le, leBytes, List.cons.injEq, and_true]
  refine ⟨?_, ?_⟩ <;> apply BitVec.eq_of_toNat_eq <;>
    simp [Nat.shiftRight_eq_div_pow]

theorem leBytes4_mod (n : Nat) : leBytes 4 (n % 2 ^ 32) = leBytes 4 n := by
  simp only [leBytes]
  congr 1
  · apply BitVec.eq_of_toNat_eq; simp only [BitVec.toNat_ofNat]; omega
  congr 1
  · apply BitVec.eq_of_toNat_eq; simp only [BitVec.toNat_ofNat]; omega
  congr 1
  · apply BitVec.eq_of_toNat_eq; simp only [BitVec.toNat_ofNat]; omega
  congr 1
  · apply BitVec.eq_of_toNat_eq; simp only [BitVec.toNat_ofNat]; omega

theorem leBytes_length (k n : Nat) : (leBytes k n).length = k := by
  induction k generalizing n with
  | zero => rfl
  | succ k ih => simp [leBytes, ih]

/-- The command only changes the output buffer (and possibly `got_ver_`), keeping its size. -/
def CmdOk (c : Cmd) (u : Ubx) (w : List Byte) : Prop :=
  ∃ o : List Byte, o.length = u.outMsg.length ∧ c u = .ok ({ u with outMsg := o }, w)

theorem CmdOk.andThen {c d : Cmd} {u : Ubx} {w1 w2 : List Byte} (h1 : CmdOk c u w1)
    (h2 : ∀ o : List Byte, o.length = u.outMsg.length → CmdOk d { u with outMsg := o } w2) :
    CmdOk (andThen c d) u (w1 ++ w2) := by
  obtain ⟨o, ho, e⟩ := h1
  obtain ⟨o2, ho2, e2⟩ := h2 o ho
  exact ⟨o2, by rw [ho2]; exact ho, andThen_ok e e2⟩

/-- As `setOut_w`, with the resulting bytes named. -/
theorem setOut_e (off : Nat) (bs a a' rest : List Byte) (u : Ubx)
    (e : a.take off ++ bs ++ a.drop (off + bs.length) = a') (h : off + bs.length ≤ a.length) :
    setOut off bs { u with outMsg := a ++ rest } = .ok ({ u with outMsg := a' ++ rest }, []) := by
  rw [setOut_w _ _ _ _ _ h, e]

theorem configure_ok (v l : Byte) (d : BitVec 64) (k : BitVec 32) (s : Byte) (u : Ubx)
    (h : u.outMsg.length = 2048) :
    CmdOk (configure v l d k s) u (wireBytes (expectedMessages u.major (.configure v l d k s))) := by
  let D : List Byte := if s = 1 then leBytes 1 d.toNat ++ [0, 0, 0] else if s = 2 then leBytes 4 d.toNat
      else [0, 0, 0, 0]
  let E : List Byte := if s = 1 then leBytes 1 d.toNat ++ [0, 0, 0] else [0, 0, 0, 0]
  have hE : E.length = 4 := by simp only [E]; split <;> rfl
  have hD : D.length = 4 := by
    simp only [D]; split
    · rfl
    · split <;> rfl
  refine ⟨([v, l, 0, 0] ++ leBytes 4 k.toNat ++ D) ++ u.outMsg.drop 12, ?_, ?_⟩
  · simp only [List.length_append, leBytes_length, List.length_drop, h, hD]; rfl
  unfold configure
  refine andThen_q (memset0_w 12 u (by omega)) ?_
  refine andThen_q (setOut_e 0 [v] (List.replicate 12 0) ([v] ++ List.replicate 11 0) _ u rfl (by simp)) ?_
  refine andThen_q (setOut_e 1 [l] _ ([v, l] ++ List.replicate 10 0) _ u rfl (by simp)) ?_
  refine andThen_q (u1 := { u with outMsg := ([v, l] ++ List.replicate 6 0 ++ E) ++ u.outMsg.drop 12 }) ?_ ?_
  · by_cases hs : s = 1
    · simp only [E, hs, if_true]
      exact setOut_e 8 _ _ _ _ u (by
        have : BitVec.setWidth 8 d = BitVec.ofNat 8 d.toNat := by apply BitVec.eq_of_toNat_eq; simp
        rw [this]; rfl) (by simp)
    · simp only [E, hs, if_false]; rfl
  refine andThen_q (u1 := { u with outMsg := ([v, l] ++ List.replicate 6 0 ++ D) ++ u.outMsg.drop 12 }) ?_ ?_
  · by_cases hs : s = 2
    · have h1 : s ≠ 1 := by rw [hs]; decide
      simp only [if_pos hs, if_neg h1, D, E, u32le_eq]
      exact setOut_e 8 _ _ _ _ u (by
        have : leBytes 4 (BitVec.setWidth 32 d).toNat = leBytes 4 d.toNat := by
          rw [BitVec.toNat_setWidth, leBytes4_mod]
        rw [this]; rfl) (by simp [leBytes_length])
    · simp only [if_neg hs, D, E]
  refine andThen_q (setOut_e 4 (u32le k) _ ([v, l, 0, 0] ++ leBytes 4 k.toNat ++ D) _ u ?_ ?_) ?_
  · rw [u32le_eq]
    rfl
  · simp [hD, u32le]
  have := send_w CLASS_CFG CFG_VALSET 12 ([v, l, 0, 0] ++ leBytes 4 k.toNat ++ D) (u.outMsg.drop 12) u
    (by simp [hD, leBytes_length]) (by omega)
  have e : wireBytes (expectedMessages u.major (.configure v l d k s)) =
      ubxFrame CLASS_CFG CFG_VALSET ([v, l, 0, 0] ++ leBytes 4 k.toNat ++ D) := by
    simp only [wireBytes, expectedMessages, valset, List.flatMap_cons, List.flatMap_nil, List.append_nil]; rfl
  rw [e]
  exact this

theorem getConfiguration_ok (v l : Byte) (k : BitVec 32) (u : Ubx) (h : u.outMsg.length = 2048) :
    CmdOk (getConfiguration v l k) u (wireBytes (expectedMessages u.major (.getConfiguration v l k))) := by
  refine ⟨([v, l, 0, 0] ++ leBytes 4 k.toNat ++ List.replicate 8 0) ++ u.outMsg.drop 16, ?_, ?_⟩
  · simp [leBytes_length, h]
  have e : wireBytes (expectedMessages u.major (.getConfiguration v l k)) =
      ubxFrame CLASS_CFG CFG_VALGET ([v, l, 0, 0] ++ leBytes 4 k.toNat ++ List.replicate 8 0) := by
    simp only [wireBytes, expectedMessages, List.flatMap_cons, List.flatMap_nil, List.append_nil]; rfl
  rw [e]
  unfold getConfiguration
  refine andThen_q (memset0_w 16 u (by omega)) ?_
  refine andThen_q (setOut_e 0 [v] (List.replicate 16 0) ([v] ++ List.replicate 15 0) _ u rfl (by simp)) ?_
  refine andThen_q (setOut_e 1 [l] _ ([v, l] ++ List.replicate 14 0) _ u rfl (by simp)) ?_
  refine andThen_q (setOut_e 4 (u32le k) _ ([v, l, 0, 0] ++ leBytes 4 k.toNat ++ List.replicate 8 0) _ u
    (by rw [u32le_eq]; rfl) (by simp [u32le])) ?_
  exact send_w _ _ 16 _ _ u (by simp [leBytes_length]) (by omega)

theorem enableMessage_ok (c i r : Byte) (u : Ubx) (h : u.outMsg.length = 2048) :
    CmdOk (enableMessage c i r) u (wireBytes (expectedMessages u.major (.enableMessage c i r))) := by
  refine ⟨[c, i, r] ++ u.outMsg.drop 3, by simp [h], ?_⟩
  have e : wireBytes (expectedMessages u.major (.enableMessage c i r)) = ubxFrame CLASS_CFG CFG_MSG [c, i, r] := by
    simp only [wireBytes, expectedMessages, List.flatMap_cons, List.flatMap_nil, List.append_nil]; rfl
  rw [e]
  unfold enableMessage
  refine andThen_q (memset0_w 3 u (by omega)) ?_
  refine andThen_q (setOut_e 0 [c] (List.replicate 3 0) [c, 0, 0] _ u rfl (by simp)) ?_
  refine andThen_q (setOut_e 1 [i] _ [c, i, 0] _ u rfl (by simp)) ?_
  refine andThen_q (setOut_e 2 [r] _ [c, i, r] _ u rfl (by simp)) ?_
  exact send_w _ _ 3 _ _ u (by simp) (by omega)

theorem wireBytes_cons (m : Byte × Byte × List Byte) (ms : List (Byte × Byte × List Byte)) :
    wireBytes (m :: ms) = ubxFrame m.1 m.2.1 m.2.2 ++ wireBytes ms := rfl

theorem setNavRate_ok (p : Byte) (u : Ubx) (h : u.outMsg.length = 2048) :
    CmdOk (setNavRate p) u (wireBytes (expectedMessages u.major (.setNavRate p))) := by
  by_cases hm : u.major ≤ 23
  · refine ⟨(leBytes 2 p.toNat ++ leBytes 2 1 ++ leBytes 2 0) ++ u.outMsg.drop 6, by simp [leBytes_length, h], ?_⟩
    have e : wireBytes (expectedMessages u.major (.setNavRate p)) =
        ubxFrame CLASS_CFG CFG_RATE (leBytes 2 p.toNat ++ leBytes 2 1 ++ leBytes 2 0) := by
      simp only [wireBytes, expectedMessages, if_pos hm, List.flatMap_cons, List.flatMap_nil, List.append_nil]; rfl
    rw [e]
    unfold setNavRate
    rw [if_pos hm]
    refine andThen_q (memset0_w 6 u (by omega)) ?_
    refine andThen_q (setOut_e 0 _ (List.replicate 6 0) (leBytes 2 p.toNat ++ List.replicate 4 0) _ u
      (by rw [u16le_eq, BitVec.toNat_setWidth_of_le (by omega)]; rfl) (by simp [u16le])) ?_
    refine andThen_q (setOut_e 2 _ _ (leBytes 2 p.toNat ++ leBytes 2 1 ++ List.replicate 2 0) _ u rfl (by simp [u16le, leBytes_length])) ?_
    refine andThen_q (setOut_e 4 _ _ (leBytes 2 p.toNat ++ leBytes 2 1 ++ leBytes 2 0) _ u rfl (by simp [u16le, leBytes_length])) ?_
    exact send_w _ _ 6 _ _ u (by simp [leBytes_length]) (by omega)
  · have e1 : leBytes 1 p.toNat ++ [0, 0, 0] = leBytes 4 p.toNat := by
      have := p.isLt
      simp only [leBytes, List.cons_append, List.nil_append, List.cons.injEq, and_true, true_and]
      refine ⟨?_, ?_, ?_⟩ <;> apply BitVec.eq_of_toNat_eq <;>
        simp only [BitVec.toNat_ofNat, BitVec.ofNat_eq_ofNat] <;> omega
    have e : wireBytes (expectedMessages u.major (.setNavRate p)) =
        wireBytes (expectedMessages u.major (.configure 0 1 (p.setWidth 64) 0x30210001 1)) ++
        (wireBytes (expectedMessages u.major (.configure 0 1 1 0x30210002 1)) ++
         wireBytes (expectedMessages u.major (.configure 0 1 0 0x20210003 1))) := by
      simp only [expectedMessages, if_neg hm, if_true, wireBytes,
        ← e1]
      rw [BitVec.toNat_setWidth_of_le (by omega : 8 ≤ 64)]
      rfl
    have e2 : setNavRate p u = andThen (configure 0 1 (p.setWidth 64) 0x30210001 1) (andThen (configure 0 1 1 0x30210002 1)
        (configure 0 1 0 0x20210003 1)) u := by
      simp only [setNavRate, if_neg hm]
    unfold CmdOk
    rw [e, e2]
    exact (configure_ok _ _ _ _ _ u h).andThen fun o ho =>
      CmdOk.andThen (configure_ok 0 1 1 0x30210002 1 { u with outMsg := o } (by rw [← h]; exact ho)) fun o' ho' =>
        configure_ok 0 1 0 0x20210003 1 { u with outMsg := o' } (by
          simp only at ho'; simp only; omega)

theorem disableNmea_ok (u : Ubx) (h : u.outMsg.length = 2048) :
    CmdOk disableNmea u (wireBytes (expectedMessages u.major .disableNmea)) := by
  by_cases hm : u.major ≤ 23
  · refine ⟨([3, 0, 0, 0] ++ leBytes 4 0 ++ leBytes 4 921600 ++ leBytes 2 0x21 ++ leBytes 2 0x21 ++
        leBytes 2 0x8C0 ++ [0, 0]) ++ u.outMsg.drop 20, by simp [leBytes_length, h], ?_⟩
    have e : wireBytes (expectedMessages u.major .disableNmea) =
        ubxFrame CLASS_CFG CFG_PRT ([3, 0, 0, 0] ++ leBytes 4 0 ++ leBytes 4 921600 ++ leBytes 2 0x21 ++ leBytes 2 0x21 ++
        leBytes 2 0x8C0 ++ [0, 0]) := by
      simp only [wireBytes, expectedMessages, if_pos hm, List.flatMap_cons, List.flatMap_nil, List.append_nil]; rfl
    rw [e]
    unfold disableNmea
    rw [if_pos hm]
    refine andThen_q (memset0_w 20 u (by omega)) ?_
    refine andThen_q (setOut_e 0 _ (List.replicate 20 0) ([3] ++ List.replicate 19 0) _ u rfl (by simp)) ?_
    refine andThen_q (setOut_e 8 _ _ ([3] ++ List.replicate 7 0 ++ leBytes 4 921600 ++ List.replicate 8 0) _ u
      (by rw [u32le_eq]; rfl) (by simp [u32le])) ?_
    refine andThen_q (setOut_e 14 _ _ ([3] ++ List.replicate 7 0 ++ leBytes 4 921600 ++ [0, 0] ++ leBytes 2 0x21 ++
      List.replicate 4 0) _ u rfl (by simp [u16le, leBytes_length])) ?_
    refine andThen_q (setOut_e 12 _ _ ([3] ++ List.replicate 7 0 ++ leBytes 4 921600 ++ leBytes 2 0x21 ++ leBytes 2 0x21 ++
      List.replicate 4 0) _ u rfl (by simp [u16le, leBytes_length])) ?_
    refine andThen_q (setOut_e 16 _ _ ([3, 0, 0, 0] ++ leBytes 4 0 ++ leBytes 4 921600 ++ leBytes 2 0x21 ++ leBytes 2 0x21 ++
        leBytes 2 0x8C0 ++ [0, 0]) _ u rfl (by simp [u16le, leBytes_length])) ?_
    exact send_w _ _ 20 _ _ u (by simp [leBytes_length]) (by omega)
  · have e : wireBytes (expectedMessages u.major .disableNmea) =
        wireBytes (expectedMessages u.major (.configure 0 1 0 0x10770002 1)) ++
         wireBytes (expectedMessages u.major (.configure 0 1 0 0x10780002 1)) := by
      simp only [expectedMessages, if_neg hm, if_true, wireBytes]
      rfl
    have e2 : disableNmea u = andThen (configure 0 1 0 0x10770002 1) (configure 0 1 0 0x10780002 1) u := by
      simp only [disableNmea, if_neg hm]
    unfold CmdOk
    rw [e, e2]
    exact (configure_ok _ _ _ _ _ u h).andThen fun o ho =>
      configure_ok 0 1 0 0x10780002 1 { u with outMsg := o } (by rw [← h]; exact ho)

theorem setDynamicMode_ok (u : Ubx) (h : u.outMsg.length = 2048) :
    CmdOk setDynamicMode u (wireBytes (expectedMessages u.major .setDynamicMode)) := by
  by_cases hm : u.major ≤ 23
  · refine ⟨(leBytes 2 1 ++ [8] ++ List.replicate 33 0) ++ u.outMsg.drop 36, by simp [leBytes_length, h], ?_⟩
    have e : wireBytes (expectedMessages u.major .setDynamicMode) =
        ubxFrame CLASS_CFG CFG_NAV5 (leBytes 2 1 ++ [8] ++ List.replicate 33 0) := by
      simp only [wireBytes, expectedMessages, if_pos hm, List.flatMap_cons, List.flatMap_nil, List.append_nil]; rfl
    rw [e]
    unfold setDynamicMode
    rw [if_pos hm]
    refine andThen_q (memset0_w 36 u (by omega)) ?_
    refine andThen_q (setOut_e 0 _ (List.replicate 36 0) (leBytes 2 1 ++ List.replicate 34 0) _ u rfl (by simp [u16le])) ?_
    refine andThen_q (setOut_e 2 _ _ (leBytes 2 1 ++ [8] ++ List.replicate 33 0) _ u rfl (by simp [leBytes_length])) ?_
    exact send_w _ _ 36 _ _ u (by simp [leBytes_length]) (by omega)
  · have e : wireBytes (expectedMessages u.major .setDynamicMode) =
        wireBytes (expectedMessages u.major (.configure 0 1 6 0x20110021 1)) := by
      simp only [expectedMessages, if_neg hm, if_true, wireBytes]
      rfl
    have e2 : setDynamicMode u = configure 0 1 6 0x20110021 1 u := by
      simp only [setDynamicMode, if_neg hm]
    unfold CmdOk
    rw [e, e2]
    exact configure_ok _ _ _ _ _ u h

/-- What `start_survey_in` really sends: three fields, the other bytes are whatever the buffer held. -/
def surveyPayload (o : List Byte) : List Byte :=
  o.take 2 ++ leBytes 2 1 ++ (o.drop 4).take 20 ++ leBytes 4 60 ++ leBytes 4 3 ++ (o.drop 32).take 8

/-- Replace a piece of the buffer. -/
theorem setOut_piece (off : Nat) (bs pre old post : List Byte) (u : Ubx) (h1 : pre.length = off)
    (h2 : old.length = bs.length) (h : u.outMsg = pre ++ (old ++ post)) :
    setOut off bs u = .ok ({ u with outMsg := pre ++ (bs ++ post) }, []) := by
  subst h1
  rw [setOut_ok _ _ _ (by rw [h]; simp; omega), h, List.take_left, ← h2, ← List.length_append, ← List.append_assoc,
    List.drop_left, List.append_assoc]

theorem startSurveyIn_ok (u : Ubx) (h : u.outMsg.length = 2048) :
    CmdOk startSurveyIn u (ubxFrame 0x06 0x71 (surveyPayload u.outMsg)) := by
  refine ⟨surveyPayload u.outMsg ++ u.outMsg.drop 40, by simp [surveyPayload, leBytes_length, h], ?_⟩
  have hd : ∀ n, n + 4 ≤ 2048 → u.outMsg.drop n = (u.outMsg.drop n).take 4 ++ u.outMsg.drop (n + 4) := by
    intro n _
    conv => lhs; rw [← List.take_append_drop 4 (u.outMsg.drop n), List.drop_drop]
  have e0 : u.outMsg = u.outMsg.take 2 ++ ((u.outMsg.drop 2).take 2 ++ ((u.outMsg.drop 4).take 20 ++
      ((u.outMsg.drop 24).take 4 ++ ((u.outMsg.drop 28).take 4 ++ ((u.outMsg.drop 32).take 8 ++ u.outMsg.drop 40))))) := by
    have t : ∀ n k, (u.outMsg.drop n).take k ++ u.outMsg.drop (n + k) = u.outMsg.drop n := by
      intro n k; rw [← List.drop_drop]; exact List.take_append_drop _ _
    rw [t 32 8, t 28 4, t 24 4, t 4 20, t 2 2, List.take_append_drop]
  unfold surveyPayload startSurveyIn
  have l1 : (u.outMsg.take 2).length = 2 := by simp [h]
  have l2 : ((u.outMsg.drop 2).take 2).length = 2 := by simp [h]
  have l3 : ((u.outMsg.drop 4).take 20).length = 20 := by simp [h]
  have l4 : ((u.outMsg.drop 24).take 4).length = 4 := by simp [h]
  have l5 : ((u.outMsg.drop 28).take 4).length = 4 := by simp [h]
  have l6 : ((u.outMsg.drop 32).take 8).length = 8 := by simp [h]
  generalize u.outMsg.take 2 = x1 at *
  generalize (u.outMsg.drop 2).take 2 = x2 at *
  generalize (u.outMsg.drop 4).take 20 = x3 at *
  generalize (u.outMsg.drop 24).take 4 = x4 at *
  generalize (u.outMsg.drop 28).take 4 = x5 at *
  generalize (u.outMsg.drop 32).take 8 = x6 at *
  generalize u.outMsg.drop 40 = x7 at *
  refine andThen_q (setOut_piece 2 _ x1 x2 _ u l1 (by simpa [u16le] using l2) e0) ?_
  refine andThen_q (setOut_piece 24 _ (x1 ++ u16le 1 ++ x3) x4 (x5 ++ (x6 ++ x7)) _ (by simp [l1, l3, u16le])
    (by simpa [u32le] using l4) (by simp)) ?_
  refine andThen_q (setOut_piece 28 _ (x1 ++ u16le 1 ++ x3 ++ u32le 60) x5 (x6 ++ x7) _ (by simp [l1, l3, u16le, u32le])
    (by simpa [u32le] using l5) (by simp)) ?_
  have e9 : x1 ++ u16le 1 ++ x3 ++ u32le 60 ++ (u32le 3 ++ (x6 ++ x7)) =
      (x1 ++ leBytes 2 1 ++ x3 ++ leBytes 4 60 ++ leBytes 4 3 ++ x6) ++ x7 := by
    simp only [List.append_assoc]; rfl
  rw [e9]
  exact send_w _ _ 40 _ _ u (by simp [leBytes_length, l1, l3, l6]) (by omega)

theorem pollVersion_ok (u : Ubx) :
    Command.pollVersion.run u = .ok ({ u with gotVer := false }, wireBytes (expectedMessages u.major .pollVersion)) := by
  unfold Command.run
  simp only
  rw [sendMessage_ok _ _ _ _ (by omega) (by omega)]
  rfl

/-- Every configuration call succeeds and only touches the output buffer and the version flag. -/
theorem run_shape (c : Command) (u : Ubx) (h : u.outMsg.length = 2048) :
    ∃ o g w, o.length = 2048 ∧ c.run u = .ok ({ u with outMsg := o, gotVer := g }, w) := by
  cases c with
  | configure v l d k s => obtain ⟨o, ho, e⟩ := configure_ok v l d k s u h; exact ⟨o, u.gotVer, _, by omega, e⟩
  | getConfiguration v l k => obtain ⟨o, ho, e⟩ := getConfiguration_ok v l k u h; exact ⟨o, u.gotVer, _, by omega, e⟩
  | enableMessage a b c => obtain ⟨o, ho, e⟩ := enableMessage_ok a b c u h; exact ⟨o, u.gotVer, _, by omega, e⟩
  | setNavRate p => obtain ⟨o, ho, e⟩ := setNavRate_ok p u h; exact ⟨o, u.gotVer, _, by omega, e⟩
  | disableNmea => obtain ⟨o, ho, e⟩ := disableNmea_ok u h; exact ⟨o, u.gotVer, _, by omega, e⟩
  | setDynamicMode => obtain ⟨o, ho, e⟩ := setDynamicMode_ok u h; exact ⟨o, u.gotVer, _, by omega, e⟩
  | startSurveyIn => obtain ⟨o, ho, e⟩ := startSurveyIn_ok u h; exact ⟨o, u.gotVer, _, by omega, e⟩
  | pollVersion => exact ⟨u.outMsg, false, _, h, pollVersion_ok u⟩

/-- Every call except `start_survey_in` sends exactly the expected messages. -/
theorem run_expected (c : Command) (hc : c ≠ .startSurveyIn) (u : Ubx) (h : u.outMsg.length = 2048) :
    ∃ o g, o.length = 2048 ∧
      c.run u = .ok ({ u with outMsg := o, gotVer := g }, wireBytes (expectedMessages u.major c)) := by
  cases c with
  | configure v l d k s => obtain ⟨o, ho, e⟩ := configure_ok v l d k s u h; exact ⟨o, u.gotVer, by omega, e⟩
  | getConfiguration v l k => obtain ⟨o, ho, e⟩ := getConfiguration_ok v l k u h; exact ⟨o, u.gotVer, by omega, e⟩
  | enableMessage a b c => obtain ⟨o, ho, e⟩ := enableMessage_ok a b c u h; exact ⟨o, u.gotVer, by omega, e⟩
  | setNavRate p => obtain ⟨o, ho, e⟩ := setNavRate_ok p u h; exact ⟨o, u.gotVer, by omega, e⟩
  | disableNmea => obtain ⟨o, ho, e⟩ := disableNmea_ok u h; exact ⟨o, u.gotVer, by omega, e⟩
  | setDynamicMode => obtain ⟨o, ho, e⟩ := setDynamicMode_ok u h; exact ⟨o, u.gotVer, by omega, e⟩
  | startSurveyIn => exact absurd rfl hc
  | pollVersion => exact ⟨u.outMsg, false, h, pollVersion_ok u⟩

end Ubx
end Ublox
