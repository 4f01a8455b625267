import Verif.Model.Rtcm
import Verif.Spec.Rtcm
import Verif.Lemmas.Base
import Verif.Lemmas.Crc

/-! Step-wise refinement of the RTCM parser to a stream scanner. -/

namespace Ublox
namespace Rtcm

/-- What the stream looks like so far: nothing open, or an open frame with its bytes (preamble included). -/
inductive RTail where
  | idle
  | opened (bs : List Byte)

/-- What a byte completed. -/
inductive REvent where
  | frame (bs : List Byte)
  | zeroLen

/-- Scanner step. -/
def rtStep : RTail → Byte → RTail × Option REvent
  | .idle, b => if b = 0xD3 then (.opened [b], none) else (.idle, none)
  | .opened bs, b =>
    match bs ++ [b] with
    | _ :: b1 :: b2 :: rest =>
      if rtcmLen b1 b2 = 0 then (.idle, some .zeroLen)
      else if rest.length = rtcmLen b1 b2 + 3 then (.idle, some (.frame (bs ++ [b])))
      else (.opened (bs ++ [b]), none)
    | _ => (.opened (bs ++ [b]), none)

/-- Parser state described by the scanner state. -/
def Abs (r : Rtcm) : RTail → Prop
  | .idle => r.state = .start ∧ r.startMsg = false
  | .opened bs => r.startMsg = true ∧ r.endMsg = false ∧ r.head = bs.length ∧ r.inBuf.take bs.length = bs ∧
      bs.length ≤ 1024 ∧
      match bs with
      | [] => False
      | [x] => x = 0xD3 ∧ r.state = .gotStartFrame
      | [x, b1] => x = 0xD3 ∧ r.prev = b1 ∧ r.state = .gotLength1
      | x :: b1 :: b2 :: rest => x = 0xD3 ∧ 1 ≤ rtcmLen b1 b2 ∧ r.payloadLen = rtcmLen b1 b2 ∧
          ((rest.length < rtcmLen b1 b2 ∧ r.state = .gotLength2) ∨
           (rest.length = rtcmLen b1 b2 ∧ r.state = .gotPayload) ∨
           (rest.length = rtcmLen b1 b2 + 1 ∧ r.state = .gotCkA) ∨
           (rest.length = rtcmLen b1 b2 + 2 ∧ r.state = .gotCkB))

theorem rtcmLen_lt (b1 b2 : Byte) : rtcmLen b1 b2 < 1024 := by
  unfold rtcmLen; have := b2.isLt; omega

theorem len_expr (b1 b2 : Byte) : ((b1.toNat &&& 0x3) <<< 8) ||| b2.toNat = rtcmLen b1 b2 := by
  have h : b2.toNat < 2 ^ 8 := b2.isLt
  have e : b1.toNat &&& 0x3 = b1.toNat % 4 := Nat.and_two_pow_sub_one_eq_mod b1.toNat 2
  unfold rtcmLen
  rw [e, Nat.shiftLeft_eq, Nat.mul_comm, ← Nat.two_pow_add_eq_or_of_lt h, Nat.mul_comm]

theorem crcValid_iff (msg : List Byte) (c0 c1 c2 : Byte) :
    CrcValid (msg ++ [c0, c1, c2]) ↔ IsCrc24Q msg (beNat [c0, c1, c2]) := by
  constructor
  · rintro ⟨m, d0, d1, d2, h, hc⟩
    have := List.append_inj' h rfl
    obtain ⟨h1, h2⟩ := this
    simp only [List.cons.injEq, and_true] at h2
    obtain ⟨rfl, rfl, rfl⟩ := h2
    rw [h1]; exact hc
  · intro h; exact ⟨msg, c0, c1, c2, rfl, h⟩

theorem fieldVal_seg (buf seg : List Byte) (n : Nat) (h : (buf.drop n).take seg.length = seg) :
    fieldVal buf (n * 8) (8 * seg.length) = beNat seg := by
  unfold beNat fieldVal
  have : ∀ m, m ≤ 8 * seg.length → bitsVal (bitAt buf) (n * 8) m = bitsVal (bitAt seg) 0 m := by
    intro m
    induction m with
    | zero => intro _; rfl
    | succ m ih =>
      intro hm
      simp only [bitsVal]
      rw [ih (by omega)]
      congr 2
      unfold bitAt
      have e1 : (n * 8 + m) / 8 = n + m / 8 := by omega
      have e2 : (n * 8 + m) % 8 = (0 + m) % 8 := by omega
      have e3 : (0 + m) / 8 = m / 8 := by omega
      rw [e1, e2, e3]
      have : seg[m / 8]? = buf[n + m / 8]? := by
        conv => lhs; rw [← h]
        rw [List.getElem?_take, if_pos (by omega), List.getElem?_drop]
      rw [this]
  exact this _ (by omega)

theorem checkCrc_ok (r : Rtcm) (f : List Byte) (hl : r.inBuf.length = 1024) (hf : r.inBuf.take f.length = f)
    (hh : r.head = f.length) (hp : r.payloadLen + 6 = f.length) (hle : f.length ≤ 1024) :
    ∃ b, checkCrc r = .ok b ∧ (b = true ↔ CrcValid f) := by
  obtain ⟨msg, cs, rfl, hcs⟩ : ∃ msg cs, f = msg ++ cs ∧ cs.length = 3 :=
    ⟨f.take (f.length - 3), f.drop (f.length - 3), (List.take_append_drop _ _).symm, by simp; omega⟩
  match cs, hcs with
  | [c0, c1, c2], _ =>
    simp only [List.length_append, List.length_cons, List.length_nil] at hh hp hle hf
    unfold checkCrc
    have e0 : r.head - 3 = msg.length := by omega
    rw [e0, getBit_ok (by omega) (by omega) (by omega)]
    simp only [ok_bind]
    have htk : r.inBuf.take (r.payloadLen + 3) = msg := by
      have := congrArg (List.take msg.length) hf
      rw [List.take_take, List.take_left] at this
      rw [show r.payloadLen + 3 = min msg.length (msg.length + 3) by omega]; exact this
    obtain ⟨c, h1, h2, h3⟩ := crc24_spec r.inBuf (r.payloadLen + 3) (by omega)
    rw [htk] at h3
    rw [h1]
    simp only [ok_bind]
    refine ⟨_, rfl, ?_⟩
    have hs : fieldVal r.inBuf (msg.length * 8) 24 = beNat [c0, c1, c2] := by
      apply fieldVal_seg r.inBuf [c0, c1, c2]
      have := congrArg (List.drop msg.length) hf
      rw [List.drop_left, List.drop_take] at this
      rw [show [c0, c1, c2].length = msg.length + 3 - msg.length by simp]
      exact this
    rw [hs, crcValid_iff]
    constructor
    · intro hb
      have : beNat [c0, c1, c2] = c := by simpa using hb
      rw [this]; exact h3
    · intro hb
      have := isCrc24Q_unique hb h3
      simpa using this

/-- Effect of one byte. -/
structure StepOk (r r' : Rtcm) (ev : Option REvent) (cs : List RtcmCall) : Prop where
  len : r'.inBuf.length = 1024
  listeners : r'.listeners = r.listeners
  none : (∀ f, ev ≠ some (.frame f)) → cs = [] ∧ r'.newData = r.newData
  frame : ∀ f, ev = some (.frame f) → r'.newData = true ∧
    ((CrcValid f ∧ cs = r.listeners.map fun l => ⟨l, f⟩) ∨ (¬ CrcValid f ∧ cs = []))

theorem store_ok {r : Rtcm} {b : Byte} (h : r.head < r.inBuf.length) :
    store r b = .ok { r with inBuf := r.inBuf.set r.head b, head := r.head + 1 } := by
  unfold store; rw [wr_ok h]; rfl

theorem store_oob {r : Rtcm} {b : Byte} (h : r.inBuf.length ≤ r.head) : store r b = .error .oobWrite := by
  unfold store wr; rw [if_neg (by omega)]; rfl

theorem take_set_snoc {l bs : List Byte} {b : Byte} (h : l.take bs.length = bs) (hlt : bs.length < l.length) :
    (l.set bs.length b).take (bs.length + 1) = bs ++ [b] := by
  rw [List.take_add_one, List.take_set_of_le (Nat.le_refl _), h]
  simp [hlt]

/-- One byte with room in the buffer. -/
theorem readByte_sim {r : Rtcm} {t : RTail} (b : Byte) (hl : r.inBuf.length = 1024) (ha : Abs r t)
    (hroom : ∀ bs, t = .opened bs → bs.length < 1024) :
    ∃ r' cs, readByte r b = .ok (r', cs) ∧ Abs r' (rtStep t b).1 ∧ StepOk r r' (rtStep t b).2 cs ∧ r'.prev = b := by
  match t with
  | .idle =>
    obtain ⟨hs, hst⟩ := ha
    unfold readByte switch
    simp only [hs, START_BYTE]
    by_cases hb : b = 0xD3
    · rw [if_pos hb, store_ok (by simp [hl])]
      simp only [ok_bind, rtStep, if_pos hb, reduceCtorEq, if_false]
      refine ⟨_, _, rfl, ⟨rfl, rfl, rfl, ?_, by simp, hb, rfl⟩, ⟨by simp [hl], rfl, fun _ => ⟨rfl, rfl⟩, ?_⟩, rfl⟩
      · match r.inBuf, hl with
        | x :: xs, _ => rfl
      · intro f hf; simp at hf
    · rw [if_neg hb]
      simp only [ok_bind, rtStep, if_neg hb, reduceCtorEq, if_false]
      exact ⟨_, _, rfl, ⟨rfl, hst⟩, ⟨hl, rfl, fun _ => ⟨rfl, rfl⟩, by simp⟩, rfl⟩
  | .opened bs =>
    have hlt := hroom bs rfl
    obtain ⟨h1, h2, h3, h4, h5, h6⟩ := ha
    have hst : store r b = .ok { r with inBuf := r.inBuf.set bs.length b, head := bs.length + 1 } := by
      rw [store_ok (by omega), h3]
    have htk := take_set_snoc (b := b) h4 (by omega)
    match bs, h6 with
    | [x], ⟨hx, h6⟩ =>
      unfold readByte switch
      simp only [h6, hst, ok_bind, reduceCtorEq, if_false, rtStep, List.cons_append, List.nil_append]
      refine ⟨_, _, rfl, ⟨h1, h2, rfl, htk, by simp, hx, rfl, rfl⟩, ⟨by simp [hl], rfl, fun _ => ⟨rfl, rfl⟩, by simp⟩, rfl⟩
    | [x, b1], ⟨hx, hpv, h6⟩ =>
      unfold readByte switch
      simp only [h6, hst, ok_bind, rtStep, List.cons_append, List.nil_append, hpv, len_expr]
      have hlen := rtcmLen_lt b1 b
      by_cases h0 : rtcmLen b1 b = 0
      · rw [if_pos (.inr h0), if_pos h0]
        simp only [restart, ok_bind, reduceCtorEq, if_false]
        exact ⟨_, _, rfl, ⟨rfl, rfl⟩, ⟨by simp [hl], rfl, fun _ => ⟨rfl, rfl⟩, by simp⟩, rfl⟩
      · rw [if_neg (by unfold BUFFER_SIZE; omega), if_neg h0, if_neg (by simp)]
        simp only [ok_bind, reduceCtorEq, if_false]
        exact ⟨_, _, rfl, ⟨h1, h2, rfl, htk, by simp, hx, by omega, rfl, .inl ⟨by simp; omega, rfl⟩⟩,
          ⟨by simp [hl], rfl, fun _ => ⟨rfl, rfl⟩, by simp⟩, rfl⟩
    | x :: b1 :: b2 :: rest, ⟨hx, hp1, hp2, h6⟩ =>
      simp only [rtStep, List.cons_append]
      rw [if_neg (by omega)]
      simp only [List.length_cons] at hlt h3 htk hst
      rcases h6 with ⟨hr, hs⟩ | ⟨hr, hs⟩ | ⟨hr, hs⟩ | ⟨hr, hs⟩
      · rw [if_neg (show ¬ (rest ++ [b]).length = rtcmLen b1 b2 + 3 by simp; omega)]
        unfold readByte switch
        simp only [hs, hst, ok_bind]
        by_cases he : rest.length + 1 = rtcmLen b1 b2
        · simp only [if_pos (show rest.length + 1 + 1 + 1 + 1 - 3 = r.payloadLen by omega)]
          rw [if_neg (show ¬ rest.length + 1 + 1 + 1 + 1 - 3 > r.payloadLen by omega)]
          simp only [ok_bind, reduceCtorEq, if_false]
          exact ⟨_, _, rfl, ⟨h1, h2, by simp, by simpa using htk, by simp; omega, hx, hp1, hp2,
            .inr (.inl ⟨by simpa using he, rfl⟩)⟩, ⟨by simp [hl], rfl, fun _ => ⟨rfl, rfl⟩, by simp⟩, rfl⟩
        · simp only [if_neg (show ¬ rest.length + 1 + 1 + 1 + 1 - 3 = r.payloadLen by omega)]
          rw [if_neg (show ¬ rest.length + 1 + 1 + 1 + 1 - 3 > r.payloadLen by omega)]
          simp only [ok_bind, reduceCtorEq, if_false]
          exact ⟨_, _, rfl, ⟨h1, h2, by simp, by simpa using htk, by simp; omega, hx, hp1, hp2,
            .inl ⟨by simp; omega, rfl⟩⟩, ⟨by simp [hl], rfl, fun _ => ⟨rfl, rfl⟩, by simp⟩, rfl⟩
      · rw [if_neg (show ¬ (rest ++ [b]).length = rtcmLen b1 b2 + 3 by simp; omega)]
        unfold readByte switch
        simp only [hs, hst, ok_bind, reduceCtorEq, if_false]
        exact ⟨_, _, rfl, ⟨h1, h2, by simp, by simpa using htk, by simp; omega, hx, hp1, hp2,
            .inr (.inr (.inl ⟨by simp; omega, rfl⟩))⟩, ⟨by simp [hl], rfl, fun _ => ⟨rfl, rfl⟩, by simp⟩, rfl⟩
      · rw [if_neg (show ¬ (rest ++ [b]).length = rtcmLen b1 b2 + 3 by simp; omega)]
        unfold readByte switch
        simp only [hs, hst, ok_bind, reduceCtorEq, if_false]
        exact ⟨_, _, rfl, ⟨h1, h2, by simp, by simpa using htk, by simp; omega, hx, hp1, hp2,
            .inr (.inr (.inr ⟨by simp; omega, rfl⟩))⟩, ⟨by simp [hl], rfl, fun _ => ⟨rfl, rfl⟩, by simp⟩, rfl⟩
      · rw [if_pos (show (rest ++ [b]).length = rtcmLen b1 b2 + 3 by simp; omega)]
        unfold readByte switch
        simp only [hs, hst, ok_bind]
        simp only [if_neg (show ¬ rest.length + 1 + 1 + 1 + 1 > BUFFER_SIZE by unfold BUFFER_SIZE; omega), ok_bind, if_true]
        unfold decode
        obtain ⟨q, hq1, hq2⟩ := checkCrc_ok
          { r with inBuf := r.inBuf.set (rest.length + 1 + 1 + 1) b, head := rest.length + 1 + 1 + 1 + 1, newData := true,
                   messageLen := rest.length + 1 + 1 + 1 + 1, state := .start, startMsg := false, endMsg := true }
          (x :: b1 :: b2 :: (rest ++ [b])) (by simp [hl]) (by simpa using htk) (by simp) (by simp [hp2]; omega)
          (by simp; omega)
        simp only [hq1, ok_bind]
        cases q with
        | false =>
          simp only [Bool.false_eq_true, if_false, ok_bind]
          refine ⟨_, _, rfl, ⟨rfl, rfl⟩, ⟨by simp [hl], rfl, ?_, ?_⟩, rfl⟩
          · intro h; exact absurd rfl (h _)
          · intro f hf
            simp only [Option.some.injEq, REvent.frame.injEq] at hf
            subst hf
            exact ⟨rfl, .inr ⟨fun hc => by simpa using hq2.2 hc, rfl⟩⟩
        | true =>
          simp only [if_true, ok_bind]
          refine ⟨_, _, rfl, ⟨rfl, rfl⟩, ⟨by simp [hl], rfl, ?_, ?_⟩, rfl⟩
          · intro h; exact absurd rfl (h _)
          · intro f hf
            simp only [Option.some.injEq, REvent.frame.injEq] at hf
            subst hf
            refine ⟨rfl, .inl ⟨hq2.1 rfl, ?_⟩⟩
            rw [htk]; rfl

/-- One byte with the buffer full. -/
theorem readByte_oob {r : Rtcm} {bs : List Byte} (b : Byte) (hl : r.inBuf.length = 1024) (ha : Abs r (.opened bs))
    (hfull : bs.length = 1024) : readByte r b = .error .oobWrite := by
  obtain ⟨h1, h2, h3, h4, h5, h6⟩ := ha
  have hst : store r b = .error .oobWrite := store_oob (by omega)
  match bs, h6 with
  | [x], _ => simp at hfull
  | [x, b1], _ => simp at hfull
  | x :: b1 :: b2 :: rest, ⟨hx, hp1, hp2, h6⟩ =>
    unfold readByte switch
    rcases h6 with ⟨hr, hs⟩ | ⟨hr, hs⟩ | ⟨hr, hs⟩ | ⟨hr, hs⟩ <;> simp only [hs, hst, error_bind]

end Rtcm
end Ublox
