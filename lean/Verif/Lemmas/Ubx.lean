import Verif.Model.Ubx
import Verif.Spec.Frame
import Verif.Lemmas.Base
import Verif.Lemmas.Bits

/-! Helper lemmas about the UBX parser model. -/

namespace Ublox
namespace Ubx

/-! ### checksum -/

theorem byteSum_append (a b : List Byte) : byteSum (a ++ b) = byteSum a + byteSum b := by
  induction a with
  | nil => simp [byteSum]
  | cons x xs ih => simp [byteSum, ih]; omega

theorem weightedSum_append (a b : List Byte) :
    weightedSum (a ++ b) = weightedSum a + b.length * byteSum a + weightedSum b := by
  induction a with
  | nil => simp [weightedSum, byteSum]
  | cons x xs ih =>
    simp only [List.cons_append, weightedSum, byteSum, List.length_append, ih, Nat.mul_add, Nat.add_mul]
    omega

theorem ckLoop_ok (buf : List Byte) (n i : Nat) (a b : Byte) (h : i + n ≤ buf.length) :
    ckLoop buf n i a b = .ok (a + BitVec.ofNat 8 (byteSum ((buf.drop i).take n)),
      b + BitVec.ofNat 8 n * a + BitVec.ofNat 8 (weightedSum ((buf.drop i).take n))) := by
  induction n generalizing i a b with
  | zero => simp [ckLoop, byteSum, weightedSum]
  | succ n ih =>
    have hi : i < buf.length := by omega
    simp only [ckLoop, rd_ok hi, bind, Except.bind]
    rw [ih (i + 1) _ _ (by omega), List.drop_eq_getElem_cons hi, List.take_succ_cons]
    have hlen : ((buf.drop (i + 1)).take n).length = n := by simp; omega
    simp only [byteSum, weightedSum, hlen]
    have e : BitVec.ofNat 8 (n + 1) = BitVec.ofNat 8 n + 1 := by
      rw [BitVec.ofNat_add]; rfl
    simp only [BitVec.ofNat_add, BitVec.ofNat_mul, BitVec.ofNat_toNat, BitVec.setWidth_eq]
    generalize BitVec.ofNat 8 (weightedSum _) = w
    generalize BitVec.ofNat 8 (byteSum _) = s
    congr 2
    · grind
    · grind

/-- The code's checksum is the Fletcher checksum of class, id, length bytes and payload. -/
theorem calcChecksum_ok (cls id lo hi : Byte) (len : Nat) (buf : List Byte) (h : len ≤ buf.length)
    (hlen : len = lo.toNat + 256 * hi.toNat) :
    calcChecksum cls id len buf = .ok (fletcherA (cls :: id :: lo :: hi :: buf.take len),
      fletcherB (cls :: id :: lo :: hi :: buf.take len)) := by
  have hlo : lo.toNat < 256 := lo.isLt
  have hhi : hi.toNat < 256 := hi.isLt
  have e1 : BitVec.ofNat 8 (len &&& 0xFF) = lo := by
    have := Nat.and_two_pow_sub_one_eq_mod len 8
    simp only [Nat.reducePow, Nat.reduceSub] at this
    rw [this]
    apply BitVec.eq_of_toNat_eq
    rw [BitVec.toNat_ofNat]; omega
  have e2 : BitVec.ofNat 8 ((len >>> 8) &&& 0xFF) = hi := by
    have := Nat.and_two_pow_sub_one_eq_mod (len >>> 8) 8
    simp only [Nat.reducePow, Nat.reduceSub] at this
    rw [this, Nat.shiftRight_eq_div_pow]
    apply BitVec.eq_of_toNat_eq
    rw [BitVec.toNat_ofNat]; omega
  unfold calcChecksum
  rw [e1, e2]
  simp only []
  rw [ckLoop_ok _ _ _ _ _ (by omega), List.drop_zero]
  have hl : (buf.take len).length = len := by simp; omega
  simp only [fletcherA, fletcherB, byteSum, weightedSum, List.length_cons, hl]
  simp only [BitVec.ofNat_add, BitVec.ofNat_mul, BitVec.ofNat_toNat, BitVec.setWidth_eq]
  generalize BitVec.ofNat 8 (weightedSum _) = w
  generalize BitVec.ofNat 8 (byteSum _) = s
  generalize BitVec.ofNat 8 len = L
  congr 2
  · grind
  · grind

theorem calcChecksum_oob (cls id : Byte) (len : Nat) (buf : List Byte) (h : buf.length < len) :
    calcChecksum cls id len buf = .error .oobRead := by
  have key : ∀ n i a b, i ≤ buf.length → buf.length < i + n → ckLoop buf n i a b = .error .oobRead := by
    intro n
    induction n with
    | zero => intro i a b h1 h2; omega
    | succ n ih =>
      intro i a b h1 h2
      by_cases hi : i < buf.length
      · simp only [ckLoop, rd_ok hi, bind, Except.bind]
        exact ih _ _ _ (by omega) (by omega)
      · simp only [ckLoop, rd_err (by omega : buf.length ≤ i), bind, Except.bind]
  exact key len 0 _ _ (by omega) (by omega)

/-! ### feed -/

theorem feed_nil (u : Ubx) : feed u [] = .ok (u, []) := rfl

theorem feed_cons (u : Ubx) (b : Byte) (bs : List Byte) :
    feed u (b :: bs) = (do
      let (u', r, ds) ← readCb u b
      let (u'', outs) ← feed u' bs
      .ok (u'', (r, ds) :: outs)) := rfl

theorem feed_cons_ok {u u1 : Ubx} {b : Byte} {r : Bool} {ds : List Delivery} (bs : List Byte)
    (h : readCb u b = .ok (u1, r, ds)) :
    feed u (b :: bs) = (do let (u'', outs) ← feed u1 bs; .ok (u'', (r, ds) :: outs)) := by
  rw [feed_cons, h]; rfl

theorem feed_append (u : Ubx) (a b : List Byte) :
    feed u (a ++ b) = (do
      let (u', o1) ← feed u a
      let (u'', o2) ← feed u' b
      .ok (u'', o1 ++ o2)) := by
  induction a generalizing u with
  | nil =>
    simp only [List.nil_append, feed_nil, bind, Except.bind]
    cases feed u b with
    | error e => rfl
    | ok v => rfl
  | cons x xs ih =>
    rw [List.cons_append, feed_cons, feed_cons]
    simp only [bind, Except.bind]
    cases readCb u x with
    | error e => rfl
    | ok v =>
      obtain ⟨u1, r, ds⟩ := v
      simp only [ih, bind, Except.bind]
      cases feed u1 xs with
      | error e => rfl
      | ok w =>
        simp only
        cases feed w.1 b with
        | error e => rfl
        | ok z => rfl

theorem feed_append_ok {u u1 : Ubx} {o1 : List Out} {a : List Byte} (b : List Byte)
    (h : feed u a = .ok (u1, o1)) :
    feed u (a ++ b) = (do let (u'', o2) ← feed u1 b; .ok (u'', o1 ++ o2)) := by
  rw [feed_append, h]; rfl

theorem feed_length {u u' : Ubx} {bs : List Byte} {outs : List Out} (h : feed u bs = .ok (u', outs)) :
    outs.length = bs.length := by
  induction bs generalizing u outs with
  | nil => simp only [feed_nil, Except.ok.injEq, Prod.mk.injEq] at h; simp [← h.2]
  | cons b bs ih =>
    rw [feed_cons] at h
    simp only [bind, Except.bind] at h
    cases hr : readCb u b with
    | error e => simp [hr] at h
    | ok v =>
      simp only [hr] at h
      cases hf : feed v.1 bs with
      | error e => simp [hf] at h
      | ok w =>
        obtain ⟨w1, w2⟩ := w
        simp only [hf, Except.ok.injEq, Prod.mk.injEq] at h
        obtain ⟨rfl, rfl⟩ := h
        simp [ih hf]

/-! ### the version parser touches only the version fields -/

/-- `u'` differs from `u` at most in the acknowledge and version fields. -/
def SameCore (u u' : Ubx) : Prop :=
  u' = { u with gotAck := u'.gotAck, gotNack := u'.gotNack, gotVer := u'.gotVer, major := u'.major,
                minor := u'.minor, modName := u'.modName } ∧ u'.modName.length = u.modName.length

theorem SameCore.refl (u : Ubx) : SameCore u u := ⟨rfl, rfl⟩

theorem SameCore.trans {u v w : Ubx} (h1 : SameCore u v) (h2 : SameCore v w) : SameCore u w := by
  obtain ⟨e1, l1⟩ := h1; obtain ⟨e2, l2⟩ := h2
  refine ⟨?_, l2.trans l1⟩
  rw [e2, e1]

theorem SameCore.fields {u v : Ubx} (h : SameCore u v) :
    v.inMsg = u.inMsg ∧ v.outMsg = u.outMsg ∧ v.listeners = u.listeners ∧ v.subs = u.subs ∧
    v.numMsgs = u.numMsgs ∧ v.numErrors = u.numErrors ∧ v.cls = u.cls ∧ v.typ = u.typ ∧
    v.modName.length = u.modName.length := by
  obtain ⟨e, l⟩ := h
  refine ⟨?_, ?_, ?_, ?_, ?_, ?_, ?_, ?_, l⟩ <;> rw [e]

theorem wr_length {buf buf' : List Byte} {i : Nat} {b : Byte} (h : wr buf i b = .ok buf') :
    buf'.length = buf.length := by
  unfold wr at h; split at h
  · cases h; simp
  · cases h

theorem modLoop_length {buf : List Byte} {n i s : Nat} {name name' : List Byte}
    (h : modLoop buf n i s name = .ok name') : name'.length = name.length := by
  induction n generalizing i s name with
  | zero => simp only [modLoop, Except.ok.injEq] at h; rw [h]
  | succ n ih =>
    simp only [modLoop, bind, Except.bind] at h
    cases hr : rd buf s with
    | error e => simp [hr] at h
    | ok c =>
      simp only [hr] at h
      split at h
      · exact wr_length h
      · cases hw : wr name i c with
        | error e => simp [hw] at h
        | ok n' =>
          simp only [hw] at h
          rw [ih h, wr_length hw]

theorem extractVersion_core {u u' : Ubx} {off : Nat} (h : extractVersion u off = .ok u') : SameCore u u' := by
  simp only [extractVersion, bind, Except.bind] at h
  split at h
  · cases h
  split at h
  · cases h
  split at h
  · cases h
  split at h
  · cases h
  cases h; exact ⟨rfl, rfl⟩

theorem extractModule_core {u u' : Ubx} {off : Nat} (h : extractModule u off = .ok u') : SameCore u u' := by
  simp only [extractModule, bind, Except.bind] at h
  split at h
  · cases h
  rename_i name hn
  cases h; exact ⟨rfl, modLoop_length hn⟩

theorem versionRow_core {u u' : Ubx} {i : Nat} (h : versionRow u i = .ok u') : SameCore u u' := by
  unfold versionRow at h
  obtain ⟨v, hv, h⟩ := bind_ok.1 h
  have c1 : SameCore u v := by
    split at hv
    · exact extractVersion_core hv
    · cases hv; exact SameCore.refl _
  split at h
  · exact c1.trans (extractModule_core h)
  · cases h; exact c1

theorem versionRows_core {n i : Nat} {u u' : Ubx} (h : versionRows n i u = .ok u') : SameCore u u' := by
  induction n generalizing i u with
  | zero => cases h; exact SameCore.refl _
  | succ n ih =>
    simp only [versionRows, bind, Except.bind] at h
    split at h
    · cases h
    rename_i v hv
    exact (versionRow_core hv).trans (ih h)

theorem versionCb_core {u u' : Ubx} (h : versionCb u = .ok u') : SameCore u u' := by
  simp only [versionCb, bind, Except.bind] at h
  split at h
  · cases h
  rename_i v hv
  split at h
  · cases h
    have := versionRows_core hv
    exact this.trans ⟨rfl, rfl⟩
  · cases h

theorem handleMessage_core {u u' : Ubx} (h : handleMessage u = .ok u') : SameCore u u' := by
  unfold handleMessage at h
  split at h
  · split at h
    · cases h; exact ⟨rfl, rfl⟩
    · split at h
      · cases h; exact ⟨rfl, rfl⟩
      · cases h; exact SameCore.refl _
  · split at h
    · split at h
      · exact versionCb_core h
      · cases h; exact SameCore.refl _
    · cases h; exact SameCore.refl _

end Ubx
end Ublox
