import Verif.Lemmas.UbxFrame

/-! Error detection of the Fletcher checksum. -/

namespace Ublox
namespace Ubx

theorem byteSum_set (l : List Byte) (k : Nat) (x : Byte) (h : k < l.length) :
    byteSum (l.set k x) + (l[k]).toNat = byteSum l + x.toNat := by
  induction l generalizing k with
  | nil => simp at h
  | cons b l ih =>
    match k with
    | 0 => simp [byteSum]; omega
    | k + 1 =>
      simp only [List.set_cons_succ, byteSum, List.getElem_cons_succ]
      have := ih k (by simpa using h)
      omega

theorem fletcherA_set (l : List Byte) (k : Nat) (x : Byte) (h : k < l.length) (hx : x ≠ l[k]) :
    fletcherA (l.set k x) ≠ fletcherA l := by
  intro hc
  apply hx
  have h1 := byteSum_set l k x h
  have h2 := congrArg BitVec.toNat hc
  simp only [fletcherA, BitVec.toNat_ofNat] at h2
  apply BitVec.eq_of_toNat_eq
  have b1 := x.isLt
  have b2 := (l[k]).isLt
  omega

theorem fletcherB_swap (x y : List Byte) (a b : Byte) (hab : a ≠ b) :
    fletcherB (x ++ b :: a :: y) ≠ fletcherB (x ++ a :: b :: y) := by
  intro hc
  apply hab
  have h2 := congrArg BitVec.toNat hc
  simp only [fletcherB, BitVec.toNat_ofNat, weightedSum_append, weightedSum, List.length_cons] at h2
  have e1 : (y.length + 1 + 1) * b.toNat = (y.length + 1) * b.toNat + b.toNat := by rw [Nat.add_mul, Nat.one_mul]
  have e2 : (y.length + 1 + 1) * a.toNat = (y.length + 1) * a.toNat + a.toNat := by rw [Nat.add_mul, Nat.one_mul]
  rw [e1, e2] at h2
  apply BitVec.eq_of_toNat_eq
  have b1 := a.isLt
  have b2 := b.isLt
  omega

/-- A complete frame-shaped string with a wrong checksum is rejected silently. -/
theorem rejected {u : Ubx} {hist : List Byte} (h : Reach u hist) (hp : u.parsingMessage = false)
    (c i a b : Byte) (p : List Byte) (h1 : 1 ≤ p.length) (h2 : p.length ≤ 2048)
    (hbad : ¬ (a = fletcherA (ubxBody c i p) ∧ b = fletcherB (ubxBody c i p))) :
    ∃ u', feed u (rawFrame c i p a b) = .ok (u', List.replicate (p.length + 8) (false, [])) ∧
      u'.parsingMessage = false ∧ u'.numErrors = (u.numErrors + 1) % 2 ^ 32 ∧ u'.numMsgs = u.numMsgs := by
  obtain ⟨last, ht, ha⟩ := idle_of_reach h hp
  have hw := h.inv.wf
  have ef : rawFrame c i p a b = 0xB5 :: 0x62 :: c :: i :: BitVec.ofNat 8 p.length ::
      BitVec.ofNat 8 (p.length / 256) :: (p ++ [a, b]) := by simp [rawFrame, ubxBody]
  have er := rxRun_frame last c i _ _ a b p (len_bytes p.length (by omega)).symm h1 h2
  rw [← ef, if_neg (by simpa [ubxBody] using hbad)] at er
  obtain ⟨u', outs, e⟩ := feed_total (s := rawFrame c i p a b) hw ha (by rw [er]; simp)
  have f := feed_sim hw ha e
  refine ⟨u', ?_, ?_, ?_, ?_⟩
  · have hs := f.shows
    rw [er] at hs
    obtain ⟨o1, o2, rfl, s1, s2⟩ := hs.append_inv
    cases s2 with
    | cons hr hn =>
      cases hn
      rename_i o
      obtain ⟨r, ds⟩ := o
      have hr1 : r = false := by have := hr.1; simp at this; exact this
      have hr2 := hr.2.1 hr1
      simp only at hr2
      rw [e, s1.replicate_none, hr1, hr2, List.replicate_succ' (n := p.length + 7)]
  · have := f.abs
    rw [er] at this
    have := parsing_iff this
    simpa using this
  · have hi := h.feed e
    have := hi.inv.errs
    rw [this, h.inv.errs]
    have : itemsOf (hist ++ rawFrame c i p a b) = itemsOf hist ++ [.badChecksum] := by
      unfold itemsOf
      rw [rxRun_append]
      have : (rxRun (.idle 0) hist).1 = .idle last := ht
      rw [this, er]
      simp
    rw [this]
    simp [bads, Item.isGood]
  · have hi := h.feed e
    have := hi.inv.msgs
    rw [this, h.inv.msgs]
    have : itemsOf (hist ++ rawFrame c i p a b) = itemsOf hist ++ [.badChecksum] := by
      unfold itemsOf
      rw [rxRun_append]
      have : (rxRun (.idle 0) hist).1 = .idle last := ht
      rw [this, er]
      simp
    rw [this]
    simp [goods, Item.isGood]

end Ubx
end Ublox
