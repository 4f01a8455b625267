import Verif.Model.Msgs
import Verif.Spec.Msgs
import Mathlib.Tactic.Ring
import Mathlib.Tactic.Linarith

/-!
# C78: the message structures overlay the documented payloads
-/

namespace Ublox

open MsgSpec (Field)

theorem leU_eq (buf : List Byte) (off n : Nat) :
    leU buf off n = ((List.range n).map fun k => (buf.getD (off + k) 0).toNat * 256 ^ k).sum := by
  induction n generalizing off with
  | zero => rfl
  | succ n ih =>
    have hm : ∀ (l : List Nat) (g : Nat → Nat), 256 * (l.map g).sum = (l.map fun k => 256 * g k).sum := by
      intro l g
      induction l with
      | nil => rfl
      | cons a l ihl => rw [List.map_cons, List.map_cons, List.sum_cons, List.sum_cons, Nat.mul_add, ihl]
    rw [leU, ih, List.range_succ_eq_map, List.map_cons, List.sum_cons, List.map_map, hm]
    congr 1
    · simp
    · congr 1
      apply List.map_congr_left
      intro k _
      simp only [Function.comp]
      rw [show off + 1 + k = off + k.succ by omega, Nat.pow_succ]
      ring

theorem leU_lt (buf : List Byte) (off n : Nat) : leU buf off n < 256 ^ n := by
  induction n generalizing off with
  | zero => simp [leU]
  | succ n ih =>
    have h1 := ih (off + 1)
    have h2 := (buf.getD off 0).isLt
    rw [leU, Nat.pow_succ]
    omega

/-- The documented type as a member type. -/
def tyOf (f : Field) : Ty := if f.signed then .i f.size else .u f.size

/-- A member read where, and as what, the document says. -/
theorem read_eq_value (f : Field) (hs : 0 < f.size) (buf : List Byte) (t : Ty)
    (ht : t = tyOf f ∨ (f.signed = false ∧ t = .r f.size)) : t.read buf f.off = f.value buf := by
  have hlt := leU_lt buf f.off f.size
  have he : ((List.range f.size).map fun k => (buf.getD (f.off + k) 0).toNat * 256 ^ k).sum = leU buf f.off f.size :=
    (leU_eq buf f.off f.size).symm
  unfold Field.value
  rw [he]
  dsimp only
  have hp : (256 : Nat) ^ f.size = 2 * 2 ^ (8 * f.size - 1) := by
    rw [show (256 : Nat) = 2 ^ 8 by rfl, ← Nat.pow_mul, ← Nat.pow_succ']
    congr 1; omega
  have hp' : (2 : Int) ^ (8 * f.size) = (256 : Int) ^ f.size := by
    rw [Int.pow_mul]; rfl
  cases hsg : f.signed with
  | false =>
    rw [if_neg (by simp)]
    rcases ht with rfl | ⟨-, rfl⟩
    · simp [tyOf, hsg, Ty.read]
    · rfl
  | true =>
    rcases ht with rfl | ⟨h, -⟩
    · simp only [tyOf, hsg, if_true, Ty.read, toSigned]
      rw [hp']
      by_cases hc : 2 * leU buf f.off f.size < 256 ^ f.size
      · rw [if_pos hc, if_neg (by rintro ⟨-, h⟩; omega)]
      · rw [if_neg hc, if_pos ⟨trivial, by omega⟩]
    · rw [hsg] at h; cases h

/-- Every documented field is a member of the structure at the documented offset with the documented type. -/
def matchesB (l : Layout) (shift : Nat) (f : Field) : Bool :=
  decide (0 < f.size) && match l.find f.name with
    | some (off, t) => decide (shift + off = f.off) && (decide (t = tyOf f) || (!f.signed && decide (t = .r f.size)))
    | none => false

theorem get_eq_value {l : Layout} {f : Field} {shift : Nat} (h : matchesB l shift f = true) (buf : List Byte) :
    l.get f.name buf shift = f.value buf := by
  unfold matchesB at h
  rw [Bool.and_eq_true] at h
  obtain ⟨hs, h⟩ := h
  unfold Layout.get
  cases hf : l.find f.name with
  | none => rw [hf] at h; cases h
  | some p =>
    obtain ⟨off, t⟩ := p
    rw [hf] at h
    simp only [Bool.and_eq_true, Bool.or_eq_true, decide_eq_true_eq, Bool.not_eq_true'] at h
    dsimp only
    rw [h.1]
    exact read_eq_value f (by simpa using hs) buf t h.2

theorem all_get {l : Layout} {fs : List Field} (h : fs.all (matchesB l 0) = true) (f : Field) (hf : f ∈ fs)
    (payload : List Byte) : l.get f.name payload = f.value payload :=
  get_eq_value (List.all_eq_true.1 h f hf) payload

/-- **C78, NAV-PVT.** Every documented field, read through the structure, has its documented value, in every payload; and
the structure is exactly the documented 92 bytes. -/
theorem c78_nav_pvt (f : Field) (hf : f ∈ MsgSpec.navPvt) (payload : List Byte) :
    navPvt.get f.name payload = f.value payload ∧ navPvt.size = 92 :=
  ⟨all_get (by decide +kernel) f hf payload, by decide⟩

/-- **C78, NAV-RELPOSNED.** -/
theorem c78_nav_relposned (f : Field) (hf : f ∈ MsgSpec.navRelposned) (payload : List Byte) :
    navRelposned.get f.name payload = f.value payload ∧ navRelposned.size = 64 :=
  ⟨all_get (by decide +kernel) f hf payload, by decide⟩

/-- **C78, NAV-POSECEF.** -/
theorem c78_nav_posecef (f : Field) (hf : f ∈ MsgSpec.navPosecef) (payload : List Byte) :
    navPosecef.get f.name payload = f.value payload ∧ navPosecef.size = 20 :=
  ⟨all_get (by decide +kernel) f hf payload, by decide⟩

/-- **C78, NAV-VELECEF.** -/
theorem c78_nav_velecef (f : Field) (hf : f ∈ MsgSpec.navVelecef) (payload : List Byte) :
    navVelecef.get f.name payload = f.value payload ∧ navVelecef.size = 20 :=
  ⟨all_get (by decide +kernel) f hf payload, by decide⟩

/-- **C78, RXM-SFRBX.** -/
theorem c78_rxm_sfrbx (f : Field) (hf : f ∈ MsgSpec.rxmSfrbx) (payload : List Byte) :
    rxmSfrbx.get f.name payload = f.value payload ∧ rxmSfrbx.size = 8 :=
  ⟨all_get (by decide +kernel) f hf payload, by decide⟩

/-- **C78, NAV-SVIN (partial).** All fields but the position are right; the coordinates and their high-precision parts
are right when they are not negative.  Missing: negative ones (`c78_svin_refuted`). -/
theorem c78_nav_svin_partial (f : Field) (hf : f ∈ MsgSpec.navSvin) (payload : List Byte)
    (hpos : f.signed = true → 0 ≤ f.value payload) :
    navSvin.get f.name payload = f.value payload ∧ navSvin.size = 40 := by
  refine ⟨?_, by decide⟩
  have hm : ({ f with signed := false } : Field) ∈ MsgSpec.navSvin.map fun g => { g with signed := false } :=
    List.mem_map.2 ⟨f, hf, rfl⟩
  have h1 := all_get (l := navSvin) (fs := MsgSpec.navSvin.map fun g => { g with signed := false })
    (by decide +kernel) _ hm payload
  have h2 : ({ f with signed := false } : Field).name = f.name := rfl
  rw [h2] at h1
  rw [h1]
  cases hsg : f.signed with
  | false => unfold Field.value; simp [hsg]
  | true =>
    have := hpos hsg
    unfold Field.value at this ⊢
    dsimp only at this ⊢
    rw [hsg] at this ⊢
    rw [if_neg (by simp)]
    by_cases hc : 2 ^ (8 * f.size - 1) ≤ ((List.range f.size).map fun k => (payload.getD (f.off + k) 0).toNat * 256 ^ k).sum
    · rw [if_pos ⟨rfl, hc⟩] at this
      have hlt := leU_lt payload f.off f.size
      rw [leU_eq] at hlt
      have : (2 : Int) ^ (8 * f.size) = ((256 ^ f.size : Nat) : Int) := by
        rw [Int.pow_mul]; push_cast; rfl
      omega
    · rw [if_neg (by rintro ⟨-, h⟩; exact hc h)]

/-- **C78 refuted for NAV-SVIN.** A base whose X coordinate is negative (here -1 cm) is read as +42,949,672.95 m. -/
theorem c78_svin_refuted :
    let payload : List Byte := List.replicate 12 0 ++ [0xFF, 0xFF, 0xFF, 0xFF] ++ List.replicate 24 0
    (∃ f ∈ MsgSpec.navSvin, f.name = "meanX" ∧ f.value payload = -1) ∧ navSvin.get "meanX" payload = 4294967295 := by
  refine ⟨⟨⟨"meanX", 12, 4, true⟩, by decide, rfl, by decide +kernel⟩, by decide +kernel⟩

/-- **C78, RXM-RAWX (partial).** All fixed fields are right, `numMeas` for up to 127 measurements, and all fields of the
first 30 measurements.  Missing: `numMeas` of 128 and more (read as negative) and measurements beyond the 30 the
structure declares (`c78_rawx_refuted`). -/
theorem c78_rxm_rawx_partial (payload : List Byte) :
    (∀ f ∈ MsgSpec.rxmRawx, (f.name = "numMeas" → f.value payload ≤ 127) →
      rxmRawx.get f.name payload = f.value payload) ∧
    (∀ i < 30, ∀ f ∈ MsgSpec.rawxMeas i, measGet payload i f.name = .ok (f.value payload)) := by
  constructor
  · intro f hf hle
    by_cases hn : f.name = "numMeas"
    · have hf' : f = ⟨"numMeas", 11, 1, false⟩ := by
        simp only [MsgSpec.rxmRawx, List.mem_cons, List.not_mem_nil, or_false] at hf
        rcases hf with rfl | rfl | rfl | rfl | rfl | rfl <;> first | rfl | exact absurd hn (by decide)
      subst hf'
      have hle := hle rfl
      have he : rxmRawx.get "numMeas" payload = toSigned 1 (leU payload 11 1) := rfl
      have hv : (⟨"numMeas", 11, 1, false⟩ : Field).value payload = (leU payload 11 1 : Int) := by
        unfold Field.value
        rw [leU_eq]
        simp
      show rxmRawx.get "numMeas" payload = _
      rw [hv] at hle
      rw [he, hv]
      unfold toSigned
      rw [if_pos (by omega)]
    · refine all_get (fs := MsgSpec.rxmRawx.filter fun g => g.name ≠ "numMeas") (by decide +kernel) f ?_ payload
      rw [List.mem_filter]
      exact ⟨hf, by simpa using hn⟩
  · intro i hi f hf
    unfold measGet
    rw [if_pos hi]
    congr 1
    refine get_eq_value ?_ payload
    have : rxmRawx.size + i * rawxMeas.size = 16 + 32 * i := by
      rw [show rxmRawx.size = 16 by decide, show rawxMeas.size = 32 by decide]; omega
    rw [this]
    simp only [MsgSpec.rawxMeas, List.mem_cons, List.not_mem_nil, or_false] at hf
    rcases hf with rfl | rfl | rfl | rfl | rfl | rfl | rfl | rfl | rfl | rfl | rfl | rfl | rfl <;>
    · simp [matchesB, rawxMeas, Layout.find, Ty.size, tyOf]
      try omega

/-- **C78 refuted for RXM-RAWX.** The receive buffer has room for 63 measurements and the message may announce 255; a
user who loops over them reads outside the declared array at the 31st, and sees a negative count from 128 on. -/
theorem c78_rawx_refuted (payload : List Byte) :
    (∀ i ≥ 30, ∀ name, measGet payload i name = .error .oobRead) ∧
    (128 ≤ leU payload 11 1 → rxmRawx.get "numMeas" payload < 0) ∧ rxmRawx.size + 63 * rawxMeas.size ≤ 2048 := by
  refine ⟨fun i hi name => ?_, fun h => ?_, by decide⟩
  · unfold measGet; rw [if_neg (show ¬ (i < 30) by omega)]
  · have he : rxmRawx.get "numMeas" payload = toSigned 1 (leU payload 11 1) := rfl
    have hlt := leU_lt payload 11 1
    rw [he]; unfold toSigned
    rw [if_neg (by omega)]; omega

/-- Two's complement, both signs: the height field of a NAV-PVT payload. -/
example : navPvt.get "height" (List.replicate 32 0 ++ [0xFE, 0xFF, 0xFF, 0xFF]) = -2 ∧
    navPvt.get "height" (List.replicate 32 0 ++ [0x02, 0x01, 0x00, 0x00]) = 258 := by decide +kernel

end Ublox
