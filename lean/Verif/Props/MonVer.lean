import Verif.Spec.MonVer
import Verif.Props.Screen
/-! # C15 for the version reports that receivers send -/

namespace Ublox.MonVer
open Ubx

theorem field_len {n : Nat} {t : List Byte} (h : t.length ≤ n) : (field n t).length = n := by
  unfold field; simp; omega

theorem flat_len {ext : List (List Byte)} (h : ∀ t ∈ ext, t.length ≤ 30) :
    (ext.flatMap (field 30)).length = 30 * ext.length := by
  induction ext with
  | nil => rfl
  | cons t ts ih =>
    rw [List.flatMap_cons, List.length_append, field_len (h t (by simp)), ih fun x hx => h x (by simp [hx])]
    simp; omega

theorem payload_len {r : Report} (h : r.Fits) : r.payload.length = 40 + 30 * r.ext.length := by
  unfold Report.payload
  rw [List.length_append, List.length_append, field_len h.sw, field_len h.hw, flat_len h.ext]

theorem flat_drop {ext : List (List Byte)} (h : ∀ t ∈ ext, t.length ≤ 30) (j : Nat) (t : List Byte)
    (ht : ext[j]? = some t) (k : Nat) (hk : k ≤ 30) (rest : List Byte) :
    ∃ more, (ext.flatMap (field 30) ++ rest).drop (30 * j + k) = (field 30 t).drop k ++ more := by
  induction ext generalizing j with
  | nil => simp at ht
  | cons x xs ih =>
    have hx : (field 30 x).length = 30 := field_len (h x (by simp))
    cases j with
    | zero =>
      obtain rfl : x = t := by simpa using ht
      refine ⟨xs.flatMap (field 30) ++ rest, ?_⟩
      rw [List.flatMap_cons, List.append_assoc, Nat.mul_zero, Nat.zero_add, List.drop_append_of_le_length (by omega)]
    | succ j =>
      obtain ⟨more, e⟩ := ih (fun y hy => h y (by simp [hy])) j (by simpa using ht)
      refine ⟨more, ?_⟩
      rw [List.flatMap_cons, List.append_assoc, List.drop_append, hx,
        List.drop_eq_nil_of_le (by rw [hx]; omega), List.nil_append,
        show 30 * (j + 1) + k - 30 = 30 * j + k by omega, e]

/-- Row `i` of the parser is column `10 * (i % 3)` of field `i / 3`. -/
theorem row {r : Report} (h : r.Fits) (rest : List Byte) (i : Nat) (t : List Byte) (ht : r.ext[i / 3]? = some t)
    (txt : List Byte) (hl : 10 * (i % 3) + txt.length ≤ 30) :
    TextAt (r.payload ++ rest) (40 + 10 * i) txt ↔ TextAt (field 30 t) (10 * (i % 3)) txt := by
  obtain ⟨more, e⟩ := flat_drop h.ext (i / 3) t ht (10 * (i % 3)) (by omega) rest
  have htl : (field 30 t).length = 30 := field_len (h.ext t (List.mem_of_getElem? ht))
  have hd : (r.payload ++ rest).drop (40 + 10 * i) = (field 30 t).drop (10 * (i % 3)) ++ more := by
    rw [← e]
    unfold Report.payload
    have h40 : (field 30 r.sw ++ field 10 r.hw).length = 40 := by
      rw [List.length_append, field_len h.sw, field_len h.hw]
    rw [List.append_assoc, List.drop_append, h40, List.drop_eq_nil_of_le (by rw [h40]; omega), List.nil_append]
    congr 1
    omega
  unfold TextAt
  rw [hd, List.take_append_of_le_length (by simp [htl]; omega)]

theorem infix_of_textAt {n : Nat} {t txt : List Byte} {k : Nat} (hz : ∀ d ∈ txt, d ≠ 0)
    (h : TextAt (field n t) k txt) : txt = [] ∨ txt <:+: t := by
  unfold TextAt field at h
  rw [List.drop_append, List.take_append] at h
  set A := (t.drop k).take txt.length with hA
  have hB : ∀ d ∈ ((List.replicate (n - t.length) (0 : Byte)).drop (k - t.length)).take (txt.length - (t.drop k).length),
      d = 0 := fun d hd => List.eq_of_mem_replicate (List.mem_of_mem_drop (List.mem_of_mem_take hd))
  generalize hBe : ((List.replicate (n - t.length) (0 : Byte)).drop (k - t.length)).take
    (txt.length - (t.drop k).length) = B at h hB
  cases B with
  | nil =>
    right
    rw [List.append_nil] at h
    rw [← h]
    exact (List.take_prefix _ _).isInfix.trans (List.drop_suffix _ _).isInfix
  | cons b bs =>
    exact absurd (hB b (by simp)) (hz b (by rw [← h]; simp))

theorem digit_of {d : Byte} (h : 0x30 ≤ d.toNat ∧ d.toNat ≤ 0x39) : isDigit d = true := by
  unfold isDigit; simp; exact h

theorem rd_some {buf : List Byte} {off : Nat} {b : Byte} (h : rd buf off = .ok b) : buf[off]? = some b := by
  unfold rd at h
  split at h
  · rename_i e; rw [e]; exact congrArg some (Except.ok.inj h)
  · cases h

theorem first_of {buf txt : List Byte} {off : Nat} {b : Byte} (h : TextAt buf off (b :: txt)) : buf[off]? = some b :=
  rd_some h.tail.1

/-- A text shorter than its field is followed by a NUL. -/
theorem text_nul {n : Nat} {t : List Byte} (h : t.length < n) : TextAt (field n t) 0 (t ++ [0]) := by
  obtain ⟨k, hk⟩ : ∃ k, n - t.length = k + 1 := ⟨n - t.length - 1, by omega⟩
  unfold TextAt field
  rw [List.drop_zero, hk, List.replicate_succ,
    show t ++ (0 : Byte) :: List.replicate k 0 = (t ++ [0]) ++ List.replicate k 0 by simp, List.take_left]

/-- A version field has its label at its beginning only. -/
theorem ver_cols {maj min : List Byte} (h1 : Number maj) (h2 : Number min) (b : Byte)
    (hb0 : b ≠ 0) (hb1 : b ≠ 0x2E) (hb2 : ¬ (0x30 ≤ b.toNat ∧ b.toNat ≤ 0x39)) (txt : List Byte) (k : Nat) (hk : 8 ≤ k) :
    ¬ TextAt (field 30 (verLabel ++ maj ++ [0x2E] ++ min)) k (b :: txt) := by
  intro h
  have hm := first_of h
  unfold field at hm
  rw [show verLabel ++ maj ++ [0x2E] ++ min = verLabel ++ (maj ++ [0x2E] ++ min) by simp, List.append_assoc,
    List.getElem?_append_right (by simpa [verLabel] using hk)] at hm
  have hm := List.mem_of_getElem? hm
  simp only [List.mem_append, List.mem_singleton] at hm
  rcases hm with ((hm | hm) | hm) | hm
  · exact hb2 (h1.2.2 b hm)
  · exact hb1 hm
  · exact hb2 (h2.2.2 b hm)
  · exact hb0 (List.eq_of_mem_replicate hm)

/-- A module field has no second module label in a column the parser looks at. -/
theorem mod_cols {name : List Byte} (h1 : Name name) (k : Nat) (hk : 10 ≤ k) :
    ¬ TextAt (field 30 (modLabel ++ name)) k modLabel := by
  intro h
  have hl := h1.1
  have h3 : (field 30 (modLabel ++ name))[k + 3]? = some 0x3D := by
    exact rd_some h.tail.2.tail.2.tail.2.tail.1
  unfold field at h3
  rw [List.getElem?_append_right (by simp [modLabel]; omega)] at h3
  exact absurd (List.eq_of_mem_replicate (List.mem_of_getElem? h3)) (by decide)

/-- The text of a report in the terms of the parser's rows. -/
theorem versionText {r : Report} {a b : Nat} {maj min name : List Byte} (hf : r.Fits) (hs : r.Says a b maj min name)
    (ha : a < 7) (hb : b < 7) (stale : List Byte)
    (hst : 7 ≤ r.ext.length ∨ ∀ i, i < 20 → r.payload.length ≤ 40 + 10 * i →
      ¬ TextAt stale (40 + 10 * i) verLabel ∧ ¬ TextAt stale (40 + 10 * i) modLabel) :
    VersionText (r.payload ++ stale.drop r.payload.length) (3 * a) (3 * b) maj min name := by
  have hpl := payload_len hf
  have hcase : ∀ i, i < 20 → (∃ t, r.ext[i / 3]? = some t) ∨
      (¬ TextAt (r.payload ++ stale.drop r.payload.length) (40 + 10 * i) verLabel ∧
        ¬ TextAt (r.payload ++ stale.drop r.payload.length) (40 + 10 * i) modLabel) := by
    intro i hi
    by_cases hj : i / 3 < r.ext.length
    · exact Or.inl ⟨_, List.getElem?_eq_getElem hj⟩
    · right
      rcases hst with h7 | hst
      · omega
      have hge : r.payload.length ≤ 40 + 10 * i := by omega
      have hd : (r.payload ++ stale.drop r.payload.length).drop (40 + 10 * i) = stale.drop (40 + 10 * i) := by
        rw [List.drop_append, List.drop_eq_nil_of_le hge, List.nil_append, List.drop_drop]
        congr 1; omega
      unfold TextAt
      rw [hd]
      exact hst i hi hge
  have hva : r.ext[3 * a / 3]? = some (verLabel ++ maj ++ [0x2E] ++ min) := by
    rw [show 3 * a / 3 = a by omega]; exact hs.ver
  have hmb : r.ext[3 * b / 3]? = some (modLabel ++ name) := by
    rw [show 3 * b / 3 = b by omega]; exact hs.mod
  obtain ⟨j1, j2, j3⟩ := hs.majN
  obtain ⟨n1, n2, n3⟩ := hs.minN
  obtain ⟨m1, m2⟩ := hs.nameN
  refine ⟨?_, ?_, ?_, ?_, by omega, by omega, ?_, j2, ?_, n2, fun d hd => digit_of (j3 d hd),
    fun d hd => digit_of (n3 d hd), m1, m2⟩
  · refine (row hf _ (3 * a) _ hva _ ?_).2 ?_
    · simp [protver]; omega
    · rw [show 10 * (3 * a % 3) = 0 by omega]
      exact text_nul (by simp [verLabel]; omega)
  · refine (row hf _ (3 * b) _ hmb _ ?_).2 ?_
    · simp [modEq]; omega
    · rw [show 10 * (3 * b % 3) = 0 by omega]
      exact text_nul (by simp [modLabel]; omega)
  · intro i hi hne hc
    rcases hcase i hi with ⟨t, ht⟩ | ⟨h, -⟩
    · have hc := (row hf _ i t ht protver (by simp [protver]; omega)).1 hc
      by_cases hja : i / 3 = a
      · rw [hja, hs.ver] at ht
        rw [← Option.some.inj ht] at hc
        exact ver_cols hs.majN hs.minN 0x50 (by decide) (by decide) (by decide) _ _ (by omega) hc
      · rcases infix_of_textAt (by decide) hc with h | h
        · cases h
        · exact hs.verOnly _ t ht hja h
    · exact h hc
  · intro i hi hne hc
    rcases hcase i hi with ⟨t, ht⟩ | ⟨-, h⟩
    · have hc := (row hf _ i t ht modEq (by simp [modEq]; omega)).1 hc
      by_cases hja : i / 3 = b
      · rw [hja, hs.mod] at ht
        rw [← Option.some.inj ht] at hc
        exact mod_cols hs.nameN _ (by omega) hc
      · rcases infix_of_textAt (by decide) hc with h | h
        · cases h
        · exact hs.modOnly _ t ht hja h
    · exact h hc
  · rintro rfl; simp at j1
  · rintro rfl; simp at n1

/-- The bytes that the parser can see behind a version report shorter than seven extension fields: those that earlier
messages left.  They do no harm if no label stands where the parser looks for one. -/
def QuietBehind (u : Ubx) (len : Nat) : Prop :=
  ∀ i, i < 20 → len ≤ 40 + 10 * i →
    ¬ TextAt u.inMsg (40 + 10 * i) verLabel ∧ ¬ TextAt u.inMsg (40 + 10 * i) modLabel

/-- **C15, what holds.** For every history, when no frame is open: a version report that gives the protocol version and the
module among its first seven extension fields is decoded exactly, if it has at least seven extension fields, or if earlier
messages have left neither label behind it. -/
theorem c15_report_partial {u : Ubx} {hist : List Byte} (h : Reach u hist) (hp : u.parsingMessage = false)
    (r : Report) (hf : r.Fits) (hn : r.ext.length ≤ 66) (a b : Nat) (maj min name : List Byte)
    (hs : r.Says a b maj min name) (ha : a < 7) (hb : b < 7)
    (hst : 7 ≤ r.ext.length ∨ QuietBehind u r.payload.length) :
    ∃ u' outs, feed u (ubxFrame 0x0A 0x04 r.payload) = .ok (u', outs) ∧
      u'.major = decVal maj ∧ u'.minor = decVal min ∧ u'.modName.take (name.length + 1) = name ++ [0] ∧
      u'.gotVer = true := by
  have hpl := payload_len hf
  exact c15_version_partial h hp r.payload (by omega) (by omega) _ _ _ _ _
    (versionText hf hs ha hb u.inMsg hst)

/-- What the screen shows then (C139). -/
theorem c139_report_partial {u : Ubx} {hist : List Byte} (h : Reach u hist) (hp : u.parsingMessage = false)
    (r : Report) (hf : r.Fits) (hn : r.ext.length ≤ 66) (a b : Nat) (maj min name : List Byte)
    (hs : r.Says a b maj min name) (ha : a < 7) (hb : b < 7)
    (hst : 7 ≤ r.ext.length ∨ QuietBehind u r.payload.length) :
    ∃ u', feedPrints u (ubxFrame 0x0A 0x04 r.payload) =
      .ok (u', List.replicate (r.payload.length + 7) [] ++ [connectedText name (decVal maj) (decVal min)]) := by
  have hpl := payload_len hf
  exact c139_banner_partial h hp r.payload (by omega) (by omega) _ _ _ _ _
    (versionText hf hs ha hb u.inMsg hst)

/-- Characters as bytes. -/
def txt (s : String) : List Byte := s.toList.map fun c => BitVec.ofNat 8 c.toNat

/-- The report of a ZED-F9P: six extension fields. -/
def exReport : Report :=
  ⟨txt "EXT CORE 1.00 (94e56e)", txt "00190000",
   [txt "ROM BASE 0x118B2060", txt "FWVER=HPG 1.12", txt "PROTVER=27.11", txt "MOD=ZED-F9P", txt "GPS;GLO;GAL;BDS", txt "QZSS"]⟩

theorem exReport_fits : exReport.Fits := ⟨by decide +kernel, by decide +kernel, by decide +kernel⟩

theorem only_of {l : List Byte} {ext : List (List Byte)} {a : Nat}
    (h : ∀ j, j < ext.length → j ≠ a → ((ext[j]?.getD []).tails.all fun s => !(l.isPrefixOf s)) = true) (j : Nat)
    (t : List Byte) (ht : ext[j]? = some t) (hne : j ≠ a) : ¬ l <:+: t := by
  rintro ⟨x, y, e⟩
  have hj : j < ext.length := (List.getElem?_eq_some_iff.1 ht).1
  have := List.all_eq_true.1 (h j hj hne) (l ++ y) (by
    rw [ht, List.mem_tails]; exact ⟨x, by rw [← e]; simp⟩)
  rw [List.isPrefixOf_iff_prefix.2 (List.prefix_append l y)] at this
  cases this

theorem exReport_says : exReport.Says 2 3 (txt "27") (txt "11") (txt "ZED-F9P") := by
  refine ⟨by decide +kernel, by decide +kernel, only_of (by decide +kernel), only_of (by decide +kernel), ?_, ?_, ?_⟩
  · unfold Number; decide +kernel
  · unfold Number; decide +kernel
  · unfold Name; decide +kernel

/-- The report of that receiver, received by a parser that has received other messages before. -/
example : ∃ u' outs, feed exU (ubxFrame 0x0A 0x04 exReport.payload) = .ok (u', outs) ∧ u'.major = 27 ∧ u'.minor = 11 ∧
    u'.modName.take 8 = txt "ZED-F9P" ++ [0] := by
  obtain ⟨u', outs, h, h1, h2, h3, -⟩ := c15_report_partial exU_reach exU_idle exReport exReport_fits (by decide +kernel)
    2 3 _ _ _ exReport_says (by omega) (by omega) (Or.inr (by unfold QuietBehind TextAt; decide +kernel))
  exact ⟨u', outs, h, h1.trans (by decide +kernel), h2.trans (by decide +kernel), h3⟩

/-- A short report: two extension fields. -/
def exShort : Report := ⟨[], [], [txt "PROTVER=27.11", txt "MOD=ZED-F9P"]⟩

theorem exShort_fits : exShort.Fits := ⟨by decide +kernel, by decide +kernel, by decide +kernel⟩

theorem exShort_says : exShort.Says 0 1 (txt "27") (txt "11") (txt "ZED-F9P") := by
  refine ⟨by decide +kernel, by decide +kernel, only_of (by decide +kernel), only_of (by decide +kernel), ?_, ?_, ?_⟩
  · unfold Number; decide +kernel
  · unfold Number; decide +kernel
  · unfold Name; decide +kernel

/-- An earlier message (an information text) with a version in it. -/
def exInf : List Byte := List.replicate 100 0x20 ++ txt "PROTVER=99.9" ++ [0]

/-- **C15 is false of the code.** The parser looks for the labels in 20 rows whatever the length of the report: after a
message that happens to hold `PROTVER=99.9` behind the place where the report ends, a report of protocol version 27.11 is
decoded as version 99.9. -/
theorem c15_refuted : ∃ u u' outs outs', feed exU (ubxFrame 0x04 0x02 exInf) = .ok (u, outs) ∧
    u.parsingMessage = false ∧ exShort.Fits ∧ exShort.Says 0 1 (txt "27") (txt "11") (txt "ZED-F9P") ∧
    feed u (ubxFrame 0x0A 0x04 exShort.payload) = .ok (u', outs') ∧ u'.major = 99 ∧ u'.minor = 9 := by
  obtain ⟨u, outs, e⟩ := (c02_frame_is_delivered exU_reach exU_idle 0x04 0x02 exInf (by decide +kernel)
    (by decide +kernel)).2 (by decide)
  have hi : u.parsingMessage = false := by
    have : (match feed exU (ubxFrame 0x04 0x02 exInf) with | .ok (w, _) => w.parsingMessage | .error _ => true) = false := by
      decide +kernel
    rw [e] at this; exact this
  have hr : (match feed exU (ubxFrame 0x04 0x02 exInf) with
      | .ok (w, _) => (match feed w (ubxFrame 0x0A 0x04 exShort.payload) with
        | .ok (v, _) => some (v.major, v.minor)
        | .error _ => none)
      | .error _ => none) = some (99, 9) := by decide +kernel
  rw [e] at hr
  dsimp only at hr
  split at hr
  · rename_i v o2 e2
    have := Prod.mk.inj (Option.some.inj hr)
    exact ⟨u, v, outs, o2, e, hi, exShort_fits, exShort_says, e2, this.1, this.2⟩
  · cases hr

/-- **C139 is false of the code** for the same reason: the screen shows version 99.9 where the report says 27.11. -/
theorem c139_refuted : ∃ u outs u' ss, feed exU (ubxFrame 0x04 0x02 exInf) = .ok (u, outs) ∧
    feedPrints u (ubxFrame 0x0A 0x04 exShort.payload) = .ok (u', ss) ∧
    exShort.Says 0 1 (txt "27") (txt "11") (txt "ZED-F9P") ∧
    ss.flatten = "Connected:\nModule: ZED-F9P\nProtocol Version: 99.9\n\n".toList := by
  obtain ⟨u, outs, e⟩ := (c02_frame_is_delivered exU_reach exU_idle 0x04 0x02 exInf (by decide +kernel)
    (by decide +kernel)).2 (by decide)
  have hr : (match feed exU (ubxFrame 0x04 0x02 exInf) with
      | .ok (w, _) => (match feedPrints w (ubxFrame 0x0A 0x04 exShort.payload) with
        | .ok (_, ss) => some ss.flatten
        | .error _ => none)
      | .error _ => none) = some "Connected:\nModule: ZED-F9P\nProtocol Version: 99.9\n\n".toList := by decide +kernel
  rw [e] at hr
  dsimp only at hr
  split at hr
  · rename_i v ss e2
    exact ⟨u, outs, v, ss, e, e2, exShort_says, Option.some.inj hr⟩
  · cases hr

/-- A report with nine extension fields, the last two of which give the version and the module. -/
def exFar : Report := ⟨[], [], List.replicate 7 [] ++ [txt "PROTVER=27.11", txt "MOD=ZED-F9P"]⟩

theorem exFar_fits : exFar.Fits := ⟨by decide +kernel, by decide +kernel, by decide +kernel⟩

theorem exFar_says : exFar.Says 7 8 (txt "27") (txt "11") (txt "ZED-F9P") := by
  refine ⟨by decide +kernel, by decide +kernel, only_of (by decide +kernel), only_of (by decide +kernel), ?_, ?_, ?_⟩
  · unfold Number; decide +kernel
  · unfold Number; decide +kernel
  · unfold Name; decide +kernel

/-- **C15 is false of the code in a second way:** fields behind the seventh are not looked at.  The report counts as an
answer, but the version stays what it was. -/
theorem c15_refuted_far : ∃ u' outs, exFar.Fits ∧ exFar.Says 7 8 (txt "27") (txt "11") (txt "ZED-F9P") ∧
    feed exU (ubxFrame 0x0A 0x04 exFar.payload) = .ok (u', outs) ∧ u'.gotVer = true ∧ u'.major = exU.major ∧
    u'.major ≠ 27 := by
  have hr : (match feed exU (ubxFrame 0x0A 0x04 exFar.payload) with
      | .ok (v, _) => some (v.gotVer, v.major, exU.major)
      | .error _ => none) = some (true, 18, 18) := by decide +kernel
  split at hr
  · rename_i v o2 e2
    have h1 := Prod.mk.inj (Option.some.inj hr)
    have h2 := Prod.mk.inj h1.2
    exact ⟨v, o2, exFar_fits, exFar_says, e2, h1.1, h2.1.trans h2.2.symm, by rw [h2.1]; decide⟩
  · cases hr

end Ublox.MonVer
