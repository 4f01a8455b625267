import Verif.Lemmas.UbxFrame

/-! The version parser on well-formed text. -/

namespace Ublox
namespace Ubx

theorem textAt_len {buf : List Byte} {off : Nat} {txt : List Byte} (h : TextAt buf off txt) (hne : txt ≠ []) :
    off + txt.length ≤ buf.length := by
  have := congrArg List.length h
  have h0 : 0 < txt.length := List.length_pos_iff.2 hne
  simp at this
  omega

theorem textAt_rd {buf : List Byte} {off k : Nat} {txt : List Byte} (h : TextAt buf off txt) (hk : k < txt.length) :
    rd buf (off + k) = .ok txt[k] := by
  have hl := textAt_len h (by intro h; simp [h] at hk)
  rw [rd_ok (by omega)]
  congr 1
  have : txt[k]? = ((buf.drop off).take txt.length)[k]? := by rw [h]
  rw [List.getElem?_take_of_lt hk, List.getElem?_drop] at this
  rw [List.getElem?_eq_getElem hk, List.getElem?_eq_getElem (by omega)] at this
  exact (Option.some.inj this).symm

theorem _root_.Ublox.TextAt.tail {buf : List Byte} {off : Nat} {b : Byte} {txt : List Byte} (h : TextAt buf off (b :: txt)) :
    rd buf off = .ok b ∧ TextAt buf (off + 1) txt := by
  have h0 := textAt_rd h (k := 0) (by simp)
  refine ⟨by simpa using h0, ?_⟩
  have hl := textAt_len h (by simp)
  simp only [List.length_cons] at hl
  unfold TextAt at h ⊢
  rw [List.drop_eq_getElem_cons (by omega : off < buf.length), List.length_cons, List.take_succ_cons] at h
  exact (List.cons.inj h).2

theorem _root_.Ublox.TextAt.append {buf : List Byte} {off : Nat} {a b : List Byte} (h : TextAt buf off (a ++ b)) :
    TextAt buf off a ∧ TextAt buf (off + a.length) b := by
  induction a generalizing off with
  | nil => exact ⟨by simp [TextAt], by simpa using h⟩
  | cons x xs ih =>
    have ⟨h1, h2⟩ := TextAt.tail (txt := xs ++ b) h
    obtain ⟨h3, h4⟩ := ih h2
    refine ⟨?_, by simpa [Nat.add_assoc, Nat.add_comm 1] using h4⟩
    unfold TextAt at h3 ⊢
    have hl : off < buf.length := by
      by_cases hh : off < buf.length
      · exact hh
      · rw [rd_err (by omega)] at h1; cases h1
    rw [rd_ok hl] at h1
    rw [List.drop_eq_getElem_cons hl, List.length_cons, List.take_succ_cons, h3]
    cases h1; rfl

theorem atoiDigits_ok (ds rest : List Byte) (b : Byte) (acc : Nat) (hd : ∀ d ∈ ds, isDigit d = true)
    (hb : isDigit b = false) :
    atoiDigits (ds ++ b :: rest) acc = .ok (ds.foldl (fun acc b => acc * 10 + (b.toNat - 0x30)) acc) := by
  induction ds generalizing acc with
  | nil => simp [atoiDigits, hb]
  | cons d ds ih =>
    simp only [List.cons_append, atoiDigits, hd d (by simp), if_true, List.foldl_cons]
    exact ih _ (fun x hx => hd x (by simp [hx]))

theorem atoi_ok (ds : List Byte) (hne : ds ≠ []) (hd : ∀ d ∈ ds, isDigit d = true) :
    atoi (ds ++ [0]) = .ok (decVal ds : Int) := by
  match ds with
  | [] => exact absurd rfl hne
  | d :: ds =>
    have h1 := hd d (by simp)
    have h2 : isSpace d = false := by
      unfold isDigit at h1; unfold isSpace
      simp only [Bool.and_eq_true, decide_eq_true_eq] at h1
      simp; omega
    have h3 : d ≠ 0x2D := by rintro rfl; simp [isDigit] at h1
    have h4 : d ≠ 0x2B := by rintro rfl; simp [isDigit] at h1
    simp only [List.cons_append, atoi, h2, h3, h4, if_false, Bool.false_eq_true]
    rw [← List.cons_append, atoiDigits_ok (d :: ds) [] 0 0 hd (by decide)]
    rfl

theorem majorLoop_text (buf ds tmp rest : List Byte) (n s : Nat) (h : TextAt buf s (ds ++ 0x2E :: rest))
    (hd : ∀ d ∈ ds, isDigit d = true) (hn : ds.length < n) :
    majorLoop buf n s tmp = .ok (tmp ++ ds ++ [0], s + ds.length + 1) := by
  induction ds generalizing n s tmp with
  | nil =>
    match n, hn with
    | n + 1, _ =>
      simp only [majorLoop, (TextAt.tail (txt := rest) h).1, ok_bind]
      simp
  | cons d ds ih =>
    match n, hn with
    | n + 1, hn =>
      have ⟨h1, h2⟩ := TextAt.tail (txt := ds ++ 0x2E :: rest) h
      have hne : d ≠ 0x2E := by rintro rfl; simpa [isDigit] using hd 0x2E (by simp)
      simp only [majorLoop, h1, ok_bind, hne, if_false]
      rw [ih _ _ _ h2 (fun x hx => hd x (by simp [hx])) (by simpa using hn)]
      simp; omega

theorem minorLoop_text (buf ds tmp rest : List Byte) (n s : Nat) (h : TextAt buf s (ds ++ 0 :: rest))
    (hd : ∀ d ∈ ds, isDigit d = true) (hn : ds.length < n) :
    minorLoop buf n s tmp = .ok (tmp ++ ds ++ [0]) := by
  induction ds generalizing n s tmp with
  | nil =>
    match n, hn with
    | n + 1, _ =>
      simp only [minorLoop, (TextAt.tail (txt := rest) h).1, ok_bind]
      simp
  | cons d ds ih =>
    match n, hn with
    | n + 1, hn =>
      have ⟨h1, h2⟩ := TextAt.tail (txt := ds ++ 0 :: rest) h
      have hne : d ≠ 0 := by rintro rfl; simpa [isDigit] using hd 0 (by simp)
      simp only [minorLoop, h1, ok_bind, hne, if_false]
      rw [ih _ _ _ h2 (fun x hx => hd x (by simp [hx])) (by simpa using hn)]
      simp

theorem modLoop_text (buf name dst : List Byte) (n i s : Nat) (h : TextAt buf s (name ++ [0]))
    (hz : ∀ d ∈ name, d ≠ 0) (hn : name.length < n) (hi : i + name.length < dst.length) :
    modLoop buf n i s dst = .ok (dst.take i ++ name ++ [0] ++ dst.drop (i + name.length + 1)) := by
  induction name generalizing n i s dst with
  | nil =>
    match n, hn with
    | n + 1, _ =>
      simp only [modLoop, (TextAt.tail (txt := []) h).1, ok_bind, if_true]
      simp only [List.length_nil, Nat.add_zero] at hi
      rw [wr_ok hi]
      congr 1
      have := List.take_append_drop (i + 1) (dst.set i 0)
      rw [take_set_succ 0 hi, List.drop_set_of_lt (by omega)] at this
      simpa using this.symm
  | cons d name ih =>
    match n, hn with
    | n + 1, hn =>
      have ⟨h1, h2⟩ := TextAt.tail (txt := name ++ [0]) h
      have hne : d ≠ 0 := hz d (by simp)
      simp only [List.length_cons] at hi
      simp only [modLoop, h1, ok_bind, hne, if_false]
      rw [wr_ok (by omega), ok_bind, ih (n := n) (i := i + 1) (dst := dst.set i d) (h := h2)
        (hz := fun x hx => hz x (by simp [hx])) (hn := by simpa using hn) (hi := by simp; omega)]
      rw [take_set_succ d (by omega), List.drop_set_of_lt (by omega)]
      simp [Nat.add_assoc, Nat.add_comm 1]

theorem extractVersion_text (u : Ubx) (off : Nat) (maj min : List Byte)
    (h : TextAt u.inMsg off (protver ++ maj ++ [0x2E] ++ min ++ [0]))
    (h1 : maj ≠ []) (h2 : maj.length ≤ 4) (h3 : min ≠ []) (h4 : min.length ≤ 4)
    (d1 : ∀ d ∈ maj, isDigit d = true) (d2 : ∀ d ∈ min, isDigit d = true) :
    extractVersion u off = .ok { u with major := decVal maj, minor := decVal min } := by
  have ha : TextAt u.inMsg (off + 8) (maj ++ 0x2E :: (min ++ [0])) := by
    have : protver ++ maj ++ [0x2E] ++ min ++ [0] = protver ++ (maj ++ 0x2E :: (min ++ [0])) := by simp
    rw [this] at h
    exact h.append.2
  have hb : TextAt u.inMsg (off + 8 + maj.length + 1) (min ++ [0]) := (ha.append.2).tail.2
  unfold extractVersion
  rw [majorLoop_text _ _ _ _ _ _ ha d1 (by omega)]
  simp only [ok_bind, List.nil_append]
  rw [atoi_ok maj h1 d1, ok_bind, minorLoop_text _ _ _ _ _ _ hb d2 (by omega), ok_bind, List.nil_append,
    atoi_ok min h3 d2, ok_bind]

theorem extractModule_text (u : Ubx) (off : Nat) (name : List Byte)
    (h : TextAt u.inMsg off (modEq ++ name ++ [0])) (h1 : name.length ≤ 9) (hm : u.modName.length = 10)
    (hz : ∀ d ∈ name, d ≠ 0) :
    extractModule u off = .ok { u with modName := name ++ [0] ++ u.modName.drop (name.length + 1) } := by
  have ha : TextAt u.inMsg (off + 4) (name ++ [0]) := by
    rw [List.append_assoc] at h
    exact h.append.2
  unfold extractModule
  rw [modLoop_text _ _ _ _ _ _ ha hz (by omega) (by omega), ok_bind]
  simp

theorem prefixAt_iff {buf : List Byte} {off : Nat} {pat : List Byte} :
    prefixAt buf off pat = true ↔ TextAt buf off pat := by
  unfold prefixAt TextAt; simp

/-- One row, when rows `a` and `b` are the only ones with `PROTVER=` and `MOD=`. -/
structure VersionText (buf : List Byte) (a b : Nat) (maj min name : List Byte) : Prop where
  ver : TextAt buf (40 + 10 * a) (protver ++ maj ++ [0x2E] ++ min ++ [0])
  mod : TextAt buf (40 + 10 * b) (modEq ++ name ++ [0])
  verOnly : ∀ i, i < 20 → i ≠ a → ¬ TextAt buf (40 + 10 * i) protver
  modOnly : ∀ i, i < 20 → i ≠ b → ¬ TextAt buf (40 + 10 * i) modEq
  ha : a < 20
  hb : b < 20
  maj1 : maj ≠ []
  maj4 : maj.length ≤ 4
  min1 : min ≠ []
  min4 : min.length ≤ 4
  majD : ∀ d ∈ maj, isDigit d = true
  minD : ∀ d ∈ min, isDigit d = true
  name9 : name.length ≤ 9
  nameZ : ∀ d ∈ name, d ≠ 0

theorem VersionText.ne {buf : List Byte} {a b : Nat} {maj min name : List Byte}
    (h : VersionText buf a b maj min name) : a ≠ b := by
  rintro rfl
  have h1 : TextAt buf (40 + 10 * a) protver := by
    have := h.ver; simp only [List.append_assoc] at this; exact this.append.1
  have h2 : TextAt buf (40 + 10 * a) modEq := by
    have := h.mod; simp only [List.append_assoc] at this; exact this.append.1
  have r1 := h1.tail.1
  have r2 := h2.tail.1
  rw [r1] at r2; cases r2

theorem versionRows_text {buf : List Byte} {a b : Nat} {maj min name : List Byte}
    (h : VersionText buf a b maj min name) (n i : Nat) (u : Ubx) (hu : u.inMsg = buf) (hin : i + n ≤ 20)
    (hm : u.modName.length = 10) :
    versionRows n i u = .ok { u with
      major := if i ≤ a ∧ a < i + n then (decVal maj : Int) else u.major
      minor := if i ≤ a ∧ a < i + n then (decVal min : Int) else u.minor
      modName := if i ≤ b ∧ b < i + n then name ++ [0] ++ u.modName.drop (name.length + 1) else u.modName } := by
  have hne := h.ne
  induction n generalizing i u with
  | zero =>
    simp only [versionRows, Nat.add_zero]
    rw [if_neg (by omega), if_neg (by omega), if_neg (by omega)]
  | succ n ih =>
    have hrow : versionRow u i = .ok { u with
        major := if i = a then (decVal maj : Int) else u.major
        minor := if i = a then (decVal min : Int) else u.minor
        modName := if i = b then name ++ [0] ++ u.modName.drop (name.length + 1) else u.modName } := by
      unfold versionRow extOff
      by_cases h1 : i = a
      · have h2 : i ≠ b := fun hh => hne (h1.symm.trans hh)
        have p1 : prefixAt u.inMsg (40 + 10 * i) protver = true := by
          rw [prefixAt_iff, hu, h1]; have := h.ver; simp only [List.append_assoc] at this; exact this.append.1
        have p2 : prefixAt u.inMsg (40 + 10 * i) modEq = false := by
          rw [Bool.eq_false_iff]; intro hc; rw [prefixAt_iff, hu] at hc; exact h.modOnly i (by omega) h2 hc
        rw [if_pos p1, extractVersion_text u _ maj min (by rw [hu, h1]; exact h.ver) h.maj1 h.maj4 h.min1 h.min4
          h.majD h.minD, ok_bind]
        simp only [p2, Bool.false_eq_true, if_false, if_pos h1, if_neg h2]
      · have p1 : prefixAt u.inMsg (40 + 10 * i) protver = false := by
          rw [Bool.eq_false_iff]; intro hc; rw [prefixAt_iff, hu] at hc; exact h.verOnly i (by omega) h1 hc
        rw [p1]
        simp only [Bool.false_eq_true, if_false, ok_bind, h1]
        by_cases h2 : i = b
        · have p2 : prefixAt u.inMsg (40 + 10 * i) modEq = true := by
            rw [prefixAt_iff, hu, h2]; have := h.mod; simp only [List.append_assoc] at this; exact this.append.1
          rw [if_pos p2, extractModule_text u _ name (by rw [hu, h2]; exact h.mod) h.name9 hm h.nameZ]
          simp [h2]
        · have p2 : prefixAt u.inMsg (40 + 10 * i) modEq = false := by
            rw [Bool.eq_false_iff]; intro hc; rw [prefixAt_iff, hu] at hc; exact h.modOnly i (by omega) h2 hc
          simp [p2, h2]
    unfold versionRows
    rw [hrow, ok_bind]
    refine (ih (i + 1) _ ?_ (by omega) ?_).trans ?_
    · exact hu
    · simp only; split
      · have := h.name9; simp; omega
      · exact hm
    congr 1
    have c1 : (i ≤ a ∧ a < i + (n + 1)) ↔ (i = a ∨ (i + 1 ≤ a ∧ a < i + 1 + n)) := by omega
    have c2 : (i ≤ b ∧ b < i + (n + 1)) ↔ (i = b ∨ (i + 1 ≤ b ∧ b < i + 1 + n)) := by omega
    simp only [c1, c2]
    by_cases h1 : i = a
    · have h2 : i ≠ b := fun hh => hne (h1.symm.trans hh)
      simp [h1, hne]
    · by_cases h2 : i = b
      · simp [h2, show b ≠ a from fun h => hne h.symm]
      · simp [h1, h2]

theorem versionCb_text {a b : Nat} {maj min name : List Byte} (u : Ubx)
    (h : VersionText u.inMsg a b maj min name) (hm : u.modName.length = 10) :
    versionCb u = .ok { u with major := decVal maj, minor := decVal min, gotVer := true,
                               modName := name ++ [0] ++ u.modName.drop (name.length + 1) } := by
  have ha := h.ha; have hb := h.hb
  unfold versionCb
  rw [versionRows_text h 20 0 u rfl (by omega) hm, ok_bind]
  simp [ha, hb]

end Ubx
end Ublox
