import Verif.Model.EphPrint
import Verif.Props.TimePrint
import Verif.Props.Tables

/-!
# C108: what the example programs print about an ephemeris
-/

namespace Ublox.Print
open UTCTime Calendar Nav

/-- A time the library can print: its week number fits an `int` (some 41 million years on either side of 1970). -/
def Printable (t : UTCTime) : Prop := -1298798110915200 < t.sec ∧ t.sec < 1298798110310400

/-- The calendar date and time of a time: the only valid one with that number of POSIX seconds. -/
def DateOf (t : UTCTime) (c : Stamp) : Prop := c.Valid ∧ c.posix = t.sec ∧ ∀ c' : Stamp, c'.Valid → c'.posix = t.sec → c' = c

/-- What an announcement should look like: a line of decoration, the line proper, and the decoration again. -/
def announcement (deco : List Char) (name : String) (sat : Nat) (now toe tof : Stamp) : List Char :=
  deco ++ name.toList ++ decNat sat ++ ", now = ".toList ++ text now ++ ", toe = ".toList ++ text toe ++ ", tof = ".toList ++
    text tof ++ "\n".toList ++ deco

/-- A line of `n` characters `c`. -/
def line (n : Nat) (c : Char) : List Char := List.replicate n c ++ ['\n']

theorem bangs_eq : bangs.toList = line 58 '!' := by
  rw [line, show List.replicate 58 '!' = _ from rfl]
  simp [bangs]

theorem stars_eq : stars.toList = line 61 '*' := by
  rw [line, show List.replicate 61 '*' = _ from rfl]
  simp [stars]

theorem announce_spec (f : Int → Option Tm) (hf : IsGmtime f) (frame head : String) (sat : Byte) (now t1 t2 : UTCTime)
    (h0 : Printable now) (h1 : Printable t1) (h2 : Printable t2) :
    ∃ c0 c1 c2, DateOf now c0 ∧ DateOf t1 c1 ∧ DateOf t2 c2 ∧
      announce f frame head sat now t1 t2 = .ok (announcement frame.toList head sat.toNat c0 c1 c2) := by
  obtain ⟨c0, d0, e0⟩ := c97_calendar f hf now h0.1 h0.2
  obtain ⟨c1, d1, e1⟩ := c97_calendar f hf t1 h1.1 h1.2
  obtain ⟨c2, d2, e2⟩ := c97_calendar f hf t2 h2.1 h2.2
  refine ⟨c0, c1, c2, d0, d1, d2, ?_⟩
  unfold announce
  rw [e0, e1, e2]
  have : decInt (sat.toNat : Int) = decNat sat.toNat := decInt_nat _
  simp only [ok_bind, announcement, this]

/-- **C108, GLONASS.** Both programs print of every GLONASS ephemeris the satellite, the current date, the reference date and the
date of the frame. -/
theorem c108_glonass (f : Int → Option Tm) (hf : IsGmtime f) (now : UTCTime) (g : GEph)
    (h0 : Printable now) (h1 : Printable g.toe) (h2 : Printable g.tof) :
    ∃ c0 c1 c2, DateOf now c0 ∧ DateOf g.toe c1 ∧ DateOf g.tof c2 ∧
      gephText f now g = .ok (announcement (line 61 '*') "Glonass sat:" g.sat.toNat c0 c1 c2) :=
  stars_eq ▸ announce_spec f hf stars "Glonass sat:" g.sat now g.toe g.tof h0 h1 h2

/-- **C108, the true part for the others.** `read_serial` prints of every ephemeris the name of the constellation, the
satellite, the current date and the reference date; `read_log` does of every GPS ephemeris.  Missing: the time of the frame, and
`read_log` on Galileo. -/
theorem c108_eph_partial (f : Int → Option Tm) (hf : IsGmtime f) (now : UTCTime) (e : Eph)
    (h0 : Printable now) (h1 : Printable e.toe) :
    ∃ c0 c1, DateOf now c0 ∧ DateOf e.toe c1 ∧ ∃ c2,
      (∀ name, (e.gnssID.toNat, name) ∈ TableSpec.gnssNames →
        readSerialEph f now e = .ok (announcement (line 58 '!') (name ++ " sat: ") e.sat.toNat c0 c1 c2)) ∧
      (e.gnssID = 0 → readLogEph f now e = .ok (announcement (line 58 '!') "GPS sat: " e.sat.toNat c0 c1 c2)) := by
  obtain ⟨c0, c1, c2, d0, d1, d2, h⟩ := announce_spec f hf bangs "GPS sat: " e.sat now e.toe e.toe h0 h1 h1
  rw [bangs_eq] at h
  refine ⟨_, _, d0, d1, c2, fun name hn => ?_, fun _ => h⟩
  obtain ⟨k0, k1, k2, i0, i1, i2, h'⟩ := announce_spec f hf bangs (name ++ " sat: ") e.sat now e.toe e.toe h0 h1 h1
  rw [bangs_eq] at h'
  obtain rfl := d0.2.2 _ i0.1 i0.2.1
  obtain rfl := d1.2.2 _ i1.1 i1.2.1
  obtain rfl := d2.2.2 _ i2.1 i2.2.1
  unfold readSerialEph
  rw [(c65_names e.gnssID).1 name hn]
  exact h'

/-- **C108 refuted: time of the frame.** What stands behind `tof =` is always the reference date: no announcement of either
program says when the frame was sent. -/
theorem c108_tof_refuted (f : Int → Option Tm) (hf : IsGmtime f) (now : UTCTime) (e : Eph)
    (h0 : Printable now) (h1 : Printable e.toe) :
    ∃ c0 c1, DateOf e.toe c1 ∧
      readSerialEph f now e = .ok (announcement (line 58 '!') (ephType e.gnssID ++ " sat: ") e.sat.toNat c0 c1 c1) ∧
      readLogEph f now e = .ok (announcement (line 58 '!') "GPS sat: " e.sat.toNat c0 c1 c1) := by
  obtain ⟨c0, c1, c2, d0, d1, d2, h⟩ := announce_spec f hf bangs "GPS sat: " e.sat now e.toe e.toe h0 h1 h1
  obtain ⟨k0, k1, k2, i0, i1, i2, h'⟩ := announce_spec f hf bangs (ephType e.gnssID ++ " sat: ") e.sat now e.toe e.toe h0 h1 h1
  rw [bangs_eq] at h
  rw [bangs_eq] at h'
  obtain rfl := d0.2.2 _ i0.1 i0.2.1
  obtain rfl := d1.2.2 _ d2.1 d2.2.1
  obtain rfl := d1.2.2 _ i1.1 i1.2.1
  obtain rfl := i1.2.2 _ i2.1 i2.2.1
  exact ⟨_, _, i1, h', h⟩

/-- **C108 refuted: Galileo.** `read_log` announces a Galileo ephemeris (like any other) as one of the GPS satellite of the same
number. -/
theorem c108_galileo_refuted (f : Int → Option Tm) (now : UTCTime) (e : Eph) (id : Byte) :
    readLogEph f now e = readLogEph f now { e with gnssID := id } := rfl

/-! ### Totals -/

theorem decNat_chars_comma (n : Nat) : ∀ c ∈ decNat n, c ≠ ',' ∧ c ≠ '\n' ∧ c ≠ ':' := by
  have hd : ∀ n < 10, digit n ≠ ',' ∧ digit n ≠ '\n' ∧ digit n ≠ ':' := by decide
  induction n using Nat.strongRecOn with
  | _ n ih =>
    rw [decNat]
    split
    · rename_i h
      intro c hc
      rw [List.mem_singleton.1 hc]
      exact hd n h
    · intro c hc
      rcases List.mem_append.1 hc with hc | hc
      · exact ih (n / 10) (by omega) c hc
      · rw [List.mem_singleton.1 hc]
        exact hd _ (by omega)

theorem decNat_ne_nil (n : Nat) : decNat n ≠ [] := by
  rw [decNat]
  split
  · simp
  · simp

theorem satList_inj : ∀ {a b : List Nat}, satList a ++ ['\n'] = satList b ++ ['\n'] → a = b
  | [], [], _ => rfl
  | [], n :: r, h => by
    simp only [satList, List.nil_append, List.append_assoc] at h
    obtain ⟨c, l, hc⟩ := List.exists_cons_of_ne_nil (decNat_ne_nil n)
    have := (decNat_chars_comma n c (by rw [hc]; exact List.mem_cons_self)).2.1
    rw [hc, List.cons_append] at h
    exact absurd (List.cons.inj h).1.symm this
  | n :: r, [], h => by
    simp only [satList, List.nil_append, List.append_assoc] at h
    obtain ⟨c, l, hc⟩ := List.exists_cons_of_ne_nil (decNat_ne_nil n)
    have := (decNat_chars_comma n c (by rw [hc]; exact List.mem_cons_self)).2.1
    rw [hc, List.cons_append] at h
    exact absurd (List.cons.inj h).1 this
  | n :: r, n' :: r', h => by
    simp only [satList, List.append_assoc] at h
    have h' : decNat n ++ ',' :: (' ' :: (satList r ++ ['\n'])) = decNat n' ++ ',' :: (' ' :: (satList r' ++ ['\n'])) := h
    obtain ⟨e1, e2⟩ := split_eq (fun x hx => (decNat_chars_comma _ x hx).1) (fun x hx => (decNat_chars_comma _ x hx).1) h'
    rw [decNat_inj e1, satList_inj (List.cons.inj e2).2]

/-- **C108, totals.** The line of totals `read_serial` prints says which constellation, how many satellites and which: different
totals are printed differently. -/
theorem c108_totals (a b : ReadSerial.Line) : totalText a = totalText b ↔ a = b := by
  refine ⟨fun h => ?_, fun h => congrArg totalText h⟩
  have key : ∀ {n n' : Nat} {l l' : List Nat}, decNat n ++ ':' :: (' ' :: (satList l ++ ['\n'])) =
      decNat n' ++ ':' :: (' ' :: (satList l' ++ ['\n'])) → n = n' ∧ l = l' := by
    intro n n' l l' h
    obtain ⟨e1, e2⟩ := split_eq (fun x hx => (decNat_chars_comma _ x hx).2.2) (fun x hx => (decNat_chars_comma _ x hx).2.2) h
    exact ⟨decNat_inj e1, satList_inj (List.cons.inj e2).2⟩
  have g1 : "Total GPS: ".toList = ['T', 'o', 't', 'a', 'l', ' ', 'G', 'P', 'S', ':', ' '] := by simp
  have g2 : "Total GAL: ".toList = ['T', 'o', 't', 'a', 'l', ' ', 'G', 'A', 'L', ':', ' '] := by simp
  have g3 : "Total GLONASS: ".toList = ['T', 'o', 't', 'a', 'l', ' ', 'G', 'L', 'O', 'N', 'A', 'S', 'S', ':', ' '] := by simp
  have g4 : ": ".toList = [':', ' '] := by simp
  have g5 : "\n".toList = ['\n'] := by simp
  cases a <;> cases b <;>
    simp only [totalText, total, g1, g2, g3, g4, g5, List.cons_append, List.nil_append, List.append_assoc, List.cons.injEq, true_and,
      Char.reduceEq, false_and] at h
  all_goals
    obtain ⟨rfl, rfl⟩ := key h
    rfl

/-- A total as printed; and a time that meets the hypotheses (18 June 2018). -/
example : Printable ⟨1529280000, 0⟩ := by unfold Printable; decide

example : totalText (.gps 2 [7, 30]) = "Total GPS: 2: 7, 30, \n".toList := by
  have g1 : "Total GPS: 2: 7, 30, \n".toList = ['T', 'o', 't', 'a', 'l', ' ', 'G', 'P', 'S', ':', ' ', '2', ':', ' ', '7', ',',
    ' ', '3', '0', ',', ' ', '\n'] := by simp
  have g2 : ": ".toList = [':', ' '] := by simp
  have g3 : ", ".toList = [',', ' '] := by simp
  have g4 : "\n".toList = ['\n'] := by simp
  have g5 : "Total GPS: ".toList = ['T', 'o', 't', 'a', 'l', ' ', 'G', 'P', 'S', ':', ' '] := by simp
  rw [g1]
  simp only [totalText, total, satList, g2, g3, g4, g5]
  simp [decNat, digit]

end Ublox.Print
