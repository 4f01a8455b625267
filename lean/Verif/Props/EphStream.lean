import Verif.Model.EphStream
import Verif.Spec.EphStream
import Verif.Props.PrintNum
import Verif.Props.EphDbl
import Verif.Props.EphPrint
import Verif.Props.RosEph

/-!
# C131: the listing of an ephemeris
-/

namespace Ublox.Print

open Nav PrintSpec
open UTCTime (decInt decNat Tm IsGmtime)
open Calendar (Stamp)

/-- The value of a floating-point member according to the interface document. -/
noncomputable def icd (d : Dbl) : Val := .real (d.raw * d.unitValue)

/-- The listing of an ephemeris: its members, in order.  The time of week, the anti-spoofing flag and the age of data offset are
members that are always 0 (see C131's note). -/
noncomputable def ephListing (name : String) (e : Eph) (toe toc : Stamp) : List (String × Val) :=
  [("Constellation:", .word name), ("Sat ID:", .int e.sat.toNat), ("", .word ""), ("toe", .time toe e.toe.sec e.toe.nsec),
   ("toc", .time toc e.toc.sec e.toc.nsec), ("tow", .int 0), ("iodc", .int e.iodc), ("iode", .int e.iode), ("week", .int e.week),
   ("toes", .int e.toes), ("tocs", .int e.tocs), ("health", .int e.health), ("alert_flag", .int e.alert), ("anti_spoof", .int 0),
   ("code_on_L2", .int e.codeOnL2), ("ura", .int e.ura), ("L2_P_data_flag", .int e.l2p), ("fit_interval_flag", .int e.fit),
   ("age_of_data_offset", .int 0), ("tgd[0]", icd e.tgd0), ("tgd[1]", icd e.tgd1), ("tgd[2]", icd e.tgd2), ("tgd[3]", icd e.tgd3),
   ("af2", icd e.af2), ("af1", icd e.af1), ("af0", icd e.af0), ("m0", icd e.m0), ("delta_n", icd e.deltaN), ("ecc", icd e.ecc),
   ("sqrta", icd e.sqrta), ("omega0", icd e.omega0), ("i0", icd e.i0), ("w", icd e.w), ("omegadot", icd e.omegadot),
   ("idot", icd e.idot), ("cuc", icd e.cuc), ("cus", icd e.cus), ("crc", icd e.crc), ("crs", icd e.crs), ("cic", icd e.cic),
   ("cis", icd e.cis)]

theorem dbl_shown {d : Dbl} (h : Faithful d) : ShowsVal (dblText d) (icd d) := by
  obtain ⟨v, hv, -, hc, -⟩ := h
  obtain ⟨⟨q, hq, he⟩, -⟩ := c130_general v
  refine ⟨q, ?_, ?_⟩
  · unfold dblText; rw [hv]; exact hq
  have he' : |(q : ℝ) - v| ≤ |(v : ℝ)| * (5 / 10 ^ 6) := by
    have := (Rat.cast_le (K := ℝ)).2 he
    push_cast at this
    exact this
  generalize (d.raw : ℝ) * d.unitValue = x at *
  have h1 : |(v : ℝ)| ≤ |x| + 1e-14 * |x| := by
    calc |(v : ℝ)| = |x + (v - x)| := by ring_nf
      _ ≤ |x| + |v - x| := abs_add_le _ _
      _ ≤ _ := by linarith
  calc |(q : ℝ) - x| = |(q - v) + (v - x)| := by ring_nf
    _ ≤ |(q : ℝ) - v| + |v - x| := abs_add_le _ _
    _ ≤ (|x| + 1e-14 * |x|) * (5 / 10 ^ 6) + 1e-14 * |x| := by
      refine add_le_add (le_trans he' ?_) hc
      exact mul_le_mul_of_nonneg_right h1 (by norm_num)
    _ ≤ _ := by have := abs_nonneg x; norm_num; linarith

theorem l_int (label lab : String) {n : Nat} (hn : n < 2 ^ 31) (hl : lab.toList = label.toList ++ [' ']) {ls : List (String × Val)}
    {t : List Char} (h : Listing ls t) : Listing ((label, .int n) :: ls) (intLine lab n ++ t) := by
  have := Listing.line label (.int n) (decInt n) ls t rfl h
  unfold intLine
  rw [hl, Int.bmod_eq_of_le (by omega) (by push_cast; omega)]
  simpa using this

theorem l_dbl (label lab : String) {d : Dbl} (hd : Faithful d) (hl : lab.toList = label.toList ++ [' ']) {ls : List (String × Val)}
    {t : List Char} (h : Listing ls t) : Listing ((label, icd d) :: ls) (dblLine lab d ++ t) := by
  have := Listing.line label (icd d) (dblText d) ls t (dbl_shown hd) h
  unfold dblLine
  rw [hl]
  simpa using this

theorem l_time (label lab : String) {f : Int → Option Tm} (hf : IsGmtime f) {tm : UTCTime} (hp : Printable tm)
    (hl : lab.toList = label.toList ++ [' ']) :
    ∃ c tx, DateOf tm c ∧ timeLine f lab tm = .ok tx ∧ ∀ (ls : List (String × Val)) (t : List Char), Listing ls t →
      Listing ((label, .time c tm.sec tm.nsec) :: ls) (tx ++ t) := by
  obtain ⟨c, d, e⟩ := UTCTime.c97_calendar f hf tm hp.1 hp.2
  unfold timeLine
  rw [e]
  refine ⟨c, _, d, rfl, fun ls t h => ?_⟩
  have := Listing.line label (.time c tm.sec tm.nsec) _ ls t rfl h
  rw [hl]
  simpa [UTCTime.text] using this

theorem fits_printable {t : UTCTime} (h : Ros.TimeFits t) : Printable t := by
  obtain ⟨h1, h2, -, -⟩ := h
  constructor <;> omega

/-- **C131, the part that is true.** Whatever subframe messages were received before: writing an ephemeris that was handed to a
callback to a stream gives a line for every member, in order, with the integers exact, the dates and times those of the members, and
every floating-point member in decimal to one part in 100000 of the interface document's value — provided flowing off the end of
`operator<<` is harmless.  Missing: that it is (`c131_refuted`). -/
theorem c131_partial (md : Mode) (ops : List NavOp) (n : Nav) (cs : List (List NavCall)) (hops : ∀ op ∈ ops, Ros.GoodOp op)
    (hrun : Nav.init.run md ops = .ok (n, cs)) (f : Int → Option Tm) (hf : IsGmtime f) :
    ∀ c ∈ cs, ∀ i e, .eph i e ∈ c → ∀ name, (e.gnssID.toNat, name) ∈ TableSpec.gnssNames →
      ∃ t c1 c2, ephStream .lenient f e = .ok t ∧ DateOf e.toe c1 ∧ DateOf e.toc c2 ∧ Listing (ephListing name e c1 c2) t := by
  intro c hc i e he name hname
  have fit := ((Ros.fits_run ops hops Ros.fits_init hrun).2 c hc).1 i e he
  have fa := (c95_faithful md ops n cs hrun c hc).1 i e he
  unfold Eph.doubles at fa
  simp only [List.forall_mem_cons] at fa
  obtain ⟨o1, o2, o3, o4, o5, o6, o7, o8, o9, o10, o11, o12, o13, o14, o15, o16, o17, o18, o19, o20, o21, o22, -⟩ := fa
  obtain ⟨c1, t1, d1, e1, k1⟩ := l_time "toe" "toe " hf (fits_printable fit.toe) (by decide)
  obtain ⟨c2, t2, d2, e2, k2⟩ := l_time "toc" "toc " hf (fits_printable fit.toc) (by decide)
  obtain ⟨q1, q2, q3, q4, q5, q6, q7, q8, q9, q10, q11, -, -⟩ := fit
  unfold ephStream
  rw [e1, e2]
  refine ⟨_, c1, c2, rfl, d1, d2, ?_⟩
  rw [(c65_names e.gnssID).1 name hname]
  unfold ephListing
  simp only [List.append_assoc]
  have w := fun ls t h => Listing.line "Constellation:" (.word name) name.toList ls t rfl h
  have s := fun ls t h => Listing.line "Sat ID:" (.int e.sat.toNat) (decInt e.sat.toNat) ls t rfl h
  have w' : ∀ ls t, Listing ls t → Listing (("Constellation:", .word name) :: ls)
      ("Constellation: ".toList ++ (name.toList ++ ("\n".toList ++ t))) := by
    intro ls t h
    have := w ls t h
    rw [show "Constellation: ".toList = "Constellation:".toList ++ [' '] by decide, show "\n".toList = ['\n'] by decide]
    simpa using this
  have s' : ∀ ls t, Listing ls t → Listing (("Sat ID:", .int e.sat.toNat) :: ("", .word "") :: ls)
      ("Sat ID: ".toList ++ (decInt e.sat.toNat ++ ("\n\n".toList ++ t))) := by
    intro ls t h
    have := s _ _ (.blank ls t h)
    rw [show "Sat ID: ".toList = "Sat ID:".toList ++ [' '] by decide, show "\n\n".toList = ['\n', '\n'] by decide]
    simpa using this
  apply w'
  apply s'
  apply k1
  apply k2
  refine l_int "tow" "tow " (n := 0) (by omega) (by decide) ?_
  refine l_int "iodc" "iodc " (by omega) (by decide) ?_
  refine l_int "iode" "iode " (by omega) (by decide) ?_
  refine l_int "week" "week " (by omega) (by decide) ?_
  refine l_int "toes" "toes " (by omega) (by decide) ?_
  refine l_int "tocs" "tocs " (by omega) (by decide) ?_
  refine l_int "health" "health " (by omega) (by decide) ?_
  refine l_int "alert_flag" "alert_flag " (by omega) (by decide) ?_
  refine l_int "anti_spoof" "anti_spoof " (n := 0) (by omega) (by decide) ?_
  refine l_int "code_on_L2" "code_on_L2 " (by omega) (by decide) ?_
  refine l_int "ura" "ura " (by omega) (by decide) ?_
  refine l_int "L2_P_data_flag" "L2_P_data_flag " (by omega) (by decide) ?_
  refine l_int "fit_interval_flag" "fit_interval_flag " (by omega) (by decide) ?_
  refine l_int "age_of_data_offset" "age_of_data_offset " (n := 0) (by omega) (by decide) ?_
  refine l_dbl "tgd[0]" "tgd[0] " o1 (by decide) ?_
  refine l_dbl "tgd[1]" "tgd[1] " o2 (by decide) ?_
  refine l_dbl "tgd[2]" "tgd[2] " o3 (by decide) ?_
  refine l_dbl "tgd[3]" "tgd[3] " o4 (by decide) ?_
  refine l_dbl "af2" "af2 " o5 (by decide) ?_
  refine l_dbl "af1" "af1 " o6 (by decide) ?_
  refine l_dbl "af0" "af0 " o7 (by decide) ?_
  refine l_dbl "m0" "m0 " o8 (by decide) ?_
  refine l_dbl "delta_n" "delta_n " o9 (by decide) ?_
  refine l_dbl "ecc" "ecc " o10 (by decide) ?_
  refine l_dbl "sqrta" "sqrta " o11 (by decide) ?_
  refine l_dbl "omega0" "omega0 " o12 (by decide) ?_
  refine l_dbl "i0" "i0 " o13 (by decide) ?_
  refine l_dbl "w" "w " o14 (by decide) ?_
  refine l_dbl "omegadot" "omegadot " o15 (by decide) ?_
  refine l_dbl "idot" "idot " o16 (by decide) ?_
  refine l_dbl "cuc" "cuc " o17 (by decide) ?_
  refine l_dbl "cus" "cus " o18 (by decide) ?_
  refine l_dbl "crc" "crc " o19 (by decide) ?_
  refine l_dbl "crs" "crs " o20 (by decide) ?_
  refine l_dbl "cic" "cic " o21 (by decide) ?_
  rw [← List.append_nil (dblLine "cis " e.cis)]
  exact l_dbl "cis" "cis " o22 (by decide) .nil

/-- C131 is false of the code: `operator<<` has no `return`, so writing an ephemeris to a stream is undefined. -/
theorem c131_refuted (f : Int → Option Tm) (e : Eph) (t : List Char) : ephStream .strict f e ≠ .ok t := by
  unfold ephStream
  cases timeLine f "toe " e.toe with
  | error _ => intro h; cases h
  | ok a =>
    cases timeLine f "toc " e.toc with
    | error _ => intro h; cases h
    | ok b => intro h; cases h

open Data Ros in
/-- The hypotheses are met: three GPS subframes of satellite 7 lead to one reported ephemeris of a named constellation, and there is
a correct `gmtime`. -/
example : (∃ f, IsGmtime f) ∧
    (∀ op ∈ [.setTime ⟨1600000000, 5⟩, .addEphCb, gps 7 gps1, gps 7 gps2, gps 7 gps3], GoodOp op) ∧
    (callsAfter .lenient [.setTime ⟨1600000000, 5⟩, .addEphCb, gps 7 gps1, gps 7 gps2, gps 7 gps3]).map
      (·.map List.length) = .ok [0, 0, 0, 0, 1] ∧ (0, "GPS") ∈ TableSpec.gnssNames := by
  refine ⟨UTCTime.exists_gmtime, fun op h => ?_, by decide +kernel, by decide⟩
  simp only [List.mem_cons, List.not_mem_nil, or_false] at h
  rcases h with rfl | rfl | rfl | rfl | rfl
  · exact ⟨by decide, by decide, by decide, by decide⟩
  all_goals trivial

/-- The numbers of real lines: eccentricity, root of the semi-major axis, clock drift, and a member that is 0. -/
example : dblLine "ecc " ⟨21474836, [.p2 33]⟩ = "ecc 0.0025\n".toList ∧ dblLine "sqrta " ⟨2702000000, [.p2 19]⟩ = "sqrta 5153.66\n".toList ∧
    dblLine "af1 " ⟨-17, [.p2 43]⟩ = "af1 -1.93268e-12\n".toList ∧ dblLine "tgd[3] " .zero = "tgd[3] 0\n".toList := by
  decide +kernel

end Ublox.Print
