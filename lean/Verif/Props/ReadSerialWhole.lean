import Verif.Props.ReadSerialRun
import Verif.Props.ProvenanceLast

/-!
# C124: what `read_serial` lists was received completely
-/

namespace Ublox
namespace ReadSerial

open Nav (NavCall Mode Eph GEph CarriesGps CarriesGal CarriesGlo iode1Of iode2Of)
open Dev

/-- C124: whatever the receiver sends, in whatever pieces (messages with all their words): of every GPS satellite listed subframes
1, 2 and 3 were received, the first two of one issue of data; of every Galileo satellite listed words 0 to 6, in pages with a
correct CRC; of every GLONASS satellite listed strings 1 to 4 with one time mark and check bits that allow using them. -/
theorem c124_only_complete {md : Mode} {ss : List Ubx.Sched} {evs : List Ev} {d : Dev} {es : List Eff}
    (h : Life md ss evs d es) (hc : Print.calls evs = mainCalls) (hall : ∀ pl, NavIn.sfrbx pl ∈ navLife ss evs → AllWords pl) :
    let f := (onEffs nothing es).1
    (∀ s ∈ f.gps, ∃ b : Byte, b.toNat = s ∧ ∃ p1 p2 p3, GpsPart b 1 p1 ∧ GpsPart b 2 p2 ∧ GpsPart b 3 p3 ∧
      NavIn.sfrbx p1 ∈ navLife ss evs ∧ NavIn.sfrbx p2 ∈ navLife ss evs ∧ NavIn.sfrbx p3 ∈ navLife ss evs ∧
      iode1Of (Dev.wordsIn p1) = iode2Of (Dev.wordsIn p2)) ∧
    (∀ s ∈ f.gal, ∃ b : Byte, b.toNat = s ∧ ∀ k, k ≤ 6 → ∃ p, GalPart b k p ∧ NavIn.sfrbx p ∈ navLife ss evs) ∧
    (∀ s ∈ f.glo, ∃ b : Byte, b.toNat = s ∧ ∃ mark, ∀ k, 1 ≤ k → k ≤ 4 → ∃ p, GloPart b mark k p ∧ NavIn.sfrbx p ∈ navLife ss evs) := by
  have co : Course md evs d (navLife ss evs) es := .start h (no_base hc)
  have hs := calls_spec (es.filterMap Eff.nav?) nothing .nil .nil .nil
  rw [← onEffs_calls] at hs
  have back : ∀ {call : NavCall}, call ∈ es.filterMap Eff.nav? → Eff.nav call ∈ es := by
    intro call hm
    obtain ⟨x, hx, hv⟩ := List.mem_filterMap.1 hm
    cases x <;> simp [Eff.nav?] at hv
    rw [← hv]; exact hx
  obtain ⟨-, b, c, g⟩ := hs
  refine ⟨fun s hs => ?_, fun s hs => ?_, fun s hs => ?_⟩
  · rcases (b s).1 hs with h' | ⟨i, e, he, h0, rfl⟩
    · exact absurd h' (by simp [nothing])
    · obtain ⟨before, pl, after, p1, p2, p3, hi, -, m1, m2, m3, -, q1, q2, q3, hio, -⟩ := Dev.c151_gps co hall (back he) h0
      have sub : ∀ {q : List Byte}, NavIn.sfrbx q ∈ before ++ [.sfrbx pl] → NavIn.sfrbx q ∈ navLife ss evs := by
        intro q hq
        rw [hi]
        rcases List.mem_append.1 hq with hq | hq
        · exact List.mem_append_left _ hq
        · rw [List.mem_singleton.1 hq]; exact List.mem_append_right _ List.mem_cons_self
      exact ⟨_, rfl, p1, p2, p3, q1, q2, q3, sub m1, sub m2, sub m3, hio⟩
  · rcases (c s).1 hs with h' | ⟨i, e, he, h0, rfl⟩
    · exact absurd h' (by simp [nothing])
    · obtain ⟨before, pl, after, w, hi, -, -, hw, -⟩ := Dev.c151_galileo co hall (back he) h0
      refine ⟨_, rfl, fun k hk => ⟨w k, (hw k hk).2, ?_⟩⟩
      rw [hi]
      rcases List.mem_append.1 (hw k hk).1 with hq | hq
      · exact List.mem_append_left _ hq
      · rw [List.mem_singleton.1 hq]; exact List.mem_append_right _ List.mem_cons_self
  · rcases (g s).1 hs with h' | ⟨i, e, he, rfl⟩
    · exact absurd h' (by simp [nothing])
    · obtain ⟨before, p4, after, p1, p2, p3, mark, f, hi, m1, m2, m3, -, q1, q2, q3, q4, -⟩ := Dev.c151_glonass co hall (back he)
      refine ⟨_, rfl, mark, fun k h1 h4 => ?_⟩
      rw [hi]
      have : k = 1 ∨ k = 2 ∨ k = 3 ∨ k = 4 := by omega
      rcases this with rfl | rfl | rfl | rfl
      · exact ⟨p1, q1, List.mem_append_left _ m1⟩
      · exact ⟨p2, q2, List.mem_append_left _ m2⟩
      · exact ⟨p3, q3, List.mem_append_left _ m3⟩
      · exact ⟨p4, q4, List.mem_append_right _ List.mem_cons_self⟩

/-- The hypotheses are met by the run of `ReadSerialRun`, after which satellite 7 is listed. -/
example : ∃ d es, Life .strict [exSched] exProg d es ∧ (onEffs nothing es).1.gps = [7] ∧ Print.calls exProg = mainCalls ∧
    ∀ pl, NavIn.sfrbx pl ∈ navLife [exSched] exProg → AllWords pl := by
  have hm : (exRun exProg).map (fun x => (onEffs nothing x.2).1.gps) = some [7] := by decide +kernel
  have hw : exAllWords (navLife [exSched] exProg) = true := by decide +kernel
  obtain ⟨⟨d, es⟩, hx, he⟩ := Option.map_eq_some_iff.1 hm
  exact ⟨d, es, exRun_life hx, he, rfl, exAllWords_spec hw⟩

end ReadSerial
end Ublox
