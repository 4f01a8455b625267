import Verif.Lemmas.NavGloRun
import Verif.Props.NavGps

/-!
# GLONASS ephemerides: C52, C53, C54, C55, C56

Operations and messages: `Verif/Model/Nav.lean`; what a string says and when it may be used: `Verif/Spec/NavGlo.lean`.
-/

namespace Ublox.Nav

open Data

/-! ## C52 -/

theorem checksum_congr {f g : Nat → Bool} (h : ∀ b, 1 ≤ b → b ≤ 85 → f b = g b) {s : List Nat} (hs : s ∈ checkSets) :
    checksum f s = checksum g s := by
  unfold checksum
  have : s.map f = s.map g := by
    apply List.map_congr_left
    intro b hb
    have := (sets_ok s hs).2 b hb
    exact h b this.1 (by omega)
  rw [this]

theorem usable_congr {f g : Nat → Bool} (h : ∀ b, 1 ≤ b → b ≤ 85 → f b = g b) : usable f = usable g := by
  have : checksums f = checksums g := by
    unfold checksums
    apply List.map_congr_left
    intro s hs
    exact checksum_congr h hs
  unfold usable
  rw [this]

/-- Whether a pattern of checksums is that of a usable string. -/
def usableSums (c : List Bool) : Bool :=
  c.all (! ·) || (c.getLast? == some true && (c.dropLast.filter id).length == 1)

/-- The checksums that a flip of bit `q` changes. -/
def column (q : Nat) : List Bool := checkSets.map fun s => decide (q ∈ s)

theorem sums_single {bit : Nat → Bool} (h : ValidString bit) (q : Nat) : checksums (flip bit q) = column q := by
  rw [checksums_flip]
  apply List.map_congr_left
  intro s hs
  rw [h s hs, Bool.false_xor]

theorem sums_double {bit : Nat → Bool} (h : ValidString bit) (q r : Nat) :
    checksums (flip (flip bit q) r) = checkSets.map fun s => xor (decide (q ∈ s)) (decide (r ∈ s)) := by
  rw [checksums_flip]
  apply List.map_congr_left
  intro s hs
  rw [checksum_flip _ _ _ hs, h s hs, Bool.false_xor]

theorem single_table : ∀ q : Fin 86, 1 ≤ q.val → usableSums (column q.val) = decide (q.val ≤ 7) := by decide +kernel

theorem double_table : ∀ q r : Fin 86, 1 ≤ q.val → 1 ≤ r.val → q ≠ r →
    usableSums ((column q.val).zipWith xor (column r.val)) = false := by decide +kernel

/-- C52: the check implemented is the ICD's rule for using a string, for every buffer. -/
theorem c52_rule (buf : List Byte) (h : 11 ≤ buf.length) : gloTest buf = .ok (usable (strBit buf)) := gloTest_ok buf h

/-- C52: every valid string is accepted. -/
theorem c52_accepts_valid (buf : List Byte) (h : 11 ≤ buf.length) (hv : ValidString (strBit buf)) :
    gloTest buf = .ok true := by
  rw [gloTest_ok buf h]
  have : checksums (strBit buf) = List.replicate 8 false := by
    have : checksums (strBit buf) = checkSets.map fun _ => false := List.map_congr_left hv
    rw [this]; rfl
  unfold usable
  rw [this]; rfl

/-- C52: a valid string with one bit flipped is rejected unless the flipped bit is one of check bits 1-7 (then the ICD
considers the data as correct). -/
theorem c52_single_flip (buf buf' : List Byte) (q : Nat) (h : 11 ≤ buf'.length) (hv : ValidString (strBit buf))
    (h1 : 1 ≤ q) (h85 : q ≤ 85) (hf : ∀ b, 1 ≤ b → b ≤ 85 → strBit buf' b = flip (strBit buf) q b) :
    gloTest buf' = .ok (decide (q ≤ 7)) := by
  rw [gloTest_ok buf' h, usable_congr hf]
  have := single_table ⟨q, by omega⟩ h1
  unfold usable
  rw [sums_single hv]
  unfold usableSums at this
  dsimp only at this
  dsimp only
  rw [this]

/-- C52: a valid string with any two bits flipped is rejected. -/
theorem c52_double_flip (buf buf' : List Byte) (q r : Nat) (h : 11 ≤ buf'.length) (hv : ValidString (strBit buf))
    (q1 : 1 ≤ q) (q85 : q ≤ 85) (r1 : 1 ≤ r) (r85 : r ≤ 85) (hne : q ≠ r)
    (hf : ∀ b, 1 ≤ b → b ≤ 85 → strBit buf' b = flip (flip (strBit buf) q) r b) :
    gloTest buf' = .ok false := by
  rw [gloTest_ok buf' h, usable_congr hf]
  have := double_table ⟨q, by omega⟩ ⟨r, by omega⟩ q1 r1 (by intro hh; injection hh; exact hne ‹_›)
  unfold usable
  rw [sums_double hv]
  unfold usableSums column at this
  rw [List.zipWith_map, List.zipWith_self] at this
  dsimp only at this
  dsimp only
  rw [this]

/-- C52: bits after the 85 of the string do not matter. -/
theorem c52_padding (buf buf' : List Byte) (h : 11 ≤ buf.length) (h' : 11 ≤ buf'.length)
    (hf : ∀ b, 1 ≤ b → b ≤ 85 → strBit buf' b = strBit buf b) : gloTest buf' = gloTest buf := by
  rw [gloTest_ok buf h, gloTest_ok buf' h', usable_congr hf]

/-- C52: a message whose string may not be used has no effect, now or later. -/
theorem c52_rejected_ignored (md : Mode) (n : Nav) (junk : List Byte) (m : Sfrbx) (ops : List NavOp)
    (hm : (NavOp.sfrbx junk m).WF) (hglo : m.gnssId = GLONASS) (hu : usable (gloBit m.dwrd) = false) :
    (n.run md (.sfrbx junk m :: ops)).map (·.2) = (n.run md ops).map (fun r => [] :: r.2) := by
  obtain ⟨n', h1, h2⟩ := unseen_step (md := md) (n := n) (junk := junk) hglo (by rw [hm.2]; omega)
    (fun hh => by rw [hh.2.2] at hu; cases hu)
  exact skip_run h1 h2

/-- The valid string `glo2`, and `glo2bad`, which is rejected. -/
example : usable (gloBit glo2) = true ∧ usable (gloBit glo2bad) = false ∧ glo2bad.length = 40 ∧
    (∀ s ∈ checkSets, checksum (gloBit glo2) s = false) ∧
    (∀ b : Fin 86, 1 ≤ b.val → gloBit glo2bad b.val = flip (gloBit glo2) 64 b.val) := by
  decide +kernel

/-! ## C53, C54, C55 -/

/-- C53: every GLONASS callback happens on a string 4, after strings 1, 2, 3 of that satellite with the same time mark,
with no string of that satellite with another time mark in between.  (And, C55, it reports exactly what is in them,
to each registered callback once.) -/
theorem c53_single_frame (md : Mode) (ops : List NavOp) (n n' : Nav) (cs : List (List NavCall)) (junk : List Byte)
    (m : Sfrbx) (c : List NavCall) (hwf : ∀ op ∈ ops, op.WF) (hm : (NavOp.sfrbx junk m).WF)
    (hrun : Nav.init.run md ops = .ok (n, cs)) (hglo : m.gnssId = GLONASS)
    (hstep : n.step md (.sfrbx junk m) = .ok (n', c)) (hc : c ≠ []) :
    usable (gloBit m.dwrd) = true ∧ gloNum m.dwrd = 4 ∧
    ∃ suf x1 x2 x3 g, CurrentFrame m.svId (timed md Nav.init ops) (gloMark m.dwrd) suf ∧
      latestG 1 (heard m.svId suf) = some x1 ∧ latestG 2 (heard m.svId suf) = some x2 ∧
      latestG 3 (heard m.svId suf) = some x3 ∧
      c = greportTo (gephCbCount ops) g ∧ CarriesGlo g m.svId m.freqId x1.2 x2.2 x3.2 m.dwrd := by
  obtain ⟨r, hr, hcall, nx⟩ := step_glo hglo hstep
  have hlen : 16 ≤ m.dwrd.length := by rw [hm.2]; omega
  have hcb : n.gephCbs = gephCbCount ops := by
    rw [(run_ephCbs hrun).2]; show 0 + _ = _; omega
  by_cases hs : Seen n.gpsTime m.svId m.dwrd
  · obtain ⟨suf, hsuf⟩ := exists_currentFrame m.svId (gloMark m.dwrd) (timed md Nav.init ops)
    obtain ⟨d1, d2⟩ := decode_coll hlen hs (gcoll_run md m.svId hs.1 ops n cs hwf hrun) hr
    rw [frame_current hsuf] at d1 d2
    rcases d2 with ⟨a, -, -⟩ | ⟨a, -, k4, x1, x2, x3, e1, e2, e3, e4, i1, i2, i3, -⟩
    · rw [hcall, a] at hc; exact absurd rfl hc
    · refine ⟨hs.2.2, k4, suf, x1, x2, x3, r.geph, hsuf, ?_, ?_, ?_, by rw [hcall, a, gephCalls_one, hcb], ?_⟩
      · rw [latestG_snoc, if_neg (by dsimp only; omega)] at e1; exact e1
      · rw [latestG_snoc, if_neg (by dsimp only; omega)] at e2; exact e2
      · rw [latestG_snoc, if_neg (by dsimp only; omega)] at e3; exact e3
      · obtain ⟨p1, p2, p3⟩ := d1.c1 _ e1
        obtain ⟨q1, q2, q3, q4, q5⟩ := d1.c2 _ e2
        obtain ⟨r1, r2, r3, r4⟩ := d1.c3 _ e3
        obtain ⟨s1, s2, s3, s4⟩ := d1.c4 _ e4
        exact ⟨i1, by rw [i2, hglo], i3, p1, p2, p3, q1, q2, q3, q4, q5, r1, r2, r3, r4, s1, s2, s3, s4⟩
  · obtain ⟨r', e1, -, e3⟩ := decodeGlonass_unseen (md := md) (gn := m.gnssId) (fr := m.freqId) hlen _ hs
    have hr := Except.ok.inj (e1.symm.trans hr); subst hr
    rw [hcall, e3] at hc; exact absurd rfl hc

/-- C54: if the reference times at the latest strings `late` of the frame, among them a string 1 and a string 2, and now were good
and differ by at most `D` seconds, less than half a day, the reported times are the instants closest to the present one (so within
half a day of it) with the transmitted Moscow times of day.  The times of day may exceed a day (the fields allow up to 115410 s)
as long as that does not use up the tolerance. -/
theorem c54_times_closest (md : Mode) (ops : List NavOp) (n n' : Nav) (cs : List (List NavCall)) (junk : List Byte)
    (m : Sfrbx) (i : Nat) (g : GEph) (c : List NavCall) (suf : List (NavOp × UTCTime)) (early late : List (UTCTime × List Byte))
    (x1 x2 : UTCTime × List Byte) (hwf : ∀ op ∈ ops, op.WF) (hm : (NavOp.sfrbx junk m).WF)
    (hrun : Nav.init.run md ops = .ok (n, cs)) (hglo : m.gnssId = GLONASS)
    (hstep : n.step md (.sfrbx junk m) = .ok (n', c)) (hc : NavCall.geph i g ∈ c)
    (hsuf : CurrentFrame m.svId (timed md Nav.init ops) (gloMark m.dwrd) suf) (hlate : heard m.svId suf = early ++ late)
    (h1 : latestG 1 late = some x1) (h2 : latestG 2 late = some x2) (D : Int) (hD : D ≤ 43199)
    (hT : Refs D (n.gpsTime :: late.map Prod.fst)) :
    (frameTod x1.2 + D ≤ 129600 → ClosestTod n.gpsTime g.tof (frameTod x1.2)) ∧
    (ephTod x2.2 + D ≤ 129600 → ClosestTod n.gpsTime g.toe (ephTod x2.2)) := by
  obtain ⟨r, hr, hcall, nx⟩ := step_glo hglo hstep
  have hlen : 16 ≤ m.dwrd.length := by rw [hm.2]; omega
  by_cases hs : Seen n.gpsTime m.svId m.dwrd
  · obtain ⟨d1, d2⟩ := decode_coll hlen hs (gcoll_run md m.svId hs.1 ops n cs hwf hrun) hr
    rw [frame_current hsuf] at d1 d2
    rcases d2 with ⟨a, -, -⟩ | ⟨a, -, k4, y1, y2, y3, e1, e2, e3, e4, i1, i2, i3, ht⟩
    · rw [hcall, a] at hc; cases hc
    · rw [hcall, a, gephCalls_one] at hc
      have hg : g = r.geph := by
        unfold greportTo at hc
        rw [List.mem_map] at hc
        obtain ⟨j, -, hj⟩ := hc
        injection hj with _ hj; exact hj.symm
      rw [hg]
      have hsince : ∀ k x, k ≠ 4 → latestG k late = some x →
          Since k (n.gpsTime :: late.map Prod.fst) (heard m.svId suf ++ [(n.gpsTime, m.dwrd)]) x := by
        intro k x hk hx
        refine ⟨early, late ++ [(n.gpsTime, m.dwrd)], by rw [hlate, List.append_assoc], ?_, ?_⟩
        · intro y hy
          rw [List.mem_append, List.mem_singleton] at hy
          rcases hy with hy | rfl
          · exact List.mem_cons_of_mem _ (List.mem_map_of_mem hy)
          · exact List.mem_cons_self
        · rw [latestG_snoc, if_neg (by dsimp only; omega)]; exact hx
      exact ⟨(ht _ D x1 hT hD).1 (hsince 1 x1 (by omega) h1), (ht _ D x2 hT hD).2 (hsince 2 x2 (by omega) h2)⟩
  · obtain ⟨r', e1, -, e3⟩ := decodeGlonass_unseen (md := md) (gn := m.gnssId) (fr := m.freqId) hlen _ hs
    have hr := Except.ok.inj (e1.symm.trans hr); subst hr
    rw [hcall, e3] at hc; cases hc

/-- C55: when a usable string 4 arrives for a known satellite with the reference time set, and strings 1, 2, 3 have been
heard in the same frame, every registered callback is called once with exactly the values in the latest strings. -/
theorem c55_exact (md : Mode) (ops : List NavOp) (n n' : Nav) (cs : List (List NavCall)) (junk : List Byte)
    (m : Sfrbx) (c : List NavCall) (suf : List (NavOp × UTCTime)) (x1 x2 x3 : UTCTime × List Byte)
    (hwf : ∀ op ∈ ops, op.WF) (hm : (NavOp.sfrbx junk m).WF)
    (hrun : Nav.init.run md ops = .ok (n, cs)) (hglo : m.gnssId = GLONASS) (h255 : m.svId ≠ 255)
    (htime : n.gpsTime ≠ ⟨0, 0⟩) (hu : usable (gloBit m.dwrd) = true) (h4 : gloNum m.dwrd = 4)
    (hsuf : CurrentFrame m.svId (timed md Nav.init ops) (gloMark m.dwrd) suf)
    (h1 : latestG 1 (heard m.svId suf) = some x1) (h2 : latestG 2 (heard m.svId suf) = some x2)
    (h3 : latestG 3 (heard m.svId suf) = some x3)
    (hstep : n.step md (.sfrbx junk m) = .ok (n', c)) :
    ∃ g, c = greportTo (gephCbCount ops) g ∧ CarriesGlo g m.svId m.freqId x1.2 x2.2 x3.2 m.dwrd := by
  obtain ⟨r, hr, hcall, nx⟩ := step_glo hglo hstep
  have hlen : 16 ≤ m.dwrd.length := by rw [hm.2]; omega
  have hcb : n.gephCbs = gephCbCount ops := by
    rw [(run_ephCbs hrun).2]; show 0 + _ = _; omega
  have hs : Seen n.gpsTime m.svId m.dwrd := ⟨h255, htime, hu⟩
  obtain ⟨d1, d2⟩ := decode_coll hlen hs (gcoll_run md m.svId hs.1 ops n cs hwf hrun) hr
  rw [frame_current hsuf] at d1 d2
  have e1 : latestG 1 (heard m.svId suf ++ [(n.gpsTime, m.dwrd)]) = some x1 := by
    rw [latestG_snoc, if_neg (by dsimp only; omega)]; exact h1
  have e2 : latestG 2 (heard m.svId suf ++ [(n.gpsTime, m.dwrd)]) = some x2 := by
    rw [latestG_snoc, if_neg (by dsimp only; omega)]; exact h2
  have e3 : latestG 3 (heard m.svId suf ++ [(n.gpsTime, m.dwrd)]) = some x3 := by
    rw [latestG_snoc, if_neg (by dsimp only; omega)]; exact h3
  rcases d2 with ⟨-, -, a⟩ | ⟨a, -, k4, y1, y2, y3, -, -, -, e4, i1, i2, i3, -⟩
  · exact absurd ⟨h4, by rw [e1]; rfl, by rw [e2]; rfl, by rw [e3]; rfl⟩ a
  · refine ⟨r.geph, by rw [hcall, a, gephCalls_one, hcb], ?_⟩
    obtain ⟨p1, p2, p3⟩ := d1.c1 _ e1
    obtain ⟨q1, q2, q3, q4, q5⟩ := d1.c2 _ e2
    obtain ⟨r1, r2, r3, r4⟩ := d1.c3 _ e3
    obtain ⟨s1, s2, s3, s4⟩ := d1.c4 _ e4
    exact ⟨i1, by rw [i2, hglo], i3, p1, p2, p3, q1, q2, q3, q4, q5, r1, r2, r3, r4, s1, s2, s3, s4⟩

/-- C53-C55: the current frame always exists. -/
theorem c53_frame_exists (s : Byte) (mark : Nat) (xs : List (NavOp × UTCTime)) : ∃ suf, CurrentFrame s xs mark suf :=
  exists_currentFrame s mark xs

/-- C55: with a reference time between 1970 and 2038 no GLONASS message is undefined, apart from the missing return
statements (which is why this is about the lenient mode; see C61). -/
theorem c55_total (n : Nav) (junk : List Byte) (m : Sfrbx) (hm : (NavOp.sfrbx junk m).WF) (hglo : m.gnssId = GLONASS)
    (hT : 0 ≤ n.gpsTime.sec ∧ n.gpsTime.sec ≤ 2147000000) :
    ∃ n' c, n.step .lenient (.sfrbx junk m) = .ok (n', c) := by
  obtain ⟨r, hr⟩ := decode_total (gn := m.gnssId) (sv := m.svId) (fr := m.freqId) (d := m.dwrd) (n.gcur m.svId)
    (by rw [hm.2]; omega) hT
  obtain ⟨n', h4, nx⟩ := (convertGlo_spec .lenient n m).1 _ hr
  refine ⟨n', gephCalls n.gephCbs r.reports, ?_⟩
  unfold Nav.step convertUBX
  dsimp only
  rw [if_pos hglo, h4, ok_bind]

/-- A GLONASS message of satellite `s` on channel `f - 7`. -/
def gloMsg (s f : Byte) (d : List Byte) : NavOp := .sfrbx (List.replicate 30 0) ⟨6, s, f, d⟩

/-- The GLONASS ephemerides in the callbacks of a run. -/
def gshown (f : GEph → Int) (md : Mode) (ops : List NavOp) : Option (List (List Int)) :=
  match callsAfter md ops with
  | .ok cs => some (cs.map (·.filterMap fun | .geph _ g => some (f g) | .eph _ _ => none))
  | .error _ => none

/-- A concrete case of C53-C55: the frame of satellite 3 (in any order, string 4 last, another satellite and string 5 in
between) is reported to both callbacks; a string of another time mark in between prevents that. -/
example :
    gshown (·.vel0.raw) .lenient [.setTime ⟨1700000000, 0⟩, .addGephCb, .addGephCb, gloMsg 3 8 glo2, gloMsg 3 8 glo1,
      gloMsg 4 8 glo3other, gloMsg 3 8 glo5, gloMsg 3 8 glo3, gloMsg 3 8 glo4] =
      some [[], [], [], [], [], [], [], [], [-1234567, -1234567]] ∧
    gshown (·.toe.sec) .lenient [.setTime ⟨1700000000, 0⟩, .addGephCb, gloMsg 3 8 glo2, gloMsg 3 8 glo1, gloMsg 3 8 glo3,
      gloMsg 3 8 glo4] = some [[], [], [], [], [], [1700000000 - 28700]] ∧
    gshown (·.frq) .lenient [.setTime ⟨1700000000, 0⟩, .addGephCb, gloMsg 3 8 glo2, gloMsg 3 8 glo1, gloMsg 3 8 glo3other,
      gloMsg 3 8 glo4] = some [[], [], [], [], [], []] := by
  decide +kernel

/-- The hypotheses about the frame are met by it. -/
example : CurrentFrame 3 (timed .lenient Nav.init [.setTime ⟨1700000000, 0⟩, gloMsg 3 8 glo1, gloMsg 3 8 glo2,
      gloMsg 3 8 glo3]) (gloMark glo4)
      (timed .lenient Nav.init [.setTime ⟨1700000000, 0⟩, gloMsg 3 8 glo1, gloMsg 3 8 glo2, gloMsg 3 8 glo3]) ∧
    heard 3 (timed .lenient Nav.init [.setTime ⟨1700000000, 0⟩, gloMsg 3 8 glo1, gloMsg 3 8 glo2, gloMsg 3 8 glo3]) =
      [(⟨1700000000, 0⟩, glo1), (⟨1700000000, 0⟩, glo2), (⟨1700000000, 0⟩, glo3)] ∧
    GoodRef ⟨1700000000, 0⟩ := by
  have h : heard 3 (timed .lenient Nav.init [.setTime ⟨1700000000, 0⟩, gloMsg 3 8 glo1, gloMsg 3 8 glo2, gloMsg 3 8 glo3]) =
      [(⟨1700000000, 0⟩, glo1), (⟨1700000000, 0⟩, glo2), (⟨1700000000, 0⟩, glo3)] := by decide +kernel
  refine ⟨⟨[], rfl, ?_, ?_⟩, h, ⟨by decide, by decide⟩, by decide⟩
  · rw [h]; decide +kernel
  · intro y hy; cases hy

/-! ## C56 -/

/-- C56: while the reference time is unset, or for the unknown satellite 255, a GLONASS message has no effect, now or
later: it makes no callback, and every continuation makes the same callbacks as without it. -/
theorem c56_ignored (md : Mode) (n : Nav) (junk : List Byte) (m : Sfrbx) (ops : List NavOp)
    (hm : (NavOp.sfrbx junk m).WF) (hglo : m.gnssId = GLONASS) (h : n.gpsTime = ⟨0, 0⟩ ∨ m.svId = 255) :
    (n.run md (.sfrbx junk m :: ops)).map (·.2) = (n.run md ops).map (fun r => [] :: r.2) := by
  obtain ⟨n', h1, h2⟩ := unseen_step (md := md) (n := n) (junk := junk) hglo (by rw [hm.2]; omega)
    (fun hh => h.elim hh.2.1 hh.1)
  exact skip_run h1 h2

/-- C56 at work: three strings before the time is set are lost. -/
example : gshown (·.frq) .strict [.addGephCb, gloMsg 3 8 glo1, gloMsg 3 8 glo2, gloMsg 3 8 glo3, gloMsg 255 8 glo4] =
      some [[], [], [], [], []] ∧
    gshown (·.frq) .lenient [.addGephCb, gloMsg 3 8 glo1, gloMsg 3 8 glo2, gloMsg 3 8 glo3, .setTime ⟨1700000000, 0⟩,
      gloMsg 3 8 glo4] = some [[], [], [], [], [], []] := by
  decide +kernel

end Ublox.Nav
