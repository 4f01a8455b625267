import Verif.Model.RosEph
import Verif.Lemmas.NavStrict
import Verif.Props.Time
import Verif.Props.NavGps

/-!
# C90: what the ROS node would publish for an ephemeris
-/

namespace Ublox.Ros

open Nav

/-- The instant fits the two `uint32_t` of a ROS time stamp. -/
def TimeFits (t : UTCTime) : Prop := 0 ≤ t.sec ∧ t.sec < 4294967296 ∧ 0 ≤ t.nsec ∧ t.nsec < 4294967296

/-- Every member fits the message member it is copied to. -/
structure EphFits (e : Eph) : Prop where
  iodc : e.iodc < 65536
  iode : e.iode < 256
  week : e.week < 65536
  toes : e.toes ≤ 1048560
  tocs : e.tocs ≤ 1048560
  health : e.health < 256
  alert : e.alert < 256
  codeOnL2 : e.codeOnL2 < 256
  ura : e.ura < 256
  l2p : e.l2p < 256
  fit : e.fit < 256
  toe : TimeFits e.toe
  toc : TimeFits e.toc

theorem getBit_lt {buf : List Byte} {p n v : Nat} (h : getBit n buf p = .ok v) (h1 : 1 ≤ n := by decide)
    (h2 : n ≤ 56 := by decide) : v < 2 ^ n := by
  rw [c35_getBit n p buf h1 h2] at h
  split at h
  · injection h with h; subst h; exact bitsVal_lt _ _ _
  · cases h

theorem fits_fresh : EphFits Eph.fresh :=
  ⟨by decide, by decide, by decide, by decide, by decide, by decide, by decide, by decide, by decide, by decide, by decide,
   by refine ⟨?_, ?_, ?_, ?_⟩ <;> decide, by refine ⟨?_, ?_, ?_, ?_⟩ <;> decide⟩

theorem fits_sub1 {b : List Byte} {e e' : Eph} (hf : EphFits e) (h : sub1 b e = .ok e') : EphFits e' := by
  unfold sub1 at h
  iterate 12
    rw [bind_ok] at h
    obtain ⟨_, _, h⟩ := h
  rename_i week h1 code h2 ura h3 health h4 iodc0 h5 l2p h6 tgd h7 iode h8 tocs h9 af2 h10 af1 h11 af0 h12
  have q1 := getBit_lt h1
  have q2 := getBit_lt h2
  have q3 := getBit_lt h3
  have q4 := getBit_lt h4
  have q5 := getBit_lt h5
  have q6 := getBit_lt h6
  have q8 := getBit_lt h8
  have q9 := getBit_lt h9
  have := Except.ok.inj h
  rw [← this]
  exact ⟨show iodc0 * 256 + iode < 65536 by omega, show iode < 256 by omega, show week + 2048 < 65536 by omega, hf.toes,
    show tocs * 16 ≤ 1048560 by omega, show health < 256 by omega, show 0 < 256 by omega, show code < 256 by omega,
    show ura < 256 by omega, show l2p < 256 by omega, hf.fit, hf.toe, hf.toc⟩

theorem fits_sub2 {b : List Byte} {e e' : Eph} (hf : EphFits e) (h : sub2 b e = .ok e') : EphFits e' := by
  unfold sub2 at h
  iterate 10
    rw [bind_ok] at h
    obtain ⟨_, _, h⟩ := h
  rename_i iode h1 crs h2 deltaN h3 m0 h4 cuc h5 ecc h6 cus h7 sqrta h8 toes h9 fit h10
  have q1 := getBit_lt h1
  have q9 := getBit_lt h9
  have := Except.ok.inj h
  rw [← this]
  exact ⟨hf.iodc, show iode < 256 by omega, hf.week, show toes * 16 ≤ 1048560 by omega, hf.tocs, hf.health, hf.alert,
    hf.codeOnL2, hf.ura, hf.l2p, show (if fit ≠ 0 then 0 else 4) < 256 by split <;> omega, hf.toe, hf.toc⟩

theorem fits_sub3 {b : List Byte} {e e' : Eph} (hf : EphFits e) (h : sub3 b e = .ok e') : EphFits e' := by
  unfold sub3 at h
  iterate 9
    rw [bind_ok] at h
    obtain ⟨_, _, h⟩ := h
  have := Except.ok.inj h
  rw [← this]
  exact ⟨hf.iodc, hf.iode, hf.week, hf.toes, hf.tocs, hf.health, hf.alert, hf.codeOnL2, hf.ura, hf.l2p, hf.fit, hf.toe,
    hf.toc⟩

/-- A conversion that does not overflow, of a whole number of seconds, gives a time stamp after 1980 and before 2106. -/
theorem fits_fromGPS {w : Int} {s : Nat} {t : UTCTime} (hw : 0 ≤ w) (hs : s ≤ 1048560)
    (h : UTCTime.fromGPS w ((s * 1000 : Nat) : Int) = .ok t) : TimeFits t ∧ 315964818 ≤ t.sec ∧ t.sec ≤ 2463448465 ∧ t.nsec = 0 := by
  unfold UTCTime.fromGPS at h
  rw [bind_ok] at h
  obtain ⟨a, ha, h⟩ := h
  rw [bind_ok] at h
  obtain ⟨b, hb, h⟩ := h
  have ha' : a = w * 604800 ∧ a ≤ 2147483647 := by
    unfold UTCTime.int32 at ha
    split at ha
    · rename_i hh
      have := Except.ok.inj ha
      exact ⟨this.symm, by rw [← this]; exact hh.2⟩
    · cases ha
  have e1 : (((s * 1000 : Nat) : Int)).tdiv 1000 = s := by
    rw [Int.tdiv_eq_ediv_of_nonneg (by omega)]; omega
  have e2 : (((s * 1000 : Nat) : Int)).tmod 1000 = 0 := by
    rw [Int.tmod_eq_emod_of_nonneg (by omega)]; omega
  rw [e1] at hb
  have hb' : b = a + s ∧ b ≤ 2147483647 := by
    unfold UTCTime.int32 at hb
    split at hb
    · rename_i hh
      have := Except.ok.inj hb
      exact ⟨this.symm, by rw [← this]; exact hh.2⟩
    · cases hb
  have := Except.ok.inj h
  rw [e2] at this
  have e3 : t = ⟨b + 315964818, 0⟩ := by
    rw [← this]; simp [UTCTime.wrapNsec, UTCTime.GPS_UTC_OFFSET, UTCTime.E9]
  rw [e3]
  refine ⟨⟨?_, ?_, ?_, ?_⟩, ?_, ?_, ?_⟩ <;> dsimp only <;> omega

theorem bmod_small {s : Nat} (hs : s ≤ 1048560) : ((s * 1000 : Nat) : Int).bmod (2 ^ 32) = ((s * 1000 : Nat) : Int) := by
  rw [Int.bmod_eq_of_le] <;> push_cast <;> omega

theorem fits_finish {t : UTCTime} {e : Eph} {o : GpsOut} (hf : EphFits e) (h : gpsFinish t e = .ok o) :
    EphFits o.eph ∧ (∀ r ∈ o.reports, EphFits r) ∧
      (o.gpsTime = t ∨ (315964818 ≤ o.gpsTime.sec ∧ o.gpsTime.sec ≤ 2463448465 ∧ o.gpsTime.nsec = 0)) := by
  unfold gpsFinish at h
  split at h
  · rw [bind_ok] at h
    obtain ⟨toe, h1, h⟩ := h
    rw [bind_ok] at h
    obtain ⟨toc, h2, h⟩ := h
    rw [bmod_small hf.toes] at h1
    rw [bmod_small hf.tocs] at h2
    obtain ⟨a1, a2⟩ := fits_fromGPS (by omega) hf.toes h1
    obtain ⟨b1, -⟩ := fits_fromGPS (by omega) hf.tocs h2
    have := Except.ok.inj h
    rw [← this]
    refine ⟨⟨hf.iodc, hf.iode, hf.week, hf.toes, hf.tocs, hf.health, hf.alert, hf.codeOnL2, hf.ura, hf.l2p, hf.fit, a1, b1⟩,
      fun r hr => ?_, .inr a2⟩
    rw [List.mem_singleton.1 hr]
    exact ⟨hf.iodc, hf.iode, hf.week, hf.toes, hf.tocs, hf.health, hf.alert, hf.codeOnL2, hf.ura, hf.l2p, hf.fit, a1, b1⟩
  · have := Except.ok.inj h
    rw [← this]
    exact ⟨hf, fun _ hr => (List.not_mem_nil hr).elim, .inl rfl⟩

theorem fits_gps {junk d : List Byte} {t : UTCTime} {e : Eph} {o : GpsOut} (hf : EphFits e)
    (h : decodeGPS junk t d e = .ok o) :
    EphFits o.eph ∧ (∀ r ∈ o.reports, EphFits r) ∧
      (o.gpsTime = t ∨ (315964818 ≤ o.gpsTime.sec ∧ o.gpsTime.sec ≤ 2463448465 ∧ o.gpsTime.nsec = 0)) := by
  have hf0 : EphFits { e with gnssID := 0 } :=
    ⟨hf.iodc, hf.iode, hf.week, hf.toes, hf.tocs, hf.health, hf.alert, hf.codeOnL2, hf.ura, hf.l2p, hf.fit, hf.toe, hf.toc⟩
  unfold decodeGPS at h
  dsimp only at h
  rw [bind_ok] at h
  obtain ⟨sf, -, h⟩ := h
  rw [bind_ok] at h
  obtain ⟨b5, -, h⟩ := h
  split at h
  · have := Except.ok.inj h
    rw [← this]; exact ⟨hf0, fun _ hr => (List.not_mem_nil hr).elim, .inl rfl⟩
  · split at h
    · rw [bind_ok] at h
      obtain ⟨e1, h1, h⟩ := h
      exact fits_finish (fits_sub1 hf0 h1) h
    · rw [bind_ok] at h
      obtain ⟨e1, h1, h⟩ := h
      exact fits_finish (fits_sub2 hf0 h1) h
    · rw [bind_ok] at h
      obtain ⟨e1, h1, h⟩ := h
      exact fits_finish (fits_sub3 hf0 h1) h
    · have := Except.ok.inj h
      rw [← this]; exact ⟨hf0, fun _ hr => (List.not_mem_nil hr).elim, .inl rfl⟩

theorem fits_inav {b : List Byte} {e e' : Eph} {g : Bool} (hf : EphFits e) (h : galInav b e = .ok (e', g)) : EphFits e' := by
  unfold galInav at h
  rw [bind_ok] at h; obtain ⟨_, -, h⟩ := h
  rw [bind_ok] at h; obtain ⟨_, -, h⟩ := h
  rw [bind_ok] at h; obtain ⟨week, hwk, h⟩ := h
  rw [bind_ok] at h; obtain ⟨tow, htow, h⟩ := h
  rw [bind_ok] at h; obtain ⟨_, -, h⟩ := h
  rw [bind_ok] at h; obtain ⟨iod0, hiod, h⟩ := h
  rw [bind_ok] at h; obtain ⟨toes, htoes, h⟩ := h
  iterate 22
    rw [bind_ok] at h
    obtain ⟨_, -, h⟩ := h
  rw [bind_ok] at h; obtain ⟨toc, htoc, h⟩ := h
  iterate 10
    rw [bind_ok] at h
    obtain ⟨_, -, h⟩ := h
  have q1 := getBitRt_lt hwk
  have q3 := getBitRt_lt hiod
  have q4 := getBitRt_lt htoes
  have q5 := getBitRt_lt htoc
  dsimp only at h
  split at h
  · have := (Prod.mk.inj (Except.ok.inj h)).1
    rw [← this]
    exact ⟨hf.iodc, hf.iode, hf.week, show toes * 60 ≤ 1048560 by omega, hf.tocs, hf.health, hf.alert, hf.codeOnL2, hf.ura, hf.l2p, hf.fit, hf.toe, hf.toc⟩
  split at h
  · have := (Prod.mk.inj (Except.ok.inj h)).1
    rw [← this]
    exact ⟨hf.iodc, hf.iode, hf.week, show toes * 60 ≤ 1048560 by omega, hf.tocs, hf.health, hf.alert, hf.codeOnL2, hf.ura, hf.l2p, hf.fit, hf.toe, hf.toc⟩
  split at h
  · have := (Prod.mk.inj (Except.ok.inj h)).1
    rw [← this]
    exact ⟨hf.iodc, hf.iode, hf.week, show toes * 60 ≤ 1048560 by omega, hf.tocs, hf.health, hf.alert, hf.codeOnL2, hf.ura, hf.l2p, hf.fit, hf.toe, hf.toc⟩
  · rw [bind_ok] at h
    obtain ⟨ttr, -, h⟩ := h
    rw [bind_ok] at h
    obtain ⟨t, -, h⟩ := h
    generalize hw1 : (if secGt (t.sub ttr) 302400 = true then (week : Int) - 1 else if secLt (t.sub ttr) (-302400) = true then (week : Int) + 1 else (week : Int)) = w1 at h
    have hw1' : -1 ≤ w1 ∧ w1 ≤ 4096 := by
      rw [← hw1]; split
      · omega
      · split <;> omega
    rw [bind_ok] at h
    obtain ⟨t1, h1, h⟩ := h
    rw [bind_ok] at h
    obtain ⟨t2, h2, h⟩ := h
    obtain ⟨a1, -⟩ := fits_fromGPS (s := toes * 60) (by omega) (by omega) h1
    obtain ⟨b1, -⟩ := fits_fromGPS (s := toc * 60) (by omega) (by omega) h2
    have := (Prod.mk.inj (Except.ok.inj h)).1
    rw [← this]
    exact ⟨show iod0 < 65536 by omega, show iod0 % 256 < 256 by omega, show ((w1 + 1024) % 65536).toNat < 65536 by omega,
      show toes * 60 ≤ 1048560 by omega, hf.tocs, hf.health, hf.alert, hf.codeOnL2, hf.ura, hf.l2p, hf.fit, a1, b1⟩

theorem fits_galileo {md : Mode} {d row : List Byte} {e : Eph} {o : GalOut} (hf : EphFits e)
    (h : decodeGalileo md d row e = .ok o) : EphFits o.eph ∧ ∀ r ∈ o.reports, EphFits r := by
  have triv : ∀ {row : List Byte} {b : Bool}, (Except.ok ⟨row, e, [], b⟩ : M GalOut) = .ok o →
      EphFits o.eph ∧ ∀ r ∈ o.reports, EphFits r := by
    intro row b h
    have := Except.ok.inj h
    rw [← this]; exact ⟨hf, fun _ hr => (List.not_mem_nil hr).elim⟩
  unfold decodeGalileo at h
  iterate 5
    rw [bind_ok] at h
    obtain ⟨_, -, h⟩ := h
  split at h
  · exact triv h
  split at h
  · exact triv h
  iterate 4
    rw [bind_ok] at h
    obtain ⟨_, -, h⟩ := h
  split at h
  · exact triv h
  rw [bind_ok] at h
  obtain ⟨_, -, h⟩ := h
  split at h
  · exact triv h
  split at h
  · cases h
  unfold galAccept at h
  iterate 5
    rw [bind_ok] at h
    obtain ⟨_, -, h⟩ := h
  split at h
  · exact triv h
  rw [bind_ok] at h
  obtain ⟨⟨e1, g⟩, h1, h⟩ := h
  have hf1 := fits_inav hf h1
  dsimp only at h
  split at h
  · have := Except.ok.inj h
    rw [← this]; exact ⟨hf1, fun _ hr => (List.not_mem_nil hr).elim⟩
  · rw [bind_ok] at h
    obtain ⟨_, -, h⟩ := h
    have := Except.ok.inj h
    rw [← this]
    exact ⟨hf1, fun r hr => by rw [List.mem_singleton.1 hr]; exact hf1⟩

/-! ### GLONASS -/

/-- A whole second that fits a ROS time stamp. -/
def WholeFits (t : UTCTime) : Prop := 0 ≤ t.sec ∧ t.sec < 4294967296 ∧ t.nsec = 0

theorem WholeFits.fits {t : UTCTime} (h : WholeFits t) : TimeFits t :=
  ⟨h.1, h.2.1, by have := h.2.2; omega, by have := h.2.2; omega⟩

/-- Every member fits the message member it is copied to. -/
structure GEphFits (g : GEph) : Prop where
  iode : g.iode < 256
  frq : -7 ≤ g.frq ∧ g.frq < 256
  svh : g.svh < 256
  sva : g.sva < 256
  age : g.age < 256
  toe : WholeFits g.toe
  tof : WholeFits g.tof

/-- A reference time the user may set: normalised, after 2 January 1970 and before 2106. -/
def GoodTime (t : UTCTime) : Prop := 172800 ≤ t.sec ∧ t.sec ≤ 4294000000 ∧ 0 ≤ t.nsec ∧ t.nsec < 1000000000

theorem gfits_fresh (s : Byte) : GEphFits { GEph.fresh with sat := s } :=
  ⟨show 0 < 256 by omega, ⟨show (-7 : Int) ≤ 0 by omega, show (0 : Int) < 256 by omega⟩, show 0 < 256 by omega,
   show 0 < 256 by omega, show 0 < 256 by omega,
   ⟨show (0 : Int) ≤ 0 by omega, show (0 : Int) < 4294967296 by omega, rfl⟩,
   ⟨show (0 : Int) ≤ 0 by omega, show (0 : Int) < 4294967296 by omega, rfl⟩⟩

theorem fits_tod {ref t : UTCTime} {s : Nat} (hr : GoodTime ref) (hs : s ≤ 120000)
    (h : UTCTime.fromGlonassTimeOfDay ref ((s * 1000 : Nat) : Int) = .ok t) : WholeFits t := by
  obtain ⟨r1, r2, -, -⟩ := hr
  have hW : ref.glonassWeek = (ref.sec + 10800) / 604800 := by
    unfold UTCTime.glonassWeek UTCTime.GLO_UTC_OFFSET UTCTime.SEC_IN_WEEK
    rw [Int.tdiv_eq_ediv_of_nonneg (by omega)]; congr 1
  have hD : ref.glonassDayOfWeek = (ref.sec + 10800) % 604800 / 86400 := by
    unfold UTCTime.glonassDayOfWeek UTCTime.GLO_UTC_OFFSET UTCTime.SEC_IN_WEEK UTCTime.SEC_IN_DAY
    rw [Int.tmod_eq_emod_of_nonneg (by omega), Int.tdiv_eq_ediv_of_nonneg (by omega)]; congr 1
  generalize hw : ref.glonassWeek = w at *
  generalize hd : ref.glonassDayOfWeek = d at *
  have hd0 : 0 ≤ d ∧ d ≤ 6 := by omega
  unfold UTCTime.fromGlonassTimeOfDay UTCTime.fromGlonass at h
  rw [hw, hd] at h
  have hb : (d * UTCTime.SEC_IN_DAY * 1000 + ((s * 1000 : Nat) : Int)).bmod (2 ^ 32) = (d * 86400 + s) * 1000 := by
    have e : d * UTCTime.SEC_IN_DAY * 1000 + ((s * 1000 : Nat) : Int) = (d * 86400 + s) * 1000 := by
      unfold UTCTime.SEC_IN_DAY; push_cast; ring
    rw [e, Int.bmod_eq_of_le] <;> push_cast <;> omega
  rw [hb, bind_ok] at h
  obtain ⟨a, ha, h⟩ := h
  have ha' : a = w * 604800 ∧ a ≤ 2147483647 := by
    unfold UTCTime.int32 at ha
    split at ha
    · rename_i hh
      have := Except.ok.inj ha
      exact ⟨this.symm, by rw [← this]; exact hh.2⟩
    · cases ha
  have e1 : ((d * 86400 + s) * 1000 : Int).tdiv 1000 = d * 86400 + s := by
    rw [Int.tdiv_eq_ediv_of_nonneg (by omega)]; omega
  have e2 : ((d * 86400 + s) * 1000 : Int).tmod 1000 = 0 := by
    rw [Int.tmod_eq_emod_of_nonneg (by omega)]; omega
  rw [e1, e2] at h
  have := Except.ok.inj h
  have e3 : t = ⟨a + (d * 86400 + s) - 10800, 0⟩ := by
    rw [← this]; simp [UTCTime.wrapNsec, UTCTime.GLO_UTC_OFFSET, UTCTime.E9]; omega
  rw [e3]
  refine ⟨?_, ?_, rfl⟩ <;> dsimp only <;> omega

theorem fits_dayWrap {ref t : UTCTime} (hr : GoodTime ref) (ht : WholeFits t) : WholeFits (dayWrap ref t) := by
  obtain ⟨r1, r2, r3, r4⟩ := hr
  obtain ⟨t1, t2, t3⟩ := ht
  have key : (ref.sub t).sec * 1000000000 + (ref.sub t).nsec = (ref.sec - t.sec) * 1000000000 + ref.nsec := by
    have : (ref.sub t) = UTCTime.wrapNsec ⟨ref.sec - t.sec, ref.nsec - t.nsec⟩ := rfl
    rw [this, t3]
    unfold UTCTime.wrapNsec UTCTime.E9
    dsimp only
    split
    · dsimp only; omega
    · split <;> dsimp only <;> omega
  unfold dayWrap
  split
  · rename_i hg
    unfold secGt UTCTime.E9 at hg
    have := of_decide_eq_true hg
    refine ⟨?_, ?_, t3⟩ <;> show _ <;> simp only [UTCTime.addIntAssign] <;> omega
  · split
    · rename_i hl
      unfold secLt UTCTime.E9 at hl
      have := of_decide_eq_true hl
      refine ⟨?_, ?_, t3⟩ <;> show _ <;> simp only [UTCTime.subIntAssign] <;> omega
    · exact ⟨t1, t2, t3⟩

theorem fits_frame {md : Mode} {t : UTCTime} {num : Nat} {b : List Byte} {g g' : GEph} (hr : GoodTime t) (hf : GEphFits g)
    (h : gloFrame md t num b g = .ok g') : GEphFits g' := by
  unfold gloFrame at h
  split at h
  · unfold gloFrame1 at h
    rw [bind_ok] at h; obtain ⟨x1, h1, h⟩ := h
    rw [bind_ok] at h; obtain ⟨x2, h2, h⟩ := h
    rw [bind_ok] at h; obtain ⟨x3, h3, h⟩ := h
    iterate 3
      rw [bind_ok] at h
      obtain ⟨_, -, h⟩ := h
    rw [bind_ok] at h; obtain ⟨tof, h4, h⟩ := h
    rw [bind_ok] at h; obtain ⟨_, -, h⟩ := h
    have q1 := getBit_lt h1
    have q2 := getBit_lt h2
    have q3 := getBit_lt h3
    have := fits_tod (s := x1 * 3600 + x2 * 60 + x3 * 30) hr (by omega) h4
    have e := Except.ok.inj h
    rw [← e]
    exact ⟨hf.iode, hf.frq, hf.svh, hf.sva, hf.age, hf.toe, this⟩
  · unfold gloFrame2 at h
    rw [bind_ok] at h; obtain ⟨x1, h1, h⟩ := h
    rw [bind_ok] at h; obtain ⟨x2, h2, h⟩ := h
    iterate 3
      rw [bind_ok] at h
      obtain ⟨_, -, h⟩ := h
    rw [bind_ok] at h; obtain ⟨toe, h4, h⟩ := h
    rw [bind_ok] at h; obtain ⟨_, -, h⟩ := h
    have q1 := getBit_lt h1
    have q2 := getBit_lt h2
    have := fits_tod (s := x2 * 60 * 15) hr (by omega) h4
    have e := Except.ok.inj h
    rw [← e]
    exact ⟨show x2 < 256 by omega, hf.frq, show x1 < 256 by omega, hf.sva, hf.age, this, hf.tof⟩
  · unfold gloFrame3 at h
    iterate 5
      rw [bind_ok] at h
      obtain ⟨_, -, h⟩ := h
    have e := Except.ok.inj h
    rw [← e]
    exact ⟨hf.iode, hf.frq, hf.svh, hf.sva, hf.age, hf.toe, hf.tof⟩
  · unfold gloFrame4 at h
    rw [bind_ok] at h; obtain ⟨x1, -, h⟩ := h
    rw [bind_ok] at h; obtain ⟨x2, -, h⟩ := h
    rw [bind_ok] at h; obtain ⟨x3, h3, h⟩ := h
    rw [bind_ok] at h; obtain ⟨x4, h4, h⟩ := h
    rw [bind_ok] at h; obtain ⟨_, -, h⟩ := h
    have q3 := getBit_lt h3
    have q4 := getBit_lt h4
    have e := Except.ok.inj h
    rw [← e]
    exact ⟨hf.iode, hf.frq, hf.svh, show x4 < 256 by omega, show x3 < 256 by omega, hf.toe, hf.tof⟩

theorem fits_string {md : Mode} {t : UTCTime} {b : List Byte} {g g' : GEph} {r : Bool} (hr : GoodTime t) (hf : GEphFits g)
    (h : gloString md t b g = .ok (g', r)) : GEphFits g' := by
  unfold gloString at h
  rw [bind_ok] at h
  obtain ⟨num, -, h⟩ := h
  split at h
  · rw [← (Prod.mk.inj (Except.ok.inj h)).1]; exact hf
  · rw [bind_ok] at h
    obtain ⟨g1, h1, h⟩ := h
    have hf1 := fits_frame hr hf h1
    split at h
    · rw [← (Prod.mk.inj (Except.ok.inj h)).1]; exact hf1
    · rw [← (Prod.mk.inj (Except.ok.inj h)).1]
      exact ⟨hf1.iode, hf1.frq, hf1.svh, hf1.sva, hf1.age, fits_dayWrap hr hf1.toe, fits_dayWrap hr hf1.tof⟩

theorem fits_glonass {md : Mode} {t : UTCTime} {gn sv fr : Byte} {d : List Byte} {g : GEph} {o : GloOut}
    (hr : t = ⟨0, 0⟩ ∨ GoodTime t) (hf : GEphFits g) (h : decodeGlonass md t gn sv fr d g = .ok o) :
    GEphFits o.geph ∧ ∀ r ∈ o.reports, GEphFits r := by
  unfold decodeGlonass at h
  split at h
  · have e := Except.ok.inj h
    rw [← e]; exact ⟨hf, fun _ hr => (List.not_mem_nil hr).elim⟩
  split at h
  · have e := Except.ok.inj h
    rw [← e]; exact ⟨hf, fun _ hr => (List.not_mem_nil hr).elim⟩
  · rename_i hne
    have hr : GoodTime t := hr.resolve_left fun e => hne (by rw [e]; decide)
    rw [bind_ok] at h
    obtain ⟨b, -, h⟩ := h
    rw [bind_ok] at h
    obtain ⟨good, -, h⟩ := h
    split at h
    · have e := Except.ok.inj h
      rw [← e]; exact ⟨hf, fun _ hr => (List.not_mem_nil hr).elim⟩
    · rw [bind_ok] at h
      obtain ⟨b12, -, h⟩ := h
      rw [bind_ok] at h
      obtain ⟨b13, -, h⟩ := h
      dsimp only at h
      rw [bind_ok] at h
      obtain ⟨⟨g3, done⟩, h1, h⟩ := h
      have hf2 : GEphFits g3 := by
        refine fits_string hr ?_ h1
        split
        · exact ⟨hf.iode, hf.frq, hf.svh, hf.sva, hf.age, hf.toe, hf.tof⟩
        · exact ⟨hf.iode, hf.frq, hf.svh, hf.sva, hf.age, hf.toe, hf.tof⟩
      dsimp only at h
      split at h
      · have e := Except.ok.inj h
        rw [← e]; exact ⟨hf2, fun _ hr => (List.not_mem_nil hr).elim⟩
      · have e := Except.ok.inj h
        have hl := fr.isLt
        have hf3 : GEphFits { g3 with frq := (fr.toNat : Int) - 7, sat := sv, gnssID := gn } :=
          ⟨hf2.iode, ⟨show -7 ≤ (fr.toNat : Int) - 7 by omega, show (fr.toNat : Int) - 7 < 256 by omega⟩, hf2.svh, hf2.sva,
            hf2.age, hf2.toe, hf2.tof⟩
        rw [← e]
        exact ⟨hf3, fun r hr => by rw [List.mem_singleton.1 hr]; exact hf3⟩

/-! ### Histories -/

/-- What is kept along a history. -/
structure NavFits (n : Nav) : Prop where
  eph : ∀ e ∈ n.eph, EphFits e
  geph : ∀ g ∈ n.geph, GEphFits g
  time : n.gpsTime = ⟨0, 0⟩ ∨ GoodTime n.gpsTime

theorem mem_set' {α : Type} {l : List α} {i : Nat} {a x : α} (h : x ∈ l.set i a) : x ∈ l ∨ x = a :=
  (List.mem_or_eq_of_mem_set h)

theorem fits_ephTail {md : Mode} {junk : List Byte} {n : Nav} {m : Sfrbx} {o : NavOut} {ephs : List Eph} {i : Nat}
    (hf : NavFits n) (hm : ∀ e ∈ ephs, EphFits e)
    (h : (match ephs[i]? with
      | none => .error .oobRead
      | some e0 =>
        let e := { e0 with sat := m.svId, gnssID := m.gnssId }
        if m.gnssId = 0 then do
          let o ← decodeGPS junk n.gpsTime m.dwrd e
          .ok ⟨{ n with eph := ephs.set i o.eph, gpsTime := o.gpsTime }, ephCalls n.ephCbs o.reports, some o.ret⟩
        else if m.gnssId = 2 then do
          let o ← decodeGalileo md m.dwrd (n.gal m.svId.toNat) e
          .ok ⟨{ n with eph := ephs.set i o.eph,
                        gal := fun s => if s = m.svId.toNat then o.row else n.gal s },
               ephCalls n.ephCbs o.reports, some o.ret⟩
        else do
          offEnd md
          .ok ⟨{ n with eph := ephs.set i e }, [], none⟩ : M NavOut) = .ok o) :
    NavFits o.nav ∧ (∀ i e, .eph i e ∈ o.calls → EphFits e) ∧ ∀ i g, .geph i g ∉ o.calls := by
  cases hi : ephs[i]? with
  | none => rw [hi] at h; cases h
  | some e0 =>
    rw [hi] at h
    have h0 := hm e0 (List.mem_of_getElem? hi)
    have hf0 : EphFits { e0 with sat := m.svId, gnssID := m.gnssId } :=
      ⟨h0.iodc, h0.iode, h0.week, h0.toes, h0.tocs, h0.health, h0.alert, h0.codeOnL2, h0.ura, h0.l2p, h0.fit, h0.toe, h0.toc⟩
    have hset : ∀ {e' : Eph}, EphFits e' → ∀ e ∈ ephs.set i e', EphFits e := by
      intro e' h' e he
      rcases mem_set' he with he | he
      · exact hm e he
      · rw [he]; exact h'
    have hcalls : ∀ {rs : List Eph}, (∀ r ∈ rs, EphFits r) →
        (∀ i e, NavCall.eph i e ∈ ephCalls n.ephCbs rs → EphFits e) ∧ ∀ i g, NavCall.geph i g ∉ ephCalls n.ephCbs rs := by
      intro rs hrs
      refine ⟨fun i e he => ?_, fun i g hg => ?_⟩
      · obtain ⟨r, hr, he⟩ := List.mem_flatMap.1 he
        obtain ⟨j, -, he⟩ := List.mem_map.1 he
        injection he with _ he
        rw [← he]; exact hrs r hr
      · obtain ⟨r, hr, he⟩ := List.mem_flatMap.1 hg
        obtain ⟨j, -, he⟩ := List.mem_map.1 he
        cases he
    dsimp only at h
    split at h
    · rw [bind_ok] at h
      obtain ⟨r, hr, h⟩ := h
      obtain ⟨a, b, c⟩ := fits_gps hf0 hr
      have e := Except.ok.inj h
      rw [← e]
      refine ⟨⟨hset a, hf.geph, ?_⟩, hcalls b⟩
      rcases c with c | ⟨c1, c2, c3⟩
      · show r.gpsTime = _ ∨ GoodTime r.gpsTime
        rw [c]; exact hf.time
      · exact .inr ⟨by show 172800 ≤ r.gpsTime.sec; omega, by show r.gpsTime.sec ≤ 4294000000; omega,
          by show 0 ≤ r.gpsTime.nsec; omega, by show r.gpsTime.nsec < 1000000000; omega⟩
    · split at h
      · rw [bind_ok] at h
        obtain ⟨r, hr, h⟩ := h
        obtain ⟨a, b⟩ := fits_galileo hf0 hr
        have e := Except.ok.inj h
        rw [← e]
        exact ⟨⟨hset a, hf.geph, hf.time⟩, hcalls b⟩
      · rw [bind_ok] at h
        obtain ⟨_, -, h⟩ := h
        have e := Except.ok.inj h
        rw [← e]
        exact ⟨⟨hset hf0, hf.geph, hf.time⟩, fun _ _ hh => (List.not_mem_nil hh).elim, fun _ _ hh => (List.not_mem_nil hh).elim⟩

theorem fits_convertEph {md : Mode} {junk : List Byte} {n : Nav} {m : Sfrbx} {o : NavOut} (hf : NavFits n)
    (h : convertEph md junk n m = .ok o) : NavFits o.nav ∧ (∀ i e, .eph i e ∈ o.calls → EphFits e) ∧
      ∀ i g, .geph i g ∉ o.calls := by
  unfold convertEph at h
  cases hfl : findLast m.svId (n.eph.map (·.sat)) 0 none with
  | some i => rw [hfl] at h; exact fits_ephTail hf hf.eph h
  | none =>
    rw [hfl] at h
    refine fits_ephTail hf (ephs := n.eph ++ [Eph.fresh]) (fun e he => ?_) h
    rcases List.mem_append.1 he with he | he
    · exact hf.eph e he
    · rw [List.mem_singleton.1 he]; exact fits_fresh

theorem fits_gloTail {md : Mode} {n : Nav} {m : Sfrbx} {o : NavOut} {gephs : List GEph} {i : Nat} (hf : NavFits n)
    (hm : ∀ e ∈ gephs, GEphFits e)
    (h : (match gephs[i]? with
      | none => .error .oobRead
      | some g => do
        let o ← decodeGlonass md n.gpsTime m.gnssId m.svId m.freqId m.dwrd g
        .ok ⟨{ n with geph := gephs.set i o.geph }, gephCalls n.gephCbs o.reports, some o.ret⟩ : M NavOut) = .ok o) :
    NavFits o.nav ∧ (∀ i e, .eph i e ∉ o.calls) ∧ ∀ i g, .geph i g ∈ o.calls → GEphFits g := by
  cases hi : gephs[i]? with
  | none => rw [hi] at h; cases h
  | some e0 =>
    rw [hi] at h
    have h0 := hm e0 (List.mem_of_getElem? hi)
    dsimp only at h
    rw [bind_ok] at h
    obtain ⟨r, hr, h⟩ := h
    obtain ⟨a, b⟩ := fits_glonass hf.time h0 hr
    have e := Except.ok.inj h
    rw [← e]
    refine ⟨⟨hf.eph, fun e he => ?_, hf.time⟩, fun i g hg => ?_, fun i g hg => ?_⟩
    · rcases mem_set' he with he | he
      · exact hm e he
      · rw [he]; exact a
    · obtain ⟨r, hr, he⟩ := List.mem_flatMap.1 hg
      obtain ⟨j, -, he⟩ := List.mem_map.1 he
      cases he
    · obtain ⟨r, hr, he⟩ := List.mem_flatMap.1 hg
      obtain ⟨j, -, he⟩ := List.mem_map.1 he
      injection he with _ he
      rw [← he]; exact b r hr

theorem fits_convertGlo {md : Mode} {n : Nav} {m : Sfrbx} {o : NavOut} (hf : NavFits n)
    (h : convertGlo md n m = .ok o) : NavFits o.nav ∧ (∀ i e, .eph i e ∉ o.calls) ∧
      ∀ i g, .geph i g ∈ o.calls → GEphFits g := by
  unfold convertGlo at h
  cases hfl : findLast m.svId (n.geph.map (·.sat)) 0 none with
  | some i => rw [hfl] at h; exact fits_gloTail hf hf.geph h
  | none =>
    rw [hfl] at h
    refine fits_gloTail hf (gephs := n.geph ++ [{ GEph.fresh with sat := m.svId }]) (fun e he => ?_) h
    rcases List.mem_append.1 he with he | he
    · exact hf.geph e he
    · rw [List.mem_singleton.1 he]; exact gfits_fresh _

/-- The user sets only reasonable reference times. -/
def GoodOp : NavOp → Prop
  | .setTime t => GoodTime t
  | _ => True

theorem fits_step {md : Mode} {n n' : Nav} {op : NavOp} {c : List NavCall} (hop : GoodOp op) (hf : NavFits n)
    (h : n.step md op = .ok (n', c)) : NavFits n' ∧ (∀ i e, .eph i e ∈ c → EphFits e) ∧ ∀ i g, .geph i g ∈ c → GEphFits g := by
  cases op with
  | setTime t =>
    obtain ⟨e1, e2⟩ := Prod.mk.inj (Except.ok.inj h)
    rw [← e1, ← e2]
    exact ⟨⟨hf.eph, hf.geph, .inr hop⟩, fun _ _ hh => (List.not_mem_nil hh).elim, fun _ _ hh => (List.not_mem_nil hh).elim⟩
  | addEphCb =>
    obtain ⟨e1, e2⟩ := Prod.mk.inj (Except.ok.inj h)
    rw [← e1, ← e2]
    exact ⟨⟨hf.eph, hf.geph, hf.time⟩, fun _ _ hh => (List.not_mem_nil hh).elim, fun _ _ hh => (List.not_mem_nil hh).elim⟩
  | addGephCb =>
    obtain ⟨e1, e2⟩ := Prod.mk.inj (Except.ok.inj h)
    rw [← e1, ← e2]
    exact ⟨⟨hf.eph, hf.geph, hf.time⟩, fun _ _ hh => (List.not_mem_nil hh).elim, fun _ _ hh => (List.not_mem_nil hh).elim⟩
  | sfrbx junk m =>
    unfold Nav.step at h
    rw [bind_ok] at h
    obtain ⟨o, ho, h⟩ := h
    obtain ⟨e1, e2⟩ := Prod.mk.inj (Except.ok.inj h)
    rw [← e1, ← e2]
    unfold convertUBX at ho
    split at ho
    · obtain ⟨a, b, c⟩ := fits_convertGlo hf ho
      exact ⟨a, fun i e he => absurd he (b i e), c⟩
    · obtain ⟨a, b, c⟩ := fits_convertEph hf ho
      exact ⟨a, b, fun i e he => absurd he (c i e)⟩

theorem fits_init : NavFits Nav.init :=
  ⟨fun _ h => (List.not_mem_nil h).elim, fun _ h => (List.not_mem_nil h).elim, .inl rfl⟩

theorem fits_run {md : Mode} (ops : List NavOp) : ∀ {n n' : Nav} {cs : List (List NavCall)}, (∀ op ∈ ops, GoodOp op) →
    NavFits n → n.run md ops = .ok (n', cs) →
    NavFits n' ∧ ∀ c ∈ cs, (∀ i e, .eph i e ∈ c → EphFits e) ∧ ∀ i g, .geph i g ∈ c → GEphFits g := by
  induction ops with
  | nil =>
    intro n n' cs _ hf h
    rw [run_nil] at h
    rw [h.1, h.2]
    exact ⟨hf, fun _ h => (List.not_mem_nil h).elim⟩
  | cons op ops ih =>
    intro n n' cs hg hf h
    rw [run_cons] at h
    obtain ⟨n1, c, cs', h1, h2, h3⟩ := h
    obtain ⟨a, b⟩ := fits_step (hg op (by simp)) hf h1
    obtain ⟨a', b'⟩ := ih (fun o ho => hg o (by simp [ho])) a h2
    refine ⟨a', fun x hx => ?_⟩
    rw [h3] at hx
    rcases List.mem_cons.1 hx with rfl | hx
    · exact b
    · exact b' x hx

/-! ### The property -/

/-- The message carries every value of the ephemeris. -/
structure EphMsg.Carries (m : EphMsg) (e : Eph) : Prop where
  sat : m.sat = e.sat.toNat
  gnssID : m.gnssID = e.gnssID.toNat
  toe : (m.toeSec : Int) = e.toe.sec ∧ (m.toeNsec : Int) = e.toe.nsec
  toc : (m.tocSec : Int) = e.toc.sec ∧ (m.tocNsec : Int) = e.toc.nsec
  iodc : m.iodc = e.iodc
  iode : m.iode = e.iode
  week : m.week = e.week
  toes : m.toes = e.toes
  tocs : m.tocs = e.tocs
  health : m.health = e.health
  alertFlag : m.alertFlag = e.alert
  codeOnL2 : m.codeOnL2 = e.codeOnL2
  ura : m.ura = e.ura
  l2p : m.l2PDataFlag = e.l2p
  fit : m.fitIntervalFlag = e.fit
  tgd : m.tgd = [e.tgd0, e.tgd1, e.tgd2, e.tgd3]
  clock : m.af0 = e.af0 ∧ m.af1 = e.af1 ∧ m.af2 = e.af2
  orbit : m.m0 = e.m0 ∧ m.deltaN = e.deltaN ∧ m.ecc = e.ecc ∧ m.sqrta = e.sqrta ∧ m.omega0 = e.omega0 ∧ m.i0 = e.i0 ∧
    m.w = e.w ∧ m.omegadot = e.omegadot ∧ m.idot = e.idot
  harmonics : m.cuc = e.cuc ∧ m.cus = e.cus ∧ m.crc = e.crc ∧ m.crs = e.crs ∧ m.cic = e.cic ∧ m.cis = e.cis

/-- The message carries every value of the GLONASS ephemeris. -/
structure GEphMsg.Carries (m : GEphMsg) (g : GEph) : Prop where
  sat : m.sat = g.sat.toNat
  gnssID : m.gnssID = g.gnssID.toNat
  toe : (m.toeSec : Int) = g.toe.sec ∧ (m.toeNsec : Int) = g.toe.nsec
  tof : (m.tofSec : Int) = g.tof.sec ∧ (m.tofNsec : Int) = g.tof.nsec
  iode : m.iode = g.iode
  frq : m.frq = g.frq
  svh : m.svh = g.svh
  sva : m.sva = g.sva
  age : m.age = g.age
  pos : m.pos = [g.pos0, g.pos1, g.pos2]
  vel : m.vel = [g.vel0, g.vel1, g.vel2]
  acc : m.acc = [g.acc0, g.acc1, g.acc2]
  clock : m.taun = g.taun ∧ m.gamn = g.gamn ∧ m.dtaun = g.dtaun

theorem uN_eq (n : Nat) {x : Nat} (h : x < 2 ^ n) : uN n x = x := by
  unfold uN
  rw [show ((x : Int) % 2 ^ n) = x from Int.emod_eq_of_lt (by omega) (by exact_mod_cast h)]
  omega

theorem uN32 {x : Int} (h0 : 0 ≤ x) (h : x < 4294967296) : (uN 32 x : Int) = x := by
  unfold uN
  omega

theorem i32_eq {x : Int} (h0 : -7 ≤ x) (h : x < 256) : i32 x = x := by
  unfold i32
  rw [Int.bmod_eq_of_le] <;> omega

theorem i32_nat {x : Nat} (h : x < 256) : i32 (x : Int) = x := i32_eq (by omega) (by omega)

attribute [local irreducible] i32 uN in
/-- **C90.** Whatever SFRBX messages were received before and whatever (reasonable) reference times were set, for every
ephemeris the decoder reports the messages of the ROS node carry every one of its values unchanged: nothing is truncated by
the narrower message members, time stamps included. -/
theorem c90_published (md : Mode) (ops : List NavOp) (n : Nav) (cs : List (List NavCall)) (hops : ∀ op ∈ ops, GoodOp op)
    (hrun : Nav.init.run md ops = .ok (n, cs)) :
    (∀ c ∈ cs, ∀ i e, .eph i e ∈ c → (ephMsg e).Carries e) ∧ ∀ c ∈ cs, ∀ i g, .geph i g ∈ c → (gephMsg g).Carries g := by
  obtain ⟨-, h⟩ := fits_run ops hops fits_init hrun
  refine ⟨fun c hc i e he => ?_, fun c hc i g hg => ?_⟩
  · have f := (h c hc).1 i e he
    have hs := e.sat.isLt
    have hg := e.gnssID.isLt
    exact ⟨uN_eq 8 hs, uN_eq 8 hg, ⟨uN32 f.toe.1 f.toe.2.1, uN32 f.toe.2.2.1 f.toe.2.2.2⟩,
      ⟨uN32 f.toc.1 f.toc.2.1, uN32 f.toc.2.2.1 f.toc.2.2.2⟩, uN_eq 16 f.iodc, uN_eq 8 f.iode, uN_eq 16 f.week,
      uN_eq 32 (by have := f.toes; omega), uN_eq 32 (by have := f.tocs; omega), uN_eq 8 f.health, uN_eq 8 f.alert,
      uN_eq 8 f.codeOnL2, uN_eq 8 f.ura, uN_eq 8 f.l2p, uN_eq 8 f.fit, rfl, ⟨rfl, rfl, rfl⟩,
      ⟨rfl, rfl, rfl, rfl, rfl, rfl, rfl, rfl, rfl⟩, ⟨rfl, rfl, rfl, rfl, rfl, rfl⟩⟩
  · have f := (h c hc).2 i g hg
    have hs := g.sat.isLt
    have hg := g.gnssID.isLt
    have t1 := f.toe.fits
    have t2 := f.tof.fits
    exact ⟨uN_eq 8 hs, uN_eq 8 hg, ⟨uN32 t1.1 t1.2.1, uN32 t1.2.2.1 t1.2.2.2⟩,
      ⟨uN32 t2.1 t2.2.1, uN32 t2.2.2.1 t2.2.2.2⟩, i32_nat (x := g.iode) f.iode, i32_eq (x := g.frq) f.frq.1 f.frq.2,
      i32_nat (x := g.svh) f.svh, i32_nat (x := g.sva) f.sva,
      i32_nat (x := g.age) f.age, rfl, rfl, rfl, ⟨rfl, rfl, rfl⟩⟩

open Data in
/-- The hypotheses are met: the user sets the time, registers a callback, and three GPS subframes of satellite 7 lead to one
reported ephemeris. -/
example : (∀ op ∈ [.setTime ⟨1600000000, 5⟩, .addEphCb, gps 7 gps1, gps 7 gps2, gps 7 gps3], GoodOp op) ∧
    (callsAfter .strict [.setTime ⟨1600000000, 5⟩, .addEphCb, gps 7 gps1, gps 7 gps2, gps 7 gps3]).map
      (·.map List.length) = .ok [0, 0, 0, 0, 1] ∧
    shown (fun e => (ephMsg e).week) .strict [.setTime ⟨1600000000, 5⟩, .addEphCb, gps 7 gps1, gps 7 gps2, gps 7 gps3] =
      shown (fun e => e.week) .strict [.setTime ⟨1600000000, 5⟩, .addEphCb, gps 7 gps1, gps 7 gps2, gps 7 gps3] := by
  refine ⟨fun op h => ?_, by decide +kernel, by decide +kernel⟩
  simp only [List.mem_cons, List.not_mem_nil, or_false] at h
  rcases h with rfl | rfl | rfl | rfl | rfl
  · exact ⟨by decide, by decide, by decide, by decide⟩
  all_goals trivial

end Ublox.Ros
