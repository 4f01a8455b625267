import Verif.Model.Ros
import Verif.Spec.Ros
import Verif.Props.Msgs
import Verif.Props.Tables
import Verif.Lemmas.Base
import Mathlib.Tactic.NormNum
import Mathlib.Tactic.Linarith
import Mathlib.Tactic.Positivity
import Mathlib.Tactic.FieldSimp

/-!
# C66, C67, C79-C84, C86: the ROS node, `convertUBX`, the rover example
-/

namespace Ublox.Ros

open MsgSpec RosSpec

/-! ## C79: PositionVelocityTime -/

theorem doc_pvt {name : String} {f : Field} (h : MsgSpec.navPvt.find? (fun f => f.name = name) = some f) (p : List Byte) :
    navPvt.get name p = doc MsgSpec.navPvt name p := by
  unfold doc
  rw [h]
  have hn : f.name = name := by simpa using List.find?_some h
  rw [← hn]
  exact (c78_nav_pvt f (List.mem_of_find?_eq_some h) p).1

/-- **C79.** For every NAV-PVT payload, the published message carries the documented fields in the units of the message
definition: degrees, metres, metres per second. -/
theorem c79_pvt (s : Node) (p : List Byte) :
    ∃ s' out rest, gotUbx s 0x01 0x07 p = .ok (s', .pvt out :: rest) ∧
      out.year = doc MsgSpec.navPvt "year" p ∧ out.month = doc MsgSpec.navPvt "month" p ∧
      out.day = doc MsgSpec.navPvt "day" p ∧ out.hour = doc MsgSpec.navPvt "hour" p ∧
      out.min = doc MsgSpec.navPvt "min" p ∧ out.sec = doc MsgSpec.navPvt "sec" p ∧
      out.nano = doc MsgSpec.navPvt "nano" p ∧ out.tAcc = doc MsgSpec.navPvt "tAcc" p ∧
      out.valid = doc MsgSpec.navPvt "valid" p ∧ out.fixType = doc MsgSpec.navPvt "fixType" p ∧
      out.flags = doc MsgSpec.navPvt "flags" p ∧ out.flags2 = doc MsgSpec.navPvt "flags2" p ∧
      out.numSV = doc MsgSpec.navPvt "numSV" p ∧
      out.lla.x = doc MsgSpec.navPvt "lat" p / 10 ^ 7 ∧ out.lla.y = doc MsgSpec.navPvt "lon" p / 10 ^ 7 ∧
      out.lla.z = doc MsgSpec.navPvt "height" p / 10 ^ 3 ∧ out.hMSL = doc MsgSpec.navPvt "hMSL" p / 10 ^ 3 ∧
      out.hAcc = doc MsgSpec.navPvt "hAcc" p / 10 ^ 3 ∧ out.vAcc = doc MsgSpec.navPvt "vAcc" p / 10 ^ 3 ∧
      out.velNED.x = doc MsgSpec.navPvt "velN" p / 10 ^ 3 ∧ out.velNED.y = doc MsgSpec.navPvt "velE" p / 10 ^ 3 ∧
      out.velNED.z = doc MsgSpec.navPvt "velD" p / 10 ^ 3 ∧ out.gSpeed = doc MsgSpec.navPvt "gSpeed" p / 10 ^ 3 ∧
      out.headMot = doc MsgSpec.navPvt "headMot" p / 10 ^ 5 ∧ out.sAcc = doc MsgSpec.navPvt "sAcc" p / 10 ^ 3 ∧
      out.headAcc = doc MsgSpec.navPvt "headAcc" p / 10 ^ 5 ∧ out.pDOP = doc MsgSpec.navPvt "pDOP" p / 100 ∧
      out.headVeh = doc MsgSpec.navPvt "headVeh" p / 10 ^ 5 := by
  have e3 : ∀ a : ℚ, a * 1e-3 = a / 10 ^ 3 := fun a => by norm_num; ring
  have e5 : ∀ a : ℚ, a * 1e-5 = a / 10 ^ 5 := fun a => by norm_num; ring
  have e7 : ∀ a : ℚ, a * 1e-7 = a / 10 ^ 7 := fun a => by norm_num; ring
  have e2 : ∀ a : ℚ, a * 0.01 = a / 100 := fun a => by norm_num; ring
  refine ⟨(pvtCB s p).1, pvtMsg p, _, rfl, ?_⟩
  simp only [pvtMsg, e3, e5, e7, e2]
  have q := fun (name : String) (f : Field) (h : MsgSpec.navPvt.find? (fun f => f.name = name) = some f) => doc_pvt h p
  rw [q "year" _ rfl, q "month" _ rfl, q "day" _ rfl, q "hour" _ rfl, q "min" _ rfl, q "sec" _ rfl, q "nano" _ rfl,
    q "tAcc" _ rfl, q "valid" _ rfl, q "fixType" _ rfl, q "flags" _ rfl, q "flags2" _ rfl, q "numSV" _ rfl,
    q "lat" _ rfl, q "lon" _ rfl, q "height" _ rfl, q "hMSL" _ rfl, q "hAcc" _ rfl, q "vAcc" _ rfl, q "velN" _ rfl,
    q "velE" _ rfl, q "velD" _ rfl, q "gSpeed" _ rfl, q "headMot" _ rfl, q "sAcc" _ rfl, q "headAcc" _ rfl,
    q "pDOP" _ rfl, q "headVeh" _ rfl]
  simp only [and_self]

/-! ## C80: RelPos -/

theorem doc_rel {name : String} {f : Field} (h : MsgSpec.navRelposned.find? (fun f => f.name = name) = some f)
    (p : List Byte) : navRelposned.get name p = doc MsgSpec.navRelposned name p := by
  unfold doc
  rw [h]
  have hn : f.name = name := by simpa using List.find?_some h
  rw [← hn]
  exact (c78_nav_relposned f (List.mem_of_find?_eq_some h) p).1

/-- **C80 (partial).** For every NAV-RELPOSNED payload the published components add up, in metres, to the documented
position (centimetres plus tenths of a millimetre), the accuracies are the documented ones (tenths of a millimetre), the
heading is the documented one in radians, station and flags are copied.  Missing: the heading accuracy
(`c80_refuted`). -/
theorem c80_relpos_partial (s : Node) (p : List Byte) :
    ∃ out, gotUbx s 0x01 0x3C p = .ok (s, [.relpos out]) ∧
      out.refStationId = doc MsgSpec.navRelposned "refStationId" p ∧ out.flags = doc MsgSpec.navRelposned "flags" p ∧
      out.relPosNED.x + out.relPosHPNED.x =
        (100 * doc MsgSpec.navRelposned "relPosN" p + doc MsgSpec.navRelposned "relPosHPN" p : ℚ) / 10 ^ 4 ∧
      out.relPosNED.y + out.relPosHPNED.y =
        (100 * doc MsgSpec.navRelposned "relPosE" p + doc MsgSpec.navRelposned "relPosHPE" p : ℚ) / 10 ^ 4 ∧
      out.relPosNED.z + out.relPosHPNED.z =
        (100 * doc MsgSpec.navRelposned "relPosD" p + doc MsgSpec.navRelposned "relPosHPD" p : ℚ) / 10 ^ 4 ∧
      out.relPosLength + out.relPosHPLength =
        (100 * doc MsgSpec.navRelposned "relPosLength" p + doc MsgSpec.navRelposned "relPosHPLength" p : ℚ) / 10 ^ 4 ∧
      out.accNED.x = doc MsgSpec.navRelposned "accN" p / 10 ^ 4 ∧
      out.accNED.y = doc MsgSpec.navRelposned "accE" p / 10 ^ 4 ∧
      out.accNED.z = doc MsgSpec.navRelposned "accD" p / 10 ^ 4 ∧
      out.accLength = doc MsgSpec.navRelposned "accLength" p / 10 ^ 4 ∧
      out.relPosHeading = doc MsgSpec.navRelposned "relPosHeading" p / 10 ^ 5 * (M_PI / 180) := by
  refine ⟨relposMsg p, by rw [gotUbx, if_pos rfl, if_neg (by decide), if_pos rfl], ?_⟩
  have q := fun (name : String) (f : Field) (h : MsgSpec.navRelposned.find? (fun f => f.name = name) = some f) =>
    doc_rel h p
  simp only [relposMsg, deg2rad]
  rw [q "refStationId" _ rfl, q "flags" _ rfl, q "relPosN" _ rfl, q "relPosE" _ rfl, q "relPosD" _ rfl,
    q "relPosLength" _ rfl, q "relPosHeading" _ rfl, q "relPosHPN" _ rfl, q "relPosHPE" _ rfl, q "relPosHPD" _ rfl,
    q "relPosHPLength" _ rfl, q "accN" _ rfl, q "accE" _ rfl, q "accD" _ rfl, q "accLength" _ rfl]
  refine ⟨rfl, rfl, ?_, ?_, ?_, ?_, ?_, ?_, ?_, ?_, ?_⟩ <;> norm_num <;> ring

/-- **C80 refuted for the heading accuracy.** The message field is an integer number of radians: every accuracy below
57.29 degrees — every usable one — is published as 0. -/
theorem c80_refuted (p : List Byte) (h0 : 0 ≤ doc MsgSpec.navRelposned "accHeading" p)
    (h : doc MsgSpec.navRelposned "accHeading" p ≤ 5729000) : (relposMsg p).accHeading = 0 := by
  simp only [relposMsg, deg2rad]
  rw [doc_rel (name := "accHeading") rfl]
  rw [Int.floor_eq_iff]
  have h0' : (0 : ℚ) ≤ doc MsgSpec.navRelposned "accHeading" p := by exact_mod_cast h0
  have h' : (doc MsgSpec.navRelposned "accHeading" p : ℚ) ≤ 5729000 := by exact_mod_cast h
  unfold M_PI
  constructor
  · push_cast; positivity
  · push_cast
    norm_num
    linarith

example : doc MsgSpec.navRelposned "accHeading" (List.replicate 52 0 ++ [0x40, 0x42, 0x0F, 0x00]) = 1000000 := by
  decide +kernel

/-! ## C81: SurveyStatus -/

theorem doc_svin {name : String} {f : Field} (h : MsgSpec.navSvin.find? (fun f => f.name = name) = some f)
    (p : List Byte) (hpos : f.signed = true → 0 ≤ f.value p) : navSvin.get name p = doc MsgSpec.navSvin name p := by
  unfold doc
  rw [h]
  have hn : f.name = name := by simpa using List.find?_some h
  rw [← hn]
  exact (c78_nav_svin_partial f (List.mem_of_find?_eq_some h) p hpos).1

/-- **C81 (partial).** The survey status carries the documented duration, accuracy, observation count and flags, and,
for coordinates that are not negative, the documented mean position in metres to the centimetre.  Missing: negative
coordinates, and the high-precision part (`c81_refuted`, `c81_sign_refuted`). -/
theorem c81_survey_partial (s : Node) (p : List Byte) :
    ∃ out, gotUbx s 0x01 0x3B p = .ok (s, [.survey out]) ∧
      out.dur = doc MsgSpec.navSvin "dur" p ∧ out.meanAcc = doc MsgSpec.navSvin "meanAcc" p ∧
      out.obs = doc MsgSpec.navSvin "obs" p ∧ out.valid = doc MsgSpec.navSvin "valid" p ∧
      out.active = doc MsgSpec.navSvin "active" p ∧
      (0 ≤ doc MsgSpec.navSvin "meanX" p → out.meanXYZ.x = doc MsgSpec.navSvin "meanX" p / 100) ∧
      (0 ≤ doc MsgSpec.navSvin "meanY" p → out.meanXYZ.y = doc MsgSpec.navSvin "meanY" p / 100) ∧
      (0 ≤ doc MsgSpec.navSvin "meanZ" p → out.meanXYZ.z = doc MsgSpec.navSvin "meanZ" p / 100) := by
  have e2 : ∀ a : ℚ, a * 1e-2 = a / 100 := fun a => by norm_num; ring
  refine ⟨surveyMsg p, by
    rw [gotUbx, if_pos rfl, if_neg (by decide), if_neg (by decide), if_neg (by decide), if_neg (by decide), if_pos rfl],
    doc_svin (name := "dur") rfl p nofun, doc_svin (name := "meanAcc") rfl p nofun,
    doc_svin (name := "obs") rfl p nofun, doc_svin (name := "valid") rfl p nofun,
    doc_svin (name := "active") rfl p nofun, fun h => ?_, fun h => ?_, fun h => ?_⟩
  · simp only [surveyMsg]; rw [doc_svin (name := "meanX") rfl p (fun _ => h), e2]
  · simp only [surveyMsg]; rw [doc_svin (name := "meanY") rfl p (fun _ => h), e2]
  · simp only [surveyMsg]; rw [doc_svin (name := "meanZ") rfl p (fun _ => h), e2]

theorem survey_scale {x hp : ℚ} {a b : ℤ} (h1 : x = a * 1e-2) (h2 : hp = b * 1e-3) :
    x + hp = (100 * a + b : ℚ) / 10 ^ 4 ↔ b = 0 := by
  subst h1 h2
  constructor
  · intro h
    norm_num at h
    have : (b : ℚ) = 0 := by linarith
    exact_mod_cast this
  · intro h
    rw [h]
    norm_num
    ring

/-- **C81 refuted: scale.** Whatever the payload, a published coordinate (mean plus high-precision part) is the
documented one (centimetres plus tenths of a millimetre) only if its high-precision part is zero, for coordinates that
are not negative. -/
theorem c81_refuted (p : List Byte) :
    (0 ≤ doc MsgSpec.navSvin "meanX" p → 0 ≤ doc MsgSpec.navSvin "meanXHP" p →
      ((surveyMsg p).meanXYZ.x + (surveyMsg p).meanXYZHP.x =
        (100 * doc MsgSpec.navSvin "meanX" p + doc MsgSpec.navSvin "meanXHP" p : ℚ) / 10 ^ 4 ↔
      doc MsgSpec.navSvin "meanXHP" p = 0)) ∧
    (0 ≤ doc MsgSpec.navSvin "meanY" p → 0 ≤ doc MsgSpec.navSvin "meanYHP" p →
      ((surveyMsg p).meanXYZ.y + (surveyMsg p).meanXYZHP.y =
        (100 * doc MsgSpec.navSvin "meanY" p + doc MsgSpec.navSvin "meanYHP" p : ℚ) / 10 ^ 4 ↔
      doc MsgSpec.navSvin "meanYHP" p = 0)) ∧
    (0 ≤ doc MsgSpec.navSvin "meanZ" p → 0 ≤ doc MsgSpec.navSvin "meanZHP" p →
      ((surveyMsg p).meanXYZ.z + (surveyMsg p).meanXYZHP.z =
        (100 * doc MsgSpec.navSvin "meanZ" p + doc MsgSpec.navSvin "meanZHP" p : ℚ) / 10 ^ 4 ↔
      doc MsgSpec.navSvin "meanZHP" p = 0)) := by
  refine ⟨fun hx hp => survey_scale ?_ ?_, fun hx hp => survey_scale ?_ ?_, fun hx hp => survey_scale ?_ ?_⟩
  · rw [← doc_svin (name := "meanX") rfl p (fun _ => hx)]; rfl
  · rw [← doc_svin (name := "meanXHP") rfl p (fun _ => hp)]; rfl
  · rw [← doc_svin (name := "meanY") rfl p (fun _ => hx)]; rfl
  · rw [← doc_svin (name := "meanYHP") rfl p (fun _ => hp)]; rfl
  · rw [← doc_svin (name := "meanZ") rfl p (fun _ => hx)]; rfl
  · rw [← doc_svin (name := "meanZHP") rfl p (fun _ => hp)]; rfl

/-- **C81 refuted: sign.** A base at X = -1 cm is published at X = 42,949,672.95 m. -/
theorem c81_sign_refuted :
    doc MsgSpec.navSvin "meanX" (List.replicate 12 0 ++ [0xFF, 0xFF, 0xFF, 0xFF] ++ List.replicate 24 0) = -1 ∧
    (surveyMsg (List.replicate 12 0 ++ [0xFF, 0xFF, 0xFF, 0xFF] ++ List.replicate 24 0)).meanXYZ.x = 42949672.95 := by
  refine ⟨by decide +kernel, ?_⟩
  simp only [surveyMsg]
  rw [show navSvin.get "meanX" (List.replicate 12 0 ++ [0xFF, 0xFF, 0xFF, 0xFF] ++ List.replicate 24 0) = 4294967295 by
    decide +kernel]
  norm_num

example : doc MsgSpec.navSvin "meanXHP" (List.replicate 24 0 ++ [7]) = 7 := by decide +kernel

/-! ## C66: the combined ECEF message -/

/-- The documented position of the last NAV-POSECEF in a history, in centimetres; `init` if there is none. -/
def lastPos (init : V3) (h : List (Byte × Byte × List Byte)) : V3 :=
  h.foldl (fun v m => if m.1 = 0x01 ∧ m.2.1 = 0x01 then
    ⟨doc MsgSpec.navPosecef "ecefX" m.2.2, doc MsgSpec.navPosecef "ecefY" m.2.2, doc MsgSpec.navPosecef "ecefZ" m.2.2⟩
    else v) init

/-- The documented Z velocity of the last NAV-VELECEF in a history. -/
def lastVz (init : ℚ) (h : List (Byte × Byte × List Byte)) : ℚ :=
  h.foldl (fun v m => if m.1 = 0x01 ∧ m.2.1 = 0x11 then (doc MsgSpec.navVelecef "ecefVZ" m.2.2 : ℚ) else v) init

/-- The documented latitude, longitude and height of the last NAV-PVT in a history. -/
def lastLla (init : V3) (h : List (Byte × Byte × List Byte)) : V3 :=
  h.foldl (fun v m => if m.1 = 0x01 ∧ m.2.1 = 0x07 then
    ⟨doc MsgSpec.navPvt "lat" m.2.2 / 10 ^ 7, doc MsgSpec.navPvt "lon" m.2.2 / 10 ^ 7,
      doc MsgSpec.navPvt "height" m.2.2 / 10 ^ 3⟩
    else v) init

/-- The documented horizontal, vertical and speed accuracies (in metres) of the last NAV-PVT in a history. -/
def lastAcc (init : V3) (h : List (Byte × Byte × List Byte)) : V3 :=
  h.foldl (fun v m => if m.1 = 0x01 ∧ m.2.1 = 0x07 then
    ⟨doc MsgSpec.navPvt "hAcc" m.2.2 / 10 ^ 3, doc MsgSpec.navPvt "vAcc" m.2.2 / 10 ^ 3,
      doc MsgSpec.navPvt "sAcc" m.2.2 / 10 ^ 3⟩
    else v) init

/-- The accuracies in a combined message. -/
def accs (e : EcefMsg) : V3 := ⟨e.hAcc, e.vAcc, e.sAcc⟩

/-- The combined messages among the publications. -/
def ecefs (ps : List Pub) : List EcefMsg := ps.filterMap fun | .ecef m => some m | _ => none

theorem doc_pos {name : String} {f : Field} (h : MsgSpec.navPosecef.find? (fun f => f.name = name) = some f)
    (p : List Byte) : navPosecef.get name p = doc MsgSpec.navPosecef name p := by
  unfold doc
  rw [h]
  have hn : f.name = name := by simpa using List.find?_some h
  rw [← hn]
  exact (c78_nav_posecef f (List.mem_of_find?_eq_some h) p).1

theorem doc_vel {name : String} {f : Field} (h : MsgSpec.navVelecef.find? (fun f => f.name = name) = some f)
    (p : List Byte) : navVelecef.get name p = doc MsgSpec.navVelecef name p := by
  unfold doc
  rw [h]
  have hn : f.name = name := by simpa using List.find?_some h
  rw [← hn]
  exact (c78_nav_velecef f (List.mem_of_find?_eq_some h) p).1

theorem ecefs_append (a b : List Pub) : ecefs (a ++ b) = ecefs a ++ ecefs b := by simp [ecefs]

/-- Number of times the condition publishes. -/
def cond (s : Node) : Nat := if s.posTow = s.pvtTow ∧ s.posTow = s.velTow then 1 else 0

theorem ecefs_cond (s : Node) : ecefs (condPub s) = List.replicate (cond s) s.ecef := by
  unfold condPub cond; split <;> rfl

/-- One message: the combined message held and the copies of it published. -/
theorem gotUbx_ecef {s s' : Node} {m : Byte × Byte × List Byte} {ps : List Pub}
    (h : gotUbx s m.1 m.2.1 m.2.2 = .ok (s', ps)) :
    s'.ecef.position = lastPos s.ecef.position [m] ∧
    s'.ecef.velocity = ⟨lastVz s.ecef.velocity.x [m], s.ecef.velocity.y, s.ecef.velocity.z⟩ ∧
    s'.ecef.lla = lastLla s.ecef.lla [m] ∧ s'.pvtTow = s.pvtTow ∧
    (∃ n, ecefs ps = List.replicate n s'.ecef ∧
      (m.1 = 0x01 ∧ (m.2.1 = 0x01 ∨ m.2.1 = 0x11) → n = 1 + cond s') ∧
      (m.1 = 0x01 ∧ m.2.1 = 0x07 → n = cond s') ∧
      (¬ (m.1 = 0x01 ∧ (m.2.1 = 0x01 ∨ m.2.1 = 0x11 ∨ m.2.1 = 0x07)) → n = 0)) := by
  obtain ⟨c, i, p⟩ := m
  dsimp only at h
  have e3 : ∀ a : ℚ, a * 1e-3 = a / 10 ^ 3 := fun a => by norm_num; ring
  have e7 : ∀ a : ℚ, a * 1e-7 = a / 10 ^ 7 := fun a => by norm_num; ring
  have same : ∀ (_ : ¬ (c = 0x01 ∧ (i = 0x01 ∨ i = 0x11 ∨ i = 0x07))) (_ : s' = s) (_ : ecefs ps = []),
      s'.ecef.position = lastPos s.ecef.position [(c, i, p)] ∧
      s'.ecef.velocity = ⟨lastVz s.ecef.velocity.x [(c, i, p)], s.ecef.velocity.y, s.ecef.velocity.z⟩ ∧
      s'.ecef.lla = lastLla s.ecef.lla [(c, i, p)] ∧ s'.pvtTow = s.pvtTow ∧
      (∃ n, ecefs ps = List.replicate n s'.ecef ∧
        (c = 0x01 ∧ (i = 0x01 ∨ i = 0x11) → n = 1 + cond s') ∧
        (c = 0x01 ∧ i = 0x07 → n = cond s') ∧
        (¬ (c = 0x01 ∧ (i = 0x01 ∨ i = 0x11 ∨ i = 0x07)) → n = 0)) := by
    intro hn hs hp
    subst hs
    refine ⟨?_, ?_, ?_, rfl, 0, by rw [hp]; rfl, fun h => absurd ⟨h.1, h.2.elim .inl fun h => .inr (.inl h)⟩ hn,
      fun h => absurd ⟨h.1, .inr (.inr h.2)⟩ hn, fun _ => rfl⟩
    · simp only [lastPos, List.foldl_cons, List.foldl_nil]
      rw [if_neg (fun h => hn ⟨h.1, .inl h.2⟩)]
    · simp only [lastVz, List.foldl_cons, List.foldl_nil]
      rw [if_neg (fun h => hn ⟨h.1, .inr (.inl h.2)⟩)]
    · simp only [lastLla, List.foldl_cons, List.foldl_nil]
      rw [if_neg (fun h => hn ⟨h.1, .inr (.inr h.2)⟩)]
  unfold gotUbx at h
  split at h
  · rename_i hc
    subst hc
    split at h
    · rename_i hi
      subst hi
      obtain ⟨rfl, rfl⟩ := Prod.mk.inj (Except.ok.inj h)
      refine ⟨rfl, rfl, ?_, rfl, cond (pvtCB s p).1, ?_, fun h => (by rcases h.2 with h | h <;> cases h), fun _ => rfl,
        fun h => absurd ⟨rfl, .inr (.inr rfl)⟩ h⟩
      · simp only [lastLla, List.foldl_cons, List.foldl_nil, and_self, if_true]
        show (pvtMsg p).lla = _
        simp only [pvtMsg, e3, e7]
        rw [doc_pvt (name := "lat") rfl, doc_pvt (name := "lon") rfl, doc_pvt (name := "height") rfl]
      · exact ecefs_cond (pvtCB s p).1
    · rename_i hi7
      split at h
      · rename_i hi
        subst hi
        obtain ⟨rfl, rfl⟩ := Prod.mk.inj (Except.ok.inj h)
        exact same (by decide) rfl rfl
      · split at h
        · rename_i hi
          subst hi
          obtain ⟨rfl, rfl⟩ := Prod.mk.inj (Except.ok.inj h)
          refine ⟨?_, rfl, rfl, rfl, 1 + cond (posECEFCB s p).1, ?_, fun _ => rfl, fun h => (by cases h.2),
            fun h => absurd ⟨rfl, .inl rfl⟩ h⟩
          · simp only [lastPos, List.foldl_cons, List.foldl_nil, and_self, if_true]
            rw [← doc_pos (name := "ecefX") rfl, ← doc_pos (name := "ecefY") rfl, ← doc_pos (name := "ecefZ") rfl]
          · show ecefs (condPub (posECEFCB s p).1 ++ [.ecef (posECEFCB s p).1.ecef]) = _
            rw [ecefs_append, ecefs_cond, Nat.add_comm, List.replicate_succ']; rfl
        · rename_i hi1
          split at h
          · rename_i hi
            subst hi
            obtain ⟨rfl, rfl⟩ := Prod.mk.inj (Except.ok.inj h)
            refine ⟨rfl, ?_, rfl, rfl, 1 + cond (velECEFCB s p).1, ?_, fun _ => rfl, fun h => (by cases h.2),
              fun h => absurd ⟨rfl, .inr (.inl rfl)⟩ h⟩
            · simp only [lastVz, List.foldl_cons, List.foldl_nil, and_self, if_true]
              rw [← doc_vel (name := "ecefVZ") rfl]
            · show ecefs (condPub (velECEFCB s p).1 ++ [.ecef (velECEFCB s p).1.ecef]) = _
              rw [ecefs_append, ecefs_cond, Nat.add_comm, List.replicate_succ']; rfl
          · rename_i hi11
            have hno : ¬ ((0x01 : Byte) = 0x01 ∧ (i = 0x01 ∨ i = 0x11 ∨ i = 0x07)) := by
              rintro ⟨-, h | h | h⟩
              · exact hi1 h
              · exact hi11 h
              · exact hi7 h
            split at h <;>
            · obtain ⟨rfl, rfl⟩ := Prod.mk.inj (Except.ok.inj h)
              exact same hno rfl rfl
  · rename_i hc
    have hno : ¬ (c = 0x01 ∧ (i = 0x01 ∨ i = 0x11 ∨ i = 0x07)) := fun h => hc h.1
    split at h
    · split at h
      · unfold obsCB at h
        cases ho : obsLoop p [] 0 (rxmRawx.get "numMeas" p).toNat with
        | error e => rw [ho] at h; cases h
        | ok o =>
          rw [ho, ok_bind] at h
          obtain ⟨rfl, rfl⟩ := Prod.mk.inj (Except.ok.inj h)
          exact same hno rfl rfl
      · obtain ⟨rfl, rfl⟩ := Prod.mk.inj (Except.ok.inj h)
        exact same hno rfl rfl
    · obtain ⟨rfl, rfl⟩ := Prod.mk.inj (Except.ok.inj h)
      exact same hno rfl rfl

theorem run_snoc {s s'' : Node} {h : List (Byte × Byte × List Byte)} {m : Byte × Byte × List Byte} {ps : List Pub}
    (hr : run s (h ++ [m]) = .ok (s'', ps)) :
    ∃ s' ps' p, run s h = .ok (s', ps') ∧ gotUbx s' m.1 m.2.1 m.2.2 = .ok (s'', p) ∧ ps = ps' ++ p := by
  induction h generalizing s ps with
  | nil =>
    obtain ⟨c, i, p⟩ := m
    rw [List.nil_append, run] at hr
    cases hg : gotUbx s c i p with
    | error e => rw [hg] at hr; cases hr
    | ok r =>
      rw [hg] at hr
      obtain ⟨e1, e2⟩ := Prod.mk.inj (Except.ok.inj hr)
      exact ⟨s, [], r.2, rfl, by rw [hg, ← e1], by rw [← e2]; simp⟩
  | cons a h ih =>
    obtain ⟨c, i, p⟩ := a
    rw [List.cons_append, run] at hr
    cases hg : gotUbx s c i p with
    | error e => rw [hg] at hr; cases hr
    | ok r =>
      rw [hg, ok_bind] at hr
      dsimp only at hr
      cases hq : run r.1 (h ++ [m]) with
      | error e => rw [hq] at hr; cases hr
      | ok q =>
        rw [hq] at hr
        obtain ⟨e1, e2⟩ := Prod.mk.inj (Except.ok.inj hr)
        obtain ⟨s', ps', p', h1, h2, h3⟩ := ih (s := r.1) (ps := q.2) (by rw [hq, ← e1])
        refine ⟨s', r.2 ++ ps', p', ?_, h2, ?_⟩
        · rw [run, hg, ok_bind]; dsimp only; rw [h1]; rfl
        · rw [← e2, h3, List.append_assoc]

theorem run_snoc_ok {s s1 s2 : Node} {h : List (Byte × Byte × List Byte)} {m : Byte × Byte × List Byte} {ps p : List Pub}
    (h1 : run s h = .ok (s1, ps)) (h2 : gotUbx s1 m.1 m.2.1 m.2.2 = .ok (s2, p)) :
    ∃ ps', run s (h ++ [m]) = .ok (s2, ps') := by
  induction h generalizing s ps with
  | nil =>
    obtain ⟨rfl, -⟩ := Prod.mk.inj (Except.ok.inj h1)
    obtain ⟨c, i, q⟩ := m
    refine ⟨p ++ [], ?_⟩
    rw [List.nil_append, run, h2]
    rfl
  | cons a h ih =>
    obtain ⟨c, i, q⟩ := a
    rw [run] at h1
    cases hg : gotUbx s c i q with
    | error e => rw [hg] at h1; cases h1
    | ok r =>
      rw [hg, ok_bind] at h1
      dsimp only at h1
      cases hq : run r.1 h with
      | error e => rw [hq] at h1; cases h1
      | ok w =>
        rw [hq] at h1
        obtain ⟨e1, -⟩ := Prod.mk.inj (Except.ok.inj h1)
        obtain ⟨ps', hps⟩ := ih (s := r.1) (ps := w.2) (by rw [hq, ← e1])
        refine ⟨r.2 ++ ps', ?_⟩
        rw [List.cons_append, run, hg, ok_bind]
        dsimp only
        rw [hps]
        rfl

theorem run_ecef (s : Node) (h : List (Byte × Byte × List Byte)) :
    ∀ s' ps, run s h = .ok (s', ps) →
      s'.ecef.position = lastPos s.ecef.position h ∧
      s'.ecef.velocity = ⟨lastVz s.ecef.velocity.x h, s.ecef.velocity.y, s.ecef.velocity.z⟩ ∧
      s'.ecef.lla = lastLla s.ecef.lla h ∧ s'.pvtTow = s.pvtTow := by
  induction h using List.reverseRecOn with
  | nil =>
    intro s' ps hr
    have := (Prod.mk.inj (Except.ok.inj hr)).1
    rw [← this]; exact ⟨rfl, rfl, rfl, rfl⟩
  | append_singleton h m ih =>
    intro s'' ps hr
    obtain ⟨s', ps', p, h1, h2, -⟩ := run_snoc hr
    obtain ⟨a1, a2, a3, a4⟩ := ih _ _ h1
    obtain ⟨b1, b2, b3, b4, -⟩ := gotUbx_ecef h2
    refine ⟨?_, ?_, ?_, b4.trans a4⟩
    · rw [b1, a1]; simp [lastPos, List.foldl_append]
    · rw [b2, a2]; simp [lastVz, List.foldl_append]
    · rw [b3, a3]; simp [lastLla, List.foldl_append]

theorem gotUbx_acc {s s' : Node} {m : Byte × Byte × List Byte} {ps : List Pub}
    (h : gotUbx s m.1 m.2.1 m.2.2 = .ok (s', ps)) : accs s'.ecef = lastAcc (accs s.ecef) [m] := by
  obtain ⟨c, i, p⟩ := m
  dsimp only at h
  have e3 : ∀ a : ℚ, a * 1e-3 = a / 10 ^ 3 := fun a => by norm_num; ring
  simp only [lastAcc, List.foldl_cons, List.foldl_nil]
  unfold gotUbx at h
  split at h
  · rename_i hc
    split at h
    · rename_i hi
      obtain ⟨rfl, rfl⟩ := Prod.mk.inj (Except.ok.inj h)
      rw [if_pos ⟨hc, hi⟩]
      show (⟨(pvtMsg p).hAcc, (pvtMsg p).vAcc, (pvtMsg p).sAcc⟩ : V3) = _
      simp only [pvtMsg, e3]
      rw [doc_pvt (name := "hAcc") rfl, doc_pvt (name := "vAcc") rfl, doc_pvt (name := "sAcc") rfl]
    · rename_i hi
      rw [if_neg fun hh => hi hh.2]
      split at h
      · obtain ⟨rfl, rfl⟩ := Prod.mk.inj (Except.ok.inj h); rfl
      · split at h
        · obtain ⟨rfl, rfl⟩ := Prod.mk.inj (Except.ok.inj h); rfl
        · split at h
          · obtain ⟨rfl, rfl⟩ := Prod.mk.inj (Except.ok.inj h); rfl
          · split at h <;> (obtain ⟨rfl, rfl⟩ := Prod.mk.inj (Except.ok.inj h); rfl)
  · rename_i hc
    rw [if_neg fun hh => hc hh.1]
    split at h
    · split at h
      · unfold obsCB at h
        cases ho : obsLoop p [] 0 (rxmRawx.get "numMeas" p).toNat with
        | error e => rw [ho] at h; cases h
        | ok o =>
          rw [ho, ok_bind] at h
          obtain ⟨rfl, rfl⟩ := Prod.mk.inj (Except.ok.inj h); rfl
      · obtain ⟨rfl, rfl⟩ := Prod.mk.inj (Except.ok.inj h); rfl
    · obtain ⟨rfl, rfl⟩ := Prod.mk.inj (Except.ok.inj h); rfl

theorem run_acc (s : Node) (h : List (Byte × Byte × List Byte)) :
    ∀ s' ps, run s h = .ok (s', ps) → accs s'.ecef = lastAcc (accs s.ecef) h := by
  induction h using List.reverseRecOn with
  | nil =>
    intro s' ps hr
    have := (Prod.mk.inj (Except.ok.inj hr)).1
    rw [← this]; rfl
  | append_singleton h m ih =>
    intro s'' ps hr
    obtain ⟨s', ps', p, h1, h2, -⟩ := run_snoc hr
    rw [gotUbx_acc h2, ih _ _ h1]; simp [lastAcc, List.foldl_append]

/-- **C66 (partial).** After any history of messages, every combined message the next one makes the node publish carries
the newest received position (in centimetres) and the newest latitude, longitude, height and accuracies; each position or velocity
message is followed at once by one or two such publications, a PVT by at most one, any other message by none.  Missing:
that publication waits for all three messages of an epoch (`c66_refuted`), and the velocity (`c66_velocity_refuted`). -/
theorem c66_ecef_partial (s s1 s2 : Node) (h : List (Byte × Byte × List Byte)) (m : Byte × Byte × List Byte)
    (ps p : List Pub) (h1 : run s h = .ok (s1, ps)) (h2 : gotUbx s1 m.1 m.2.1 m.2.2 = .ok (s2, p)) :
    (∀ e ∈ ecefs p, e.position = lastPos s.ecef.position (h ++ [m]) ∧ e.lla = lastLla s.ecef.lla (h ++ [m]) ∧
      accs e = lastAcc (accs s.ecef) (h ++ [m])) ∧
    (m.1 = 0x01 ∧ (m.2.1 = 0x01 ∨ m.2.1 = 0x11) → 1 ≤ (ecefs p).length ∧ (ecefs p).length ≤ 2) ∧
    (m.1 = 0x01 ∧ m.2.1 = 0x07 → (ecefs p).length ≤ 1) ∧
    (¬ (m.1 = 0x01 ∧ (m.2.1 = 0x01 ∨ m.2.1 = 0x11 ∨ m.2.1 = 0x07)) → ecefs p = []) := by
  obtain ⟨a1, a2, a3, a4⟩ := run_ecef s h _ _ h1
  obtain ⟨b1, b2, b3, b4, n, c1, c2, c3, c4⟩ := gotUbx_ecef h2
  have hcond : cond s2 ≤ 1 := by unfold cond; split <;> omega
  rw [c1]
  refine ⟨fun e he => ?_, fun hm => ?_, fun hm => ?_, fun hm => ?_⟩
  · rw [List.eq_of_mem_replicate he, b1, b3, a1, a3, gotUbx_acc h2, run_acc s h _ _ h1]
    simp [lastPos, lastLla, lastAcc, List.foldl_append]
  · rw [List.length_replicate, c2 hm]; omega
  · rw [List.length_replicate, c3 hm]; omega
  · rw [c4 hm]; rfl

/-- **C66 refuted: the velocity.** In no history does the node ever publish a combined message with the received
velocity: the second and third components keep their initial values (zero) for ever, the first is the received *third*
component. -/
theorem c66_velocity_refuted (s s1 s2 : Node) (h : List (Byte × Byte × List Byte)) (m : Byte × Byte × List Byte)
    (ps p : List Pub) (h1 : run s h = .ok (s1, ps)) (h2 : gotUbx s1 m.1 m.2.1 m.2.2 = .ok (s2, p)) :
    ∀ e ∈ ecefs p, e.velocity = ⟨lastVz s.ecef.velocity.x (h ++ [m]), s.ecef.velocity.y, s.ecef.velocity.z⟩ := by
  obtain ⟨a1, a2, a3, a4⟩ := run_ecef s h _ _ h1
  obtain ⟨b1, b2, b3, b4, n, c1, -⟩ := gotUbx_ecef h2
  intro e he
  rw [c1] at he
  rw [List.eq_of_mem_replicate he, b2, a2]
  simp [lastVz, List.foldl_append]

/-- The documented time of week of the last NAV-VELECEF in a history; `init` if there is none. -/
def lastVelTow (init : Int) (h : List (Byte × Byte × List Byte)) : Int :=
  h.foldl (fun v m => if m.1 = 0x01 ∧ m.2.1 = 0x11 then doc MsgSpec.navVelecef "iTOW" m.2.2 else v) init

/-- The documented time of week of the last NAV-POSECEF or NAV-PVT in a history, whichever is newer. -/
def lastPosPvtTow (init : Int) (h : List (Byte × Byte × List Byte)) : Int :=
  h.foldl (fun v m =>
    if m.1 = 0x01 ∧ m.2.1 = 0x01 then doc MsgSpec.navPosecef "iTOW" m.2.2
    else if m.1 = 0x01 ∧ m.2.1 = 0x07 then doc MsgSpec.navPvt "iTOW" m.2.2 else v) init

theorem gotUbx_tow {s s' : Node} {m : Byte × Byte × List Byte} {ps : List Pub}
    (h : gotUbx s m.1 m.2.1 m.2.2 = .ok (s', ps)) :
    s'.posTow = lastPosPvtTow s.posTow [m] ∧ s'.velTow = lastVelTow s.velTow [m] := by
  obtain ⟨c, i, p⟩ := m
  dsimp only at h
  simp only [lastPosPvtTow, lastVelTow, List.foldl_cons, List.foldl_nil]
  unfold gotUbx at h
  split at h
  · rename_i hc
    subst hc
    split at h
    · rename_i hi
      subst hi
      obtain ⟨rfl, rfl⟩ := Prod.mk.inj (Except.ok.inj h)
      rw [if_neg (by decide), if_pos ⟨rfl, rfl⟩, if_neg (by decide)]
      exact ⟨doc_pvt (name := "iTOW") rfl p, rfl⟩
    · rename_i hi7
      split at h
      · rename_i hi
        subst hi
        obtain ⟨rfl, rfl⟩ := Prod.mk.inj (Except.ok.inj h)
        rw [if_neg (by decide), if_neg (by decide), if_neg (by decide)]
        exact ⟨rfl, rfl⟩
      · split at h
        · rename_i hi
          subst hi
          obtain ⟨rfl, rfl⟩ := Prod.mk.inj (Except.ok.inj h)
          rw [if_pos ⟨rfl, rfl⟩, if_neg (by decide)]
          exact ⟨doc_pos (name := "iTOW") rfl p, rfl⟩
        · rename_i hi1
          split at h
          · rename_i hi
            subst hi
            obtain ⟨rfl, rfl⟩ := Prod.mk.inj (Except.ok.inj h)
            rw [if_neg (by decide), if_neg (by decide), if_pos ⟨rfl, rfl⟩]
            exact ⟨rfl, doc_vel (name := "iTOW") rfl p⟩
          · rename_i hi11
            rw [if_neg fun hh => hi1 hh.2, if_neg fun hh => hi7 hh.2, if_neg fun hh => hi11 hh.2]
            split at h <;> (obtain ⟨rfl, rfl⟩ := Prod.mk.inj (Except.ok.inj h); exact ⟨rfl, rfl⟩)
  · rename_i hc
    rw [if_neg fun hh => hc hh.1, if_neg fun hh => hc hh.1, if_neg fun hh => hc hh.1]
    split at h
    · split at h
      · unfold obsCB at h
        cases ho : obsLoop p [] 0 (rxmRawx.get "numMeas" p).toNat with
        | error e => rw [ho] at h; cases h
        | ok o =>
          rw [ho, ok_bind] at h
          obtain ⟨rfl, rfl⟩ := Prod.mk.inj (Except.ok.inj h); exact ⟨rfl, rfl⟩
      · obtain ⟨rfl, rfl⟩ := Prod.mk.inj (Except.ok.inj h); exact ⟨rfl, rfl⟩
    · obtain ⟨rfl, rfl⟩ := Prod.mk.inj (Except.ok.inj h); exact ⟨rfl, rfl⟩

theorem run_tow (s : Node) (h : List (Byte × Byte × List Byte)) :
    ∀ s' ps, run s h = .ok (s', ps) →
      s'.posTow = lastPosPvtTow s.posTow h ∧ s'.velTow = lastVelTow s.velTow h := by
  induction h using List.reverseRecOn with
  | nil =>
    intro s' ps hr
    have := (Prod.mk.inj (Except.ok.inj hr)).1
    rw [← this]; exact ⟨rfl, rfl⟩
  | append_singleton h m ih =>
    intro s'' ps hr
    obtain ⟨s', ps', p, h1, h2, -⟩ := run_snoc hr
    rw [(gotUbx_tow h2).1, (gotUbx_tow h2).2, (ih _ _ h1).1, (ih _ _ h1).2]
    constructor <;> simp [lastPosPvtTow, lastVelTow, List.foldl_append]

/-- **C66 refuted: how often.** The exact number of combined messages the next message makes the node publish: one for each
position or velocity message, and one more, also for a PVT message, if the newest velocity and the newest of position and PVT
both have the time of week that a never assigned member happens to hold: whether the three newest messages belong to the same
epoch plays no role. -/
theorem c66_count_refuted (s s1 s2 : Node) (h : List (Byte × Byte × List Byte)) (m : Byte × Byte × List Byte)
    (ps p : List Pub) (h1 : run s h = .ok (s1, ps)) (h2 : gotUbx s1 m.1 m.2.1 m.2.2 = .ok (s2, p)) :
    (ecefs p).length =
      (if m.1 = 0x01 ∧ (m.2.1 = 0x01 ∨ m.2.1 = 0x11) then 1 else 0) +
      (if (m.1 = 0x01 ∧ (m.2.1 = 0x01 ∨ m.2.1 = 0x11 ∨ m.2.1 = 0x07)) ∧
          lastPosPvtTow s.posTow (h ++ [m]) = s.pvtTow ∧
          lastVelTow s.velTow (h ++ [m]) = s.pvtTow then 1 else 0) := by
  obtain ⟨ps', hr⟩ := run_snoc_ok h1 h2
  obtain ⟨t1, t2⟩ := run_tow s _ _ _ hr
  obtain ⟨-, -, -, t3⟩ := run_ecef s _ _ _ hr
  obtain ⟨-, -, -, -, n, c1, c2, c3, c4⟩ := gotUbx_ecef h2
  rw [← t1, ← t2, ← t3, c1, List.length_replicate]
  have hcond : cond s2 = if s2.posTow = s2.pvtTow ∧ s2.velTow = s2.pvtTow then 1 else 0 := by
    unfold cond
    by_cases ha : s2.posTow = s2.pvtTow
    · by_cases hb : s2.velTow = s2.pvtTow
      · rw [if_pos ⟨ha, ha.trans hb.symm⟩, if_pos ⟨ha, hb⟩]
      · rw [if_neg fun hh => hb (hh.2.symm.trans hh.1), if_neg fun hh => hb hh.2]
    · rw [if_neg fun hh => ha hh.1, if_neg fun hh => ha hh.1]
  by_cases hp : m.1 = 0x01 ∧ (m.2.1 = 0x01 ∨ m.2.1 = 0x11)
  · rw [c2 hp, if_pos hp, hcond]
    have hq : m.1 = 0x01 ∧ (m.2.1 = 0x01 ∨ m.2.1 = 0x11 ∨ m.2.1 = 0x07) := ⟨hp.1, hp.2.elim .inl (.inr ∘ .inl)⟩
    simp only [hq, true_and]
  · rw [if_neg hp]
    by_cases hv : m.1 = 0x01 ∧ m.2.1 = 0x07
    · rw [c3 hv, hcond]
      have hq : m.1 = 0x01 ∧ (m.2.1 = 0x01 ∨ m.2.1 = 0x11 ∨ m.2.1 = 0x07) := ⟨hv.1, .inr (.inr hv.2)⟩
      simp only [hq, true_and, Nat.zero_add]
    · have hq : ¬ (m.1 = 0x01 ∧ (m.2.1 = 0x01 ∨ m.2.1 = 0x11 ∨ m.2.1 = 0x07)) := by
        rintro ⟨ha, hb | hb | hb⟩
        · exact hp ⟨ha, .inl hb⟩
        · exact hp ⟨ha, .inr hb⟩
        · exact hv ⟨ha, hb⟩
      rw [c4 hq]
      simp only [hq, false_and, if_false]

/-- The node as constructed; the time-of-week members are left uninitialised (parameters). -/
def fresh (a b c : Int) : Node := ⟨a, b, c, ⟨⟨0, 0, 0⟩, ⟨0, 0, 0⟩, ⟨0, 0, 0⟩, 0, 0, 0⟩⟩

/-- **C66 refuted: the epoch condition.** A single NAV-POSECEF, with neither a velocity nor a PVT ever received, is
published (whatever the uninitialised members hold). -/
theorem c66_refuted (a b c : Int) (p : List Byte) :
    ∃ s ps, run (fresh a b c) [(0x01, 0x01, p)] = .ok (s, ps) ∧ 1 ≤ (ecefs ps).length := by
  obtain ⟨s', ps, hg⟩ : ∃ s' ps, gotUbx (fresh a b c) 0x01 0x01 p = .ok (s', ps) := ⟨_, _, rfl⟩
  refine ⟨s', ps ++ [], by rw [run, hg, ok_bind]; rfl, ?_⟩
  rw [List.append_nil]
  obtain ⟨-, -, -, -, n, c1, c2, -⟩ := gotUbx_ecef (m := (0x01, 0x01, p)) hg
  rw [c1, List.length_replicate, c2 ⟨rfl, .inl rfl⟩]
  omega

/-! ## C67: carrier frequency -/

/-- **C67 (partial).** The published carrier frequency is right for every measurement on GPS L2 CM and Galileo E1 B, and
for no measurement on any of the other signals, whatever its frequency slot.  Missing: all the other signals
(`c67_refuted`). -/
theorem c67_freq_partial (m : Meas) (f : ℚ) (h : carrier m.gnssId m.sigId m.freqId = some f) :
    (obsOf m).freq = f ↔ (m.gnssId = 0 ∧ m.sigId = 4) ∨ (m.gnssId = 2 ∧ m.sigId = 1) := by
  obtain ⟨pr, cp, d, g, sv, sg, fq, lt, cn, ps, cs, ds, tk⟩ := m
  dsimp only [obsOf] at h ⊢
  unfold carrier at h
  split at h
  · rename_i hc; obtain ⟨rfl, rfl⟩ := hc
    have : u8 (sigId 0 0) = 0 := by decide
    rw [this, ← Option.some.inj h]
    unfold freqOf
    norm_num
  · split at h
    · rename_i hc; obtain ⟨rfl, rfl | rfl⟩ := hc
      · have : u8 (sigId 0 3) = 1 := by decide
        rw [this, ← Option.some.inj h]
        unfold freqOf
        norm_num
      · have : u8 (sigId 0 4) = 2 := by decide
        rw [this, ← Option.some.inj h]
        unfold freqOf
        norm_num
    · split at h
      · rename_i hc; obtain ⟨rfl, rfl | rfl⟩ := hc
        · have : u8 (sigId 2 0) = 3 := by decide
          rw [this, ← Option.some.inj h]
          unfold freqOf
          norm_num
        · have : u8 (sigId 2 1) = 4 := by decide
          rw [this, ← Option.some.inj h]
          unfold freqOf
          norm_num
      · split at h
        · rename_i hc; obtain ⟨rfl, rfl⟩ := hc
          have : u8 (sigId 5 0) = 11 := by decide
          rw [this, ← Option.some.inj h]
          unfold freqOf
          norm_num
        · split at h
          · rename_i hc; obtain ⟨rfl, rfl⟩ := hc
            have : u8 (sigId 6 0) = 12 := by decide
            rw [this, ← Option.some.inj h]
            refine iff_of_false ?_ (by norm_num)
            unfold freqOf
            norm_num
            intro e
            have : (75 * fq : ℚ) = -3019 := by linarith
            have : 75 * fq = -3019 := by exact_mod_cast this
            omega
          · split at h
            · rename_i hc; obtain ⟨rfl, rfl⟩ := hc
              have : u8 (sigId 6 2) = 13 := by decide
              rw [this, ← Option.some.inj h]
              refine iff_of_false ?_ (by norm_num)
              unfold freqOf
              norm_num
              intro e
              have : (2 * fq : ℚ) = -5745 := by linarith
              have : 2 * fq = -5745 := by exact_mod_cast this
              omega
            · cases h

/-- **C67 refuted.** GPS L1 C/A, the commonest signal of all, is published with carrier frequency 0; GPS L2 CL with the L1
frequency; GLONASS L1 with the GPS frequency. -/
theorem c67_refuted (m : Meas) :
    (m.gnssId = 0 ∧ m.sigId = 0 → (obsOf m).freq = 0 ∧ carrier m.gnssId m.sigId m.freqId = some 1575420000) ∧
    (m.gnssId = 0 ∧ m.sigId = 3 → (obsOf m).freq = 1575420000 ∧
      carrier m.gnssId m.sigId m.freqId = some 1227600000) ∧
    (m.gnssId = 6 ∧ m.sigId = 0 → (obsOf m).freq = 1575420000 ∧
      carrier m.gnssId m.sigId m.freqId = some (1602000000 + (m.freqId - 7) * 562500)) := by
  obtain ⟨pr, cp, d, g, sv, sg, fq, lt, cn, ps, cs, ds, tk⟩ := m
  dsimp only [obsOf]
  refine ⟨?_, ?_, ?_⟩
  · rintro ⟨rfl, rfl⟩
    have : u8 (sigId 0 0) = 0 := by decide
    rw [this]
    exact ⟨by unfold freqOf; norm_num, by unfold carrier; norm_num⟩
  · rintro ⟨rfl, rfl⟩
    have : u8 (sigId 0 3) = 1 := by decide
    rw [this]
    exact ⟨by unfold freqOf; norm_num, by unfold carrier; norm_num⟩
  · rintro ⟨rfl, rfl⟩
    have : u8 (sigId 6 0) = 12 := by decide
    rw [this]
    exact ⟨by unfold freqOf; norm_num, by unfold carrier; norm_num⟩

/-! ## C82: raw observations -/

theorem meas_ok (p : List Byte) {i : Nat} (hi : i < 30) :
    ∃ x, meas p i = .ok x ∧
      x.prMeas = doc (MsgSpec.rawxMeas i) "prMeas" p ∧ x.cpMeas = doc (MsgSpec.rawxMeas i) "cpMeas" p ∧
      x.doMeas = doc (MsgSpec.rawxMeas i) "doMeas" p ∧ x.gnssId = doc (MsgSpec.rawxMeas i) "gnssId" p ∧
      x.svId = doc (MsgSpec.rawxMeas i) "svId" p ∧ x.sigId = doc (MsgSpec.rawxMeas i) "sigId" p ∧
      x.freqId = doc (MsgSpec.rawxMeas i) "freqId" p ∧ x.locktime = doc (MsgSpec.rawxMeas i) "locktime" p ∧
      x.cno = doc (MsgSpec.rawxMeas i) "cno" p ∧ x.prStdev = doc (MsgSpec.rawxMeas i) "prStdev" p ∧
      x.cpStdev = doc (MsgSpec.rawxMeas i) "cpStdev" p ∧ x.doStdev = doc (MsgSpec.rawxMeas i) "doStdev" p ∧
      x.trkStat = doc (MsgSpec.rawxMeas i) "trkStat" p := by
  have q : ∀ (name : String) (f : Field), (MsgSpec.rawxMeas i).find? (fun f => f.name = name) = some f →
      measGet p i name = .ok (doc (MsgSpec.rawxMeas i) name p) := by
    intro name f h
    have hn : f.name = name := by simpa using List.find?_some h
    have := (c78_rxm_rawx_partial p).2 i hi f (List.mem_of_find?_eq_some h)
    unfold doc
    rw [h, ← hn]
    exact this
  unfold meas
  rw [q "prMeas" _ rfl, ok_bind, q "cpMeas" _ rfl, ok_bind, q "doMeas" _ rfl, ok_bind, q "gnssId" _ rfl, ok_bind,
    q "svId" _ rfl, ok_bind, q "sigId" _ rfl, ok_bind, q "freqId" _ rfl, ok_bind, q "locktime" _ rfl, ok_bind,
    q "cno" _ rfl, ok_bind, q "prStdev" _ rfl, ok_bind, q "cpStdev" _ rfl, ok_bind, q "doStdev" _ rfl, ok_bind,
    q "trkStat" _ rfl, ok_bind]
  exact ⟨_, rfl, rfl, rfl, rfl, rfl, rfl, rfl, rfl, rfl, rfl, rfl, rfl, rfl, rfl⟩

theorem meas_err (p : List Byte) {i : Nat} (hi : 30 ≤ i) : meas p i = .error .oobRead := by
  unfold meas
  rw [(c78_rawx_refuted p).1 i hi]
  rfl

/-- The count the code reads (a signed byte), from the documented one (unsigned). -/
theorem numMeas_get (p : List Byte) : 0 ≤ doc MsgSpec.rxmRawx "numMeas" p ∧ doc MsgSpec.rxmRawx "numMeas" p ≤ 255 ∧
    rxmRawx.get "numMeas" p =
      if doc MsgSpec.rxmRawx "numMeas" p ≤ 127 then doc MsgSpec.rxmRawx "numMeas" p else doc MsgSpec.rxmRawx "numMeas" p - 256 := by
  have e : doc MsgSpec.rxmRawx "numMeas" p = (leU p 11 1 : Int) := by
    show (⟨"numMeas", 11, 1, false⟩ : MsgSpec.Field).value p = _
    unfold MsgSpec.Field.value
    simp [leU]
  have he : rxmRawx.get "numMeas" p = toSigned 1 (leU p 11 1) := rfl
  have hb : leU p 11 1 < 256 := by
    have := leU_lt p 11 1
    simpa using this
  rw [e, he]
  refine ⟨by omega, by omega, ?_⟩
  unfold toSigned
  norm_num
  split <;> split <;> omega

/-- **C82 refuted, universally.** Every RXM-RAWX message that announces between 1 and 127 measurements makes the node
write into an empty vector; it publishes (an empty list) only for messages without measurements. -/
theorem c82_refuted (s : Node) (p : List Byte) :
    (1 ≤ doc MsgSpec.rxmRawx "numMeas" p ∧ doc MsgSpec.rxmRawx "numMeas" p ≤ 127 →
      gotUbx s 0x02 0x15 p = .error .oobWrite) ∧
    (doc MsgSpec.rxmRawx "numMeas" p = 0 ∨ 128 ≤ doc MsgSpec.rxmRawx "numMeas" p →
      gotUbx s 0x02 0x15 p = .ok (s, [.obs []])) := by
  obtain ⟨n0, -, n1⟩ := numMeas_get p
  have hg : gotUbx s 0x02 0x15 p = obsCB s p := rfl
  rw [hg]
  unfold obsCB
  constructor
  · intro h
    rw [if_pos h.2] at n1
    obtain ⟨k, hk⟩ : ∃ k, (rxmRawx.get "numMeas" p).toNat = k + 1 := ⟨(rxmRawx.get "numMeas" p).toNat - 1, by omega⟩
    obtain ⟨x, hx, -⟩ := meas_ok p (i := 0) (by omega)
    rw [hk, obsLoop, hx, ok_bind, if_neg (by simp)]
    rfl
  · intro h
    obtain ⟨-, n2, -⟩ := numMeas_get p
    have : (rxmRawx.get "numMeas" p).toNat = 0 := by split at n1 <;> omega
    rw [this]; rfl

example : doc MsgSpec.rxmRawx "numMeas" (List.replicate 11 0 ++ [5]) = 5 := by decide +kernel

/-- **C82 (partial).** What the node would publish for a measurement, were there room, carries the satellite and its
constellation, lock time, signal strength, the three observables of the documented measurement and their standard
deviations in metres, cycles and hertz.  Missing: that it is published at all. -/
theorem c82_fields_partial (p : List Byte) (i : Nat) (hi : i < 30) :
    ∃ x, meas p i = .ok x ∧
      (obsOf x).sat = doc (MsgSpec.rawxMeas i) "svId" p ∧ (obsOf x).gnssID = doc (MsgSpec.rawxMeas i) "gnssId" p ∧
      (obsOf x).P = doc (MsgSpec.rawxMeas i) "prMeas" p ∧ (obsOf x).L = doc (MsgSpec.rawxMeas i) "cpMeas" p ∧
      (obsOf x).D = doc (MsgSpec.rawxMeas i) "doMeas" p ∧ (obsOf x).cno = doc (MsgSpec.rawxMeas i) "cno" p ∧
      (obsOf x).locktime = doc (MsgSpec.rawxMeas i) "locktime" p ∧
      (obsOf x).stdevP = 0.01 * 2 ^ doc (MsgSpec.rawxMeas i) "prStdev" p ∧
      (obsOf x).stdevL = 0.004 * doc (MsgSpec.rawxMeas i) "cpStdev" p ∧
      (obsOf x).stdevD = 0.002 * 2 ^ doc (MsgSpec.rawxMeas i) "doStdev" p := by
  obtain ⟨x, hx, h1, h2, h3, h4, h5, h6, h7, h8, h9, h10, h11, h12, -⟩ := meas_ok p hi
  refine ⟨x, hx, h5, h4, h1, h2, h3, h9, h8, ?_, ?_, ?_⟩
  · rw [← h10]; rfl
  · rw [← h11]; rfl
  · rw [← h12]; rfl

/-! ## C83: `convertUBX` -/

theorem convertLoop_ok (p : List Byte) (i k : Nat) (h : i + k ≤ 30) :
    ∃ l, convertLoop p i k = .ok l ∧ l.length = k ∧
      ∀ j < k, ∃ x, meas p (i + j) = .ok x ∧ l[j]? = some (convertOne x) := by
  induction k generalizing i with
  | zero => exact ⟨[], rfl, rfl, fun j hj => by omega⟩
  | succ k ih =>
    obtain ⟨x, hx, -⟩ := meas_ok p (i := i) (by omega)
    obtain ⟨l, h1, h2, h3⟩ := ih (i + 1) (by omega)
    refine ⟨convertOne x :: l, by rw [convertLoop, hx, ok_bind, h1]; rfl, by simp [h2], fun j hj => ?_⟩
    cases j with
    | zero => exact ⟨x, hx, rfl⟩
    | succ j =>
      obtain ⟨y, hy, hl⟩ := h3 j (by omega)
      exact ⟨y, by rw [show i + (j + 1) = i + 1 + j by omega]; exact hy, by simpa using hl⟩

theorem convertLoop_err (p : List Byte) (i k : Nat) (h : 30 < i + k) (hk : 0 < k) :
    convertLoop p i k = .error .oobRead := by
  induction k generalizing i with
  | zero => omega
  | succ k ih =>
    rw [convertLoop]
    by_cases hi : i < 30
    · obtain ⟨x, hx, -⟩ := meas_ok p hi
      rw [hx, ok_bind, ih (i + 1) (by omega) (by omega)]
      rfl
    · rw [meas_err p (by omega)]; rfl

/-- `convertUBX`, for the count the code reads. -/
theorem convert_get (p : List Byte) (n : Nat) (hn : rxmRawx.get "numMeas" p = n) (hle : n ≤ 30) :
    ∃ l, convertUBX p = .ok (some l) ∧ l.length = n ∧ ∀ i < n, ∃ o, l[i]? = some o ∧
      o.satId = doc (MsgSpec.rawxMeas i) "svId" p ∧ o.gnssId = doc (MsgSpec.rawxMeas i) "gnssId" p ∧
      o.sigId = doc (MsgSpec.rawxMeas i) "sigId" p ∧ o.lockTime = doc (MsgSpec.rawxMeas i) "locktime" p ∧
      o.SNR = 4 * doc (MsgSpec.rawxMeas i) "cno" p ∧
      o.z0 = doc (MsgSpec.rawxMeas i) "prMeas" p ∧ o.z1 = doc (MsgSpec.rawxMeas i) "doMeas" p ∧
      o.z2 = doc (MsgSpec.rawxMeas i) "cpMeas" p ∧
      o.covP = doc (MsgSpec.rawxMeas i) "prStdev" p * doc (MsgSpec.rawxMeas i) "prStdev" p ∧
      o.covL = doc (MsgSpec.rawxMeas i) "cpStdev" p * doc (MsgSpec.rawxMeas i) "cpStdev" p := by
  obtain ⟨l, h1, h2, h3⟩ := convertLoop_ok p 0 n (by omega)
  refine ⟨l, ?_, h2, fun i hi => ?_⟩
  · unfold convertUBX
    dsimp only
    rw [hn, if_neg (by omega), Int.toNat_natCast, h1]
    rfl
  · obtain ⟨x, hx, hl⟩ := h3 i hi
    rw [Nat.zero_add] at hx
    obtain ⟨y, hy, e1, e2, e3, e4, e5, e6, e7, e8, e9, e10, e11, e12, e13⟩ := meas_ok p (i := i) (by omega)
    rw [hx] at hy
    have := Except.ok.inj hy
    subst this
    refine ⟨_, hl, e5, e4, e6, e8, ?_, e1, e3, e2, ?_, ?_⟩
    · show x.cno * 4 = _
      rw [e9, Int.mul_comm]
    · show x.prStdev * x.prStdev = _
      rw [e10]
    · show x.cpStdev * x.cpStdev = _
      rw [e11]

/-- **C83 (partial).** A message with `n ≤ 30` measurements is converted to `n` observations, the `i`-th holding the
documented fields of measurement `i`.  Missing: more than 30 measurements (`c83_refuted`). -/
theorem c83_convert_partial (p : List Byte) (n : Nat) (hn : doc MsgSpec.rxmRawx "numMeas" p = n) (hle : n ≤ 30) :
    ∃ l, convertUBX p = .ok (some l) ∧ l.length = n ∧ ∀ i < n, ∃ o, l[i]? = some o ∧
      o.satId = doc (MsgSpec.rawxMeas i) "svId" p ∧ o.gnssId = doc (MsgSpec.rawxMeas i) "gnssId" p ∧
      o.sigId = doc (MsgSpec.rawxMeas i) "sigId" p ∧ o.lockTime = doc (MsgSpec.rawxMeas i) "locktime" p ∧
      o.SNR = 4 * doc (MsgSpec.rawxMeas i) "cno" p ∧
      o.z0 = doc (MsgSpec.rawxMeas i) "prMeas" p ∧ o.z1 = doc (MsgSpec.rawxMeas i) "doMeas" p ∧
      o.z2 = doc (MsgSpec.rawxMeas i) "cpMeas" p ∧
      o.covP = doc (MsgSpec.rawxMeas i) "prStdev" p * doc (MsgSpec.rawxMeas i) "prStdev" p ∧
      o.covL = doc (MsgSpec.rawxMeas i) "cpStdev" p * doc (MsgSpec.rawxMeas i) "cpStdev" p := by
  obtain ⟨-, -, n1⟩ := numMeas_get p
  rw [if_pos (by omega)] at n1
  exact convert_get p n (by omega) hle

/-- `convertUBX`, for the other counts the code reads. -/
theorem convert_get_bad (p : List Byte) :
    (31 ≤ rxmRawx.get "numMeas" p → convertUBX p = .error .oobRead) ∧
    (rxmRawx.get "numMeas" p < 0 → convertUBX p = .ok none) := by
  unfold convertUBX
  dsimp only
  constructor
  · intro h
    rw [if_neg (by omega), convertLoop_err p 0 _ (by omega) (by omega)]
    rfl
  · intro h
    rw [if_pos h]

/-- **C83 refuted.** From 31 measurements on (the receiver sends up to 63 in the driver's buffer) `convertUBX` reads
outside the declared array; from 128 on it throws. -/
theorem c83_refuted (p : List Byte) :
    (31 ≤ doc MsgSpec.rxmRawx "numMeas" p ∧ doc MsgSpec.rxmRawx "numMeas" p ≤ 127 → convertUBX p = .error .oobRead) ∧
    (128 ≤ doc MsgSpec.rxmRawx "numMeas" p → convertUBX p = .ok none) := by
  obtain ⟨-, h1, n1⟩ := numMeas_get p
  constructor
  · intro h
    rw [if_pos h.2] at n1
    exact (convert_get_bad p).1 (by omega)
  · intro h
    rw [if_neg (by omega)] at n1
    exact (convert_get_bad p).2 (by omega)

/-! ## C84: the half-cycle indicator -/

theorem slipBits_always (t : Int) : slipBits t := by
  unfold slipBits
  intro h
  have := congrArg (fun n => n.testBit 3) h
  simp [Nat.testBit_or] at this
  exact absurd this.2 (by decide)

/-- **C84 (partial).** In both conversions the indicator is set whenever the half-cycle ambiguity of a phase is not
resolved, and never without a phase measurement.  Missing: that it is clear when the ambiguity is resolved
(`c84_refuted`). -/
theorem c84_lli_partial (m : Meas) :
    (halfCycle m.cpMeas m.trkStat.toNat = true → (obsOf m).LLI = 2 ∧ (convertOne m).LLI = 2) ∧
    (m.cpMeas = 0 ∨ m.cpMeas = 2 ^ 63 → (obsOf m).LLI = 0 ∧ (convertOne m).LLI = 0) := by
  refine ⟨fun h => ?_, fun h => ?_⟩
  · unfold halfCycle at h
    rw [Bool.and_eq_true, decide_eq_true_eq] at h
    have hn : nonzero m.cpMeas := h.1
    exact ⟨if_pos ⟨hn, slipBits_always _⟩, if_pos ⟨hn, slipBits_always _⟩⟩
  · have hn : ¬ nonzero m.cpMeas := by
      rintro ⟨h1, h2⟩
      rcases h with h | h
      · exact h1 h
      · exact h2 h
    exact ⟨if_neg (fun h => hn h.1), if_neg (fun h => hn h.1)⟩

/-- **C84 (partial), for whole messages.** The same for the observations `convertUBX` makes from a message. -/
theorem c84_convert_partial (p : List Byte) (n : Nat) (hn : doc MsgSpec.rxmRawx "numMeas" p = n) (hle : n ≤ 30) :
    ∃ l, convertUBX p = .ok (some l) ∧ l.length = n ∧ ∀ i < n, ∃ o, l[i]? = some o ∧
      (halfCycle (doc (MsgSpec.rawxMeas i) "cpMeas" p) (doc (MsgSpec.rawxMeas i) "trkStat" p).toNat = true → o.LLI = 2) ∧
      (doc (MsgSpec.rawxMeas i) "cpMeas" p = 0 ∨ doc (MsgSpec.rawxMeas i) "cpMeas" p = 2 ^ 63 → o.LLI = 0) := by
  obtain ⟨-, -, n1⟩ := numMeas_get p
  rw [if_pos (by omega), hn] at n1
  obtain ⟨l, h1, h2, h3⟩ := convertLoop_ok p 0 n (by omega)
  refine ⟨l, ?_, h2, fun i hi => ?_⟩
  · unfold convertUBX
    dsimp only
    rw [n1, if_neg (by omega), Int.toNat_natCast, h1]
    rfl
  · obtain ⟨x, hx, hl⟩ := h3 i hi
    rw [Nat.zero_add] at hx
    obtain ⟨y, hy, e1, e2, e3, e4, e5, e6, e7, e8, e9, e10, e11, e12, e13⟩ := meas_ok p (i := i) (by omega)
    rw [hx] at hy
    have := Except.ok.inj hy
    subst this
    obtain ⟨a, b⟩ := c84_lli_partial x
    rw [e2, e13] at a
    rw [e2] at b
    exact ⟨_, hl, fun h => (a h).2, fun h => (b h).2⟩

/-- A message of one measurement whose phase is ambiguous. -/
example : doc MsgSpec.rxmRawx "numMeas" (List.replicate 11 0 ++ [1] ++ List.replicate 12 0 ++ [7] ++ List.replicate 21 0 ++ [5, 0]) = 1 ∧
    halfCycle (doc (MsgSpec.rawxMeas 0) "cpMeas" (List.replicate 11 0 ++ [1] ++ List.replicate 12 0 ++ [7] ++ List.replicate 21 0 ++ [5, 0]))
      (doc (MsgSpec.rawxMeas 0) "trkStat" (List.replicate 11 0 ++ [1] ++ List.replicate 12 0 ++ [7] ++ List.replicate 21 0 ++ [5, 0])).toNat = true := by
  decide +kernel

/-- **C84 refuted.** Every phase measurement whatever is flagged, resolved or not (`|` binds looser than `&`). -/
theorem c84_refuted (m : Meas) (h : nonzero m.cpMeas) : (obsOf m).LLI = 2 ∧ (convertOne m).LLI = 2 :=
  ⟨if_pos ⟨h, slipBits_always _⟩, if_pos ⟨h, slipBits_always _⟩⟩

/-- A resolved phase: not ambiguous, yet flagged. -/
example : nonzero 5 ∧ halfCycle 5 3 = false := by decide

/-! ## C86: the rover example -/

/-- **C86 refuted.** The status line never says `Fixed`, whatever the receiver reports, and says `RTK` and `Floating` for
every non-zero flag word, even when no differential correction was applied. -/
theorem c86_refuted (flags : Nat) :
    (roverStatus flags).fixed = false ∧ (flags ≠ 0 → (roverStatus flags).rtk = true ∧ (roverStatus flags).floating = true) := by
  unfold roverStatus
  by_cases h : flags = 0
  · subst h; exact ⟨rfl, fun h => absurd rfl h⟩
  · simp [h]

/-- **C86 (partial).** Nothing is claimed for a message with no flag set; and every condition that does hold is reported,
except `Fixed`. -/
theorem c86_status_partial (flags : Nat) :
    (flags = 0 → roverStatus flags = ⟨false, false, false, false, false⟩) ∧
    (flags.testBit 1 = true → (roverStatus flags).rtk = true) ∧
    (flags.testBit 2 = true → (roverStatus flags).valid = true) ∧
    (flags.testBit 3 = true → (roverStatus flags).floating = true) ∧
    (flags.testBit 5 = true → (roverStatus flags).movingBase = true) := by
  have key : ∀ k, flags.testBit k = true → flags ≠ 0 := by
    rintro k hk rfl
    simp at hk
  refine ⟨?_, fun h => ?_, fun h => ?_, fun h => ?_, fun h => ?_⟩
  · rintro rfl; rfl
  all_goals
    have := key _ h
    unfold roverStatus
    simp [this]

end Ublox.Ros
