import Verif.Spec.Console
import Verif.Props.ExamplePrint
import Verif.Props.DeviceLink

/-!
# C123: from the bytes of the receiver to the console of the example programs
-/

namespace Ublox.Print

open MsgSpec RosSpec UTCTime Ros Nav Dev

/-- A field inside the payload has the same value in a buffer that begins with the payload. -/
theorem value_prefix {f : Field} {p buf : List Byte} (hl : f.off + f.size ≤ p.length) (hb : buf.take p.length = p) :
    f.value buf = f.value p := by
  have h : ∀ k ∈ List.range f.size, (buf.getD (f.off + k) 0).toNat * 256 ^ k = (p.getD (f.off + k) 0).toNat * 256 ^ k := by
    intro k hk
    have hk' := List.mem_range.1 hk
    have e : buf[f.off + k]? = p[f.off + k]? := by
      conv_rhs => rw [← hb]
      rw [List.getElem?_take, if_pos (by omega)]
    rw [List.getD_eq_getElem?_getD, List.getD_eq_getElem?_getD, e]
  unfold Field.value
  rw [List.map_congr_left h]

theorem doc_prefix {fs : List Field} {name : String} {p buf : List Byte} (n : Nat)
    (hf : (fs.all fun f => f.off + f.size ≤ n) = true) (hl : n ≤ p.length) (hb : buf.take p.length = p) :
    doc fs name buf = doc fs name p := by
  unfold doc
  cases h : fs.find? fun f => f.name = name with
  | none => rfl
  | some f =>
    have hm := List.all_eq_true.1 hf f (List.mem_of_find?_eq_some h)
    exact value_prefix (by simp at hm; omega) hb

theorem roverReport_prefix {p buf : List Byte} (hl : 64 ≤ p.length) (hb : buf.take p.length = p) :
    roverReport buf = roverReport p := by
  have e : ∀ name, doc MsgSpec.navRelposned name buf = doc MsgSpec.navRelposned name p :=
    fun name => doc_prefix 64 (by decide) hl hb
  unfold roverReport
  simp only [e]

theorem surveyReport_prefix {p buf : List Byte} (hl : 40 ≤ p.length) (hb : buf.take p.length = p) :
    surveyReport buf = surveyReport p := by
  have e : ∀ name, doc MsgSpec.navSvin name buf = doc MsgSpec.navSvin name p :=
    fun name => doc_prefix 40 (by decide) hl hb
  unfold surveyReport
  simp only [e]

theorem pvtReport_prefix {p buf : List Byte} (hl : 92 ≤ p.length) (hb : buf.take p.length = p) :
    pvtReport buf = pvtReport p := by
  have e : ∀ name, doc MsgSpec.navPvt name buf = doc MsgSpec.navPvt name p :=
    fun name => doc_prefix 92 (by decide) hl hb
  unfold pvtReport
  simp only [e]

theorem rawxReport_prefix {p buf : List Byte} (h16 : 16 ≤ p.length)
    (hl : 16 + 32 * (doc MsgSpec.rxmRawx "numMeas" p).toNat ≤ p.length) (hb : buf.take p.length = p) :
    rawxReport buf = rawxReport p := by
  have e : ∀ name, doc MsgSpec.rxmRawx name buf = doc MsgSpec.rxmRawx name p :=
    fun name => doc_prefix 16 (by decide) h16 hb
  have e2 : ∀ k < (doc MsgSpec.rxmRawx "numMeas" p).toNat, ∀ name,
      doc (MsgSpec.rawxMeas k) name buf = doc (MsgSpec.rawxMeas k) name p := by
    intro k hk name
    refine doc_prefix (48 + 32 * k) ?_ (by omega) hb
    simp [MsgSpec.rawxMeas]
    omega
  unfold rawxReport
  rw [e "numMeas", List.flatMap_def, List.flatMap_def]
  congr 1
  apply List.map_congr_left
  intro k hk
  have := e2 k (List.mem_range.1 hk)
  simp only [e, this]

theorem relposned_eq (p : List Byte) : relposned p = roverReport p := by
  have e : ∀ {name : String} {f : Field}, MsgSpec.navRelposned.find? (fun f => f.name = name) = some f →
      navRelposned.get name p = doc MsgSpec.navRelposned name p := fun h => doc_rel h p
  unfold relposned roverReport
  simp only [dec, e (name := "flags") rfl, e (name := "iTow") rfl, e (name := "relPosN") rfl,
    e (name := "relPosE") rfl, e (name := "relPosD") rfl, e (name := "relPosLength") rfl]
  by_cases h : doc MsgSpec.navRelposned "flags" p = 0
  · simp [h]
  · have hb : (doc MsgSpec.navRelposned "flags" p != 0) = true := by simpa using h
    simp [hb, h]

theorem svin_eq (p : List Byte) (h : ∀ name ∈ ["meanX", "meanY", "meanZ", "meanXHP", "meanYHP", "meanZHP"],
    0 ≤ doc MsgSpec.navSvin name p) : svin p = surveyReport p := c105_svin_partial p h

theorem pvt_eq (p : List Byte) : pvt p = pvtReport p := by
  have e3 : ∀ a : ℚ, a / 10 ^ 3 = a / 1000 := fun a => by norm_num
  simp only [pvt, pvtReport, dec, decU32, signed32, doc_pvt (name := "year") rfl p, doc_pvt (name := "month") rfl p,
    doc_pvt (name := "day") rfl p, doc_pvt (name := "hour") rfl p, doc_pvt (name := "min") rfl p,
    doc_pvt (name := "sec") rfl p, doc_pvt (name := "nano") rfl p, doc_pvt (name := "lat") rfl p,
    doc_pvt (name := "lon") rfl p, doc_pvt (name := "height") rfl p, doc_pvt (name := "velN") rfl p,
    doc_pvt (name := "velE") rfl p, doc_pvt (name := "velD") rfl p, doc_pvt (name := "iTOW") rfl p, e3]

theorem rawx_eq (p : List Byte) (h : doc MsgSpec.rxmRawx "numMeas" p ≤ 30) :
    ∃ ls, rawx p = .ok ls ∧ ls.flatten = rawxReport p :=
  ⟨_, c105_rawx_partial p h, by rw [← List.flatMap_def]; rfl⟩

/-! ### The console follows the messages -/

theorem console_append (got : Byte → Byte → List Byte → M (List Piece)) (a b : List Eff) :
    console got (a ++ b) = (do let x ← console got a; let y ← console got b; .ok (x ++ y)) := by
  induction a with
  | nil => simp only [List.nil_append, console, ok_bind]; cases console got b <;> rfl
  | cons e a ih =>
    cases e <;> simp only [List.cons_append, console, ih]
    rename_i l c i m
    cases got c i m with
    | error _ => rfl
    | ok x =>
      simp only [ok_bind]
      cases console got a with
      | error _ => rfl
      | ok y =>
        simp only [ok_bind]
        cases console got b with
        | error _ => rfl
        | ok z => simp only [ok_bind, List.append_assoc]

theorem console_nav (got : Byte → Byte → List Byte → M (List Piece)) (cs : List NavCall) :
    console got (cs.map Eff.nav) = .ok [] := by
  induction cs with
  | nil => rfl
  | cons c cs ih => exact ih

theorem console_rtk (got : Byte → Byte → List Byte → M (List Piece)) (lk : List Nat) (f : List Byte) :
    console got (lk.map fun i => Eff.toRtk i f) = .ok [] := by
  induction lk with
  | nil => rfl
  | cons c cs ih => exact ih

/-- If one listener gets the messages `sub` says, and prints `text` for each, the console shows the texts in order. -/
theorem Shows.console {md : Mode} {rcv : Byte → Byte → List Nat} {lk : List Nat} {n n' : Nav} {ms : List Msg} {es : List Eff}
    (got : Byte → Byte → List Byte → M (List Piece)) (text : Msg → List Piece)
    (h : Shows md rcv lk n ms n' es)
    (hr : ∀ f, text (.rtcm f) = [])
    (hu : ∀ c i p, .ubx c i p ∈ ms → ∀ buf, buf.length = 2048 → buf.take p.length = p →
      (rcv c i = [0] ∧ got c i buf = .ok (text (.ubx c i p))) ∨ (rcv c i = [] ∧ text (.ubx c i p) = [])) :
    console got es = .ok (ms.flatMap text) := by
  induction h with
  | nil => rfl
  | rtcm _ ih =>
    rw [console_append, console_rtk, ih fun c i p hm => hu c i p (List.mem_cons_of_mem _ hm)]
    simp [hr, ok_bind]
  | @ubx n n' c i p buf ms es _ hl hp _ ih =>
    rw [console_append, ih fun c i p hm => hu c i p (List.mem_cons_of_mem _ hm)]
    rcases hu c i p List.mem_cons_self buf hl hp with ⟨e1, e2⟩ | ⟨e1, e2⟩
    · rw [e1]
      simp only [List.map_cons, List.map_nil, Print.console, e2, ok_bind, List.append_nil, List.flatMap_cons]
    · rw [e1]
      simp only [List.map_nil, Print.console, e2, ok_bind, List.nil_append, List.flatMap_cons]
  | @sfrbx n n1 n' p buf cs ms es hl hp _ _ ih =>
    rw [console_append, console_append, console_nav, ih fun c i p hm => hu c i p (List.mem_cons_of_mem _ hm)]
    rcases hu 0x02 0x13 p List.mem_cons_self buf hl hp with ⟨e1, e2⟩ | ⟨e1, e2⟩
    · rw [e1]
      simp only [List.map_cons, List.map_nil, Print.console, e2, ok_bind, List.append_nil, List.flatMap_cons, List.nil_append]
    · rw [e1]
      simp only [List.map_nil, Print.console, e2, ok_bind, List.nil_append, List.flatMap_cons]

theorem registered_calls (evs : List Ev) : registered evs = registered (calls evs) := by
  induction evs with
  | nil => rfl
  | cons e evs ih => cases e <;> simp_all [registered, calls]

theorem subscribed_calls (evs : List Ev) (l : Nat) (c i : Byte) :
    Subscribed evs l c i ↔ Subscribed (calls evs) l c i := by
  simp [Subscribed, calls]

theorem recipients_calls (evs : List Ev) (c i : Byte) : recipients evs c i = recipients (calls evs) c i := by
  unfold recipients
  rw [← registered_calls]
  apply List.filter_congr
  intro l _
  simp [subscribed_calls evs]

theorem configured_calls (evs : List Ev) : configured evs = configured (calls evs) := by
  unfold configured
  generalize ((Role.none, none) : Role × Option Nat) = s
  induction evs generalizing s with
  | nil => rfl
  | cons e evs ih => cases e <;> simp only [List.foldl_cons, ih] <;> rfl

theorem recipients_rover (c i : Byte) : recipients roverCalls c i = if c = 0x01 ∧ i = 0x3C then [0] else [] := by
  by_cases h : c = 0x01 ∧ i = 0x3C
  · obtain ⟨rfl, rfl⟩ := h
    rfl
  · rw [if_neg h]
    have : ¬ Subscribed roverCalls 0 c i := by
      simpa [Subscribed, roverCalls] using h
    show List.filter _ [0] = []
    simp [this]

theorem recipients_base (c i : Byte) :
    recipients baseCalls c i = if c = 0x01 ∧ (i = 0x07 ∨ i = 0x3B) then [0] else [] := by
  have e : Subscribed baseCalls 0 c i ↔ c = 0x01 ∧ (i = 0x07 ∨ i = 0x3B) := by
    simp [Subscribed, baseCalls]
    tauto
  show List.filter _ [0] = _
  rw [List.filter_cons, List.filter_nil]
  simp only [e, decide_eq_true_eq]

theorem recipients_readLog (c i : Byte) :
    recipients readLogCalls c i = if c = 0x01 ∧ i = 0x07 ∨ c = 0x02 ∧ i = 0x15 then [0] else [] := by
  have e : Subscribed readLogCalls 0 c i ↔ c = 0x01 ∧ i = 0x07 ∨ c = 0x02 ∧ i = 0x15 := by
    simp [Subscribed, readLogCalls]
  show List.filter _ [0] = _
  rw [List.filter_cons, List.filter_nil]
  simp only [e, decide_eq_true_eq]

/-- C123, `rover`: for every stream of the receiver the console shows one report per NAV-RELPOSNED frame with a good
checksum, in order, and nothing else.  Missing: the words in front of the numbers are not those the flag bits call for
(`c123_rover_refuted`); payloads shorter than documented. -/
theorem c123_rover_partial {md : Mode} {d d' : Dev} {evs : List Ev} {es0 es : List Eff} {s : List Byte}
    (h : Reach md d evs es0) (hc : calls evs = roverCalls) (hu : d.ubx.parsingMessage = false)
    (hs : d.step md (.rx s) = .ok (d', es))
    (hl : ∀ p, .ubx 0x01 0x3C p ∈ goodMsgs (scan d.ubx.prev s).1 → 64 ≤ p.length) :
    console roverGot es = .ok ((goodMsgs (scan d.ubx.prev s).1).flatMap roverOn) := by
  have hb : (configured evs).1 ≠ .base := by
    rw [configured_calls, hc]; decide
  refine Shows.console roverGot roverOn (c73_not_base h hb hu hs) (fun _ => rfl) fun c i p hm buf _ hp => ?_
  rw [recipients_calls, hc, recipients_rover]
  by_cases hci : c = 0x01 ∧ i = 0x3C
  · left
    obtain ⟨rfl, rfl⟩ := hci
    refine ⟨rfl, ?_⟩
    unfold roverGot roverOn
    dsimp only
    rw [if_pos ⟨rfl, rfl⟩, if_pos ⟨rfl, rfl⟩, relposned_eq, roverReport_prefix (hl p hm) hp]
  · right
    rw [if_neg hci]
    exact ⟨rfl, if_neg hci⟩

/-- C123, `base`: for every stream of the receiver, RTCM frames in between or not, the console shows one report per NAV-SVIN
frame with a good checksum, in order, and nothing else.  Missing: negative coordinates (C105); payloads shorter than
documented. -/
theorem c123_base_partial {md : Mode} {d d' : Dev} {evs : List Ev} {es0 es : List Eff} {s : List Byte}
    (h : Reach md d evs es0) (hc : calls evs = baseCalls) (hu : d.ubx.parsingMessage = false)
    (hr : d.rtcm.parsingMessage = false) (hs : d.step md (.rx s) = .ok (d', es))
    (hl : ∀ p, .ubx 0x01 0x3B p ∈ (demux d.ubx.prev s).1 → 40 ≤ p.length ∧
      ∀ name ∈ ["meanX", "meanY", "meanZ", "meanXHP", "meanYHP", "meanZHP"], 0 ≤ doc MsgSpec.navSvin name p) :
    console baseGot es = .ok ((demux d.ubx.prev s).1.flatMap baseOn) := by
  have hb : configured evs = (.base, some 0) := by
    rw [configured_calls, hc]; decide
  refine Shows.console baseGot baseOn (c30_any_stream h hb hu hr hs) (fun _ => rfl) fun c i p hm buf _ hp => ?_
  rw [recipients_calls, hc, recipients_base]
  by_cases hci : c = 0x01 ∧ i = 0x3B
  · left
    obtain ⟨rfl, rfl⟩ := hci
    obtain ⟨h1, h2⟩ := hl p hm
    refine ⟨rfl, ?_⟩
    unfold baseGot baseOn
    dsimp only
    rw [if_pos ⟨rfl, rfl⟩, if_pos ⟨rfl, rfl⟩, svin_eq buf fun name hn => (doc_prefix (fs := MsgSpec.navSvin) 40 (by decide) h1 hp) ▸ h2 name hn,
      surveyReport_prefix h1 hp]
  · by_cases h2 : c = 0x01 ∧ (i = 0x07 ∨ i = 0x3B)
    · left
      rw [if_pos h2]
      exact ⟨rfl, by unfold baseGot baseOn; dsimp only; rw [if_neg hci, if_neg hci]⟩
    · right
      rw [if_neg h2]
      exact ⟨rfl, if_neg hci⟩

/-- C123, `read_log`: for every log the console shows one report per NAV-PVT and RXM-RAWX frame with a good checksum, in
order, and nothing else (besides the ephemeris reports of C108).  Missing: more than 30 measurements (C105); payloads shorter than
documented. -/
theorem c123_read_log_partial {md : Mode} {d d' : Dev} {evs : List Ev} {es0 es : List Eff} {s : List Byte}
    (h : Reach md d evs es0) (hc : calls evs = readLogCalls) (hu : d.ubx.parsingMessage = false)
    (hs : d.step md (.rx s) = .ok (d', es))
    (hl : ∀ p, .ubx 0x01 0x07 p ∈ goodMsgs (scan d.ubx.prev s).1 → 92 ≤ p.length)
    (hl2 : ∀ p, .ubx 0x02 0x15 p ∈ goodMsgs (scan d.ubx.prev s).1 → 16 ≤ p.length ∧
      16 + 32 * doc MsgSpec.rxmRawx "numMeas" p ≤ p.length ∧ doc MsgSpec.rxmRawx "numMeas" p ≤ 30) :
    console readLogGot es = .ok ((goodMsgs (scan d.ubx.prev s).1).flatMap readLogOn) := by
  have hb : (configured evs).1 ≠ .base := by
    rw [configured_calls, hc]; decide
  refine Shows.console readLogGot readLogOn (c73_not_base h hb hu hs) (fun _ => rfl) fun c i p hm buf _ hp => ?_
  rw [recipients_calls, hc, recipients_readLog]
  by_cases hci : c = 0x01 ∧ i = 0x07
  · left
    obtain ⟨rfl, rfl⟩ := hci
    refine ⟨rfl, ?_⟩
    unfold readLogGot readLogOn
    dsimp only
    rw [if_pos ⟨rfl, rfl⟩, if_pos ⟨rfl, rfl⟩, pvt_eq, pvtReport_prefix (hl p hm) hp]
  · by_cases h2 : c = 0x02 ∧ i = 0x15
    · left
      obtain ⟨rfl, rfl⟩ := h2
      obtain ⟨a1, a2, a3⟩ := hl2 p hm
      refine ⟨rfl, ?_⟩
      have e := doc_prefix (fs := MsgSpec.rxmRawx) (name := "numMeas") 16 (by decide) a1 hp
      obtain ⟨ls, e1, e2⟩ := rawx_eq buf (by rw [e]; exact a3)
      unfold readLogGot readLogOn
      dsimp only
      rw [if_neg hci, if_neg hci, if_pos ⟨rfl, rfl⟩, if_pos ⟨rfl, rfl⟩, e1, ok_bind, e2, rawxReport_prefix a1 (by omega) hp]
    · right
      rw [if_neg (by tauto)]
      exact ⟨rfl, by unfold readLogOn; dsimp only; rw [if_neg hci, if_neg h2]⟩

/-- The words are right if no flag is set, or if the solution is differential, a float one, valid and the base is moving. -/
theorem c123_rover_words (p : List Byte) (h : doc MsgSpec.navRelposned "flags" p = 0 ∨
    relposBit p 1 = true ∧ relposBit p 2 = true ∧ relposBit p 3 = true ∧ relposBit p 5 = true) :
    roverReport p = roverMeant p := by
  unfold roverReport roverMeant
  rcases h with h | ⟨h1, h2, h3, h5⟩
  · have : relposBit p 1 = false := by unfold relposBit; rw [h]; rfl
    rw [if_pos h, if_neg (by simp [this])]
  · have hn : doc MsgSpec.navRelposned "flags" p ≠ 0 := by
      intro h0
      unfold relposBit at h1
      rw [h0] at h1
      exact absurd h1 (by decide)
    rw [if_neg hn, if_pos h1, if_pos h2, if_pos h3, if_pos h5]
    rfl

/-- C123 is false of the code: every NAV-RELPOSNED frame without a differential solution but with any other flag (a plain
position fix sets one) makes `rover` report RTK instead of `No RTK`. -/
theorem c123_rover_refuted {md : Mode} {d d' : Dev} {evs : List Ev} {es0 es : List Eff} {p : List Byte}
    (h : Reach md d evs es0) (hc : calls evs = roverCalls) (hu : d.ubx.parsingMessage = false)
    (hp : p.length = 64) (hf : doc MsgSpec.navRelposned "flags" p ≠ 0) (h1 : relposBit p 1 = false)
    (hs : d.step md (.rx (ubxFrame 0x01 0x3C p)) = .ok (d', es)) :
    roverMeant p = [lit "No RTK \n"] ∧ ∃ more, console roverGot es = .ok (lit "RTK" :: more) := by
  refine ⟨by unfold roverMeant; rw [if_neg (by simp [h1])], ?_⟩
  have hsc : goodMsgs (scan d.ubx.prev (ubxFrame 0x01 0x3C p)).1 = [.ubx 0x01 0x3C p] := by
    rw [scan_eq_rxRun, Ubx.rxRun_ubxFrame _ _ _ _ (by omega) (by omega)]
    simp [goodMsgs]
  have := c123_rover_partial h hc hu hs (by
    rw [hsc]; intro q hq
    simp at hq; subst hq; omega)
  rw [hsc] at this
  refine ⟨(roverReport p).tail, this.trans ?_⟩
  simp only [List.flatMap_cons, List.flatMap_nil, List.append_nil, roverOn]
  rw [if_pos (by trivial)]
  unfold roverReport
  rw [if_neg hf]
  rfl

/-- A NAV-RELPOSNED payload: week second 100, 2.50 m north, 0.10 m west, 1 m up, and the flag word `f`. -/
def exRel (f : Byte) : List Byte :=
  [1, 0, 0, 0, 0xA0, 0x86, 1, 0, 250, 0, 0, 0, 0xF6, 0xFF, 0xFF, 0xFF, 0x9C, 0xFF, 0xFF, 0xFF] ++ List.replicate 40 0 ++
    [f, 0, 0, 0]

/-- The hypotheses are met: a rover, a base and `read_log` after their start; two NAV-RELPOSNED frames with noise between, the
second with a position fix only (`c123_rover_refuted`); both reach the handler. -/
example : ((exRun roverCalls).map fun x => x.1.ubx.parsingMessage) = some false ∧ calls roverCalls = roverCalls ∧
    ((exRun baseCalls).map fun x => (x.1.ubx.parsingMessage, x.1.rtcm.parsingMessage)) = some (false, false) ∧
    calls baseCalls = baseCalls ∧
    ((exRun readLogCalls).map fun x => x.1.ubx.parsingMessage) = some false ∧ calls readLogCalls = readLogCalls ∧
    ((exRun (roverCalls ++ [.rx (ubxFrame 0x01 0x3C (exRel 0x2F) ++ [7, 0xB5] ++ ubxFrame 0x01 0x3C (exRel 1))])).map
      fun x => x.2.filterMap Eff.user?).map (fun l => l.map fun x => (x.1, x.2.1, x.2.2.1, x.2.2.2.take 64)) =
      some [(0, 0x01, 0x3C, exRel 0x2F), (0, 0x01, 0x3C, exRel 1)] ∧
    (exRel 1).length = 64 ∧ doc MsgSpec.navRelposned "flags" (exRel 1) = 1 ∧ relposBit (exRel 1) 1 = false ∧
    (["iTow", "relPosN", "relPosE", "relPosD"].map fun n => doc MsgSpec.navRelposned n (exRel 1)) = [100000, 250, -10, -100] ∧
    (∀ k ∈ [1, 2, 3, 5], relposBit (exRel 0x2F) k = true) := by
  refine ⟨by decide +kernel, rfl, by decide +kernel, rfl, by decide +kernel, rfl, by decide +kernel, by decide +kernel,
    by decide +kernel, by decide +kernel, by decide +kernel, by decide +kernel⟩

end Ublox.Print
