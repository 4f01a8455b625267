import Verif.Model.ExamplePrint
import Verif.Spec.Ros
import Verif.Props.Msgs
import Verif.Props.Ros
import Verif.Props.TimePrint
import Mathlib.Tactic.Ring
import Mathlib.Tactic.NormNum
import Mathlib.Tactic.FieldSimp

/-!
# C105: the output of the example programs
-/

namespace Ublox.Print

open MsgSpec RosSpec UTCTime Ros

/-- The value of the digits after a decimal point, as anyone reads them. -/
def fracValue (l : List Char) : ℚ := undec l / 10 ^ l.length

/-- The text and the numbers with a decimal point of one message, in the order printed. -/
def lineOf (time : List Char) (lat lon height vn ve vd : ℚ) (tow : Int) : List Piece :=
  [.txt time, lit ", lla: ", .fixed 3 lat, lit ", ", .fixed 3 lon, lit ", ", .fixed 3 height, lit ", vel: ", .fixed 3 vn,
   lit ", ", .fixed 3 ve, lit ", ", .fixed 3 vd, lit "\n", lit "tow: ", .txt (decInt tow), lit "\n"]

/-- Adjacent pieces of text are one piece of text on the screen. -/
def merge : List Piece → List Piece
  | [] => []
  | .txt a :: rest =>
    match merge rest with
    | .txt b :: r => .txt (a ++ b) :: r
    | r => .txt a :: r
  | x :: rest => x :: merge rest

theorem undec_nil_length {n : Nat} : (decNat n).length = if n < 10 then 1 else (decNat (n / 10)).length + 1 := by
  rw [decNat]
  split
  · rfl
  · simp

theorem decNat_length_lt_1000 {n : Nat} (h : n < 1000) :
    (decNat n).length = if n < 10 then 1 else if n < 100 then 2 else 3 := by
  rw [undec_nil_length]
  split
  · rfl
  · rw [undec_nil_length]
    split
    · rw [if_pos (by omega)]
    · rw [undec_nil_length, if_pos (by omega), if_neg (by omega)]

/-- Milliseconds printed without leading zeros after a decimal point say the right fraction exactly if there are none or at
least a hundred. -/
theorem fracValue_ms {ms : Nat} (h : ms < 1000) : fracValue (decNat ms) = (ms : ℚ) / 1000 ↔ ms = 0 ∨ 100 ≤ ms := by
  unfold fracValue
  rw [undec_decNat, decNat_length_lt_1000 h]
  by_cases h0 : ms = 0
  · subst h0; simp
  have hq : (ms : ℚ) ≠ 0 := Nat.cast_ne_zero.2 h0
  split
  · constructor
    · intro h'
      rw [div_eq_div_iff (by norm_num) (by norm_num)] at h'
      have := mul_left_cancel₀ hq h'
      norm_num at this
    · intro h'; omega
  · split
    · constructor
      · intro h'
        rw [div_eq_div_iff (by norm_num) (by norm_num)] at h'
        have := mul_left_cancel₀ hq h'
        norm_num at this
      · intro h'; omega
    · constructor
      · intro _; right; omega
      · intro _; norm_num

/-- C105, NAV-PVT: every field is printed as documented but for the fraction of the second, which is the number of whole
milliseconds (rounded towards zero) printed without leading zeros. -/
theorem c105_pvt_partial (p : List Byte) :
    merge (pvt p) = merge (lineOf
      ("t: ".toList ++ decInt (doc MsgSpec.navPvt "year" p) ++ " ".toList ++ decInt (doc MsgSpec.navPvt "month" p) ++
        "/".toList ++ decInt (doc MsgSpec.navPvt "day" p) ++ ", ".toList ++ decInt (doc MsgSpec.navPvt "hour" p) ++
        ":".toList ++ decInt (doc MsgSpec.navPvt "min" p) ++ ":".toList ++ decInt (doc MsgSpec.navPvt "sec" p) ++
        ".".toList ++ decInt ((doc MsgSpec.navPvt "nano" p).tdiv 1000000))
      (doc MsgSpec.navPvt "lat" p / 10 ^ 7) (doc MsgSpec.navPvt "lon" p / 10 ^ 7) (doc MsgSpec.navPvt "height" p / 1000)
      (doc MsgSpec.navPvt "velN" p / 1000) (doc MsgSpec.navPvt "velE" p / 1000) (doc MsgSpec.navPvt "velD" p / 1000)
      (if doc MsgSpec.navPvt "iTOW" p < 2 ^ 31 then doc MsgSpec.navPvt "iTOW" p else doc MsgSpec.navPvt "iTOW" p - 2 ^ 32)) := by
  have e3 : ∀ a : ℚ, a / 10 ^ 3 = a / 1000 := fun a => by norm_num
  simp only [pvt, dec, lit, decU32, lineOf, doc_pvt (name := "year") rfl p, doc_pvt (name := "month") rfl p,
    doc_pvt (name := "day") rfl p, doc_pvt (name := "hour") rfl p, doc_pvt (name := "min") rfl p,
    doc_pvt (name := "sec") rfl p, doc_pvt (name := "nano") rfl p, doc_pvt (name := "lat") rfl p,
    doc_pvt (name := "lon") rfl p, doc_pvt (name := "height") rfl p, doc_pvt (name := "velN") rfl p,
    doc_pvt (name := "velE") rfl p, doc_pvt (name := "velD") rfl p, doc_pvt (name := "iTOW") rfl p, merge, e3,
    List.append_assoc]

/-- C105 is false of the code: the fraction shown is that of the time in the message (to the millisecond) exactly if there
are no milliseconds or at least a hundred; 5 ms after the second is shown as `.5`. -/
theorem c105_fraction_refuted (nano : Int) (h0 : 0 ≤ nano) (h1 : nano < 10 ^ 9) :
    (fracValue (decInt (nano.tdiv 1000000)) = ((nano / 1000000 : Int) : ℚ) / 1000 ↔
      nano < 1000000 ∨ 100000000 ≤ nano) ∧ decInt ((5000000 : Int).tdiv 1000000) = ['5'] := by
  refine ⟨?_, by
    have : (5000000 : Int).tdiv 1000000 = 5 := by decide
    rw [this]
    simp [decInt, decNat, digit]⟩
  obtain ⟨n, rfl⟩ := Int.eq_ofNat_of_zero_le h0
  rw [Int.tdiv_eq_ediv_of_nonneg h0]
  have e : ((n : Int) / 1000000) = ((n / 1000000 : Nat) : Int) := by omega
  rw [e, decInt_nat, Int.cast_natCast, fracValue_ms (by omega)]
  omega

/-- C105 is false of the code: a time a millisecond or more before the full second (the receiver gives `nano` a sign) is
shown with a minus sign after the decimal point. -/
theorem c105_negative_refuted (nano : Int) (h : nano ≤ -1000000) :
    ∃ l, decInt (nano.tdiv 1000000) = '-' :: l := by
  have : nano.tdiv 1000000 < 0 := by
    obtain ⟨k, rfl⟩ : ∃ k, nano = -k := ⟨-nano, by omega⟩
    rw [Int.neg_tdiv, Int.tdiv_eq_ediv_of_nonneg (by omega)]
    omega
  unfold decInt
  rw [if_pos this]
  exact ⟨_, rfl⟩

/-- The line for measurement `i`, from the documented fields. -/
def measLine (p : List Byte) (i : Nat) : List Piece :=
  [lit "week: ", .txt (decInt (doc MsgSpec.rxmRawx "week" p)), lit ", tow: ", .real 8 3 (doc MsgSpec.rxmRawx "rcvTow" p),
   lit " gnss_id: ", .txt (decInt (doc (MsgSpec.rawxMeas i) "gnssId" p)), lit ", sat_id: ",
   .txt (decInt (doc (MsgSpec.rawxMeas i) "svId" p)), lit ", P ", .real 8 3 (doc (MsgSpec.rawxMeas i) "prMeas" p), lit ", L ",
   .real 8 3 (doc (MsgSpec.rawxMeas i) "cpMeas" p), lit ", D ", .real 4 3 (doc (MsgSpec.rawxMeas i) "doMeas" p), lit "\n"]

theorem rawxLine_ok (p : List Byte) {i : Nat} (hi : i < 30) : rawxLine p i = .ok (measLine p i) := by
  have hm : ∀ f ∈ MsgSpec.rawxMeas i, measGet p i f.name = .ok (f.value p) := (c78_rxm_rawx_partial p).2 i hi
  have hr := (c78_rxm_rawx_partial p).1
  have g1 := hm ⟨"gnssId", 36 + 32 * i, 1, false⟩ (by simp [MsgSpec.rawxMeas])
  have g2 := hm ⟨"svId", 37 + 32 * i, 1, false⟩ (by simp [MsgSpec.rawxMeas])
  have g3 := hm ⟨"prMeas", 16 + 32 * i, 8, false⟩ (by simp [MsgSpec.rawxMeas])
  have g4 := hm ⟨"cpMeas", 24 + 32 * i, 8, false⟩ (by simp [MsgSpec.rawxMeas])
  have g5 := hm ⟨"doMeas", 32 + 32 * i, 4, false⟩ (by simp [MsgSpec.rawxMeas])
  have w1 := hr ⟨"week", 8, 2, false⟩ (by decide) (fun h => absurd h (by decide))
  have w2 := hr ⟨"rcvTow", 0, 8, false⟩ (by decide) (fun h => absurd h (by decide))
  dsimp only at g1 g2 g3 g4 g5 w1 w2
  unfold rawxLine
  rw [g1, g2, g3, g4, g5, w1, w2]
  rfl

/-- C105, RXM-RAWX, up to 30 measurements: one line for each measurement, in order, with the documented fields.
Missing: more than 30 measurements (`c105_rawx_refuted`). -/
theorem c105_rawx_partial (p : List Byte) (h : doc MsgSpec.rxmRawx "numMeas" p ≤ 30) :
    rawx p = .ok ((List.range (doc MsgSpec.rxmRawx "numMeas" p).toNat).map (measLine p)) := by
  have hn : rxmRawx.get "numMeas" p = doc MsgSpec.rxmRawx "numMeas" p :=
    (c78_rxm_rawx_partial p).1 ⟨"numMeas", 11, 1, false⟩ (by decide) (fun _ => by
      have : (⟨"numMeas", 11, 1, false⟩ : Field).value p = doc MsgSpec.rxmRawx "numMeas" p := rfl
      omega)
  have loop : ∀ n i, i + n ≤ 30 → rawxLoop p i n = .ok ((List.range' i n).map (measLine p)) := by
    intro n
    induction n with
    | zero => intro i _; rfl
    | succ n ih =>
      intro i hi
      unfold rawxLoop
      rw [rawxLine_ok p (by omega), ih (i + 1) (by omega)]
      rfl
  unfold rawx
  rw [hn, loop _ 0 (by omega), List.range_eq_range']

/-- C105 is false of the code: with 31 to 127 measurements in the message the loop reads outside the array; with 128 or more
nothing is printed. -/
theorem c105_rawx_refuted (p : List Byte) :
    (31 ≤ doc MsgSpec.rxmRawx "numMeas" p ∧ doc MsgSpec.rxmRawx "numMeas" p ≤ 127 → rawx p = .error .oobRead) ∧
    (128 ≤ doc MsgSpec.rxmRawx "numMeas" p → rawx p = .ok []) := by
  have loop : ∀ n i, i ≤ 30 → 31 ≤ i + n → rawxLoop p i n = .error .oobRead := by
    intro n
    induction n with
    | zero => intro i h1 h2; omega
    | succ n ih =>
      intro i h1 h2
      unfold rawxLoop
      by_cases hi : i < 30
      · rw [rawxLine_ok p hi, ih (i + 1) (by omega) (by omega)]; rfl
      · have : rawxLine p i = .error .oobRead := by
          unfold rawxLine
          rw [(c78_rawx_refuted p).1 i (by omega)]
          rfl
        rw [this]; rfl
  constructor
  · intro h
    have hn : rxmRawx.get "numMeas" p = doc MsgSpec.rxmRawx "numMeas" p :=
      (c78_rxm_rawx_partial p).1 ⟨"numMeas", 11, 1, false⟩ (by decide) (fun _ => by
        have : (⟨"numMeas", 11, 1, false⟩ : Field).value p = doc MsgSpec.rxmRawx "numMeas" p := rfl
        omega)
    exact loop _ 0 (by omega) (by omega)
  · intro h
    have hneg : rxmRawx.get "numMeas" p < 0 := (c78_rawx_refuted p).2.1 (by
      have e : doc MsgSpec.rxmRawx "numMeas" p = (leU p 11 1 : Int) := by
        show (⟨"numMeas", 11, 1, false⟩ : Field).value p = _
        unfold Field.value
        simp [leU]
      omega)
    unfold rawx
    rw [Int.toNat_of_nonpos (by omega)]
    rfl

/-- The survey-in line, from the documented fields: the mean position in metres. -/
def svinLine (p : List Byte) : List Piece :=
  let g (name : String) := doc MsgSpec.navSvin name p
  [lit "t: ", decU32 (g "iTow"), lit ", ", (if g "active" ≠ 0 then lit "ACTIVE" else lit "INACTIVE"), lit ", dur: ",
   decU32 (g "dur"), lit ", pos: [", .fixed 6 ((100 * g "meanX" + g "meanXHP") / 10000), lit ", ",
   .fixed 6 ((100 * g "meanY" + g "meanYHP") / 10000), lit ", ", .fixed 6 ((100 * g "meanZ" + g "meanZHP") / 10000),
   lit "], acc: ", .fixed 6 (g "meanAcc" / 10000), lit "\n"]

/-- C105, NAV-SVIN in `base`: the line shows the documented state, duration, position and accuracy if no coordinate and no
high-precision part is negative.  Missing: negative ones (`c105_svin_refuted`). -/
theorem c105_svin_partial (p : List Byte) (h : ∀ name ∈ ["meanX", "meanY", "meanZ", "meanXHP", "meanYHP", "meanZHP"],
    0 ≤ doc MsgSpec.navSvin name p) : svin p = svinLine p := by
  have e : ∀ a b : ℚ, a / 100 + b / 10000 = (100 * a + b) / 10000 := fun a b => by ring
  have h1 := h "meanX" (by decide)
  have h2 := h "meanY" (by decide)
  have h3 := h "meanZ" (by decide)
  have h4 := h "meanXHP" (by decide)
  have h5 := h "meanYHP" (by decide)
  have h6 := h "meanZHP" (by decide)
  simp only [svin, svinLine, e, doc_svin (name := "iTow") rfl p nofun, doc_svin (name := "active") rfl p nofun,
    doc_svin (name := "dur") rfl p nofun, doc_svin (name := "meanAcc") rfl p nofun,
    doc_svin (name := "meanX") rfl p (fun _ => h1), doc_svin (name := "meanY") rfl p (fun _ => h2),
    doc_svin (name := "meanZ") rfl p (fun _ => h3), doc_svin (name := "meanXHP") rfl p (fun _ => h4),
    doc_svin (name := "meanYHP") rfl p (fun _ => h5), doc_svin (name := "meanZHP") rfl p (fun _ => h6)]

/-- The unsigned reading of a signed field. -/
theorem svin_get_neg (name : String) (f : Field) (hf : f ∈ MsgSpec.navSvin) (hn : f.name = name) (hs : f.signed = true)
    (p : List Byte) (hneg : f.value p < 0) : navSvin.get name p = f.value p + 2 ^ (8 * f.size) := by
  have hm : ({ f with signed := false } : Field) ∈ MsgSpec.navSvin.map fun g => { g with signed := false } :=
    List.mem_map.2 ⟨f, hf, rfl⟩
  have h1 := all_get (l := navSvin) (fs := MsgSpec.navSvin.map fun g => { g with signed := false })
    (by decide +kernel) _ hm p
  subst hn
  refine h1.trans ?_
  unfold Field.value at hneg ⊢
  simp only [hs, true_and, Bool.false_eq_true, false_and, if_false] at hneg ⊢
  split at hneg
  · rename_i h
    rw [if_pos h]; omega
  · omega

/-- C105 is false of the code: where a coordinate of the survey-in position is negative (X for every base more than
90 degrees of longitude from Greenwich), the line shows it 42 949 672.96 m too large. -/
theorem c105_svin_refuted (p : List Byte) (hx : doc MsgSpec.navSvin "meanX" p < 0)
    (hp : 0 ≤ doc MsgSpec.navSvin "meanXHP" p) :
    (svin p)[7]? = some (.fixed 6 ((100 * doc MsgSpec.navSvin "meanX" p + doc MsgSpec.navSvin "meanXHP" p) / 10000 +
      4294967296 / 100)) ∧ svin p ≠ svinLine p := by
  have e1 : navSvin.get "meanX" p = doc MsgSpec.navSvin "meanX" p + 4294967296 :=
    svin_get_neg "meanX" ⟨"meanX", 12, 4, true⟩ (by decide) rfl rfl p hx
  have e2 := doc_svin (name := "meanXHP") rfl p (fun _ => hp)
  have e : (svin p)[7]? = some (.fixed 6 ((100 * doc MsgSpec.navSvin "meanX" p + doc MsgSpec.navSvin "meanXHP" p) / 10000 +
      4294967296 / 100)) := by
    show some (Piece.fixed 6 ((navSvin.get "meanX" p : ℚ) / 100 + (navSvin.get "meanXHP" p : ℚ) / 10000)) = _
    rw [e1, e2]
    push_cast
    congr 2
    ring
  refine ⟨e, fun h => ?_⟩
  rw [h] at e
  have e3 : (svinLine p)[7]? = some (.fixed 6 ((100 * doc MsgSpec.navSvin "meanX" p +
      doc MsgSpec.navSvin "meanXHP" p) / 10000)) := rfl
  rw [e3] at e
  injection e with e
  injection e with _ e
  have := (add_eq_left (a := ((100 * (doc MsgSpec.navSvin "meanX" p : ℚ) + doc MsgSpec.navSvin "meanXHP" p) / 10000))).1 e.symm
  norm_num at this

/-- The hypotheses are met: a NAV-SVIN payload with X = -1 cm; a message with two measurements. -/
example : doc MsgSpec.navSvin "meanX" (List.replicate 12 0 ++ [0xFF, 0xFF, 0xFF, 0xFF] ++ List.replicate 24 0) < 0 ∧
    0 ≤ doc MsgSpec.navSvin "meanXHP" (List.replicate 12 0 ++ [0xFF, 0xFF, 0xFF, 0xFF] ++ List.replicate 24 0) ∧
    doc MsgSpec.rxmRawx "numMeas" (List.replicate 11 0 ++ [2] ++ List.replicate 68 0) = 2 := by decide +kernel

end Ublox.Print
