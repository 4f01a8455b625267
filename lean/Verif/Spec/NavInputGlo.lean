import Verif.Spec.NavInput
import Verif.Spec.NavEncGlo

/-!
# RXM-SFRBX messages of a GLONASS satellite among what a device receives, and the reference time they are dated with
-/

namespace Ublox.Dev

open Nav (GloParams Eph NavCall sentString gloMark gloNum gloBit usable)

/-- The payload of an RXM-SFRBX message of a GLONASS satellite: constellation 6, satellite, signal, frequency channel + 7, number
of words, tracking channel, version, reserved, and the four 4-byte words of a string with its time mark. -/
def gloPayload (s : Byte) (r f ch ver res : Byte) (str : List Byte) : List Byte := [6, s, r, f, 4, ch, ver, res] ++ str

/-- `pl` is a message with the string `str` of GLONASS satellite `s` on channel `f - 7`. -/
def IsGloString (s f : Byte) (str pl : List Byte) : Prop :=
  str.length = 16 ∧ ∃ r ch ver res, pl = gloPayload s r f ch ver res str

/-- Not a message about GLONASS satellite `s` (it is long enough to tell). -/
def NotGlo (s : Byte) (pl : List Byte) : Prop := 2 ≤ pl.length ∧ (pl[0]? ≠ some 6 ∨ pl[1]? ≠ some s)

/-- The string `k` of a satellite broadcasting `p`. -/
def gloString (fill : Nat → Bool) (rest : Nat → Byte) (mark : Nat) (p : GloParams) (k : Nat) : List Byte :=
  (sentString fill rest mark p k).take 16

/-- In `ins`, GLONASS satellite `s` sends the strings of `p` with the given time mark, in any order and any number of times; in
between there may be its other strings with that mark (5 to 15 and 0), and strings damaged so that the check bits show it. -/
def GloTraffic (s : Byte) (p : GloParams) (mark : Nat) (ins : List NavIn) : Prop :=
  ∀ pl, NavIn.sfrbx pl ∈ ins → NotGlo s pl ∨ ∃ f str, IsGloString s f str pl ∧
    ((∃ fill rest k, 1 ≤ k ∧ k ≤ 4 ∧ str = gloString fill rest mark p k) ∨
     (gloMark str = mark ∧ (gloNum str = 0 ∨ 5 ≤ gloNum str)) ∨ usable (gloBit str) = false)

/-- String `k` of `p` arrives from satellite `s` in `ins`. -/
def GloArrives (s : Byte) (p : GloParams) (mark k : Nat) (ins : List NavIn) : Prop :=
  ∃ pl f fill rest, NavIn.sfrbx pl ∈ ins ∧ IsGloString s f (gloString fill rest mark p k) pl

/-- How many GLONASS ephemeris callbacks the inputs register. -/
def gephRegs (ins : List NavIn) : Nat := ins.count .addGeph

/-- The GPS ephemerides reported to the first callback. -/
def gpsReports (es : List Eff) : List Eph :=
  es.filterMap fun
    | .nav (.eph 0 e) => if e.gnssID = 0 then some e else none
    | _ => none

/-- What concerns the navigation decoder in the events `later`, when the events `evs` have come before. -/
def navLater (ss : List Ubx.Sched) (evs later : List Ev) : List NavIn :=
  navIns (ctorBytes ss ++ evs.flatMap fun | .rx b => b | _ => []) later

end Ublox.Dev
