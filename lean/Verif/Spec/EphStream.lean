import Verif.Spec.PrintNum
import Verif.Model.TimePrint
import Verif.Spec.Calendar
import Mathlib.Data.Real.Basic

/-!
# Specification for C131: a listing, line by line
-/

namespace Ublox.PrintSpec

open UTCTime (decInt decNat)

/-- The value of a line. -/
inductive Val where
  | word (s : String)
  | int (n : Int)
  | real (x : ℝ)
  | time (c : Calendar.Stamp) (sec nsec : Int)

/-- The text of a value: a word; a decimal number; a decimal number within one part in 100000; a date and time, then the seconds
and nanoseconds in brackets. -/
def ShowsVal (text : List Char) : Val → Prop
  | .word s => text = s.toList
  | .int n => text = decInt n
  | .real x => ∃ q, readNum text = some q ∧ |(q : ℝ) - x| ≤ 1e-5 * |x|
  | .time c sec nsec => text = decInt c.year ++ '/' :: (decNat c.month ++ '/' :: (decNat c.day ++ ' ' :: (decNat c.hour ++ ':' ::
      (decNat c.min ++ ':' :: decNat c.sec)))) ++ " (".toList ++ decInt sec ++ ", ".toList ++ decInt nsec ++ ")".toList

/-- The text is a listing of labelled values, a line each; an empty label stands for an empty line. -/
inductive Listing : List (String × Val) → List Char → Prop where
  | nil : Listing [] []
  | line (label : String) (v : Val) (a : List Char) (ls : List (String × Val)) (t : List Char) : ShowsVal a v → Listing ls t →
      Listing ((label, v) :: ls) (label.toList ++ ' ' :: a ++ '\n' :: t)
  | blank (ls : List (String × Val)) (t : List Char) : Listing ls t → Listing (("", .word "") :: ls) ('\n' :: t)

end Ublox.PrintSpec
