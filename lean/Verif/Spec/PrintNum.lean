import Verif.Model.ExamplePrint
import Verif.Model.Double

/-!
# Specification for C130: reading a printed number
-/

namespace Ublox.PrintSpec

/-- A string of decimal digits, at least one. -/
def Digits (l : List Char) : Bool := l ≠ [] && l.all Char.isDigit

/-- The number written by decimal digits. -/
def natOf (l : List Char) : Nat := l.foldl (fun a c => 10 * a + (c.toNat - 48)) 0

/-- The exponent part: nothing, or `e`, a sign and digits. -/
def readExp : List Char → Option Int
  | [] => some 0
  | 'e' :: '-' :: d => if Digits d then some (-(natOf d : Int)) else none
  | 'e' :: '+' :: d => if Digits d then some (natOf d) else none
  | _ => none

/-- An unsigned number: digits, possibly a point and digits, possibly an exponent. -/
def readPos (l : List Char) : Option ℚ :=
  let mant := l.takeWhile (· ≠ 'e')
  let ip := mant.takeWhile (· ≠ '.')
  let fp := (mant.dropWhile (· ≠ '.')).drop 1
  match readExp (l.dropWhile (· ≠ 'e')) with
  | none => none
  | some e =>
    if Digits ip ∧ (mant = ip ∨ Digits fp) then some ((natOf (ip ++ fp) : ℚ) / 10 ^ fp.length * (10 : ℚ) ^ e) else none

/-- The number a text shows. -/
def readNum : List Char → Option ℚ
  | '-' :: r => (readPos r).map (- ·)
  | r => readPos r

/-- The text shows the number `q` up to `tol`. -/
def ShowsNum (text : List Char) (q tol : ℚ) : Prop := ∃ v, readNum text = some v ∧ |v - q| ≤ tol

/-- The text has `n` characters after its decimal point. -/
def Places (n : Nat) (text : List Char) : Prop := ∃ a b, text = a ++ '.' :: b ∧ b.length = n ∧ '.' ∉ b

/-- The value of a binary floating-point number of `e` exponent bits and `f` fraction bits (IEEE 754): sign, exponent, fraction,
from the most significant bit; `none` for an infinity or NaN. -/
def ieee (e f : Nat) (bits : Nat) : Option ℚ :=
  let frac := bits % 2 ^ f
  let ex := bits / 2 ^ f % 2 ^ e
  let sign : ℚ := if bits / 2 ^ (e + f) % 2 = 1 then -1 else 1
  let bias : ℤ := 2 ^ (e - 1) - 1
  if ex = 2 ^ e - 1 then none
  else if ex = 0 then some (sign * (2 : ℚ) ^ (1 - bias) * (frac / 2 ^ f))
  else some (sign * (2 : ℚ) ^ (ex - bias) * (1 + frac / 2 ^ f))

/-- The value of a floating-point member of 4 or 8 bytes. -/
def member (size : Nat) (bits : Int) : Option ℚ := if size = 4 then ieee 8 23 bits.toNat else ieee 11 52 bits.toNat

/-- A word for a value that is no number. -/
def Word (text : List Char) : Prop := text ∈ ["nan".toList, "-nan".toList, "inf".toList, "-inf".toList]

/-- The text is the pieces one after the other, each number being shown with its number of places, and to half a unit of the last
(and 10^-7 for the rounding of the arithmetic before, where there is any); a member that is no number is shown by a word. -/
inductive Renders : List Print.Piece → List Char → Prop where
  | nil : Renders [] []
  | txt (s : List Char) (ps : List Print.Piece) (t : List Char) : Renders ps t → Renders (.txt s :: ps) (s ++ t)
  | fixed (n : Nat) (q : ℚ) (a : List Char) (ps : List Print.Piece) (t : List Char) : ShowsNum a q (1 / 2 / 10 ^ n + 1 / 10 ^ 7) →
      Places n a → Renders ps t → Renders (.fixed n q :: ps) (a ++ t)
  | real (size n : Nat) (bits : Int) (q : ℚ) (a : List Char) (ps : List Print.Piece) (t : List Char) : member size bits = some q →
      ShowsNum a q (1 / 2 / 10 ^ n) → Places n a → Renders ps t → Renders (.real size n bits :: ps) (a ++ t)
  | word (size n : Nat) (bits : Int) (a : List Char) (ps : List Print.Piece) (t : List Char) : member size bits = none →
      Word a → Renders ps t → Renders (.real size n bits :: ps) (a ++ t)

example : readNum "-12.50".toList = some (-25 / 2) ∧ readNum "3e-05".toList = some (3 / 100000) ∧ readNum "nan".toList = none ∧
    readNum "1.".toList = none ∧ readNum "7".toList = some 7 := by decide +kernel

/-- 1.0, -0.1 as `double`, 0.15625 as `float`, an infinity. -/
example : member 8 0x3FF0000000000000 = some 1 ∧ member 8 0xBFB999999999999A = some (-(0x1999999999999A / 2 ^ 56)) ∧
    member 4 0x3E200000 = some (5 / 32) ∧ member 8 0x7FF0000000000000 = none := by decide +kernel

end Ublox.PrintSpec
