import Mathlib.Algebra.Polynomial.Div
import Mathlib.Algebra.Field.ZMod
import Verif.Spec.Bits

/-!
# Specification of CRC-24Q as polynomial division over GF(2)

Independent of the table-driven implementation: the message is a polynomial over `ZMod 2`, the CRC is the
remainder of `message · X^24` by the generator.
-/

namespace Ublox
open Polynomial

/-- The polynomial over GF(2) whose coefficient of `X^i` is bit `i` of `n` (see `coeff_toPoly`). -/
noncomputable def toPoly (n : Nat) : (ZMod 2)[X] :=
  if n = 0 then 0 else toPoly (n / 2) * X + C ((n % 2 : Nat) : ZMod 2)
termination_by n

/-- The generator polynomial of CRC-24Q (Qualcomm), as printed in RTCM 10403 / the Galileo OS SIS ICD. -/
noncomputable def crc24Q : (ZMod 2)[X] :=
  X ^ 24 + X ^ 23 + X ^ 18 + X ^ 17 + X ^ 14 + X ^ 11 + X ^ 10 + X ^ 7 + X ^ 6 + X ^ 5 + X ^ 4 + X ^ 3 + X + 1

/-- A message read as one big-endian number: its binary digits are the bits of the message. -/
def beNat (buf : List Byte) : Nat := fieldVal buf 0 (8 * buf.length)

/-- `c` is the CRC-24Q of the message. -/
def IsCrc24Q (msg : List Byte) (c : Nat) : Prop :=
  toPoly c = (toPoly (beNat msg) * X ^ 24) %ₘ crc24Q

/-- A message with its 3-byte CRC appended (an RTCM frame) is valid when the CRC part, read big-endian,
is the CRC of the rest. -/
def CrcValid (frame : List Byte) : Prop :=
  ∃ msg c0 c1 c2, frame = msg ++ [c0, c1, c2] ∧ IsCrc24Q msg (beNat [c0, c1, c2])

end Ublox
