import Verif.Spec.Bits

/-!
# Specification: bit fields in little-endian numbering

Bit `i` of a byte array, when bytes are taken least significant bit first, is bit `i mod 8` (2^0 first) of byte `i / 8`.  This is
the numbering of a `BitField` that keeps the byte order of a little-endian machine.
-/

namespace Ublox

/-- Bit `i`, counting from the least significant bit of the first byte. -/
def lsbAt (buf : List Byte) (i : Nat) : Bool := (buf.getD (i / 8) 0).toNat.testBit (i % 8)

/-- The number whose bit `k` (weight `2^k`) is bit `first + k` of the array, for `k < size`. -/
def lsbField (buf : List Byte) (first : Nat) : Nat → Nat
  | 0 => 0
  | n + 1 => lsbField buf first n + (if lsbAt buf (first + n) then 2 ^ n else 0)

end Ublox
