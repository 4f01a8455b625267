import Verif.Model.Base

/-!
# Specification of bit fields (independent of `bit_tools.h`)

Bits are numbered from 0, most significant bit of each byte first: bit `i` of a buffer is bit
`7 - i % 8` of byte `i / 8`.
-/

namespace Ublox

/-- Bit `i` of a buffer (most significant bit of byte 0 first); `false` outside. -/
def bitAt (buf : List Byte) (i : Nat) : Bool :=
  match buf[i / 8]? with
  | some b => b.getLsbD (7 - i % 8)
  | none => false

/-- The number whose binary digits, most significant first, are bits `pos, …, pos+len-1`
of `f`. -/
def bitsVal (f : Nat → Bool) (pos : Nat) : Nat → Nat
  | 0 => 0
  | n + 1 => 2 * bitsVal f pos n + (f (pos + n)).toNat

/-- The number whose binary digits are bits `pos, …, pos+len-1` of the buffer. -/
def fieldVal (buf : List Byte) (pos len : Nat) : Nat := bitsVal (bitAt buf) pos len

/-- Two's complement reading of an `len`-digit number. -/
def twosComp (len v : Nat) : Int := if v < 2 ^ (len - 1) then (v : Int) else (v : Int) - 2 ^ len

/-- A field lies inside a buffer of `n` bytes. -/
def FieldIn (n pos len : Nat) : Prop := pos + len ≤ 8 * n

instance (n pos len : Nat) : Decidable (FieldIn n pos len) := inferInstanceAs (Decidable (_ ≤ _))

end Ublox
