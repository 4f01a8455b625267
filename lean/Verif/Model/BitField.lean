import Verif.Model.BitTools

/-!
# Model of `include/UBLOX/bitfield.h`

`BitField<firstBit, bitSize, byteOrder>` overlaid on a byte array.  All arithmetic is on 32-bit
`unsigned`.
-/

namespace Ublox

/-- The template parameter `byteOrder`. bitfield.h:26-30. -/
inductive ByteOrder where
  | switch
  | keep
  deriving DecidableEq, Repr

/-- The `KeepByteOrder` read loop
`while (i < bitSize) { ret |= (*(++p) << (i + 8)); i += 8; }`. bitfield.h:67-73.
A shift by 32 or more is undefined behaviour (`UB.overflow`). -/
def bfKeepLoop (buf : List Byte) (size : Nat) : Nat → Nat → Nat → Nat → M Nat
  | 0, _, _, ret => .ok ret
  | fuel + 1, i, p, ret =>
    if i < size then do
      let b ← rd buf (p + 1)
      if 32 ≤ i + 8 then .error .overflow
      else bfKeepLoop buf size fuel (i + 8) (p + 1) (ret ||| (b.toNat <<< (i + 8)) % 2 ^ 32)
    else .ok ret

/-- `BitField::operator unsigned()`. bitfield.h:49-76.  The `SwitchByteOrder` branch is textually the
loop of `getBit` with a 32-bit temporary and result. -/
def bfRead (o : ByteOrder) (first size : Nat) (buf : List Byte) : M Nat :=
  match o with
  | .switch => getBitRaw 32 32 buf first size
  | .keep => do
    let b ← rd buf (first / 8)
    let ret ← bfKeepLoop buf size size 0 (first / 8) b.toNat
    .ok ((ret >>> (first % 8)) &&& (2 ^ size - 1))

/-- `BitField::operator=(unsigned m)`: textually the body of `setBit` with a 32-bit temporary,
whatever the byte order. bitfield.h:79-96. -/
def bfWrite (_o : ByteOrder) (first size : Nat) (buf : List Byte) (m : Nat) : M (List Byte) :=
  setBitW 32 size buf first m

/-- `operator+=(m)`: `*this = *this + m` in 32-bit arithmetic. bitfield.h:98-102.  The other
compound assignments (104-156) have the same shape. -/
def bfUpdate (o : ByteOrder) (first size : Nat) (buf : List Byte) (f : Nat → Nat) : M (List Byte) := do
  let v ← bfRead o first size buf
  bfWrite o first size buf (f v % 2 ^ 32)

end Ublox
