import Verif.Model.Base

/-!
# Model of `include/UBLOX/bit_tools.h`

Template parameters (`len`, `Sign`) become ordinary arguments.  `tempType` is represented by its
width `W`; every assignment to a `tempType` variable is reduced `% 2^W`.

Simplifications: `pos` is a natural number (all callers pass non-negative constants); the
`KeepByteOrder` branch of `getBit` (lines 71-78, 116-123), which nothing in the library uses, is
modelled only for `BitField` (`Model/BitField.lean`).
-/

namespace Ublox

/-- Width of `TypeHelper<Unsigned, len>::type`. bit_tools.h:33-45. -/
def typeWidth (len : Nat) : Nat :=
  if len ≤ 8 then 8 else if len ≤ 16 then 16 else if len ≤ 32 then 32 else 64

/-- The byte loop `for (int i = 8 - (pos & 7); i < len; i += 8) { tmp <<= 8; tmp |= *(++p); }`
of `getBit`. bit_tools.h:64-68 (and 109-113).  `fuel` bounds the number of iterations; callers pass
`len`, which always suffices because `i` starts at ≥ 1 and grows by 8. -/
def getBitLoop (W : Nat) (buf : List Byte) (len : Nat) : Nat → Nat → Nat → Nat → M Nat
  | 0, _, _, tmp => .ok tmp
  | fuel + 1, i, p, tmp =>
    if i < len then do
      let b ← rd buf (p + 1)
      getBitLoop W buf len fuel (i + 8) (p + 1) (((tmp <<< 8) % 2 ^ W) ||| b.toNat)
    else .ok tmp

/-- Common body of both `getBit` overloads with `SwitchByteOrder`, before sign handling:
`ret = (tmp >> (7 - (last_bit & 7))) & mask`, stored into an unsigned type of `R` bits.
bit_tools.h:51-69, 96-114. -/
def getBitRaw (W R : Nat) (buf : List Byte) (pos len : Nat) : M Nat := do
  let last := pos + len - 1
  let b ← rd buf (pos / 8)
  let tmp ← getBitLoop W buf len len (8 - pos % 8) (pos / 8) b.toNat
  .ok (((tmp >>> (7 - last % 8)) &&& (2 ^ len - 1)) % 2 ^ R)

/-- `getBit<len>(buf, pos)` (Unsigned, SwitchByteOrder). bit_tools.h:48-91. -/
def getBit (len : Nat) (buf : List Byte) (pos : Nat) : M Nat :=
  getBitRaw (typeWidth (len + 8)) (typeWidth len) buf pos len

/-- `getBit(buf, pos, len)` with a run-time length (Unsigned, SwitchByteOrder): 64-bit temporary,
32-bit result. bit_tools.h:93-136. -/
def getBitRt (buf : List Byte) (pos len : Nat) : M Nat :=
  getBitRaw 64 32 buf pos len

/-- The sign handling `if (ret & (one << (len-1))) return (retType)(ret | (~zero << len)); return ret`,
with a `W`-bit temporary and an `R`-bit result type: the cast to the signed `R`-bit type is two's
complement. bit_tools.h:81-90, 126-135.  (For `len ≤ 8` the C++ expression `~zero << len` shifts a
negative `int`; gcc and C++20 define it as used here.) -/
def signExt (W R len ret : Nat) : Int :=
  if ret &&& (2 ^ (len - 1)) ≠ 0 then
    (BitVec.ofNat R (ret ||| ((2 ^ W - 1) <<< len) % 2 ^ W)).toInt
  else (BitVec.ofNat R ret).toInt

/-- `getBit<len, Signed>(buf, pos)`. bit_tools.h:48-91. -/
def getBitS (len : Nat) (buf : List Byte) (pos : Nat) : M Int := do
  let ret ← getBit len buf pos
  .ok (signExt (typeWidth (len + 8)) (typeWidth len) len ret)

/-- `getBit<Signed>(buf, pos, len)`. bit_tools.h:93-136. -/
def getBitRtS (buf : List Byte) (pos len : Nat) : M Int := do
  let ret ← getBitRt buf pos len
  .ok (signExt 64 32 len ret)

/-- One byte update `(*p &= wmask) |= m` (both narrowed to 8 bits). bit_tools.h:152, 157. -/
def setByte (buf : List Byte) (p : Nat) (wmask m : Nat) : M (List Byte) := do
  let b ← rd buf p
  wr buf p ((b &&& BitVec.ofNat 8 wmask) ||| BitVec.ofNat 8 m)

/-- The loop `while (i < len) { m >>= 8; wmask >>= 8; (*(--p) &= wmask) |= m; i += 8; }`.
bit_tools.h:153-159.  `--p` below the start of the array is an out-of-bounds write. -/
def setBitLoop (len : Nat) : Nat → Nat → Nat → Nat → Nat → List Byte → M (List Byte)
  | 0, _, _, _, _, buf => .ok buf
  | fuel + 1, i, p, wmask, m, buf =>
    if i < len then
      match p with
      | 0 => .error .oobWrite
      | p' + 1 => do
        let buf' ← setByte buf p' (wmask >>> 8) (m >>> 8)
        setBitLoop len fuel (i + 8) p' (wmask >>> 8) (m >>> 8) buf'
    else .ok buf

/-- Common body of both `setBit` overloads with a `W`-bit temporary. bit_tools.h:138-184. -/
def setBitW (W : Nat) (len : Nat) (buf : List Byte) (pos data : Nat) : M (List Byte) := do
  let mask := 2 ^ len - 1
  let last := pos + len - 1
  let s := 7 - last % 8
  let m := ((data &&& mask) <<< s) % 2 ^ W
  let wmask := 2 ^ W - 1 - (mask <<< s) % 2 ^ W
  let buf' ← setByte buf (last / 8) wmask m
  setBitLoop len len (last % 8 + 1) (last / 8) wmask m buf'

/-- `setBit<len>(buff, pos, data)`. bit_tools.h:138-160. -/
def setBit (len : Nat) (buf : List Byte) (pos data : Nat) : M (List Byte) :=
  setBitW (typeWidth (len + 8)) len buf pos data

/-- `setBit(buff, pos, data, len)` with a run-time length. bit_tools.h:162-184. -/
def setBitRt (buf : List Byte) (pos data len : Nat) : M (List Byte) :=
  setBitW 64 len buf pos data

/-- `getBitGlo<len>(buf, pos)`: sign-magnitude.  The C++ result is a `double`; the value is an
integer below 2^55, so it is modelled as the exact `Int` (the sign of a negative zero is dropped).
bit_tools.h:186-191. -/
def getBitGlo (len : Nat) (buf : List Byte) (pos : Nat) : M Int := do
  let v ← getBit (len - 1) buf (pos + 1)
  let s ← getBit 1 buf pos
  .ok (if s ≠ 0 then -(v : Int) else (v : Int))

end Ublox
