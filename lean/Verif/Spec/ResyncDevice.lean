import Verif.Spec.Device
import Verif.Spec.Resync

/-!
# Recovering after garbage, the whole device
-/

namespace Ublox

/-- A well-formed message that contains neither start sequence (`B5 62`, `D3`) except at its own start. -/
def Msg.Clean (m : Msg) : Prop :=
  m.WF ∧ (∀ n, 1 ≤ n → m.bytes[n]? ≠ some 0xD3) ∧ ∀ n, 1 ≤ n → ¬ (m.bytes[n]? = some 0xB5 ∧ m.bytes[n + 1]? = some 0x62)

/-- Nowhere in the bytes is there a UBX header that announces length 0. -/
def NoZeroHeader (s : List Byte) : Prop := ∀ pre c i rest, s ≠ pre ++ ([0xB5, 0x62, c, i, 0, 0] ++ rest)

end Ublox
