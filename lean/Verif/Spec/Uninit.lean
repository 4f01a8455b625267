import Verif.Spec.NavInput
import Verif.Spec.Contiguous

/-!
# Specification for C127: two devices of which only the uninitialised memory differs
-/

namespace Ublox
namespace Dev

/-- The same effect, as far as it is determined by what was received: listener, class, id and the bytes of a payload that was
received (`P`); callbacks, bytes written to the receiver and to the RTK link are the same altogether. -/
inductive Agree (P : Byte → Byte → List Byte → Prop) : Eff → Eff → Prop where
  | ubx (l : Nat) (c i : Byte) (p b b' : List Byte) : P c i p → b.length = 2048 → b'.length = 2048 → b.take p.length = p →
      b'.take p.length = p → Agree P (.ubx l c i b) (.ubx l c i b')
  | nav (x : Nav.NavCall) : Agree P (.nav x) (.nav x)
  | toReceiver (w : List Byte) : Agree P (.toReceiver w) (.toReceiver w)
  | toRtk (j : Nat) (f : List Byte) : Agree P (.toRtk j f) (.toRtk j f)

/-- A UBX message with a good checksum in the stream `s`. -/
def InStream (s : List Byte) (c i : Byte) (p : List Byte) : Prop := Item.good c i p ∈ (scan 0 s).1

end Dev
end Ublox
