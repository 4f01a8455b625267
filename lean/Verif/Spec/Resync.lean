import Verif.Spec.Frame
import Verif.Spec.Rtcm
import Verif.Model.Ubx
import Verif.Model.Rtcm

/-!
# Recovering after garbage

Frames that cannot be mistaken: the start sequence occurs nowhere inside them.  (A frame whose content contains complete
frames can keep any receiver out of step; that is a property of the protocol.)
-/

namespace Ublox

/-- A UBX message: class, id, payload. -/
structure UbxMsg where
  cls : Byte
  id : Byte
  payload : List Byte
  deriving DecidableEq

/-- Its bytes on the wire. -/
def UbxMsg.frame (m : UbxMsg) : List Byte := ubxFrame m.cls m.id m.payload

/-- An allowed payload length, and the frame contains `B5 62` only at its start. -/
def UbxMsg.Clean (m : UbxMsg) : Prop :=
  1 ≤ m.payload.length ∧ m.payload.length ≤ 2048 ∧
    ∀ n, 1 ≤ n → ¬ (m.frame[n]? = some 0xB5 ∧ m.frame[n + 1]? = some 0x62)

/-- The bytes of several messages, one after the other. -/
def onWire (ms : List UbxMsg) : List Byte := (ms.map UbxMsg.frame).flatten

/-- The results of `read_cb` show that exactly the messages `ms` are delivered: false without any call for all bytes of a
frame but the last, true for the last, with one call for every listener of `u` that has subscribed the message, with its
payload. -/
def DeliversAll (u : Ubx) : List UbxMsg → List Ubx.Out → Prop
  | [], outs => outs = []
  | m :: ms, outs => ∃ msg rest, msg.length = 2048 ∧ msg.take m.payload.length = m.payload ∧
      outs = List.replicate (m.payload.length + 7) (false, []) ++
        [(true, (u.listeners.filter fun l => u.subscribed l m.cls m.id).map fun l => ⟨l, m.cls, m.id, msg⟩)] ++ rest ∧
      DeliversAll u ms rest

/-- A valid RTCM3 frame of at most 1018 payload bytes that contains `D3` only at its start. -/
def CleanRtcm (f : List Byte) : Prop :=
  ∃ p, RtcmFrame p f ∧ 1 ≤ p.length ∧ p.length ≤ 1018 ∧ ∀ n, 1 ≤ n → f[n]? ≠ some 0xD3

/-- The calls made while the bytes arrive show that every listener gets exactly the frames `fs`, each with its last byte. -/
def PassesAll (listeners : List Nat) : List (List Byte) → List (List RtcmCall) → Prop
  | [], css => css = []
  | f :: fs, css => ∃ rest,
      css = List.replicate (f.length - 1) [] ++ [listeners.map fun l => (⟨l, f⟩ : RtcmCall)] ++ rest ∧ PassesAll listeners fs rest

end Ublox
