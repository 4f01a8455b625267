import Verif.Spec.Version
import Verif.Spec.NavInput
import Verif.Spec.Contiguous
import Verif.Spec.BaseLife
/-! # Specification: data that the driver should survive

What a receiver with GPS enabled, and a base station with frames of at most 1018 bytes, send. -/

namespace Ublox.Dev
open MonVer

/-- The bytes of a stream that are not inside a UBX frame: those before which no frame is open. -/
def outside (s : List Byte) : List Byte :=
  (List.range s.length).filterMap fun i =>
    match (scan 0 (s.take i)).2 with
    | .opened _ => none
    | .idle _ => s[i]?

/-- No RTCM header `D3 b1 b2` in `s` announces more than 1018 bytes. -/
def ShortRtcm (s : List Byte) : Prop := ∀ pre b1 b2 rest, s = pre ++ 0xD3 :: b1 :: b2 :: rest → rtcmLen b1 b2 ≤ 1018

/-- A harmless stream from the receiver: its good version reports say a version, its good navigation messages are of GPS
satellites, and between its UBX frames there is no RTCM header that announces more than 1018 bytes. -/
structure Harmless (s : List Byte) : Prop where
  versions : ∀ p ∈ reports (scan 0 s).1, ∃ maj min name, Tells p maj min name
  navs : ∀ p ∈ sfrbxIn s, p.head? = some 0
  rtcm : ShortRtcm (outside s)

/-- A harmless stream for a base, from between two messages on (`prev` is the byte before): the same, in the mixed stream of
UBX and RTCM messages; no RTCM frame that is open at any moment announces more than 1018 bytes. -/
structure HarmlessMixed (prev : Byte) (s : List Byte) : Prop where
  versions : ∀ p, Msg.ubx 0x0A 0x04 p ∈ (demux prev s).1 → ∃ maj min name, Tells p maj min name
  navs : ∀ p, Msg.ubx 0x02 0x13 p ∈ (demux prev s).1 → p.head? = some 0
  rtcm : ∀ k b1 b2 rest, (demux prev (s.take k)).2 = .rtcm (0xD3 :: b1 :: b2 :: rest) → rtcmLen b1 b2 ≤ 1018

/-- What arrives on the RTK interface of a rover, when `config_rover` has been called on the interfaces `on` before. -/
def rtkHeard (on : List Nat) : List Ev → List Byte
  | [] => []
  | .configRover i :: evs => rtkHeard (i :: on) evs
  | .rtkRx i b :: evs => (if i ∈ on then b else []) ++ rtkHeard on evs
  | _ :: evs => rtkHeard on evs

end Ublox.Dev
