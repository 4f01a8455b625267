import Verif.Spec.NavInput

/-!
# What a device does over its whole life, through changes of its role
-/

namespace Ublox

/-- The payload, if it is an RXM-SFRBX message. -/
def Msg.sfrbx? : Msg → Option (List Byte)
  | .ubx c i p => if c = 0x02 ∧ i = 0x13 then some p else none
  | .rtcm _ => none

namespace Dev

/-- The good messages of the receiver's stream for a base: UBX and RTCM3 messages mixed.  `prev` is the byte before. -/
noncomputable def mixed (prev : Byte) (s : List Byte) : List Msg := (demux prev s).1

/-- The good messages of the stream for other devices: only UBX messages count. -/
def plain (prev : Byte) (s : List Byte) : List Msg :=
  (scan prev s).1.filterMap fun
    | .good c i p => some (.ubx c i p)
    | _ => none

/-- Those that are complete only with the bytes `new`. -/
def newly (split : List Byte → List Msg) (old new : List Byte) : List Msg := (split (old ++ new)).drop (split old).length

/-- What concerns the navigation decoder in a history of events, when the bytes `old` have been received before: the RXM-SFRBX
messages, each when its last byte arrives, and the registrations. -/
def insBy (split : List Byte → List Msg) (old : List Byte) : List Ev → List NavIn
  | [] => []
  | .rx b :: evs => ((newly split old b).filterMap Msg.sfrbx?).map .sfrbx ++ insBy split (old ++ b) evs
  | .ephCb :: evs => .addEph :: insBy split old evs
  | .gephCb :: evs => .addGeph :: insBy split old evs
  | _ :: evs => insBy split old evs

/-- No call in these events makes the device a rover, or a base. -/
def StaysBase (evs : List Ev) : Prop := ∀ i, Ev.configRover i ∉ evs
def NeverBase (evs : List Ev) : Prop := ∀ i s, Ev.configBase i s ∉ evs

/-- A stage of a device's life: `Stage md evs d evs' d' ins es` says that the device `d`, with history `evs`, goes through the
events `evs'`, with effects `es`, and is `d'` then; that it was between two messages at the beginning and was a base all the time
from then on, or never; and that the good RXM-SFRBX messages received and the registrations of callbacks were `ins`. -/
inductive Stage (md : Nav.Mode) : List Ev → Dev → List Ev → Dev → List NavIn → List Eff → Prop where
  /-- made a base, and used as a base -/
  | base {evs evs' : List Ev} {d d' : Dev} {es : List Eff} {i : Nat} {st : Bool} :
      d.ubx.parsingMessage = false → d.rtcm.parsingMessage = false → StaysBase evs' →
      run md d (.configBase i st :: evs') = .ok (d', es) →
      Stage md evs d (.configBase i st :: evs') d' (insBy (mixed d.ubx.prev) [] evs') es
  /-- made a rover, and used as a rover -/
  | rover {evs evs' : List Ev} {d d' : Dev} {es : List Eff} {i : Nat} :
      d.ubx.parsingMessage = false → NeverBase evs' →
      run md d (.configRover i :: evs') = .ok (d', es) →
      Stage md evs d (.configRover i :: evs') d' (insBy (plain d.ubx.prev) [] evs') es
  /-- used further as a base -/
  | stillBase {evs evs' : List Ev} {d d' : Dev} {es : List Eff} : (configured evs).1 = .base →
      d.ubx.parsingMessage = false → d.rtcm.parsingMessage = false → StaysBase evs' →
      run md d evs' = .ok (d', es) → Stage md evs d evs' d' (insBy (mixed d.ubx.prev) [] evs') es
  /-- used further as something else -/
  | stillOther {evs evs' : List Ev} {d d' : Dev} {es : List Eff} : (configured evs).1 ≠ .base →
      d.ubx.parsingMessage = false → NeverBase evs' →
      run md d evs' = .ok (d', es) → Stage md evs d evs' d' (insBy (plain d.ubx.prev) [] evs') es

/-- A life of a device in which changes of role between base and other fall between two messages: `Course md evs d ins es` says
that after its construction the events `evs` have led to the device `d`, with effects `es`; and that the good RXM-SFRBX messages
received from the start on, and the registrations of callbacks, were `ins`. -/
inductive Course (md : Nav.Mode) : List Ev → Dev → List NavIn → List Eff → Prop where
  /-- from the construction on, while it is no base -/
  | start {ss : List Ubx.Sched} {evs : List Ev} {d : Dev} {es : List Eff} : Life md ss evs d es → NeverBase evs →
      Course md evs d (navLife ss evs) es
  | stage {evs evs' : List Ev} {d d' : Dev} {ins ins' : List NavIn} {es es' : List Eff} : Course md evs d ins es →
      Stage md evs d evs' d' ins' es' → Course md (evs ++ evs') d' (ins ++ ins') (es ++ es')

end Dev
end Ublox
