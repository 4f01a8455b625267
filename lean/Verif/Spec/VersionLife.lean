import Verif.Spec.Version
import Verif.Spec.BaseLife
import Verif.Spec.Contiguous
/-! # Specification: the version reports in the life of a device that changes its role -/

namespace Ublox.Dev
open MonVer

/-- The version reports among messages. -/
def versionsIn (ms : List Msg) : List (List Byte) :=
  ms.filterMap fun
    | .ubx c i p => if c = 0x0A ∧ i = 0x04 then some p else none
    | .rtcm _ => none

open Classical in
/-- The good messages of a stage that begins after the byte `prev`: a base finds UBX and RTCM messages, others UBX messages. -/
noncomputable def stageMsgs (prev : Byte) (evs evs' : List Ev) : List Msg :=
  if (configured (evs ++ evs')).1 = .base then mixed prev (received evs') else plain prev (received evs')

/-- `Reported md evs d rs`: a device with the life `evs`, in stages as in `Course`, has received the good version reports `rs`
since its construction began. -/
inductive Reported (md : Nav.Mode) : List Ev → Dev → List (List Byte) → Prop where
  | start {ss : List Ubx.Sched} {evs : List Ev} {d : Dev} {es : List Eff} : Life md ss evs d es → NeverBase evs →
      Reported md evs d (reports (scan 0 (sentBy ss evs)).1)
  | stage {evs evs' : List Ev} {d d' : Dev} {rs : List (List Byte)} {ins : List NavIn} {es : List Eff} : Reported md evs d rs →
      Stage md evs d evs' d' ins es → Reported md (evs ++ evs') d' (rs ++ versionsIn (stageMsgs d.ubx.prev evs evs'))

end Ublox.Dev
