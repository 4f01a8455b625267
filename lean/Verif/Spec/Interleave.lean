import Verif.Spec.Frame
import Verif.Model.UbxCmd

/-!
# Receiving and sending, interleaved

What the application and the serial port do with one UBX parser object, in the order in which it happens.
-/

namespace Ublox.Ubx

/-- A byte arrives, a configuration call is made, or `wait_for_response` begins (it forgets earlier acknowledgements). -/
inductive Act where
  | byte (b : Byte)
  | call (c : Command)
  | forget

/-- The bytes that arrive. -/
def received : List Act → List Byte := List.filterMap fun
  | .byte b => some b
  | _ => none

/-- The configuration calls. -/
def called : List Act → List Command := List.filterMap fun
  | .call c => some c
  | _ => none

/-- All of it, one after the other: the new state, what each received byte shows, and the bytes written to the serial port. -/
def work : Ubx → List Act → M (Ubx × List Out × List Byte)
  | u, [] => .ok (u, [], [])
  | u, .byte b :: as => do
    let (u1, r, ds) ← readCb u b
    let (u2, outs, w) ← work u1 as
    .ok (u2, (r, ds) :: outs, w)
  | u, .call c :: as => do
    let (u1, w1) ← c.run u
    let (u2, outs, w) ← work u1 as
    .ok (u2, outs, w1 ++ w)
  | u, .forget :: as => work { u with gotAck := false, gotNack := false } as

end Ublox.Ubx
