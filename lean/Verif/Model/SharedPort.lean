import Verif.Model.UbxCmd

/-!
# Two threads write to the receiver

The application's thread sends commands, each as nine separate `write`s; on a rover the thread of the RTK link writes every
buffer of corrections to the same port. One `write` call is atomic (`async_comm` queues it under a lock).
-/

namespace Ublox.Port

/-- The separate `write` calls of `UBX::send_message`. ubx.cpp:114-131, 523-530. -/
def sendWrites (cls id : Byte) (len : Nat) (u : Ubx) : M (List (List Byte)) := do
  let (a, b) ← Ubx.calcChecksum cls id len u.outMsg
  let p ← Ubx.readN u.outMsg len 0
  .ok [[START_BYTE_1], [START_BYTE_2], [cls], [id], [BitVec.ofNat 8 (len &&& 0xFF)], [BitVec.ofNat 8 ((len >>> 8) &&& 0xFF)],
    p, [a], [b]]

/-- The state of the port: what the application still has to write (calls in progress and to come, each the list of its
writes), whether a call is in progress, and the bytes sent so far. ublox.cpp:104-112; ubx.cpp:114-131. -/
structure Port where
  todo : List (List (List Byte))
  busy : Bool
  out : List Byte

/-- What the scheduler may let happen next. ublox.cpp:107-111; ubx.cpp:120-129. -/
inductive Ev where
  /-- the application makes its next `write` -/
  | command
  /-- a buffer comes in on the RTK link and is written to the receiver -/
  | link (buf : List Byte)

/-- One `write`. ublox.cpp:107-108 (link); ubx.cpp:121-129 (command). -/
def step (s : Port) : Ev → Port
  | .link buf => { s with out := s.out ++ buf }
  | .command =>
    match s.todo with
    | [] => s
    | [] :: t => { s with todo := t, busy := false }
    | [w] :: t => ⟨t, false, s.out ++ w⟩
    | (w :: w' :: ws) :: t => ⟨(w' :: ws) :: t, true, s.out ++ w⟩

/-- A schedule. (Interleaving; no code line.) -/
def run (s : Port) (evs : List Ev) : Port := evs.foldl step s

end Ublox.Port
