import Verif.Model.Device

/-!
# Model of the stream recorder and player (src/examples/logger.h) and of the serial fan-out
(include/UBLOX/serial_interface.h, include/UBLOX/async_comm_adapter.h)

The file is the list of bytes in it.  `sleep_for` has no effect on the results and is dropped; so are the leaked
array and the `printf` of `Logger::write`.  `ofstream` in text mode writes bytes unchanged (POSIX).
-/

namespace Ublox

/-- `SerialInterface`: its listeners, in order of registration, and the one callback. serial_interface.h:13-24. -/
structure SerialIf where
  listeners : List Nat
  cb : Option Nat
  deriving DecidableEq, Repr

/-- Who is called with a buffer. serial_interface.h:19-23. -/
inductive Sink where
  | callback (id : Nat)
  | listener (id : Nat)
  deriving DecidableEq, Repr

/-- One call of a callback, or of `SerialListener::read_cb(buf, size)`. serial_interface.h:7-11. -/
structure SerialCall where
  sink : Sink
  bytes : List Byte
  deriving DecidableEq, Repr

namespace SerialIf

/-- `SerialInterface::add_listener`. serial_interface.h:19. -/
def addListener (s : SerialIf) (l : Nat) : SerialIf := { s with listeners := s.listeners ++ [l] }

/-- `SerialInterface::add_callback`. serial_interface.h:20. -/
def addCallback (s : SerialIf) (c : Nat) : SerialIf := { s with cb := some c }

/-- `Serial::receive_callback` and `UDP::receive_callback`. async_comm_adapter.h:27-35, 52-60. -/
def receive (s : SerialIf) (buf : List Byte) : List SerialCall :=
  (s.cb.toList.map fun c => ⟨.callback c, buf⟩) ++ s.listeners.map fun l => ⟨.listener l, buf⟩

end SerialIf

/-- `Logger::Type`. logger.h:12-16. -/
inductive LogType where
  | read | write
  deriving DecidableEq, Repr

/-- Data members of `Logger` that matter: its mode, whether its file is open, the file's contents and the
listeners.  logger.h:87-89. -/
structure Logger where
  type : LogType
  isOpen : Bool
  file : List Byte
  listeners : List Nat
  deriving DecidableEq, Repr

namespace Logger

/-- Outcome of a call: it returns, it throws, or it is undefined behaviour. (C++ outcome; the throws are
logger.h:17-60.) -/
inductive Out (α : Type) where
  | ok (a : α)
  | throw
  | ub (e : UB)
  deriving DecidableEq, Repr

/-- `Logger::Logger(filename, type)`: `contents` is what is on disk under that name, `none` if the open fails; opening
for writing truncates.  logger.h:17-35. -/
def create (type : LogType) (contents : Option (List Byte)) : Out Logger :=
  match contents with
  | none => .throw
  | some c => .ok { type, isOpen := true, file := if type = .read then c else [], listeners := [] }

/-- `Logger::read_cb`. logger.h:61-73. -/
def readCb (g : Logger) (buf : List Byte) : Out Logger :=
  if g.type ≠ .write then .throw
  else if ¬ g.isOpen then .throw
  else .ok { g with file := g.file ++ buf }

/-- `chunk_size`: `((len - idx) >= 14) ? 14 : len - idx`, unsigned arithmetic with `idx < len`. logger.h:51. -/
def chunkSize (len idx : Nat) : Nat := if len - idx ≥ 14 then 14 else len - idx

theorem chunkSize_pos {len idx : Nat} (h : idx < len) : 0 < chunkSize len idx := by
  unfold chunkSize; split <;> omega

/-- The `while` loop of `play` from `idx` on.  The model stops with signed overflow when `idx` leaves `int`.
logger.h:49-59. -/
def loop (listeners : List Nat) (buffer : List Byte) (len idx : Nat) : M (List SerialCall) :=
  if h : idx < len then
    let n := chunkSize len idx
    let calls := listeners.map fun l => ⟨.listener l, (buffer.drop idx).take n⟩
    if idx + n ≥ 2 ^ 31 then .error .overflow
    else do
      let rest ← loop listeners buffer len (idx + n)
      .ok (calls ++ rest)
  else .ok []
termination_by len - idx
decreasing_by have := chunkSize_pos h; omega

/-- `Logger::play`; `len` is a `uint32_t`. logger.h:37-60. -/
def play (g : Logger) : Out (List SerialCall) :=
  if g.type ≠ .read then .throw
  else
    let len := g.file.length % 2 ^ 32
    match loop g.listeners (g.file.take len) len 0 with
    | .ok cs => .ok cs
    | .error e => .ub e

/-- A recording session: `read_cb` once per received buffer. (Composition; the buffers come from the serial
thread, async_comm_adapter.h:52-60.) -/
def record (g : Logger) : List (List Byte) → Out Logger
  | [] => .ok g
  | b :: bs => match g.readCb b with
    | .ok g => record g bs
    | .throw => .throw
    | .ub e => .ub e

end Logger
end Ublox
