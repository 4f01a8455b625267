import Verif.Model.Logger

/-!
# The recording stream and the disk (src/examples/logger.h)

Model/Logger.lean treats `log_file_.write` as if the bytes were in the file at once.  Here the `std::ofstream` is between
the program and the disk: bytes written wait in its buffer until the library hands them to the operating system, at moments
the program does not control; handing over can fail (disk full, device gone), and the program can be killed at any moment.

Simplifications: what the operating system has accepted is on the disk; after a failed hand-over nothing more gets there
(the stream is in the bad state, in which the C++ standard makes every further output operation do nothing).
-/

namespace Ublox

/-- `std::ofstream log_file_` and the file behind it. logger.h:88. -/
structure OutStream where
  /-- bytes in the file -/
  disk : List Byte
  /-- bytes accepted by the stream, not yet handed over -/
  pending : List Byte
  bad : Bool
  isOpen : Bool
  deriving DecidableEq, Repr

/-- A `Logger` recording to a stream. logger.h:87-89. -/
structure Recorder where
  type : LogType
  out : OutStream
  deriving DecidableEq, Repr

/-- What happens while recording. (Environment of the recorder: calls of `read_cb`, logger.h:61-73, and the work of the
library and the operating system in between.) -/
inductive RecEv where
  /-- `read_cb` is called with this buffer -/
  | data (buf : List Byte)
  /-- the stream hands over the first `n` waiting bytes -/
  | flush (n : Nat)
  /-- handing over fails after `n` bytes -/
  | fail (n : Nat)
  deriving DecidableEq, Repr

namespace OutStream

/-- `ofstream::write`: in the bad state nothing happens. (C++ [ostream.unformatted].) Used at logger.h:72. -/
def write (s : OutStream) (buf : List Byte) : OutStream :=
  if s.bad then s else { s with pending := s.pending ++ buf }

/-- Part of the buffer reaches the file. (C++ [filebuf.virtuals].) Used at logger.h:72. -/
def flush (s : OutStream) (n : Nat) : OutStream :=
  if s.bad then s else { s with disk := s.disk ++ s.pending.take n, pending := s.pending.drop n }

/-- A hand-over that fails after `n` bytes. (C++ [filebuf.virtuals].) Used at logger.h:72. -/
def fail (s : OutStream) (n : Nat) : OutStream :=
  if s.bad then s else { s with disk := s.disk ++ s.pending.take n, pending := [], bad := true }

/-- The destructor closes the stream, which hands over what is left. (C++ [ofstream.cons].) Used at logger.h:88. -/
def close (s : OutStream) : OutStream := { s.flush s.pending.length with isOpen := false }

end OutStream

namespace Recorder

/-- `Logger(filename, Type::WRITE)` when the file can be opened: it is truncated. logger.h:17-35. -/
def create : Recorder := ⟨.write, ⟨[], [], false, true⟩⟩

/-- `Logger::read_cb`: the only tests are the mode and `is_open()`; `none`: it throws. logger.h:61-73. -/
def readCb (r : Recorder) (buf : List Byte) : Option Recorder :=
  if r.type ≠ .write then none
  else if ¬ r.out.isOpen then none
  else some { r with out := r.out.write buf }

/-- One event; `none`: an exception leaves `read_cb`. logger.h:61-73. -/
def step (r : Recorder) : RecEv → Option Recorder
  | .data buf => r.readCb buf
  | .flush n => some { r with out := r.out.flush n }
  | .fail n => some { r with out := r.out.fail n }

/-- A recording session. (Composition.) logger.h:61-73. -/
def run (r : Recorder) : List RecEv → Option Recorder
  | [] => some r
  | e :: es => (r.step e).bind fun r' => r'.run es

end Recorder
end Ublox
