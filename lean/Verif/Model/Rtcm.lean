import Verif.Model.BitTools
import Verif.Model.Crc

/-!
# Model of the RTCM3 parser (src/parsers/rtcm.cpp, include/UBLOX/parsers/rtcm.h)
-/

namespace Ublox

/-- `RTCM::ParseState`, the enumerators that are ever assigned. rtcm.h:85-98. -/
inductive RState where
  | start | gotStartFrame | gotLength1 | gotLength2 | gotPayload | gotCkA | gotCkB | gotCkC
  deriving DecidableEq, Repr

/-- One call `l->got_rtcm(buf, size)`: the listener and the `size` bytes it may read. rtcm.h:34, rtcm.cpp:168-171. -/
structure RtcmCall where
  listener : Nat
  bytes : List Byte
  deriving DecidableEq, Repr

/-- Data members of `RTCM`. rtcm.h:69-102.  `ck_a_`, `ck_b_`, `ck_c_` are written and never read: dropped.
Listeners are numbered. -/
structure Rtcm where
  inBuf : List Byte
  newData : Bool
  messageLen : Nat
  head : Nat
  payloadLen : Nat
  startMsg : Bool
  endMsg : Bool
  prev : Byte
  numErrors : Nat
  state : RState
  listeners : List Nat

namespace Rtcm

/-- `BUFFER_SIZE`. rtcm.h:39. -/
abbrev BUFFER_SIZE : Nat := 1024
/-- `START_BYTE`. rtcm.h:82. -/
def START_BYTE : Byte := 0xD3

/-- `RTCM::RTCM()`; the members it leaves uninitialised are parameters. rtcm.cpp:26-35. -/
def init (inBuf : List Byte) (messageLen payloadLen numErrors : Nat) : Rtcm :=
  { inBuf, newData := false, messageLen, head := 0, payloadLen, startMsg := false, endMsg := false, prev := 0,
    numErrors, state := .start, listeners := [] }

/-- `RTCM::restart`. rtcm.cpp:37-42. -/
def restart (r : Rtcm) : Rtcm := { r with state := .start, startMsg := false, endMsg := false }

/-- `RTCM::parsing_message`. rtcm.cpp:44-47. -/
def parsingMessage (r : Rtcm) : Bool := r.startMsg && !r.endMsg

/-- `RTCM::new_data`. rtcm.cpp:49-54. -/
def newDataCall (r : Rtcm) : Rtcm × Bool := ({ r with newData := false }, r.newData)

/-- `RTCM::registerListener`. rtcm.cpp:179-182. -/
def registerListener (r : Rtcm) (l : Nat) : Rtcm := { r with listeners := r.listeners ++ [l] }

/-- `in_buffer_[buffer_head_++] = byte`. rtcm.cpp:81, 84, 88, 100, 118, 123, 128. -/
def store (r : Rtcm) (byte : Byte) : M Rtcm := do
  let b ← wr r.inBuf r.head byte
  .ok { r with inBuf := b, head := r.head + 1 }

/-- `RTCM::check_crc`. rtcm.cpp:56-61. -/
def checkCrc (r : Rtcm) : M Bool := do
  let readCrc ← getBit 24 r.inBuf ((r.head - 3) * 8)
  let computed ← crc24 r.inBuf (r.payloadLen + 3)
  .ok (readCrc == computed)

/-- `RTCM::decode`. rtcm.cpp:162-177. -/
def decode (r : Rtcm) : M (Rtcm × List RtcmCall) := do
  let r := { r with newData := true, messageLen := r.head }
  let ok ← checkCrc r
  if ok then .ok (r, r.listeners.map fun l => ⟨l, r.inBuf.take r.head⟩)
  else .ok (r, [])

/-- The `switch` of `read_cb`.  `size_t` subtraction `buffer_head_ - 3` cannot wrap here (three bytes are stored
before this state is entered), so `Nat` subtraction is used.  rtcm.cpp:68-146. -/
def switch (r : Rtcm) (byte : Byte) : M Rtcm :=
  match r.state with
  | .start =>
    let r := { r with head := 0 }
    if byte = START_BYTE then
      store { r with state := .gotStartFrame, payloadLen := 0, startMsg := true, endMsg := false } byte
    else .ok r
  | .gotStartFrame => do
    let r ← store r byte
    .ok { r with state := .gotLength1 }
  | .gotLength1 => do
    let r ← store r byte
    let len := ((r.prev.toNat &&& 0x3) <<< 8) ||| byte.toNat
    let r := { r with payloadLen := len, state := .gotLength2 }
    if len > BUFFER_SIZE ∨ len = 0 then
      .ok (restart { r with numErrors := r.numErrors + 1, prev := byte })
    else .ok r
  | .gotLength2 => do
    let r ← store r byte
    let r := if r.head - 3 = r.payloadLen then { r with state := .gotPayload } else r
    if r.head - 3 > r.payloadLen then
      .ok { r with numErrors := r.numErrors + 1, state := .start, prev := byte, startMsg := false, endMsg := false }
    else .ok r
  | .gotPayload => do
    let r ← store r byte
    .ok { r with state := .gotCkA }
  | .gotCkA => do
    let r ← store r byte
    .ok { r with state := .gotCkB }
  | .gotCkB => do
    let r ← store r byte
    let r := { r with state := .gotCkC }
    if r.head > BUFFER_SIZE then
      .ok { r with head := 0, numErrors := r.numErrors + 1, state := .start, startMsg := false, endMsg := true }
    else .ok r
  | .gotCkC =>
    .ok { r with head := 0, numErrors := r.numErrors + 1, state := .start, startMsg := false, endMsg := true }

/-- One iteration of `RTCM::read_cb`: the new state and the listener calls. rtcm.cpp:63-160.
(`num_errors_`, a `size_t` that is never initialised and never read, does not wrap in the model.) -/
def readByte (r : Rtcm) (byte : Byte) : M (Rtcm × List RtcmCall) := do
  let r ← switch r byte
  if r.state = .gotCkC then do
    let (r, calls) ← decode { r with state := .start, startMsg := false, endMsg := true }
    .ok ({ r with prev := byte }, calls)
  else .ok ({ r with prev := byte }, [])

/-- `RTCM::read_cb(buf, size)`: the final state and the listener calls of each iteration. rtcm.cpp:63-160. -/
def readCb (r : Rtcm) : List Byte → M (Rtcm × List (List RtcmCall))
  | [] => .ok (r, [])
  | b :: bs => do
    let (r, c) ← readByte r b
    let (r, cs) ← readCb r bs
    .ok (r, c :: cs)

/-- Executions of the parser object: every interleaving of buffers received, registrations, `restart` and `new_data`
calls.  `Reach r hist`: `r` can be reached with exactly the bytes `hist` fed.  (Array size: rtcm.h:39, 71.) -/
inductive Reach : Rtcm → List Byte → Prop where
  | init (inBuf : List Byte) (a b c : Nat) (h : inBuf.length = 1024) : Reach (init inBuf a b c) []
  | byte {r r' : Rtcm} {hist : List Byte} {b : Byte} {cs : List RtcmCall} :
      Reach r hist → readByte r b = .ok (r', cs) → Reach r' (hist ++ [b])
  | register {r : Rtcm} {hist : List Byte} (l : Nat) : Reach r hist → Reach (r.registerListener l) hist
  | restart {r : Rtcm} {hist : List Byte} : Reach r hist → Reach r.restart hist
  | newData {r : Rtcm} {hist : List Byte} : Reach r hist → Reach r.newDataCall.1 hist

end Rtcm
end Ublox
