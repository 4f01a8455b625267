import Verif.Model.Base

/-!
# Model of the NMEA reader (src/parsers/nmea.cpp, include/UBLOX/parsers/nmea.h)
-/

namespace Ublox

/-- Data members of `NMEA`. nmea.h:46-52. -/
structure Nmea where
  newData : Bool
  length : Nat
  startMsg : Bool
  endMsg : Bool
  prev : Byte
  buf : List Byte
  deriving DecidableEq, Repr

namespace Nmea

/-- `BUFFER_SIZE`. nmea.h:32. -/
abbrev BUFFER_SIZE : Nat := 82
/-- `START_BYTE1 = '$'`. nmea.h:35. -/
abbrev START_BYTE1 : Byte := 0x24
/-- `START_BYTE2 = 'G'`. nmea.h:36. -/
abbrev START_BYTE2 : Byte := 0x47
/-- `END_BYTE1 = '\r'`. nmea.h:37. -/
abbrev END_BYTE1 : Byte := 0x0D
/-- `END_BYTE2 = '\n'`. nmea.h:38. -/
abbrev END_BYTE2 : Byte := 0x0A

/-- `NMEA::restart`. nmea.cpp:32-37. -/
def restart (s : Nmea) : Nmea := { s with startMsg := false, endMsg := false, length := 0 }

/-- `NMEA::NMEA()`; `buffer_` and `new_data_` are left uninitialised and are parameters. nmea.cpp:26-30. -/
def init (buf : List Byte) (newData : Bool) : Nmea :=
  restart { newData, length := 0, startMsg := false, endMsg := false, prev := 0, buf }

/-- `NMEA::new_data`. nmea.cpp:39-44. -/
def newDataCall (s : Nmea) : Nmea × Bool := ({ s with newData := false }, s.newData)

/-- `NMEA::parsing_message`. nmea.cpp:46. -/
def parsingMessage (s : Nmea) : Bool := s.startMsg && !s.endMsg

/-- What `printf("%s", buf)` writes: the bytes before the first NUL; without one it runs off the array.
nmea.cpp:70. -/
def cstring : List Byte → M (List Byte)
  | [] => .error .unterminated
  | b :: bs => if b = 0 then .ok [] else do
      let t ← cstring bs
      .ok (b :: t)

/-- `buffer_[0] = '$'; buffer_[1] = 'G'; …`, the start-of-packet branch. nmea.cpp:52-60. -/
def onStart (s : Nmea) (byte : Byte) : M Nmea :=
  if byte = START_BYTE2 ∧ s.prev = START_BYTE1 then do
    let b ← wr s.buf 0 START_BYTE1
    let b ← wr b 1 START_BYTE2
    .ok { s with startMsg := true, endMsg := false, buf := b, length := 2 }
  else .ok s

/-- `NMEA::read_cb`: the new state, the returned flag and the text of the message printed, if one is.
nmea.cpp:48-86. -/
def readCb (s : Nmea) (byte : Byte) : M (Nmea × Bool × Option (List Byte)) := do
  let b ← wr s.buf s.length byte
  let s ← onStart { s with buf := b, length := s.length + 1 } byte
  if byte = END_BYTE2 ∧ s.prev = END_BYTE1 then
    let text ← cstring s.buf
    .ok ({ s with startMsg := false, endMsg := true, length := 0, prev := byte,
                  buf := List.replicate BUFFER_SIZE 0 }, true, some text)
  else if s.length ≥ BUFFER_SIZE then
    .ok ({ s with startMsg := false, endMsg := false, length := 0, prev := byte }, false, none)
  else .ok ({ s with prev := byte }, false, none)

/-- A user of the class: the calls that can be made on it. nmea.h:42-45. -/
inductive Call where
  | read (b : Byte)
  | restart
  | newData
  deriving DecidableEq, Repr

/-- One call: state, returned flag (`false` for `restart`) and printed text. nmea.cpp:32-86. -/
def call (s : Nmea) : Call → M (Nmea × Bool × Option (List Byte))
  | .read b => s.readCb b
  | .restart => .ok (s.restart, false, none)
  | .newData => .ok (s.newDataCall.1, s.newDataCall.2, none)

/-- A sequence of calls, with the result of each. (Composition, not a construct of /repo; the calls are
nmea.h:42-45.) -/
def run (s : Nmea) : List Call → M (Nmea × List (Bool × Option (List Byte)))
  | [] => .ok (s, [])
  | c :: cs => do
    let (s, o) ← s.call c
    let (s, os) ← run s cs
    .ok (s, o :: os)

/-- A stream of bytes fed one `read_cb` at a time. (Composition; the only caller in /repo would be a byte loop
such as ublox.cpp:122-138.) -/
def feed (s : Nmea) (bs : List Byte) : M (Nmea × List (Bool × Option (List Byte))) := s.run (bs.map .read)

end Nmea
end Ublox
