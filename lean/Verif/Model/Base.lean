/-!
# Common ground of the model

Conventions (DESIGN.md §1): a C byte is `BitVec 8`, a C array is a `List Byte`, every array
access is bounds-checked and an invalid access is the distinct outcome `Except.error`.
-/

namespace Ublox

/-- A byte (`uint8_t`, `unsigned char`). Used throughout /repo, e.g. ubx_defs.h:1007-1029. -/
abbrev Byte := BitVec 8

/-- The ways in which a run of the C++ code leaves the defined part of the language.
(Not a construct of /repo: C++ undefined behaviour as an explicit outcome of the model.) -/
inductive UB where
  /-- array read outside its bounds -/
  | oobRead
  /-- array write outside its bounds -/
  | oobWrite
  /-- signed integer overflow -/
  | overflow
  /-- a C string function ran off an unterminated array -/
  | unterminated
  /-- control flowed off the end of a function with a non-void result -/
  | missingReturn
  /-- use of an indeterminate (uninitialised) value -/
  | indeterminate
  /-- call through a null pointer -/
  | nullDeref
  /-- a failed `assert` -/
  | assertion
  deriving DecidableEq, Repr

-- Outcomes can be compared (used by the concrete examples only).
deriving instance DecidableEq for Except

/-- A computation that may hit undefined behaviour. -/
abbrev M := Except UB

/-- Read `buf[i]`. (Models the C expression `buf[i]` / `*(buf + i)`, e.g. rtcm.cpp:56-61.) -/
def rd (buf : List Byte) (i : Nat) : M Byte :=
  match buf[i]? with
  | some b => .ok b
  | none => .error .oobRead

/-- Write `buf[i] = b`. (Models the C statement `buf[i] = b`, e.g. nmea.cpp:50, rtcm.cpp:81.) -/
def wr (buf : List Byte) (i : Nat) (b : Byte) : M (List Byte) :=
  if i < buf.length then .ok (buf.set i b) else .error .oobWrite

end Ublox
