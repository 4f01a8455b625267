import Verif.Model.Base

/-!
# Specification: NMEA sentences in a byte stream

Independent of the reader: only lists of bytes.
-/

namespace Ublox.NmeaSpec

/-- `$G` -/
def opening : List Byte := [0x24, 0x47]
/-- carriage return, newline -/
def crlf : List Byte := [0x0D, 0x0A]

/-- The stream ends inside a sentence: it is `… $G body` where the body holds no further `$G`, no line end, and
leaves the sentence shorter than the 82 characters NMEA 0183 allows. -/
def Inside (stream : List Byte) : Prop :=
  ∃ pre body, stream = pre ++ opening ++ body ∧ ¬ opening <:+: body ∧ ¬ crlf <:+: body ∧ body.length < 80

/-- A legal NMEA sentence of a GNSS talker: `$G`, characters other than NUL, `$` and carriage return, line end. -/
def Sentence (w : List Byte) : Prop :=
  ∃ body : List Byte, w = opening ++ body ++ crlf ∧ ∀ b ∈ body, b ≠ 0 ∧ b ≠ 0x24 ∧ b ≠ 0x0D

end Ublox.NmeaSpec
