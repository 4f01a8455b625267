import Verif.Spec.Device

/-!
# Specification for C135: text between the messages

A receiver that has just been switched on writes NMEA sentences on the same line as its UBX and RTCM3 messages.
-/

namespace Ublox

/-- What comes along the line, piece by piece. -/
inductive Piece where
  | msg (m : Msg)
  /-- text, e.g. an NMEA sentence -/
  | text (t : List Byte)

/-- Its bytes on the wire. -/
def Piece.bytes : Piece → List Byte
  | .msg m => m.bytes
  | .text t => t

/-- A well-formed message of a size the driver can take, or ASCII text that does not begin with a `b`. -/
def Piece.WF : Piece → Prop
  | .msg m => m.WF
  | .text t => (∀ b ∈ t, b.toNat < 128) ∧ t.head? ≠ some 0x62

/-- The message, if it is one. -/
def Piece.msg? : Piece → Option Msg
  | .msg m => some m
  | .text _ => none

/-- All the bytes. -/
def line (ps : List Piece) : List Byte := ps.flatMap Piece.bytes

/-- The messages among the pieces, in order. -/
def messages (ps : List Piece) : List Msg := ps.filterMap Piece.msg?

end Ublox
