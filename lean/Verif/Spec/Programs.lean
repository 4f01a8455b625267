import Verif.Model.Programs
import Verif.Spec.Device

/-!
# Specification for C144 and C145: programs that talk to each other, programs that record
-/

namespace Ublox.Programs

open Ublox.Dev (Ev)

/-- The endpoints a program's sockets are bound to. -/
def bound (p : List Act) : List Endpoint := p.filterMap fun | .udp b _ => some b | _ => none

/-- The endpoints a program sends datagrams to. -/
def sendsTo (p : List Act) : List Endpoint := p.filterMap fun | .udp _ r => some r | _ => none

/-- The serial ports a program opens. -/
def serials (p : List Act) : List String := p.filterMap fun | .serial s _ => some s | _ => none

/-- Datagrams of `tx` are addressed to a socket of `rx`. -/
def Hears (rx tx : List Act) : Prop := ∃ e ∈ bound rx, e ∈ sendsTo tx

/-- A datagram network: of the datagrams `sent` by program `tx`, some (any number of times, in any order) are handed to `rx`,
provided they are addressed to it. -/
def Carried (tx rx : List Act) (sent net : List (List Byte)) : Prop := ∀ f ∈ net, f ∈ sent ∧ Hears rx tx

/-- The role calls a program makes on its device during the set-up (its only socket is RTK interface 0). -/
def roleCalls (p : List Act) : List Ev :=
  p.filterMap fun | .base => some (.configBase 0 true) | .rover => some (.configRover 0) | _ => none

/-- Both programs can run on one machine: no common socket, no common serial port. -/
def Compatible (p q : List Act) : Prop := (∀ e ∈ bound p, e ∉ bound q) ∧ ∀ s ∈ serials p, s ∉ serials q

end Ublox.Programs
