import Verif.Spec.BaseLife

/-!
# A base and a rover running at the same time, joined by a datagram network

base.cpp:81-102, rover.cpp:81-105: the two programs are joined by UDP. What one `write` puts into the network arrives whole or
not at all; it may arrive late, repeatedly and out of order, while the base goes on sending.
-/

namespace Ublox
namespace Dev

/-- What may happen next in the pair. -/
inductive PAct where
  /-- something happens at the base -/
  | base (e : Ev)
  /-- something happens at the rover, but for the arrival of a datagram -/
  | rover (e : Ev)
  /-- the network hands the datagram sent as number `k` to the rover -/
  | deliver (k : Nat)

/-- The two devices, and all datagrams the base has sent so far. -/
structure Pair where
  b : Dev
  r : Dev
  sent : List (List Byte)

/-- The writes to RTK interface `i`. -/
def sentTo (i : Nat) (es : List Eff) : List (List Byte) :=
  (es.filterMap Eff.rtk?).filterMap fun x => if x.1 = i then some x.2 else none

/-- Executions of the pair, one after the other in the order of time. The base sends on its interface `i`, the rover receives on
its interface `j`; `ws` are all writes to the rover's receiver. -/
inductive PRun (mb mr : Nav.Mode) (i j : Nat) : Pair → List PAct → Pair → List (List Byte) → Prop where
  | nil {s : Pair} : PRun mb mr i j s [] s []
  | base {s s' : Pair} {as : List PAct} {ws : List (List Byte)} {e : Ev} {b' : Dev} {es : List Eff} :
      PRun mb mr i j s as s' ws → s'.b.step mb e = .ok (b', es) →
      PRun mb mr i j s (as ++ [.base e]) ⟨b', s'.r, s'.sent ++ sentTo i es⟩ ws
  | rover {s s' : Pair} {as : List PAct} {ws : List (List Byte)} {e : Ev} {r' : Dev} {es : List Eff} :
      PRun mb mr i j s as s' ws → s'.r.step mr e = .ok (r', es) →
      PRun mb mr i j s (as ++ [.rover e]) ⟨s'.b, r', s'.sent⟩ (ws ++ es.filterMap Eff.receiver?)
  | deliver {s s' : Pair} {as : List PAct} {ws : List (List Byte)} {k : Nat} {f : List Byte} {r' : Dev} {es : List Eff} :
      PRun mb mr i j s as s' ws → s'.sent[k]? = some f → s'.r.step mr (.rtkRx j f) = .ok (r', es) →
      PRun mb mr i j s (as ++ [.deliver k]) ⟨s'.b, r', s'.sent⟩ (ws ++ es.filterMap Eff.receiver?)

/-- What happened at the base, and which datagrams were delivered, in order. -/
def PAct.base? : PAct → Option Ev
  | .base e => some e
  | _ => none
def PAct.deliver? : PAct → Option Nat
  | .deliver k => some k
  | _ => none

/-- A call that leaves the configuration alone, or data from the receiver. -/
def Ev.Plain : Ev → Prop
  | .rx _ | .listen _ | .subscribe .. | .ephCb | .gephCb => True
  | .rtkRx .. | .configBase .. | .configRover _ => False

/-- After the start nobody reconfigures the two, and the network is the only sender on the rover's RTK link. -/
def PAct.Plain : PAct → Prop
  | .base e => e.Plain
  | .rover e => e.Plain
  | .deliver _ => True

end Dev
end Ublox
