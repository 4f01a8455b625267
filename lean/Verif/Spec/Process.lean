import Verif.Spec.Device
import Verif.Model.Process

/-!
# Independence of the devices of a process
-/

namespace Ublox.Proc

/-- The bytes a device's receiver sends in an event of the process. -/
def bytesIn : PEv → List Byte
  | .create _ _ ss => ss.flatMap Ubx.Sched.bytes
  | .on (.rx b) => b
  | _ => []

/-- All bytes that the receivers of device `k` sent. -/
def heard (k : Nat) (evs : List (Nat × PEv)) : List Byte := (evs.filter (·.1 = k)).flatMap fun x => bytesIn x.2

/-- No Galileo subframe message anywhere in a stream: no RXM-SFRBX frame (after its two sync bytes) about constellation 2. -/
def NoGalileo (s : List Byte) : Prop := ∀ p : List Byte, p.head? = some 2 → ¬ (ubxFrame 0x02 0x13 p).drop 2 <:+: s

/-- Devices are made of freshly constructed parsers. -/
def Proper (evs : List (Nat × PEv)) : Prop :=
  ∀ k u r ss, (k, PEv.create u r ss) ∈ evs → Dev.FreshUbx u ∧ Dev.FreshRtcm r

/-- What concerns one device only. -/
def only (k : Nat) (evs : List (Nat × PEv)) : List (Nat × PEv) := evs.filter (·.1 = k)

/-- The effects of one device. -/
def effectsOf (k : Nat) (es : List (Nat × Eff)) : List Eff := es.filterMap fun x => if x.1 = k then some x.2 else none

end Ublox.Proc
