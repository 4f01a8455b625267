import Verif.Model.Device

/-!
# Several devices in one process

Two variables of the library are not members of an object: the store of Galileo pages of the navigation decoder (nav.cpp:602) and
the parser that `config_rover` uses for its debug output (ublox.cpp:103).  All devices of a process share them.

Simplification: what happens to one device (a buffer, a call) is handled as a whole before anything happens to another one; the data
races of devices whose threads run at the same time are not modelled.
-/

namespace Ublox

open Nav (Mode)

/-- The static variables `subfrm` and `debug`, and the `UBLOX` objects of the process. nav.cpp:602, ublox.cpp:103. -/
structure Proc where
  gal : Nat → List Byte
  dbg : Rtcm
  dev : Nat → Option Dev

namespace Proc

/-- A device as its member functions see it: with the shared variables. nav.cpp:602, 685-690, ublox.cpp:103, 109. -/
def load (p : Proc) (d : Dev) : Dev := { d with nav := { d.nav with gal := p.gal }, dbg := p.dbg }

/-- What is left when a member function of device `k` returns. nav.cpp:602, ublox.cpp:103. -/
def save (p : Proc) (k : Nat) (d : Dev) : Proc :=
  { gal := d.nav.gal, dbg := d.dbg, dev := fun j => if j = k then some d else p.dev j }

/-- What can happen to a device of the process: its construction (with the answers of its receiver), its destruction, or an event of a
constructed device. (Composition; ublox.h:44-69.) -/
inductive PEv where
  | create (u : Ubx) (r : Rtcm) (ss : List Ubx.Sched)
  | destroy
  | on (e : Dev.Ev)

/-- `UBLOX::UBLOX(…)` in a process whose shared variables may have been used before; when the constructor throws there is no object,
but the shared variables stay.  (`ss` not the schedule of a complete construction: there is no such device.) ublox.cpp:29-58. -/
def create (md : Mode) (p : Proc) (k : Nat) (u : Ubx) (r : Rtcm) (ss : List Ubx.Sched) : M (Proc × List Eff) := do
  match ← Dev.tryConnect md 0 (p.load (Dev.start u r p.dbg)) ss with
  | some (d1, e1, t, []) =>
    if t = Dev.MAX_NUM_TRIES then
      .ok ({ gal := d1.nav.gal, dbg := d1.dbg, dev := fun j => if j = k then none else p.dev j }, e1)
    else do
      let (d2, e2) ← d1.command Dev.setupCommands
      .ok (p.save k d2, e1 ++ e2)
  | _ => .ok ({ p with dev := fun j => if j = k then none else p.dev j }, [])

/-- Something happens to device `k`; if there is no such device, nothing happens. (Composition; ublox.h:44-69.) -/
def step (md : Mode) (p : Proc) (k : Nat) : PEv → M (Proc × List Eff)
  | .create u r ss => p.create md k u r ss
  | .destroy => .ok ({ p with dev := fun j => if j = k then none else p.dev j }, [])
  | .on e =>
    match p.dev k with
    | none => .ok (p, [])
    | some d => do
      let (d', es) ← (p.load d).step md e
      .ok (p.save k d', es)

/-- The history of a process: which device, and what happened to it; the effects with the devices that had them.
(Composition, not a construct of /repo.) -/
def run (md : Mode) : Proc → List (Nat × PEv) → M (Proc × List (Nat × Eff))
  | p, [] => .ok (p, [])
  | p, x :: xs => do
    let (p1, e1) ← p.step md x.1 x.2
    let (p2, e2) ← p1.run md xs
    .ok (p2, e1.map (x.1, ·) ++ e2)

/-- The shared variables of a new process: static storage is zero. nav.cpp:602, ublox.cpp:103, rtcm.h:70-81. -/
def fresh : Proc where
  gal := fun _ => List.replicate 380 0
  dbg := Rtcm.init (List.replicate 1024 0) 0 0 0
  dev := fun _ => none

end Proc
end Ublox
