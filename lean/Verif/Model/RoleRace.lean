import Verif.Model.Device

/-!
# `config_base` and `config_rover` while data are arriving (src/ublox.cpp:60-148)

Two threads: the user's thread runs the statements of the configuration calls, the serial thread runs `UBLOX::read_cb` byte
by byte and, for a completed RTCM message, `UBLOX::got_rtcm` in two steps: the test of `type_` and the use of
`rtk_interface_`.  In `Model/Device.lean` a configuration call is atomic; here it is not.

Simplifications: a statement of a configuration call is one step (what a command and the UBX parser do to each other is C119,
what the bytes of two writes do to each other is C99, what `push_back` does to a running listener loop is C98); parsing a byte
up to the listener loop of the RTCM parser is one step (it reads `type_` once, ublox.cpp:129); `type_` and `rtk_interface_`
are read and written indivisibly.
-/

namespace Ublox
namespace Dev

open Nav (Mode)

/-- A statement of `config_base` or `config_rover`. ublox.cpp:60-112. -/
inductive Stmt where
  /-- `type_ = …`. ublox.cpp:64, 91 -/
  | setRole (r : Role)
  /-- `rtk_interface_ = interface`. ublox.cpp:65, 105 -/
  | setRtk (iface : Nat)
  /-- `rtcm_.registerListener(this)`. ublox.cpp:67 -/
  | register
  /-- a call on `ubx_`. ublox.cpp:71-85, 95-101 -/
  | cmd (c : Ubx.Command)
  /-- `interface->add_callback(…)`. ublox.cpp:106-111 -/
  | addCb (iface : Nat)

/-- The statements of `config_base`. ublox.cpp:60-87. -/
def baseStmts (iface : Nat) (stationary : Bool) : List Stmt :=
  [.setRole .base, .setRtk iface, .register] ++ (baseCommands stationary).map .cmd

/-- The statements of `config_rover`. ublox.cpp:89-112. -/
def roverStmts (iface : Nat) : List Stmt :=
  [.setRole .rover] ++ roverCommands.map .cmd ++ [.setRtk iface, .addCb iface]

/-- Effect of one statement. ublox.cpp:60-112. -/
def exec (d : Dev) : Stmt → M (Dev × List Eff)
  | .setRole r => .ok ({ d with role := r }, [])
  | .setRtk i => .ok ({ d with rtk := some i }, [])
  | .register => .ok ({ d with rtcm := d.rtcm.registerListener 0 }, [])
  | .cmd c => command d [c]
  | .addCb i => .ok ({ d with fwd := if i ∈ d.fwd then d.fwd else i :: d.fwd }, [])

/-- One iteration of `UBLOX::read_cb` up to the listener calls of the RTCM parser, which are returned. ublox.cpp:122-138,
rtcm.cpp:168. -/
def parseByte (md : Mode) (d : Dev) (b : Byte) : M (Dev × List Eff × List RtcmCall) :=
  if d.ubx.parsingMessage then do
    let (d1, e1) ← rxUbx md d b
    .ok (d1, e1, [])
  else if d.rtcm.parsingMessage && d.role == .base then do
    let (r, cs) ← d.rtcm.readByte b
    .ok ({ d with rtcm := r }, [], cs)
  else do
    let (d1, e1) ← rxUbx md d b
    let (r, cs) ← d1.rtcm.readByte b
    .ok ({ d1 with rtcm := r }, e1, cs)

/-- The device and its two threads. ublox.cpp:60-148. -/
structure Sys where
  dev : Dev
  /-- bytes arrived and not yet read -/
  inbox : List Byte
  /-- calls of `got_rtcm` still to be made or not yet returned. rtcm.cpp:168-171 -/
  pend : List RtcmCall
  /-- the first of them has found `type_ == BASE`. ublox.cpp:144 -/
  tested : Bool
  /-- statements the user's thread has still to execute -/
  prog : List Stmt

/-- What the scheduler, the receiver and the user can do. (Scheduling: ublox.cpp:27-29, serial_interface.h:20.) -/
inductive Act where
  /-- the receiver sends -/
  | arrive (bs : List Byte)
  /-- the user's program goes on to call `config_base` -/
  | callBase (iface : Nat) (stationary : Bool)
  /-- the user's program goes on to call `config_rover` -/
  | callRover (iface : Nat)
  /-- the user's thread executes its next statement -/
  | main
  /-- the serial thread makes its next step -/
  | rx

/-- The next step of the serial thread: a step of the running `got_rtcm` (ublox.cpp:141-148), or the next byte
(ublox.cpp:122-138), or nothing. -/
def rxStepRace (md : Mode) (s : Sys) : M (Sys × List Eff) :=
  match s.pend with
  | c :: cs =>
    if s.tested then
      match s.dev.rtk with
      | some i => .ok ({ s with pend := cs, tested := false }, [.toRtk i c.bytes])
      | none => .error .nullDeref
    else if s.dev.role = .base then .ok ({ s with tested := true }, [])
    else .ok ({ s with pend := cs }, [])
  | [] =>
    match s.inbox with
    | [] => .ok (s, [])
    | b :: bs => do
      let (d, es, cs) ← parseByte md s.dev b
      .ok ({ s with dev := d, inbox := bs, pend := cs, tested := false }, es)

/-- The next step of the user's thread. ublox.cpp:60-112. -/
def mainStep (s : Sys) : M (Sys × List Eff) :=
  match s.prog with
  | [] => .ok (s, [])
  | x :: xs => do
    let (d, es) ← exec s.dev x
    .ok ({ s with dev := d, prog := xs }, es)

/-- One step of the system. ublox.cpp:60-148. -/
def raceStep (md : Mode) (s : Sys) : Act → M (Sys × List Eff)
  | .arrive bs => .ok ({ s with inbox := s.inbox ++ bs }, [])
  | .callBase i st => .ok ({ s with prog := s.prog ++ baseStmts i st }, [])
  | .callRover i => .ok ({ s with prog := s.prog ++ roverStmts i }, [])
  | .main => mainStep s
  | .rx => rxStepRace md s

/-- A schedule. (Composition, not a construct of /repo.) -/
def race (md : Mode) : Sys → List Act → M (Sys × List Eff)
  | s, [] => .ok (s, [])
  | s, a :: as => do
    let (s1, e1) ← raceStep md s a
    let (s2, e2) ← race md s1 as
    .ok (s2, e1 ++ e2)

/-- Both threads at rest. (Initial states of schedules, not a construct of /repo.) -/
def Sys.rest (d : Dev) : Sys := ⟨d, [], [], false, []⟩

end Dev
end Ublox
