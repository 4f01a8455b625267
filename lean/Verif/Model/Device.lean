import Verif.Model.UbxCmd
import Verif.Model.Rtcm
import Verif.Model.Nav

/-!
# Model of `class UBLOX` (src/ublox.cpp, include/UBLOX/ublox.h)

The whole driver: UBX parser, RTCM parser and navigation parser wired together, its role, and its RTK link.

Simplifications: debug and `printf` output is dropped; the public calls are atomic (the serial thread does not run in the
middle of `config_base`; it does run during the waits of the constructor); the uninitialised 30-byte array of `decodeGPS` is
taken to be zero (by C50 its contents do not matter); the two function-level statics (`debug` in `config_rover`, the Galileo
page store) are part of the device, that is, one device per process; an RTK interface is used by one device only.
`log_file_` is never opened and is dropped.
-/

namespace Ublox

open Nav (Nav NavCall Mode Sfrbx)

/-- `UBLOX::rtk_type_t`. ublox.h:42-48. -/
inductive Role where
  | none | rover | base
  deriving DecidableEq, Repr

/-- What the device does to its environment. (Observable effects: serial_interface.h:18 `write`, ubx.cpp:446-450,
rtcm.cpp:168-171, nav.cpp:234-237.) -/
inductive Eff where
  /-- call of `got_ubx` of the user's listener `l`. ubx.cpp:446-450 -/
  | ubx (l : Nat) (cls id : Byte) (msg : List Byte)
  /-- call of an ephemeris callback -/
  | nav (c : NavCall)
  /-- `ser_.write`: bytes sent to the receiver -/
  | toReceiver (bytes : List Byte)
  /-- `rtk_interface_->write`: one buffer sent over the RTK interface `iface`. ublox.cpp:146 -/
  | toRtk (iface : Nat) (bytes : List Byte)
  deriving DecidableEq, Repr

/-- Data members of `UBLOX`, plus: `fwd`, the RTK interfaces whose callback slot holds the forwarder this device
installed (ublox.cpp:106); `dbg`, the static parser of that forwarder (ublox.cpp:103). ublox.h:72-81. -/
structure Dev where
  ubx : Ubx
  rtcm : Rtcm
  nav : Nav
  role : Role
  /-- `rtk_interface_`, null until configured -/
  rtk : Option Nat
  fwd : List Nat
  dbg : Rtcm

namespace Dev

/-- Number of the navigation parser among the UBX listeners; the user's listener `l` is number `l + 1`. -/
abbrev NAV : Nat := 0
/-- `CLASS_NAV`. ubx_defs.h:49. -/
def CLASS_NAV : Byte := 0x01
/-- `CLASS_RXM`. ubx_defs.h:51. -/
def CLASS_RXM : Byte := 0x02
/-- `RXM_SFRBX`. ubx_defs.h:181. -/
def RXM_SFRBX : Byte := 0x13

/-- The object when the constructor body has registered the listeners and set the role: member construction,
`NavParser()` (nav.cpp:68-71), and ublox.cpp:31-34.  `u`, `r`, `g` are freshly constructed parsers. -/
def start (u : Ubx) (r g : Rtcm) : Dev where
  ubx := (u.subscribe NAV CLASS_RXM RXM_SFRBX).registerListener NAV
  rtcm := r
  nav := Nav.init
  role := .none
  rtk := none
  fwd := []
  dbg := g

/-- One listener call of the UBX parser: `NavParser::got_ubx` (with its `assert`), or a user's listener.
nav.h:169-173, ubx.cpp:446-450. -/
def deliverOne (md : Mode) (d : Dev) (x : Delivery) : M (Dev × List Eff) :=
  match x.listener with
  | 0 =>
    if x.cls = CLASS_RXM ∧ x.id = RXM_SFRBX then do
      let (n, cs) ← d.nav.step md (.sfrbx (List.replicate 30 0) (Sfrbx.ofBuffer x.msg))
      .ok ({ d with nav := n }, cs.map .nav)
    else .error .assertion
  | l + 1 => .ok (d, [.ubx l x.cls x.id x.msg])

/-- The listener calls of one `UBX::read_cb`, in order. ubx.cpp:446-450. -/
def deliver (md : Mode) : Dev → List Delivery → M (Dev × List Eff)
  | d, [] => .ok (d, [])
  | d, x :: xs => do
    let (d1, e1) ← deliverOne md d x
    let (d2, e2) ← deliver md d1 xs
    .ok (d2, e1 ++ e2)

/-- `ubx_.read_cb(byte)`. ublox.cpp:127, 135. -/
def rxUbx (md : Mode) (d : Dev) (b : Byte) : M (Dev × List Eff) := do
  let (u, _, ds) ← d.ubx.readCb b
  deliver md { d with ubx := u } ds

/-- `UBLOX::got_rtcm(buf, size)`. ublox.cpp:141-148. -/
def gotRtcm (d : Dev) (bytes : List Byte) : M (List Eff) :=
  if d.role = .base then
    match d.rtk with
    | some i => .ok [.toRtk i bytes]
    | none => .error .nullDeref
  else .ok []

/-- The listener calls of one `RTCM::read_cb`; every RTCM listener is the device itself. rtcm.cpp:168-171. -/
def gotRtcms (d : Dev) : List RtcmCall → M (List Eff)
  | [] => .ok []
  | c :: cs => do
    let e1 ← d.gotRtcm c.bytes
    let e2 ← d.gotRtcms cs
    .ok (e1 ++ e2)

/-- `rtcm_.read_cb(buf + i, 1)`. ublox.cpp:131, 136. -/
def rxRtcm (d : Dev) (b : Byte) : M (Dev × List Eff) := do
  let (r, cs) ← d.rtcm.readByte b
  let es ← gotRtcms { d with rtcm := r } cs
  .ok ({ d with rtcm := r }, es)

/-- One iteration of `UBLOX::read_cb`. ublox.cpp:122-138. -/
def rxByte (md : Mode) (d : Dev) (b : Byte) : M (Dev × List Eff) :=
  if d.ubx.parsingMessage then rxUbx md d b
  else if d.rtcm.parsingMessage && d.role == .base then rxRtcm d b
  else do
    let (d1, e1) ← rxUbx md d b
    let (d2, e2) ← rxRtcm d1 b
    .ok (d2, e1 ++ e2)

/-- `UBLOX::read_cb(buf, size)`. ublox.cpp:120-139. -/
def readCb (md : Mode) : Dev → List Byte → M (Dev × List Eff)
  | d, [] => .ok (d, [])
  | d, b :: bs => do
    let (d1, e1) ← rxByte md d b
    let (d2, e2) ← readCb md d1 bs
    .ok (d2, e1 ++ e2)

/-- Run configuration calls of the UBX parser. ublox.cpp:49-57, 71-85, 95-101. -/
def command (d : Dev) (cs : List Ubx.Command) : M (Dev × List Eff) := do
  let (u, w) ← Ubx.runCommands cs d.ubx
  .ok ({ d with ubx := u }, [.toReceiver w])

/-- The seven RTCM output keys. ubx_defs.h:523-530, in the order of ublox.cpp:71-77 and 95-101. -/
def rtcmKeys : List (BitVec 32) :=
  [0x20910301, 0x20910384, 0x209102cf, 0x209102d4, 0x2091031b, 0x209102d9, 0x20910306]

/-- The configuration calls of `config_base`; `VERSION_0 = 0`, `RAM = 1`. ublox.cpp:69-86. -/
def baseCommands (stationary : Bool) : List Ubx.Command :=
  (rtcmKeys.map fun k => .configure 0 1 1 k 1) ++
  if stationary then
    [.configure 0 1 1 0x2091008b 1, .configure 0 1 1 0x20030001 1, .configure 0 1 500000 0x40030011 2,
     .configure 0 1 119 0x40030010 2, .startSurveyIn]
  else []

/-- `UBLOX::config_base(interface, type)` (with one of the two valid types). ublox.cpp:60-87. -/
def configBase (d : Dev) (iface : Nat) (stationary : Bool) : M (Dev × List Eff) :=
  command { d with role := .base, rtk := some iface, rtcm := d.rtcm.registerListener 0 } (baseCommands stationary)

/-- The configuration calls of `config_rover`. ublox.cpp:95-101. -/
def roverCommands : List Ubx.Command := rtcmKeys.map fun k => .configure 0 1 0 k 1

/-- `UBLOX::config_rover(interface)`; `add_callback` overwrites the interface's callback slot.
ublox.cpp:89-112, serial_interface.h:20. -/
def configRover (d : Dev) (iface : Nat) : M (Dev × List Eff) := do
  let (d1, e) ← command { d with role := .rover } roverCommands
  .ok ({ d1 with rtk := some iface, fwd := if iface ∈ d1.fwd then d1.fwd else iface :: d1.fwd }, e)

/-- A buffer arrives on an RTK interface: its callback, if it is the forwarder of this device, runs.
ublox.cpp:106-111. -/
def rtkRx (d : Dev) (iface : Nat) (buf : List Byte) : M (Dev × List Eff) :=
  if iface ∈ d.fwd then do
    let (g, _) ← d.dbg.readCb buf
    .ok ({ d with dbg := g }, [.toReceiver buf])
  else .ok (d, [])

/-- Everything that can happen to a constructed device. ublox.h:59-69. -/
inductive Ev where
  /-- a buffer from the receiver -/
  | rx (buf : List Byte)
  /-- a buffer from an RTK interface -/
  | rtkRx (iface : Nat) (buf : List Byte)
  /-- `registerUBXListener` -/
  | listen (l : Nat)
  /-- a listener calls its own `subscribe` -/
  | subscribe (l : Nat) (cls id : Byte)
  | ephCb
  | gephCb
  | configBase (iface : Nat) (stationary : Bool)
  | configRover (iface : Nat)

/-- Effect of one event. ublox.cpp:60-139, ublox.h:65-67. -/
def step (md : Mode) (d : Dev) : Ev → M (Dev × List Eff)
  | .rx buf => readCb md d buf
  | .rtkRx i buf => rtkRx d i buf
  | .listen l => .ok ({ d with ubx := d.ubx.registerListener (l + 1) }, [])
  | .subscribe l c i => .ok ({ d with ubx := d.ubx.subscribe (l + 1) c i }, [])
  | .ephCb => .ok ({ d with nav := { d.nav with ephCbs := d.nav.ephCbs + 1 } }, [])
  | .gephCb => .ok ({ d with nav := { d.nav with gephCbs := d.nav.gephCbs + 1 } }, [])
  | .configBase i s => configBase d i s
  | .configRover i => configRover d i

/-- A sequence of events. (Composition, not a construct of /repo.) -/
def run (md : Mode) : Dev → List Ev → M (Dev × List Eff)
  | d, [] => .ok (d, [])
  | d, e :: es => do
    let (d1, f1) ← d.step md e
    let (d2, f2) ← d1.run md es
    .ok (d2, f1 ++ f2)

/-! ### The constructor -/

/-- `MAX_NUM_TRIES`. ublox.h:39. -/
def MAX_NUM_TRIES : Nat := 3

/-- The spin loop of `get_version` when the serial thread runs the whole device's `read_cb`; see `Ubx.spin`.
ubx.cpp:74-77. -/
def spin (md : Mode) : Dev → Nat → List (List Byte × Nat) → M (Option (Dev × Nat × List (List Byte × Nat) × List Eff))
  | d, dt, its =>
    if !d.ubx.gotVer && dt < Ubx.TIMEOUT_MS then
      match its with
      | [] => .ok none
      | (bs, t) :: rest => do
        let (d1, e1) ← readCb md d bs
        match ← spin md d1 t rest with
        | none => .ok none
        | some (d2, dt2, its2, e2) => .ok (some (d2, dt2, its2, e1 ++ e2))
    else .ok (some (d, dt, its, []))
termination_by _ _ its => its.length

/-- `ubx_.get_version()` during construction; `none` if the schedule is not one of a complete call.
ubx.cpp:65-89. -/
def getVersion (md : Mode) (d : Dev) (s : Ubx.Sched) : M (Option (Dev × List Eff × Bool)) := do
  let (u, w) ← Ubx.sendMessage CLASS_MON MON_VER 0 { d.ubx with gotVer := false }
  let (d1, e1) ← readCb md { d with ubx := u } s.before
  match ← spin md d1 0 s.iters with
  | some (d2, _, [], e2) => do
    let (d3, e3) ← readCb md d2 s.after
    .ok (some (d3, [.toReceiver w] ++ e1 ++ e2 ++ e3, d3.ubx.gotVer))
  | _ => .ok none

/-- The loop `while (++num_tries < MAX_NUM_TRIES && !ubx_.get_version())`: the device, the effects, the final
`num_tries` and the schedules not used. ublox.cpp:37-42. -/
def tryConnect (md : Mode) : Nat → Dev → List Ubx.Sched → M (Option (Dev × List Eff × Nat × List Ubx.Sched))
  | tries, d, ss =>
    if tries + 1 < MAX_NUM_TRIES then
      match ss with
      | [] => .ok none
      | s :: rest => do
        match ← getVersion md d s with
        | none => .ok none
        | some (d1, e1, true) => .ok (some (d1, e1, tries + 1, rest))
        | some (d1, e1, false) =>
          match ← tryConnect md (tries + 1) d1 rest with
          | none => .ok none
          | some (d2, e2, t, ss2) => .ok (some (d2, e1 ++ e2, t, ss2))
    else .ok (some (d, [], tries + 1, ss))
termination_by _ _ ss => ss.length

/-- The configuration calls of the constructor. ublox.cpp:49-57. -/
def setupCommands : List Ubx.Command :=
  [.disableNmea, .setNavRate 200, .enableMessage CLASS_NAV 0x07 1, .enableMessage CLASS_NAV 0x3C 1,
   .enableMessage CLASS_NAV 0x11 1, .enableMessage CLASS_RXM 0x15 1, .enableMessage CLASS_RXM RXM_SFRBX 1]

/-- The constructor after `start`, with one schedule for each version poll: `none` if the schedules are not those of a
complete call, otherwise the device (`none` if the constructor threw) and the effects. ublox.cpp:36-57. -/
def construct (md : Mode) (d : Dev) (ss : List Ubx.Sched) : M (Option (Option Dev × List Eff)) := do
  match ← tryConnect md 0 d ss with
  | some (d1, e1, t, []) =>
    if t = MAX_NUM_TRIES then .ok (some (none, e1))
    else do
      let (d2, e2) ← command d1 setupCommands
      .ok (some (some d2, e1 ++ e2))
  | _ => .ok none

end Dev
end Ublox
