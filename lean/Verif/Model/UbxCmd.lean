import Verif.Model.Ubx

/-!
# Model of the command side of `src/parsers/ubx.cpp`

A command maps the parser object to its new state and the bytes handed to `ser_.write` (in order; the split into
individual `write` calls — one per header byte, one for the payload — is flattened).

Simplification: `UBX_message_t` is the 2048-byte `buffer` view of the union; struct members are written at their
packed offsets, little endian (the host is little endian).
-/

namespace Ublox
namespace Ubx

/-- A command: new state and bytes written to the serial port. (The writes are ubx.cpp:114-131.) -/
abbrev Cmd := Ubx → M (Ubx × List Byte)

/-- Run one command after another. (C++ statement sequence.) -/
def andThen (c d : Cmd) : Cmd := fun u => do
  let (u1, w1) ← c u
  let (u2, w2) ← d u1
  .ok (u2, w1 ++ w2)

/-- `write(message.buffer, len)`: `len` bytes of the buffer from index `i`. ubx.cpp:127, 527-530. -/
def readN (buf : List Byte) : Nat → Nat → M (List Byte)
  | 0, _ => .ok []
  | n + 1, i => do
    let x ← rd buf i
    let r ← readN buf n (i + 1)
    .ok (x :: r)

/-- `UBX::send_message` (the message is always `out_message_` in this code base). ubx.cpp:114-131. -/
def sendMessage (cls id : Byte) (len : Nat) : Cmd := fun u => do
  let (a, b) ← calcChecksum cls id len u.outMsg
  let p ← readN u.outMsg len 0
  .ok (u, [START_BYTE_1, START_BYTE_2, cls, id, BitVec.ofNat 8 (len &&& 0xFF),
           BitVec.ofNat 8 ((len >>> 8) &&& 0xFF)] ++ p ++ [a, b])

/-- Store a sequence of bytes from offset `off`. (C struct member store into the packed union.)
ubx_defs.h:1007-1029. -/
def wrs (buf : List Byte) (off : Nat) : List Byte → M (List Byte)
  | [] => .ok buf
  | b :: bs => do
    let buf' ← wr buf off b
    wrs buf' (off + 1) bs

/-- Little-endian bytes of a `uint16_t`. (host representation) (Little-endian target.) -/
def u16le (x : BitVec 16) : List Byte := [x.setWidth 8, (x >>> 8).setWidth 8]
/-- Little-endian bytes of a `uint32_t`. (host representation) (Little-endian target.) -/
def u32le (x : BitVec 32) : List Byte :=
  [x.setWidth 8, (x >>> 8).setWidth 8, (x >>> 16).setWidth 8, (x >>> 24).setWidth 8]

/-- Assign a struct member of `out_message_` at a packed offset. (ubx.cpp:135-137, 149-153, ...) -/
def setOut (off : Nat) (bs : List Byte) : Cmd := fun u => do
  let buf ← wrs u.outMsg off bs
  .ok ({ u with outMsg := buf }, [])

/-- `memset(&out_message_, 0, n)`. (ubx.cpp:148, 171, 190, 222, 499, 516) -/
def memset0 (n : Nat) : Cmd := setOut 0 (List.replicate n 0)

/-- `CFG_MSG`. ubx_defs.h:101. -/
def CFG_MSG : Byte := 0x01
/-- `CFG_NAV5`. ubx_defs.h:102. -/
def CFG_NAV5 : Byte := 0x24
/-- `CFG_PRT`. ubx_defs.h:108. -/
def CFG_PRT : Byte := 0x00
/-- `CFG_RATE`. ubx_defs.h:110. -/
def CFG_RATE : Byte := 0x08
/-- `CFG_TMODE3`. ubx_defs.h:117. -/
def CFG_TMODE3 : Byte := 0x71
/-- `CFG_VALGET`. ubx_defs.h:122. -/
def CFG_VALGET : Byte := 0x8B
/-- `CFG_VALSET`. ubx_defs.h:123. -/
def CFG_VALSET : Byte := 0x8A

/-- `UBX::configure`; layout of `CFG_VALSET_t`: version@0, layer@1, reserved@2, cfgDataKey@4, cfgData@8, 12 bytes.
ubx.cpp:493-512, ubx_defs.h:605-617. -/
def configure (version layer : Byte) (cfgData : BitVec 64) (key : BitVec 32) (size : Byte) : Cmd :=
  andThen (memset0 12) <|
  andThen (setOut 0 [version]) <|
  andThen (setOut 1 [layer]) <|
  andThen (fun u => if size = 1 then setOut 8 [cfgData.setWidth 8] u else .ok (u, [])) <|
  andThen (fun u => if size = 2 then setOut 8 (u32le (cfgData.setWidth 32)) u else .ok (u, [])) <|
  andThen (setOut 4 (u32le key)) <|
  sendMessage CLASS_CFG CFG_VALSET 12

/-- `UBX::get_configuration`; layout of `CFG_VALGET_t`: version@0, layer@1, reserved@2, cfgDataKey@4, cfgData@8,
16 bytes. ubx.cpp:514-521, ubx_defs.h:476-481. -/
def getConfiguration (version layer : Byte) (key : BitVec 32) : Cmd :=
  andThen (memset0 16) <|
  andThen (setOut 0 [version]) <|
  andThen (setOut 1 [layer]) <|
  andThen (setOut 4 (u32le key)) <|
  sendMessage CLASS_CFG CFG_VALGET 16

/-- `UBX::enable_message`; `CFG_MSG_t`: msgClass@0, msgID@1, rate@2. ubx.cpp:217-234, ubx_defs.h:211-216. -/
def enableMessage (cls id rate : Byte) : Cmd :=
  andThen (memset0 3) <|
  andThen (setOut 0 [cls]) <|
  andThen (setOut 1 [id]) <|
  andThen (setOut 2 [rate]) <|
  sendMessage CLASS_CFG CFG_MSG 3

/-- `UBX::set_nav_rate`; `CFG_RATE_t`: measRate@0, navRate@2, timeRef@4 (`uint16_t`).
ubx.cpp:184-204, ubx_defs.h:629-634, 590-598. -/
def setNavRate (period : Byte) : Cmd := fun u =>
  if u.major ≤ 23 then
    (andThen (memset0 6) <|
     andThen (setOut 0 (u16le (period.setWidth 16))) <|
     andThen (setOut 2 (u16le 1)) <|
     andThen (setOut 4 (u16le 0)) <|
     sendMessage CLASS_CFG CFG_RATE 6) u
  else
    (andThen (configure 0 1 (period.setWidth 64) 0x30210001 1) <|
     andThen (configure 0 1 1 0x30210002 1) <|
     configure 0 1 0 0x20210003 1) u

/-- `UBX::disable_nmea`; `CFG_PRT_t`: portID@0, txReady@2, mode@4, baudrate@8, inProtoMask@12, outProtoMask@14,
flags@16, 20 bytes. ubx.cpp:141-163, ubx_defs.h:288-326, 538, 543. -/
def disableNmea : Cmd := fun u =>
  if u.major ≤ 23 then
    (andThen (memset0 20) <|
     andThen (setOut 0 [3 ||| 1]) <|
     andThen (setOut 8 (u32le 921600)) <|
     andThen (setOut 14 (u16le (0x01 ||| 0x20))) <|
     andThen (setOut 12 (u16le (0x01 ||| 0x20))) <|
     andThen (setOut 16 (u16le (0xC0 ||| 0x800 ||| 0))) <|
     sendMessage CLASS_CFG CFG_PRT 20) u
  else
    (andThen (configure 0 1 0 0x10770002 1) <|
     configure 0 1 0 0x10780002 1) u

/-- `UBX::set_dynamic_mode`; `CFG_NAV5_t`: mask@0 (`uint16_t`), dynModel@2, 36 bytes.
ubx.cpp:165-182, ubx_defs.h:218-286, 551. -/
def setDynamicMode : Cmd := fun u =>
  if u.major ≤ 23 then
    (andThen (memset0 36) <|
     andThen (setOut 0 (u16le 1)) <|
     andThen (setOut 2 [8]) <|
     sendMessage CLASS_CFG CFG_NAV5 36) u
  else configure 0 1 6 0x20110021 1 u

/-- `UBX::start_survey_in`; `CFG_TMODE3_t`: flags@2 (`uint16_t`), svinMinDur@24, svinAccLimit@28, 40 bytes.
There is no `memset` here. ubx.cpp:133-139, ubx_defs.h:337-352. -/
def startSurveyIn : Cmd :=
  andThen (setOut 2 (u16le 1)) <|
  andThen (setOut 24 (u32le 60)) <|
  andThen (setOut 28 (u32le 3)) <|
  sendMessage CLASS_CFG CFG_TMODE3 40

/-- The configuration calls of the public interface. ubx.h:63-101. -/
inductive Command where
  | configure (version layer : Byte) (cfgData : BitVec 64) (key : BitVec 32) (size : Byte)
  | getConfiguration (version layer : Byte) (key : BitVec 32)
  | enableMessage (cls id rate : Byte)
  | setNavRate (period : Byte)
  | disableNmea
  | setDynamicMode
  | startSurveyIn
  | pollVersion

/-- Execute a configuration call (`pollVersion` is the request part of `get_version`). ubx.cpp:65-70, 133-234,
493-521. -/
def Command.run : Command → Cmd
  | .configure v l d k s => Ubx.configure v l d k s
  | .getConfiguration v l k => Ubx.getConfiguration v l k
  | .enableMessage c i r => Ubx.enableMessage c i r
  | .setNavRate p => Ubx.setNavRate p
  | .disableNmea => Ubx.disableNmea
  | .setDynamicMode => Ubx.setDynamicMode
  | .startSurveyIn => Ubx.startSurveyIn
  | .pollVersion => fun u => sendMessage CLASS_MON MON_VER 0 { u with gotVer := false }

/-- A sequence of configuration calls. (Composition, not a construct of /repo.) -/
def runCommands : List Command → Cmd
  | [] => fun u => .ok (u, [])
  | c :: cs => andThen c.run (runCommands cs)

/-- Executions of the parser object: every interleaving of received bytes, listener registrations, subscriptions,
configuration calls and the flag resets of the wait functions.  `Reach u hist`: `u` can be reached with exactly the
bytes `hist` having been passed to `read_cb`.  The array sizes are those of ubx_defs.h:1007-1009 and ubx.h:152. -/
inductive Reach : Ubx → List Byte → Prop where
  | init (inMsg outMsg modName : List Byte) (major minor : Int) (h1 : inMsg.length = 2048)
      (h2 : outMsg.length = 2048) (h3 : modName.length = 10) : Reach (init inMsg outMsg modName major minor) []
  | byte {u u' : Ubx} {hist : List Byte} {b : Byte} {r : Bool} {ds : List Delivery} :
      Reach u hist → readCb u b = .ok (u', r, ds) → Reach u' (hist ++ [b])
  | register {u : Ubx} {hist : List Byte} (l : Nat) : Reach u hist → Reach (u.registerListener l) hist
  | subscribe {u : Ubx} {hist : List Byte} (l : Nat) (c i : Byte) : Reach u hist → Reach (u.subscribe l c i) hist
  | command {u u' : Ubx} {hist w : List Byte} (c : Command) : Reach u hist → c.run u = .ok (u', w) → Reach u' hist
  | clearAck {u : Ubx} {hist : List Byte} : Reach u hist → Reach { u with gotAck := false, gotNack := false } hist

/-! ### Waiting for the receiver

`get_version` and `wait_for_response` spin on a flag that the serial thread sets while it runs `read_cb`.
A schedule says, for every iteration of the loop, which bytes the serial thread processed since the previous test
of the flag and what the clock showed.  One `read_cb` call and one test of the flag are atomic.
(The flags are plain `bool`s: whether the compiler re-reads them in the loop is outside the model.) -/

/-- `TIMEOUT_MS`. ubx.h:58. -/
def TIMEOUT_MS : Nat := 1000

/-- What the environment does during a wait. (Environment of the loops ubx.cpp:74-77 and ubx.cpp:97-100.) -/
structure Sched where
  /-- bytes processed between the reset of the flag(s) and the first test -/
  before : List Byte
  /-- for each iteration: bytes processed and elapsed milliseconds read -/
  iters : List (List Byte × Nat)
  /-- bytes processed between the last loop test and the final test -/
  after : List Byte

/-- All the bytes processed during the wait, in order. -/
def Sched.bytes (s : Sched) : List Byte := s.before ++ (s.iters.flatMap (·.1)) ++ s.after

/-- The spin loop `while (!stop && dt_ms < TIMEOUT_MS) dt_ms = …`.  `none`: the schedule ended with the loop still
running.  Otherwise: the state at exit, the last clock value and the iterations not used.
ubx.cpp:74-77, 97-100. -/
def spin (stop : Ubx → Bool) : Ubx → Nat → List (List Byte × Nat) →
    M (Option (Ubx × Nat × List (List Byte × Nat)))
  | u, dt, its =>
    if !stop u && dt < TIMEOUT_MS then
      match its with
      | [] => .ok none
      | (bs, t) :: rest => do
        let (u', _) ← feed u bs
        spin stop u' t rest
    else .ok (some (u, dt, its))
termination_by _ _ its => its.length

/-- `UBX::get_version`: `none` if the loop has not ended within the schedule; otherwise the final state, the bytes
written and the result.  A schedule with left-over iterations is not a run of this call: it also gives `none`.
ubx.cpp:65-89. -/
def getVersion (u : Ubx) (s : Sched) : M (Option (Ubx × List Byte × Bool)) := do
  let u := { u with gotVer := false }
  let (u, w) ← sendMessage CLASS_MON MON_VER 0 u
  let (u, _) ← feed u s.before
  match ← spin (·.gotVer) u 0 s.iters with
  | some (u, _, []) => do
    let (u, _) ← feed u s.after
    .ok (some (u, w, u.gotVer))
  | _ => .ok none

/-- `UBX::wait_for_response`. ubx.cpp:91-112.  (The three tests after the loop read the flags once here; the code's
last branch returns `false` as well.) -/
def waitForResponse (u : Ubx) (s : Sched) : M (Option (Ubx × Bool)) := do
  let u := { u with gotAck := false, gotNack := false }
  let (u, _) ← feed u s.before
  match ← spin (fun u => u.gotAck || u.gotNack) u 0 s.iters with
  | some (u, _, []) => do
    let (u, _) ← feed u s.after
    .ok (some (u, u.gotAck))
  | _ => .ok none

end Ubx
end Ublox
