import Verif.Model.Base

/-!
# Model of `src/parsers/ubx.cpp` and `include/UBLOX/parsers/ubx.h`

One structure `Ubx` mirrors the data members of `class UBX` that the code uses (members never read —
`version`, `layer`, `cfgDataKey`, `cfgData`, `size`, `new_data_` — are omitted).  Members the constructor leaves
uninitialised (`in_message_`, `out_message_`, `major_version_`, `minor_version_`, `module_name_`) start with
arbitrary contents.

Simplifications: debug output (`DBG`) is dropped; listeners are identified by a number and their subscription
sets are part of the state (pointer identity); a listener's `got_ubx` cannot re-enter the parser.
-/

namespace Ublox

/-- `BUFFER_SIZE`. ubx_defs.h:29. -/
def BUFFER_SIZE : Nat := 2048
/-- `START_BYTE_1`. ubx_defs.h:43. -/
def START_BYTE_1 : Byte := 0xB5
/-- `START_BYTE_2`. ubx_defs.h:44. -/
def START_BYTE_2 : Byte := 0x62
/-- `CLASS_ACK`. ubx_defs.h:54. -/
def CLASS_ACK : Byte := 0x05
/-- `CLASS_CFG`. ubx_defs.h:55. -/
def CLASS_CFG : Byte := 0x06
/-- `CLASS_MON`. ubx_defs.h:59. -/
def CLASS_MON : Byte := 0x0A
/-- `ACK_ACK`. ubx_defs.h:71. -/
def ACK_ACK : Byte := 0x01
/-- `ACK_NACK`. ubx_defs.h:72. -/
def ACK_NACK : Byte := 0x00
/-- `MON_VER`. ubx_defs.h:175. -/
def MON_VER : Byte := 0x04

/-- `parse_state_t`. ubx_defs.h:184-197. -/
inductive PState where
  | start | gotStartFrame | gotClass | gotMsgId | gotLength1 | gotLength2 | gotPayload
  | gotCkA | gotCkB | gotCkC | done
  deriving DecidableEq, Repr

/-- One call `l->got_ubx(cls, id, msg)`; `msg` is the whole message buffer the listener gets. ubx.cpp:446-450. -/
structure Delivery where
  listener : Nat
  cls : Byte
  id : Byte
  msg : List Byte
  deriving DecidableEq, Repr

/-- Data members of `class UBX`. ubx.h:104-152. -/
structure Ubx where
  inMsg : List Byte
  outMsg : List Byte
  prev : Byte
  head : Nat
  startMsg : Bool
  endMsg : Bool
  gotAck : Bool
  gotVer : Bool
  gotNack : Bool
  state : PState
  cls : Byte
  typ : Byte
  length : Nat
  ckA : Byte
  ckB : Byte
  /-- `uint32_t num_errors_` -/
  numErrors : Nat
  /-- `uint32_t num_messages_received_` -/
  numMsgs : Nat
  major : Int
  minor : Int
  /-- `char module_name_[10]` -/
  modName : List Byte
  /-- `std::vector<UBXListener *> listeners_` -/
  listeners : List Nat
  /-- the `subscriptions_` set of each listener. ubx.h:53 -/
  subs : Nat → List (BitVec 16)

namespace Ubx

/-- The constructor, given the arbitrary contents of the uninitialised members. ubx.cpp:41-53, ubx.h:120-152. -/
def init (inMsg outMsg modName : List Byte) (major minor : Int) : Ubx where
  inMsg := inMsg
  outMsg := outMsg
  prev := 0
  head := 0
  startMsg := false
  endMsg := false
  gotAck := false
  gotVer := false
  gotNack := false
  state := .start
  cls := 0
  typ := 0
  length := 0
  ckA := 0
  ckB := 0
  numErrors := 0
  numMsgs := 0
  major := major
  minor := minor
  modName := modName
  listeners := []
  subs := fun _ => []

/-- The key `uint16_t key = cls << 8 | id`. ubx.h:41, 46. -/
def key (cls id : Byte) : BitVec 16 := (cls.zeroExtend 16 <<< 8) ||| id.zeroExtend 16

/-- `UBXListener::subscribe` on listener `l`. ubx.h:39-43. -/
def subscribe (u : Ubx) (l : Nat) (cls id : Byte) : Ubx :=
  { u with subs := fun k => if k = l then key cls id :: u.subs k else u.subs k }

/-- `UBXListener::subscribed`. ubx.h:44-48. -/
def subscribed (u : Ubx) (l : Nat) (cls id : Byte) : Bool := (u.subs l).contains (key cls id)

/-- `UBX::registerListener`. ubx.cpp:455-458. -/
def registerListener (u : Ubx) (l : Nat) : Ubx := { u with listeners := u.listeners ++ [l] }

/-- `UBX::parsing_message`. ubx.cpp:55-58. -/
def parsingMessage (u : Ubx) : Bool := u.startMsg == true && u.endMsg == false

/-- `UBX::num_messages_received`. ubx.cpp:60-63. -/
def numMessagesReceived (u : Ubx) : Nat := u.numMsgs

/-- The payload loop of `calculate_checksum`, from index `i`, `n` bytes left. ubx.cpp:486-490. -/
def ckLoop (buf : List Byte) : Nat → Nat → Byte → Byte → M (Byte × Byte)
  | 0, _, a, b => .ok (a, b)
  | n + 1, i, a, b => do
    let x ← rd buf i
    ckLoop buf n (i + 1) (a + x) (b + (a + x))

/-- `UBX::calculate_checksum`. ubx.cpp:460-491. -/
def calcChecksum (cls id : Byte) (len : Nat) (buf : List Byte) : M (Byte × Byte) :=
  let a0 : Byte := 0 + cls
  let b0 : Byte := 0 + a0
  let a1 := a0 + id
  let b1 := b0 + a1
  let a2 := a1 + BitVec.ofNat 8 (len &&& 0xFF)
  let b2 := b1 + a2
  let a3 := a2 + BitVec.ofNat 8 ((len >>> 8) &&& 0xFF)
  let b3 := b2 + a3
  ckLoop buf len 0 a3 b3

/-! ### Version parsing -/

/-- ASCII digit test used by `atoi`. (libc) Used at ubx.cpp:571, 585. -/
def isDigit (b : Byte) : Bool := 0x30 ≤ b.toNat && b.toNat ≤ 0x39

/-- `isspace` used by `atoi`: space, \t, \n, \v, \f, \r. (libc, "C" locale) Used at ubx.cpp:571, 585. -/
def isSpace (b : Byte) : Bool := b.toNat == 0x20 || (0x09 ≤ b.toNat && b.toNat ≤ 0x0D)

/-- Digits of `atoi`; running off the array is undefined. (libc) Used at ubx.cpp:571, 585. -/
def atoiDigits : List Byte → Nat → M Nat
  | [], _ => .error .unterminated
  | b :: bs, acc => if isDigit b then atoiDigits bs (acc * 10 + (b.toNat - 0x30)) else .ok acc

/-- `atoi` on a `char` array: skip white space, optional sign, digits; running off the end of the array is
undefined.  (libc; overflow cannot occur with at most 5 characters.) Used at ubx.cpp:571, 585. -/
def atoi : List Byte → M Int
  | [] => .error .unterminated
  | b :: bs =>
    if isSpace b then atoi bs
    else if b = 0x2D then do let n ← atoiDigits bs 0; .ok (-(n : Int))
    else if b = 0x2B then do let n ← atoiDigits bs 0; .ok (n : Int)
    else do let n ← atoiDigits (b :: bs) 0; .ok (n : Int)

/-- The major-version loop: copy up to 5 characters from `s` until `'.'`; returns the filled part of `tmp`
(with its terminator if a `'.'` was seen) and the new `s`.  `n` iterations are left. ubx.cpp:560-570. -/
def majorLoop (buf : List Byte) : Nat → Nat → List Byte → M (List Byte × Nat)
  | 0, s, tmp => .ok (tmp, s)
  | n + 1, s, tmp => do
    let c ← rd buf s
    if c = 0x2E then .ok (tmp ++ [0], s + 1)
    else majorLoop buf n (s + 1) (tmp ++ [c])

/-- The minor-version loop: copy up to 5 characters until NUL. ubx.cpp:575-584. -/
def minorLoop (buf : List Byte) : Nat → Nat → List Byte → M (List Byte)
  | 0, _, tmp => .ok tmp
  | n + 1, s, tmp => do
    let c ← rd buf s
    if c = 0 then .ok (tmp ++ [0])
    else minorLoop buf n (s + 1) (tmp ++ [c])

/-- `extract_version_string(str)` with `str` at offset `off` of the message buffer.  The part of `tmp` after the
copied characters is never read: a `'.'` writes a terminator, otherwise all five characters are filled.
(The major/minor text may extend past the 10-character row into the next row, which the C++ code also does;
only leaving the 2048-byte message is an error here.) ubx.cpp:555-586. -/
def extractVersion (u : Ubx) (off : Nat) : M Ubx := do
  let (tmp, s) ← majorLoop u.inMsg 5 (off + 8) []
  let major ← atoi tmp
  let tmp2 ← minorLoop u.inMsg 5 s []
  let minor ← atoi tmp2
  .ok { u with major := major, minor := minor }

/-- The copy loop of `extract_module_name`, `n` iterations left, `i` the destination index. ubx.cpp:591-601. -/
def modLoop (buf : List Byte) : Nat → Nat → Nat → List Byte → M (List Byte)
  | 0, _, _, name => .ok name
  | n + 1, i, s, name => do
    let c ← rd buf s
    if c = 0 then wr name i 0
    else do
      let name' ← wr name i c
      modLoop buf n (i + 1) (s + 1) name'

/-- `extract_module_name(str)` with `str` at offset `off`. ubx.cpp:588-602. -/
def extractModule (u : Ubx) (off : Nat) : M Ubx := do
  let name ← modLoop u.inMsg 10 0 (off + 4) u.modName
  .ok { u with modName := name }

/-- `strncmp(&buffer[off], pat, |pat|) == 0` for a pattern without NUL. (libc) ubx.cpp:539-543. -/
def prefixAt (buf : List Byte) (off : Nat) (pat : List Byte) : Bool := (buf.drop off).take pat.length == pat

/-- "PROTVER=" ubx.cpp:539. -/
def protver : List Byte := [0x50, 0x52, 0x4F, 0x54, 0x56, 0x45, 0x52, 0x3D]
/-- "MOD=" ubx.cpp:543. -/
def modEq : List Byte := [0x4D, 0x4F, 0x44, 0x3D]

/-- Offset of `MON_VER.extension[i]`: `swVersion[30]`, `hwVersion[10]`, `extension[30][10]`.
ubx_defs.h:832-837. -/
def extOff (i : Nat) : Nat := 40 + 10 * i

/-- One iteration of the row loop of `version_cb`. ubx.cpp:539-546. -/
def versionRow (u : Ubx) (i : Nat) : M Ubx :=
  (if prefixAt u.inMsg (extOff i) protver then extractVersion u (extOff i) else .ok u) >>= fun u =>
  if prefixAt u.inMsg (extOff i) modEq then extractModule u (extOff i) else .ok u

/-- The row loop, rows `i, i+1, …`, `n` of them. ubx.cpp:537-547. -/
def versionRows : Nat → Nat → Ubx → M Ubx
  | 0, _, u => .ok u
  | n + 1, i, u => do
    let u ← versionRow u i
    versionRows n (i + 1) u

/-- `version_cb()`: the row loop, then `printf("%s", module_name_)`, which needs a NUL in the 10-byte array,
then `got_ver_ = true`. ubx.cpp:532-553. -/
def versionCb (u : Ubx) : M Ubx := do
  let u ← versionRows 20 0 u
  if u.modName.contains 0 then .ok { u with gotVer := true } else .error .unterminated

/-! ### Framing -/

/-- The listener loop of `decode_message`. ubx.cpp:446-450. -/
def dispatch (u : Ubx) : List Delivery :=
  (u.listeners.filter fun l => u.subscribed l u.cls u.typ).map fun l => ⟨l, u.cls, u.typ, u.inMsg⟩

/-- The class/type switch of `decode_message` (only the cases with an effect besides debug output).
ubx.cpp:355-443. -/
def handleMessage (u : Ubx) : M Ubx :=
  if u.cls = CLASS_ACK then
    if u.typ = ACK_ACK then .ok { u with gotAck := true }
    else if u.typ = ACK_NACK then .ok { u with gotNack := true }
    else .ok u
  else if u.cls = CLASS_MON then
    if u.typ = MON_VER then versionCb u else .ok u
  else .ok u

/-- `UBX::decode_message`. ubx.cpp:339-453. -/
def decodeMessage (u : Ubx) : M (Ubx × Bool × List Delivery) := do
  let (a, b) ← calcChecksum u.cls u.typ u.length u.inMsg
  if a ≠ u.ckA ∨ b ≠ u.ckB then .ok (u, false, [])
  else do
    let u := { u with numMsgs := (u.numMsgs + 1) % 2 ^ 32 }
    let u ← handleMessage u
    .ok (u, true, dispatch u)

/-- `UBX::restart`. ubx.cpp:332-337. -/
def restart (u : Ubx) : Ubx := { u with state := .start, endMsg := false, startMsg := false }

/-- The part of `read_cb` after the switch. ubx.cpp:307-329. -/
def afterSwitch (u : Ubx) (byte : Byte) : M (Ubx × Bool × List Delivery) :=
  if u.state = .gotCkB then do
    let (u', ok, ds) ← decodeMessage u
    if ok then .ok ({ u' with state := .start, endMsg := true, startMsg := false, prev := byte }, true, ds)
    else .ok ({ u' with numErrors := (u'.numErrors + 1) % 2 ^ 32, state := .start, startMsg := false,
                        endMsg := false, prev := byte }, false, [])
  else .ok ({ u with prev := byte }, false, [])

/-- `UBX::read_cb(byte)`: the new state, the return value and the listener calls. ubx.cpp:236-330. -/
def readCb (u : Ubx) (byte : Byte) : M (Ubx × Bool × List Delivery) :=
  match u.state with
  | .start =>
    if byte = START_BYTE_2 ∧ u.prev = START_BYTE_1 then
      afterSwitch { u with head := 0, state := .gotStartFrame, cls := 0, typ := 0, length := 0, ckA := 0,
                           ckB := 0, startMsg := true, endMsg := false } byte
    else afterSwitch u byte
  | .gotStartFrame => afterSwitch { u with cls := byte, state := .gotClass } byte
  | .gotClass => afterSwitch { u with typ := byte, state := .gotMsgId } byte
  | .gotMsgId => afterSwitch { u with length := byte.toNat, state := .gotLength1 } byte
  | .gotLength1 =>
    let u := { u with length := u.length ||| (byte.toNat <<< 8), state := .gotLength2 }
    if u.length > BUFFER_SIZE then
      .ok (restart { u with numErrors := (u.numErrors + 1) % 2 ^ 32, prev := byte }, false, [])
    else afterSwitch u byte
  | .gotLength2 =>
    if u.head < u.length then do
      let buf ← wr u.inMsg u.head byte
      let st := if u.head = u.length - 1 then .gotPayload else u.state
      afterSwitch { u with inMsg := buf, state := st, head := u.head + 1 } byte
    else afterSwitch u byte
  | .gotPayload => afterSwitch { u with ckA := byte, state := .gotCkA } byte
  | .gotCkA => afterSwitch { u with ckB := byte, state := .gotCkB } byte
  | _ => afterSwitch { u with numErrors := (u.numErrors + 1) % 2 ^ 32, state := .start, endMsg := false,
                              startMsg := false } byte

/-- What one call of `read_cb` shows to the outside: its return value and the listener calls. ubx.cpp:236-330,
446-450. -/
abbrev Out := Bool × List Delivery

/-- Feed a sequence of bytes, collecting what each call shows.  (The byte loop of the callers,
e.g. ublox.cpp:122-138.) -/
def feed : Ubx → List Byte → M (Ubx × List Out)
  | u, [] => .ok (u, [])
  | u, b :: bs => do
    let (u', r, ds) ← readCb u b
    let (u'', outs) ← feed u' bs
    .ok (u'', (r, ds) :: outs)

end Ubx
end Ublox
