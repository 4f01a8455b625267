import Verif.Model.Device
import Verif.Model.Msgs
import Verif.Model.TimePrint

/-!
# What the parsers and the constructor print on the screen

Model/Ubx.lean, Model/Rtcm.lean and Model/Device.lean drop the output; here is the text each call writes to the standard output.
(The `DBG` calls of ubx.cpp write nothing: the macro is empty, ubx.cpp:36.)

Simplifications: text is a list of characters, one for each byte; what listeners print is not included.
-/

namespace Ublox

open UTCTime (decNat decInt)

/-- `CFG_VALGET_t`, as a listener reads it from the message it is given. ubx_defs.h:465-481. -/
def cfgValget : Layout :=
  [("version", .u 1), ("layer", .u 1), ("reserved1", .pad 2), ("cfgDataKey", .u 4), ("cfgData", .u 8)]

namespace Ubx

/-- The `printf` calls of `version_cb`, `%s` up to the first NUL. ubx.cpp:549-551. -/
def banner (u : Ubx) : List Char :=
  "Connected:\nModule: ".toList ++ (u.modName.takeWhile (· ≠ 0)).map (fun b => Char.ofNat b.toNat) ++
    "\nProtocol Version: ".toList ++ decInt u.major ++ ".".toList ++ decInt u.minor ++ "\n\n".toList

/-- What a call `read_cb(byte)` prints: only the last checksum byte of a frame with a good checksum leads to `version_cb`.
ubx.cpp:236-330, 339-453. -/
def prints (u : Ubx) (byte : Byte) : M (List Char) :=
  match u.state with
  | .gotCkA => do
    let v := { u with ckB := byte, state := .gotCkB }
    let (a, b) ← calcChecksum v.cls v.typ v.length v.inMsg
    if a ≠ v.ckA ∨ b ≠ v.ckB then .ok []
    else do
      let w ← handleMessage { v with numMsgs := (v.numMsgs + 1) % 2 ^ 32 }
      .ok (if v.cls = CLASS_MON ∧ v.typ = MON_VER then banner w else [])
  | _ => .ok []

/-- What a sequence of bytes makes the parser print, call by call. (The byte loop of the callers, ublox.cpp:122-138.) -/
def feedPrints : Ubx → List Byte → M (Ubx × List (List Char))
  | u, [] => .ok (u, [])
  | u, b :: bs => do
    let s ← prints u b
    let (u', _, _) ← readCb u b
    let (u'', ss) ← feedPrints u' bs
    .ok (u'', s :: ss)

end Ubx

namespace Rtcm

/-- What one iteration of `RTCM::read_cb` prints. rtcm.cpp:63-177. -/
def prints (r : Rtcm) (byte : Byte) : M (List Char) := do
  let r ← switch r byte
  if r.state = .gotCkC then do
    let ok ← checkCrc { r with state := .start, startMsg := false, endMsg := true, newData := true, messageLen := r.head }
    .ok (if ok then [] else "RTCM not pass CRC check\n".toList)
  else .ok []

/-- What `RTCM::read_cb(buf, size)` prints, iteration by iteration. rtcm.cpp:63-177. -/
def feedPrints : Rtcm → List Byte → M (Rtcm × List (List Char))
  | r, [] => .ok (r, [])
  | r, b :: bs => do
    let s ← prints r b
    let (r', _) ← readByte r b
    let (r'', ss) ← feedPrints r' bs
    .ok (r'', s :: ss)

end Rtcm

namespace Dev

open Nav (Mode)

/-- What an observer of the constructor sees: an effect of the driver or a printed text. (Not a construct of /repo.) -/
inductive Seen where
  | eff (e : Eff)
  | text (t : List Char)

/-- It is an effect. (Not a construct of /repo.) -/
def Seen.isEff : Seen → Bool
  | .eff _ => true
  | .text _ => false

/-- The line printed after a failed version poll. ublox.cpp:40-41. -/
def retryText (tries : Nat) : List Char :=
  "Unable to query version.  Trying again (".toList ++ decNat (tries + 1) ++ " out of ".toList ++ decNat MAX_NUM_TRIES ++
    ")\n".toList

/-- The polling loop with what it prints itself (the connection banner is printed by the parser, `Ubx.prints`), in order.
ublox.cpp:36-42. -/
def tryTrace (md : Mode) : Nat → Dev → List Ubx.Sched → M (Option (Dev × List Seen × Nat × List Ubx.Sched))
  | tries, d, ss =>
    if tries + 1 < MAX_NUM_TRIES then
      match ss with
      | [] => .ok none
      | s :: rest => do
        match ← getVersion md d s with
        | none => .ok none
        | some (d1, e1, true) => .ok (some (d1, e1.map .eff, tries + 1, rest))
        | some (d1, e1, false) =>
          match ← tryTrace md (tries + 1) d1 rest with
          | none => .ok none
          | some (d2, e2, t, ss2) => .ok (some (d2, e1.map .eff ++ .text (retryText (tries + 1)) :: e2, t, ss2))
    else .ok (some (d, [], tries + 1, ss))
termination_by _ _ ss => ss.length

end Dev
end Ublox
