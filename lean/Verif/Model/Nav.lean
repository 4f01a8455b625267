import Verif.Model.NavGal

/-!
# Model of `src/parsers/nav.cpp`, part 4: `NavParser`

Callbacks are identified by their registration number and cannot re-enter the parser.
The page store `static uint8_t subfrm[255][380]` (nav.cpp:602) is shared by all `NavParser`s of a process; the model
has one parser, so it is part of its state, indexed by satellite number; `Model/Process.lean` shares it between devices.
-/

namespace Ublox.Nav

/-- The part of a `RXM_SFRBX_t` that the parser reads. ubx_defs.h:994-1005. -/
structure Sfrbx where
  gnssId : Byte
  svId : Byte
  freqId : Byte
  dwrd : List Byte
  deriving DecidableEq, Repr

/-- `msg.RXM_SFRBX` of the message union (2048 bytes). ubx_defs.h:994-1005, nav.h:172. -/
def Sfrbx.ofBuffer (buf : List Byte) : Sfrbx :=
  ⟨buf.getD 0 0, buf.getD 1 0, buf.getD 3 0, (buf.drop 8).take 40⟩

/-- `GnssID_Glonass`. ubx_defs.h:912. -/
def GLONASS : Byte := 6

/-- Data members of `NavParser` plus the static page store. nav.h:218-226, nav.cpp:602. -/
structure Nav where
  ephCbs : Nat
  gephCbs : Nat
  eph : List Eph
  geph : List GEph
  gpsTime : UTCTime
  gal : Nat → List Byte

/-- `NavParser()` in a fresh process. nav.cpp:68-71, nav.h:224. -/
def Nav.init : Nav :=
  ⟨0, 0, [], [], .zero, fun _ => List.replicate 380 0⟩

/-- A call of a registered callback. nav.cpp:234-237, 440, 719-722. -/
inductive NavCall where
  | eph (cb : Nat) (e : Eph)
  | geph (cb : Nat) (g : GEph)
  deriving DecidableEq, Repr

/-- The loop `for (i …) if (v[i].sat == svId) ptr = &v[i]`, from index `i` on: index of the last match.
nav.cpp:79-83, 95-99. -/
def findLast (svId : Byte) : List Byte → Nat → Option Nat → Option Nat
  | [], _, r => r
  | s :: ss, i, r => findLast svId ss (i + 1) (if s = svId then some i else r)

/-- The loop `for (auto &cb : callbacks) cb(x)` for each of the (at most one) reported ephemerides.
nav.cpp:234-237, 719-722. -/
def ephCalls (cbs : Nat) (es : List Eph) : List NavCall :=
  es.flatMap fun e => (List.range cbs).map fun i => .eph i e

/-- The same for GLONASS. nav.cpp:440. -/
def gephCalls (cbs : Nat) (gs : List GEph) : List NavCall :=
  gs.flatMap fun g => (List.range cbs).map fun i => .geph i g

/-- Result of `convertUBX`: `ret = none` when control flows off the end of a function whose result is returned
(lenient mode only). (Result tuple, not a construct of /repo.) nav.cpp:73-120. -/
structure NavOut where
  nav : Nav
  calls : List NavCall
  ret : Option Bool

/-- GLONASS branch of `convertUBX`. nav.cpp:76-91. -/
def convertGlo (md : Mode) (n : Nav) (m : Sfrbx) : M NavOut := do
  let (geph, i) := match findLast m.svId (n.geph.map (·.sat)) 0 none with
    | some i => (n.geph, i)
    | none => (n.geph ++ [{ GEph.fresh with sat := m.svId }], n.geph.length)
  match geph[i]? with
  | none => .error .oobRead
  | some g => do
    let o ← decodeGlonass md n.gpsTime m.gnssId m.svId m.freqId m.dwrd g
    .ok ⟨{ n with geph := geph.set i o.geph }, gephCalls n.gephCbs o.reports, some o.ret⟩

/-- The other branch of `convertUBX`; the `switch` has no default and nothing follows it, and `decodeBeidou`
(nav.cpp:445-448) has an empty body. nav.cpp:93-119. -/
def convertEph (md : Mode) (junk : List Byte) (n : Nav) (m : Sfrbx) : M NavOut := do
  let (ephs, i) := match findLast m.svId (n.eph.map (·.sat)) 0 none with
    | some i => (n.eph, i)
    | none => (n.eph ++ [Eph.fresh], n.eph.length)
  match ephs[i]? with
  | none => .error .oobRead
  | some e0 =>
    let e := { e0 with sat := m.svId, gnssID := m.gnssId }
    if m.gnssId = 0 then do
      let o ← decodeGPS junk n.gpsTime m.dwrd e
      .ok ⟨{ n with eph := ephs.set i o.eph, gpsTime := o.gpsTime }, ephCalls n.ephCbs o.reports, some o.ret⟩
    else if m.gnssId = 2 then do
      let o ← decodeGalileo md m.dwrd (n.gal m.svId.toNat) e
      .ok ⟨{ n with eph := ephs.set i o.eph,
                    gal := fun s => if s = m.svId.toNat then o.row else n.gal s },
           ephCalls n.ephCbs o.reports, some o.ret⟩
    else do
      offEnd md
      .ok ⟨{ n with eph := ephs.set i e }, [], none⟩

/-- `convertUBX(msg)`. nav.cpp:73-120. -/
def convertUBX (md : Mode) (junk : List Byte) (n : Nav) (m : Sfrbx) : M NavOut :=
  if m.gnssId = GLONASS then convertGlo md n m else convertEph md junk n m

/-- One use of the public interface: `got_ubx`/`convertUBX` (with the stack garbage it finds), `setGPSTime`,
`registerCallback` for either kind. nav.h:169-194. -/
inductive NavOp where
  | sfrbx (junk : List Byte) (m : Sfrbx)
  | setTime (t : UTCTime)
  | addEphCb
  | addGephCb

/-- Effect of one operation: new state and the callbacks it made. nav.cpp:58-66, nav.h:169-194. -/
def Nav.step (md : Mode) (n : Nav) : NavOp → M (Nav × List NavCall)
  | .sfrbx junk m => do
    let o ← convertUBX md junk n m
    .ok (o.nav, o.calls)
  | .setTime t => .ok ({ n with gpsTime := t }, [])
  | .addEphCb => .ok ({ n with ephCbs := n.ephCbs + 1 }, [])
  | .addGephCb => .ok ({ n with gephCbs := n.gephCbs + 1 }, [])

/-- A sequence of operations; one list of calls per operation. (Composition, not a construct of /repo.) -/
def Nav.run (md : Mode) : Nav → List NavOp → M (Nav × List (List NavCall))
  | n, [] => .ok (n, [])
  | n, op :: ops => do
    let (n', c) ← n.step md op
    let (n'', cs) ← n'.run md ops
    .ok (n'', c :: cs)

end Ublox.Nav
