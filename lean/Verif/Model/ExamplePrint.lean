import Verif.Model.Msgs
import Verif.Model.Device
import Verif.Model.TimePrint
import Mathlib.Data.Rat.Defs

/-!
# What the example programs print about the messages they receive

Simplification (removed in `Model/PrintNum`): a `%.3f`/`%f` conversion is kept as the pair of the number of places and the exact value of its argument;
the rounding of the argument's double arithmetic (relative error below 2^-51, far below the last place printed) is dropped.
`double` and `float` members of a message are represented by their bits (`size` bytes), as everywhere.
-/

namespace Ublox.Print
open UTCTime (decInt)

/-- A piece of output: text, a number printed with a fixed number of places, or a floating-point member printed so.
(C `printf` conversions of read_log.cpp:55-59, 67-69; base.cpp:64-71.) -/
inductive Piece where
  | txt (s : List Char)
  | fixed (places : Nat) (value : Rat)
  | real (size places : Nat) (bits : Int)
  deriving DecidableEq

/-- A string literal in a `printf` format or a `std::cout` expression. read_log.cpp:46, 55-69; base.cpp:64; rover.cpp:52-70. -/
def lit (s : String) : Piece := .txt s.toList

/-- `%d` of an integer that fits an `int`. read_log.cpp:55-69; rover.cpp:70-71. -/
def dec (n : Int) : Piece := .txt (decInt n)

/-- `%d` of a `uint32_t`: the bits are taken as an `int`. (C `printf` on a two's complement machine; base.cpp:65, 67;
read_log.cpp:59.) -/
def decU32 (n : Int) : Piece := .txt (decInt (if n < 2 ^ 31 then n else n - 2 ^ 32))

/-- `pvt_callback` of `read_log` (the same text stands, unused, in `read_serial` and `base`).
read_log.cpp:53-61; read_serial.cpp:57-65; base.cpp:51-59. -/
def pvt (b : List Byte) : List Piece :=
  let g (name : String) := navPvt.get name b
  [lit "t: ", dec (g "year"), lit " ", dec (g "month"), lit "/", dec (g "day"), lit ", ", dec (g "hour"), lit ":",
   dec (g "min"), lit ":", dec (g "sec"), lit ".", dec ((g "nano").tdiv 1000000), lit ", lla: ",
   .fixed 3 (g "lat" / 10 ^ 7), lit ", ", .fixed 3 (g "lon" / 10 ^ 7), lit ", ", .fixed 3 (g "height" / 10 ^ 3),
   lit ", vel: ", .fixed 3 (g "velN" / 10 ^ 3), lit ", ", .fixed 3 (g "velE" / 10 ^ 3), lit ", ",
   .fixed 3 (g "velD" / 10 ^ 3), lit "\n", lit "tow: ", decU32 (g "iTOW"), lit "\n"]

/-- One line of `rawx_callback`. read_log.cpp:66-69. -/
def rawxLine (b : List Byte) (i : Nat) : M (List Piece) := do
  let gnss ← measGet b i "gnssId"
  let sv ← measGet b i "svId"
  let p ← measGet b i "prMeas"
  let l ← measGet b i "cpMeas"
  let d ← measGet b i "doMeas"
  .ok [lit "week: ", dec (rxmRawx.get "week" b), lit ", tow: ", .real 8 3 (rxmRawx.get "rcvTow" b), lit " gnss_id: ",
    dec gnss, lit ", sat_id: ", dec sv, lit ", P ", .real 8 3 p, lit ", L ", .real 8 3 l, lit ", D ", .real 4 3 d, lit "\n"]

/-- The loop of `rawx_callback`, with `n` iterations to go from index `i`. read_log.cpp:65-71. -/
def rawxLoop (b : List Byte) (i : Nat) : Nat → M (List (List Piece))
  | 0 => .ok []
  | n + 1 => do
    let x ← rawxLine b i
    let r ← rawxLoop b (i + 1) n
    .ok (x :: r)

/-- `rawx_callback`; `numMeas` is signed, a negative one gives no iteration. read_log.cpp:63-71; ubx_defs.h:862. -/
def rawx (b : List Byte) : M (List (List Piece)) := rawxLoop b 0 (rxmRawx.get "numMeas" b).toNat

/-- `svin_callback` of `base`. base.cpp:61-73. -/
def svin (b : List Byte) : List Piece :=
  let g (name : String) := navSvin.get name b
  [lit "t: ", decU32 (g "iTow"), lit ", ", (if g "active" ≠ 0 then lit "ACTIVE" else lit "INACTIVE"), lit ", dur: ",
   decU32 (g "dur"), lit ", pos: [", .fixed 6 (g "meanX" / 100 + g "meanXHP" / 10000), lit ", ",
   .fixed 6 (g "meanY" / 100 + g "meanYHP" / 10000), lit ", ", .fixed 6 (g "meanZ" / 100 + g "meanZHP" / 10000),
   lit "], acc: ", .fixed 6 (g "meanAcc" / 10000), lit "\n"]

/-- `relposned_callback` of `rover`; `msg.flags && constant` is `flags ≠ 0`; the quotient of a `uint32_t` by 1000 fits an
`int`. rover.cpp:47-74. -/
def relposned (b : List Byte) : List Piece :=
  let g (name : String) := navRelposned.get name b
  let both (c : Nat) : Bool := g "flags" != 0 && c != 0
  if both 0b000000010 then
    [lit "RTK"] ++ (if both 0b000100000 then [lit ", Moving Base"] else []) ++
      (if both 0b000001000 then [lit " , Floating \n"] else if both 0b000010000 then [lit " , Fixed \n"] else []) ++
      (if both 0b000000100 then [lit "valid relative position components \n"] else []) ++
      [lit "tow: ", dec (g "iTow" / 1000), lit " relNED: ", dec (g "relPosN"), lit ", ", dec (g "relPosE"), lit ", ",
       dec (g "relPosD"), lit ", Distance: ", dec (g "relPosLength"), lit "\n"]
  else [lit "No RTK \n"]

/-- `got_ubx` of `rover`. rover.cpp:41-45. -/
def roverGot (cls id : Byte) (m : List Byte) : M (List Piece) :=
  if cls = 0x01 ∧ id = 0x3C then .ok (relposned m) else .ok []

/-- `got_ubx` of `base`. base.cpp:43-49. -/
def baseGot (cls id : Byte) (m : List Byte) : M (List Piece) :=
  if cls = 0x01 ∧ id = 0x3B then .ok (svin m) else .ok []

/-- `got_ubx` of `read_log`. read_log.cpp:44-51. -/
def readLogGot (cls id : Byte) (m : List Byte) : M (List Piece) :=
  if cls = 0x01 ∧ id = 0x07 then .ok (lit "GOT UBX MESSAGE\n" :: pvt m)
  else if cls = 0x02 ∧ id = 0x15 then do
    let ls ← rawx m
    .ok (lit "GOT UBX MESSAGE\n" :: ls.flatten)
  else .ok [lit "GOT UBX MESSAGE\n"]

/-- The calls `main` of `rover` makes (the handler is listener 0, the socket RTK interface 0).
rover.cpp:40, 86-98. -/
def roverCalls : List Dev.Ev := [.subscribe 0 0x01 0x3C, .listen 0, .configRover 0]

/-- The calls `main` of `base` makes. base.cpp:40-41, 81-95. -/
def baseCalls : List Dev.Ev := [.subscribe 0 0x01 0x07, .subscribe 0 0x01 0x3B, .listen 0, .configBase 0 true]

/-- The calls `main` of `read_log` makes. read_log.cpp:41-42, 110-120. -/
def readLogCalls : List Dev.Ev := [.subscribe 0 0x01 0x07, .subscribe 0 0x02 0x15, .listen 0, .ephCb, .gephCb]

/-- What the handler `got` prints, call after call. (Calls of the listener: ubx.cpp:446-450.) -/
def console (got : Byte → Byte → List Byte → M (List Piece)) : List Eff → M (List Piece)
  | [] => .ok []
  | .ubx _ c i m :: es => do
    let a ← got c i m
    let r ← console got es
    .ok (a ++ r)
  | _ :: es => console got es

end Ublox.Print
