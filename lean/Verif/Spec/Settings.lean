import Verif.Spec.Commands

/-!
# What settings messages tell the receiver

Independent of ubx.cpp: the meaning of the CFG-PRT, CFG-NAV5 and CFG-TMODE3 payloads, from the u-blox protocol
description.  (The field comments of `CFG_PRT_t` and `CFG_TMODE3_t` in ubx_defs.h say the same.)
-/

namespace Ublox

/-- Parity of a serial line. -/
inductive Parity where
  | even
  | odd
  | none
  | reserved
  deriving DecidableEq, Repr

/-- The settings of one port of the receiver. -/
structure PortSettings where
  port : Nat
  dataBits : Nat
  parity : Parity
  /-- number of stop bits, in halves -/
  stopHalves : Nat
  baud : Nat
  inUbx : Bool
  inNmea : Bool
  inRtcm3 : Bool
  outUbx : Bool
  outNmea : Bool
  outRtcm3 : Bool
  deriving DecidableEq, Repr

/-- Little-endian number. -/
def leNum : List Byte → Nat
  | [] => 0
  | b :: bs => b.toNat + 256 * leNum bs

/-- The field of `n` bytes at offset `off`. -/
def fieldAt (p : List Byte) (off n : Nat) : Nat := leNum ((p.drop off).take n)

/-- A CFG-PRT payload: port at 0, `mode` at 4 (bits 7:6 number of data bits minus five, bits 11:9 parity, bits 13:12 stop
bits), baud rate at 8, input protocols at 12, output protocols at 14 (bit 0 UBX, bit 1 NMEA, bit 5 RTCM3). -/
def portSettings (p : List Byte) : PortSettings :=
  let mode := fieldAt p 4 4
  { port := fieldAt p 0 1
    dataBits := 5 + mode / 2 ^ 6 % 4
    parity := match mode / 2 ^ 9 % 8 with
      | 0 => .even
      | 1 => .odd
      | 4 => .none
      | 5 => .none
      | _ => .reserved
    stopHalves := match mode / 2 ^ 12 % 4 with
      | 0 => 2
      | 1 => 3
      | 2 => 4
      | _ => 1
    baud := fieldAt p 8 4
    inUbx := (fieldAt p 12 2).testBit 0
    inNmea := (fieldAt p 12 2).testBit 1
    inRtcm3 := (fieldAt p 12 2).testBit 5
    outUbx := (fieldAt p 14 2).testBit 0
    outNmea := (fieldAt p 14 2).testBit 1
    outRtcm3 := (fieldAt p 14 2).testBit 5 }

/-- The settings `disable_nmea` is meant to make: UBX and RTCM3 in both directions, no NMEA, 921600 baud, 8 data bits, no
parity, one stop bit. -/
def wantedPort (port : Nat) : PortSettings :=
  { port := port, dataBits := 8, parity := .none, stopHalves := 2, baud := 921600, inUbx := true, inNmea := false,
    inRtcm3 := true, outUbx := true, outNmea := false, outRtcm3 := true }

/-- The receiver's dynamic platform models the code names: 6, 7 and 8 are airborne with at most 1, 2 and 4 g. -/
def airborneG (model : Nat) : Option Nat :=
  match model with
  | 6 => some 1
  | 7 => some 2
  | 8 => some 4
  | _ => none

/-- The accuracy limit a CFG-TMODE3 payload asks for, in units of 0.1 mm (field at 28), and the minimum duration in seconds
(field at 24). -/
def surveyLimits (p : List Byte) : Nat × Nat := (fieldAt p 28 4, fieldAt p 24 4)

end Ublox
