import Verif.Spec.Crc

/-!
# Specification of RTCM3 framing (from RTCM 10403, independent of rtcm.cpp)
-/

namespace Ublox

/-- Length announced by the two bytes after the preamble: the low 10 bits of the pair, big endian (the upper six bits
are reserved and ignored). -/
def rtcmLen (b1 b2 : Byte) : Nat := (b1.toNat % 4) * 256 + b2.toNat

/-- The shape of an RTCM3 frame with any CRC bytes: preamble `D3`, length, payload of that length, three bytes. -/
def RtcmShape (payload frame : List Byte) : Prop :=
  ∃ b1 b2 c0 c1 c2, frame = 0xD3 :: b1 :: b2 :: (payload ++ [c0, c1, c2]) ∧ payload.length = rtcmLen b1 b2

/-- A valid RTCM3 frame with this payload. -/
def RtcmFrame (payload frame : List Byte) : Prop := RtcmShape payload frame ∧ CrcValid frame

/-- Split a byte stream into complete RTCM3 frame shapes: search for `D3`; a header announcing length 0 is skipped;
otherwise a frame extends over its announced length.  Second component: the incomplete frame at the end, if any. -/
def rtcmScan (s : List Byte) : List (List Byte) × Option (List Byte) :=
  match s with
  | [] => ([], none)
  | b :: rest =>
    if b ≠ 0xD3 then rtcmScan rest
    else
      match rest with
      | b1 :: b2 :: rest' =>
        if rtcmLen b1 b2 = 0 then rtcmScan rest'
        else if rtcmLen b1 b2 + 3 ≤ rest'.length then
          let r := rtcmScan (rest'.drop (rtcmLen b1 b2 + 3))
          ((b :: b1 :: b2 :: rest'.take (rtcmLen b1 b2 + 3)) :: r.1, r.2)
        else ([], some (b :: rest))
      | _ => ([], some (b :: rest))
termination_by s.length
decreasing_by all_goals simp only [List.length_cons, List.length_drop]; omega

end Ublox
