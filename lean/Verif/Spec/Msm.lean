import Verif.Spec.Bits

/-!
# Specification: an MSM header (RTCM 10403.3, table 3.5-78), bits counted from the frame's preamble

Satellite mask: bits 97 to 160; signal mask: bits 161 to 192; cell mask: from bit 193 on, satellites times signals bits.
-/

namespace Ublox.MsmSpec

/-- The one-based positions of the bits set in a mask of `n` bits at bit `first`, in increasing order. -/
def setBits (buf : List Byte) (first n : Nat) : List Nat := (List.range' 1 n).filter fun j => bitAt buf (first + j - 1)

/-- The satellites of the message. -/
def satellites (buf : List Byte) : List Nat := setBits buf 97 64
/-- Its signals. -/
def signals (buf : List Byte) : List Nat := setBits buf 161 32
/-- Its number of cells with data. -/
def cells (buf : List Byte) : Nat := (setBits buf 193 ((satellites buf).length * (signals buf).length)).length

/-- The observation part of an MSM5 message (RTCM 10403.3, tables 3.5-80 and 3.5-86): per satellite whole milliseconds of the rough range,
extended information, rough range modulo one millisecond, rough phase-range rate; per cell fine pseudorange, fine phase
range, lock time indicator, half-cycle indicator, carrier-to-noise ratio, fine phase-range rate.  Each entry: what, bits of
one field, number of fields. -/
def body5 (nsat ncell : Nat) : List (String × Nat × Nat) :=
  [("rough range ms", 8, nsat), ("extended info", 4, nsat), ("rough range mod 1 ms", 10, nsat), ("rough rate", 14, nsat),
   ("fine pseudorange", 15, ncell), ("fine phase range", 22, ncell), ("lock time", 4, ncell), ("half cycle", 1, ncell),
   ("CNR", 6, ncell), ("fine rate", 15, ncell)]

/-- Where its parts begin: the first one right after the cell mask (which begins at bit 193 and has one bit per satellite and
signal), each further one where the previous one ends. -/
def startOf (nsat nsig ncell k : Nat) : Nat :=
  193 + nsat * nsig + (((body5 nsat ncell).take k).map fun b => b.2.1 * b.2.2).sum

/-- Number of bits of the longest RTCM3 frame: three bytes of header, 1023 of payload, three of CRC. -/
def maxFrameBits : Nat := 8 * (3 + 1023 + 3)

end Ublox.MsmSpec
