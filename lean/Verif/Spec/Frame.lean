import Verif.Model.Base

/-!
# Specification of UBX framing (from the u-blox protocol description, independent of ubx.cpp)
-/

namespace Ublox

/-- Sum of the bytes. -/
def byteSum : List Byte → Nat
  | [] => 0
  | b :: bs => b.toNat + byteSum bs

/-- Position-weighted sum: the first byte counts `n` times, the last once. -/
def weightedSum : List Byte → Nat
  | [] => 0
  | b :: bs => (bs.length + 1) * b.toNat + weightedSum bs

/-- First byte of the 8-bit Fletcher checksum. -/
def fletcherA (d : List Byte) : Byte := BitVec.ofNat 8 (byteSum d)

/-- Second byte of the 8-bit Fletcher checksum. -/
def fletcherB (d : List Byte) : Byte := BitVec.ofNat 8 (weightedSum d)

/-- The checksummed part of a UBX frame: class, id, length (little endian), payload. -/
def ubxBody (cls id : Byte) (payload : List Byte) : List Byte :=
  cls :: id :: BitVec.ofNat 8 payload.length :: BitVec.ofNat 8 (payload.length / 256) :: payload

/-- A well-formed UBX frame. -/
def ubxFrame (cls id : Byte) (payload : List Byte) : List Byte :=
  0xB5 :: 0x62 :: ubxBody cls id payload ++
    [fletcherA (ubxBody cls id payload), fletcherB (ubxBody cls id payload)]

/-- What a receiver makes of a byte stream: a sequence of complete frames, good or bad. -/
inductive Item where
  /-- a frame with a correct checksum -/
  | good (cls id : Byte) (payload : List Byte)
  /-- a complete frame with a wrong checksum -/
  | badChecksum
  /-- a header announcing more than 2048 bytes, dropped at once -/
  | tooLong
  deriving DecidableEq, Repr

/-- How the stream ends. -/
inductive Tail where
  /-- no frame is open; the last byte seen is recorded because it may be the first half of a start sequence -/
  | idle (last : Byte)
  /-- a frame is open: its bytes after the start sequence -/
  | opened (bytes : List Byte)
  deriving DecidableEq, Repr

/-- Split a byte stream into frames.  `prev` is the byte before the stream.  A start sequence is `B5 62`; it opens
a frame `cls id len_lo len_hi payload ck_a ck_b`; a length above 2048 abandons the frame right after the length
field; after a frame the search for the next start sequence goes on with the frame's last byte as `prev`.
A frame announcing length 0 is never completed: this is what the code does (see C07). -/
def scan (prev : Byte) (s : List Byte) : List Item × Tail :=
  match s with
  | [] => ([], .idle prev)
  | b :: rest =>
    if prev = 0xB5 ∧ b = 0x62 then
      match rest with
      | cls :: id :: lo :: hi :: rest' =>
        let len := lo.toNat + 256 * hi.toNat
        if 2048 < len then
          let r := scan hi rest'
          (.tooLong :: r.1, r.2)
        else if len = 0 then ([], .opened rest)
        else
          match _h : rest'.drop len with
          | a :: c :: rest'' =>
            let body := cls :: id :: lo :: hi :: rest'.take len
            let r := scan c rest''
            (if a = fletcherA body ∧ c = fletcherB body then
               .good cls id (rest'.take len) :: r.1
             else .badChecksum :: r.1, r.2)
          | _ => ([], .opened rest)
      | _ => ([], .opened rest)
    else scan b rest
termination_by s.length
decreasing_by
  all_goals simp only [List.length_cons]
  · omega
  · have h2 := congrArg List.length _h
    simp only [List.length_drop, List.length_cons] at h2
    omega
  · omega

end Ublox

namespace Ublox

/-- A frame-shaped byte string with arbitrary checksum bytes. -/
def rawFrame (cls id : Byte) (payload : List Byte) (a b : Byte) : List Byte :=
  0xB5 :: 0x62 :: ubxBody cls id payload ++ [a, b]

/-- Is the item a good frame? -/
def Item.isGood : Item → Bool
  | .good _ _ _ => true
  | _ => false

/-- Number of good frames. -/
def goods (is : List Item) : Nat := is.countP Item.isGood
/-- Number of rejected frames. -/
def bads (is : List Item) : Nat := is.countP fun i => !Item.isGood i

/-- Value of a string of ASCII digits. -/
def decVal (ds : List Byte) : Nat := ds.foldl (fun acc b => acc * 10 + (b.toNat - 0x30)) 0

/-- `txt` stands at offset `off` of `buf`. -/
def TextAt (buf : List Byte) (off : Nat) (txt : List Byte) : Prop := (buf.drop off).take txt.length = txt

end Ublox
