import Verif.Spec.Commands

/-!
# How a u-blox receiver (protocol 27 and later) reads configuration messages

Independent of ubx.cpp: from the "configuration interface" chapter of the u-blox interface description.
-/

namespace Ublox

/-- How many bytes the value of a configuration item takes: bits 28..30 of its 32-bit key say so (1: one bit, stored in
one byte; 2: one byte; 3: two bytes; 4: four bytes; 5: eight bytes; anything else is not a key). -/
def keyWidth (key : Nat) : Option Nat :=
  match key / 2 ^ 28 % 8 with
  | 1 => some 1
  | 2 => some 1
  | 3 => some 2
  | 4 => some 4
  | 5 => some 8
  | _ => none

/-- After its four header bytes a CFG-VALSET payload is a list of items: a four-byte key directly followed by a value of
exactly the width the key announces, and so on up to the end of the payload. -/
inductive IsItemList : List Byte → List (Nat × Nat) → Prop where
  | nil : IsItemList [] []
  | cons {k v w : Nat} {rest : List Byte} {its : List (Nat × Nat)} (hk : k < 2 ^ 32) (hw : keyWidth k = some w)
      (hv : v < 256 ^ w) (h : IsItemList rest its) : IsItemList (leBytes 4 k ++ leBytes w v ++ rest) ((k, v) :: its)

/-- A CFG-VALSET payload (version 0 or 1, layers, two reserved bytes) that sets exactly the items `its`. -/
def SetsItems (version layer : Byte) (payload : List Byte) (its : List (Nat × Nat)) : Prop :=
  ∃ body, payload = [version, layer, 0, 0] ++ body ∧ IsItemList body its

/-- After its four header bytes the payload of a CFG-VALGET request is a list of four-byte keys. -/
def AsksKeys (version layer : Byte) (payload : List Byte) (keys : List Nat) : Prop :=
  payload = [version, layer, 0, 0] ++ keys.flatMap (leBytes 4) ∧ ∀ k ∈ keys, k < 2 ^ 32

/-- The number the four value bytes of the driver's CFG-VALSET messages stand for: with `size` 1 the low byte of the
value, with `size` 2 its low 32 bits, with any other `size` zero. -/
def sentWord (d s : Nat) : Nat := if s = 1 then d % 256 else if s = 2 then d % 2 ^ 32 else 0

end Ublox
