import Verif.Spec.Frame
/-! # Specification: the version report of a receiver (UBX-MON-VER)

u-blox documents the payload of MON-VER as a software version of 30 bytes, a hardware version of 10 bytes and any number
of extension fields of 30 bytes, each a text padded with NUL bytes.  Independent of the parser, which reads the extension
block in rows of 10 bytes. -/

namespace Ublox.MonVer

/-- A text in a field of `n` bytes: padded with NUL bytes. -/
def field (n : Nat) (txt : List Byte) : List Byte := txt ++ List.replicate (n - txt.length) 0

/-- What a receiver reports about itself. -/
structure Report where
  sw : List Byte
  hw : List Byte
  ext : List (List Byte)

/-- The texts fit their fields. -/
structure Report.Fits (r : Report) : Prop where
  sw : r.sw.length ≤ 30
  hw : r.hw.length ≤ 10
  ext : ∀ t ∈ r.ext, t.length ≤ 30

/-- The payload on the wire. -/
def Report.payload (r : Report) : List Byte := field 30 r.sw ++ field 10 r.hw ++ r.ext.flatMap (field 30)

/-- "PROTVER=" -/
def verLabel : List Byte := [0x50, 0x52, 0x4F, 0x54, 0x56, 0x45, 0x52, 0x3D]
/-- "MOD=" -/
def modLabel : List Byte := [0x4D, 0x4F, 0x44, 0x3D]

/-- `ds` is a decimal number of one to four digits. -/
def Number (ds : List Byte) : Prop := 1 ≤ ds.length ∧ ds.length ≤ 4 ∧ ∀ d ∈ ds, 0x30 ≤ d.toNat ∧ d.toNat ≤ 0x39

/-- `name` is a module name: at most nine characters, none of them NUL. -/
def Name (name : List Byte) : Prop := name.length ≤ 9 ∧ ∀ d ∈ name, d ≠ 0

/-- The report says that the protocol version is `maj.min` and the module is `name`: extension field `a` reads
`PROTVER=maj.min`, field `b` reads `MOD=name`, and no other field contains either label. -/
structure Report.Says (r : Report) (a b : Nat) (maj min name : List Byte) : Prop where
  ver : r.ext[a]? = some (verLabel ++ maj ++ [0x2E] ++ min)
  mod : r.ext[b]? = some (modLabel ++ name)
  verOnly : ∀ j t, r.ext[j]? = some t → j ≠ a → ¬ verLabel <:+: t
  modOnly : ∀ j t, r.ext[j]? = some t → j ≠ b → ¬ modLabel <:+: t
  majN : Number maj
  minN : Number min
  nameN : Name name

end Ublox.MonVer
