import Verif.Spec.MonVer
/-! # Specification: the version a receiver has reported

The version reports in a byte stream, and what a user expects the driver to know after it. -/

namespace Ublox.MonVer

/-- The payloads of the good version reports among the frames of a stream. -/
def reports (its : List Item) : List (List Byte) :=
  its.filterMap fun
    | .good c i p => if c = 0x0A ∧ i = 0x04 then some p else none
    | _ => none

/-- The payload `p` is a version report that says protocol version `maj.min` and module `name` among its first seven
extension fields, and has at least seven. -/
def Tells (p maj min name : List Byte) : Prop :=
  ∃ (r : Report) (a b : Nat), r.payload = p ∧ r.Fits ∧ 7 ≤ r.ext.length ∧ a < 7 ∧ b < 7 ∧ r.Says a b maj min name

end Ublox.MonVer
