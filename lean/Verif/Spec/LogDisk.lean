import Verif.Model.LogDisk

/-!
# Specification for C136 and C137: recording and its interruptions
-/

namespace Ublox

/-- The buffers given to the recorder, in order. -/
def given (evs : List RecEv) : List (List Byte) :=
  evs.filterMap fun
    | .data b => some b
    | _ => none

/-- Nothing failed. -/
def NoFailure (evs : List RecEv) : Prop := ∀ n, RecEv.fail n ∉ evs

end Ublox
