import Verif.Model.Nav

/-!
# The satellites counted by `src/examples/read_serial.cpp`

Simplification: of the text printed by the two callbacks only the counts and satellite lists are kept.
-/

namespace Ublox.ReadSerial

open Nav

/-- `std::set<int>::insert` on the set's elements in order. (C++ [set.overview]; read_serial.cpp:90, 98, 114.) -/
def setInsert (x : Nat) : List Nat → List Nat
  | [] => [x]
  | y :: ys => if x < y then x :: y :: ys else if x = y then y :: ys else y :: setInsert x ys

/-- `found_gps_sats`, `found_gal_sats`, `found_glo_sats`. read_serial.cpp:38-40. -/
structure Found where
  gps : List Nat
  gal : List Nat
  glo : List Nat
  deriving DecidableEq

/-- A printed total: which line, how many, which. read_serial.cpp:92-94, 100-102, 115-117. -/
inductive Line where
  | gps (n : Nat) (sats : List Nat)
  | gal (n : Nat) (sats : List Nat)
  | glo (n : Nat) (sats : List Nat)
  deriving DecidableEq

/-- `eph_callback`. read_serial.cpp:79-104. -/
def ephCallback (f : Found) (e : Eph) : Found × List Line :=
  if e.gnssID = 0 then
    let s := setInsert e.sat.toNat f.gps
    ({ f with gps := s }, [.gps s.length s])
  else if e.gnssID = 2 then
    let s := setInsert e.sat.toNat f.gal
    ({ f with gal := s }, [.gal s.length s])
  else (f, [])

/-- `geph_callback`. read_serial.cpp:106-118. -/
def gephCallback (f : Found) (g : GEph) : Found × List Line :=
  let s := setInsert g.sat.toNat f.glo
  ({ f with glo := s }, [.glo s.length s])

/-- The callbacks made by the library, in order; each list has one callback registered, number 0.
read_serial.cpp:152-153. -/
def calls (f : Found) : List NavCall → Found × List Line
  | [] => (f, [])
  | .eph _ e :: t =>
    let (f1, l1) := ephCallback f e
    let (f2, l2) := calls f1 t
    (f2, l1 ++ l2)
  | .geph _ g :: t =>
    let (f1, l1) := gephCallback f g
    let (f2, l2) := calls f1 t
    (f2, l1 ++ l2)

/-- What the library's decoder goes through in a run of the program: subframe messages handled before the callbacks are
registered, between the two registrations, and after. read_serial.cpp:120-166. -/
def history (before mid after : List (List Byte × Sfrbx)) : List NavOp :=
  before.map (fun x => .sfrbx x.1 x.2) ++ .addEphCb :: (mid.map (fun x => .sfrbx x.1 x.2) ++
    .addGephCb :: after.map (fun x => .sfrbx x.1 x.2))

/-- The run of the program. read_serial.cpp:120-166. -/
def main (md : Mode) (before mid after : List (List Byte × Sfrbx)) : M (Found × List Line) := do
  let (_, cs) ← Nav.init.run md (history before mid after)
  .ok (calls ⟨[], [], []⟩ cs.flatten)

end Ublox.ReadSerial
