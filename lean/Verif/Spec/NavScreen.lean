import Verif.Spec.NavGal
import Verif.Spec.NavGlo
import Verif.Model.NavScreen

/-!
# Specification for C143: what the console says about a navigation message
-/

namespace Ublox.Nav

open UTCTime (decNat decInt)

/-- A number at least two characters wide, filled with a blank. -/
def pad2 (n : Nat) : List Char := List.replicate (2 - (decNat n).length) ' ' ++ decNat n

/-- The text about a checked page, given the seven words collected so far (including the page's), as far as they are there. -/
def collectedText : List (Option (List Byte)) → Printed
  | [some d0, some d1, some d2, some d3, some d4, some _, some _] =>
    if wU d0 6 2 ≠ 2 then { err := "decode_gal_inav error: word0-time=".toList ++ decNat (wU d0 6 2) ++ "\n".toList }
    else if iodNav d1 ≠ iodNav d2 ∨ iodNav d1 ≠ iodNav d3 ∨ iodNav d1 ≠ iodNav d4 then
      { err := "decode_gal_inav error: ionav=".toList ++ decNat (iodNav d1) ++ " ".toList ++ decNat (iodNav d2) ++
          " ".toList ++ decNat (iodNav d3) ++ " ".toList ++ decNat (iodNav d4) ++ "\n".toList }
    else
      { out := "Week = ".toList ++ decInt (toeWeek d0 d1 + 1024) ++ ", toes = ".toList ++ decNat (galToe d1) ++ "\n".toList
        err := "GAL Success\n".toList }
  | _ => { err := "GAL waiting for other subframes\n".toList }

open Classical in
/-- The text about a Galileo page `d` of satellite `s`; `H` are the good pages of the satellite up to this one, from the
latest word of type 2 on. -/
noncomputable def pageText (s : Byte) (d : List Byte) (H : List (List Byte)) : Printed :=
  if galBit d 1 = true ∨ galBit d 129 = true then { err := "Skipping alert page".toList }
  else if galBit d 0 = true ∨ galBit d 128 = false then
    { err := "gal page even/odd error: sat=".toList ++ pad2 s.toNat ++ "\n".toList }
  else if ¬ CrcValid (galFrame d) then { err := "GAL CRC Error: sat=".toList ++ pad2 s.toNat ++ "\n".toList }
  else if wType d > 6 then {}
  else collectedText [latestW 0 H, latestW 1 H, latestW 2 H, latestW 3 H, latestW 4 H, latestW 5 H, latestW 6 H]

/-- The text about a GLONASS string: satellite and string number, if the string is usable, is one of 1 to 4, and is not
ignored for lack of a reference time or because the satellite is unknown. -/
def stringText (s : Byte) (T : UTCTime) (d : List Byte) : Printed :=
  if s ≠ 255 ∧ T ≠ ⟨0, 0⟩ ∧ usable (gloBit d) = true ∧ 1 ≤ gloNum d ∧ gloNum d ≤ 4 then
    { err := "GLO Sat ".toList ++ decNat s.toNat ++ ", frm ".toList ++ decNat (gloNum d) ++ "\n".toList }
  else {}

end Ublox.Nav
