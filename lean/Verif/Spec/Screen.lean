import Verif.Spec.Frame
import Verif.Spec.ConfigItems
import Verif.Model.Screen

/-!
# Specification for C138 to C141: configuration answers and the console output of the driver
-/

namespace Ublox

open UTCTime (decNat decInt)

/-- A CFG-VALGET answer with one item. -/
def valgetAnswer (layer : Byte) (key width value : Nat) : List Byte :=
  [0x01, layer, 0x00, 0x00] ++ leBytes 4 key ++ leBytes width value

/-- The text on the screen after the connection is made. -/
def connectedText (name : List Byte) (major minor : Nat) : List Char :=
  "Connected:\nModule: ".toList ++ name.map (fun b => Char.ofNat b.toNat) ++ "\nProtocol Version: ".toList ++ decNat major ++
    ".".toList ++ decNat minor ++ "\n\n".toList

/-- Receiving the item prints a connection banner: it is a good version message. -/
def isVersion : Item → Bool
  | .good c i _ => c == 0x0A && i == 0x04
  | _ => false

/-- The line that reports a correction frame with a wrong checksum. -/
def crcLine : List Char := "RTCM not pass CRC check\n".toList

/-- The line that announces the `n`-th version poll. -/
def announces (n : Nat) : List Char :=
  "Unable to query version.  Trying again (".toList ++ decNat n ++ " out of 3)\n".toList

/-- A version poll (MON-VER without payload) is written to the receiver. -/
def poll : Dev.Seen := .eff (.toReceiver (ubxFrame 0x0A 0x04 []))

/-- What the screen announces happens: an announcement of the `n`-th poll comes after `n - 1` polls and is directly followed by
one. -/
def Truthful (tr : List Dev.Seen) : Prop :=
  ∀ a b n, tr = a ++ .text (announces n) :: b → (∃ rest, b = poll :: rest) ∧ ∃ a', a'.length + 1 = n ∧ a.filter Dev.Seen.isEff = a' ∧
    ∀ x ∈ a', x = poll

end Ublox
