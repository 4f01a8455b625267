import Verif.Spec.BaseLife
import Verif.Spec.NavGps
import Verif.Spec.NavGlo
import Verif.Spec.NavGal

/-!
# What the data words of the RXM-SFRBX messages received say (C151)
-/

namespace Ublox.Dev

open Nav (gpsId gloBit gloNum gloMark usable GoodPage wType)

/-- The (up to ten) data words of an RXM-SFRBX payload. -/
def wordsIn (pl : List Byte) : List Byte := (pl.drop 8).take 40

/-- The message is about satellite `s` of constellation `c`. -/
def About (c s : Byte) (pl : List Byte) : Prop := pl[0]? = some c ∧ pl[1]? = some s

/-- The message has its header and all the words of its constellation: ten of GPS, eight of Galileo, four of GLONASS. -/
def AllWords (pl : List Byte) : Prop :=
  8 ≤ pl.length ∧ (pl[0]? = some 0 → 48 ≤ pl.length) ∧ (pl[0]? = some 2 → 40 ≤ pl.length) ∧ (pl[0]? = some 6 → 24 ≤ pl.length)

instance (pl : List Byte) : Decidable (AllWords pl) := inferInstanceAs (Decidable (_ ∧ _))

/-- It is a string number `k` of GLONASS satellite `s` with the given time mark, and the check bits allow using it. -/
structure GloPart (s : Byte) (mark k : Nat) (pl : List Byte) : Prop where
  about : About 6 s pl
  checked : usable (gloBit (wordsIn pl)) = true
  num : gloNum (wordsIn pl) = k
  mark : gloMark (wordsIn pl) = mark

/-- It is a subframe number `k` of GPS satellite `s`. -/
structure GpsPart (s : Byte) (k : Nat) (pl : List Byte) : Prop where
  about : About 0 s pl
  num : gpsId (wordsIn pl) = k

/-- It is a page of Galileo satellite `s` with a correct CRC and a word of type `k`. -/
structure GalPart (s : Byte) (k : Nat) (pl : List Byte) : Prop where
  about : About 2 s pl
  good : GoodPage (wordsIn pl)
  type : wType (wordsIn pl) = k

/-- Among the things received, `q` is the last message with the property `P`. -/
def LastOf (P : List Byte → Prop) (q : List Byte) (ins : List NavIn) : Prop :=
  ∃ a b, ins = a ++ .sfrbx q :: b ∧ P q ∧ ∀ r, NavIn.sfrbx r ∈ b → ¬ P r

end Ublox.Dev
