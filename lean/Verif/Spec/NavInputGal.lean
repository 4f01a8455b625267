import Verif.Spec.NavInput
import Verif.Spec.NavEncGal

/-!
# RXM-SFRBX messages of a Galileo satellite among what a device receives
-/

namespace Ublox.Dev

open Nav (GalParams GalTime GoodPage SentPage)

/-- The payload of an RXM-SFRBX message of a Galileo satellite: constellation 2, satellite, signal, channel, number of words,
tracking channel, version, reserved, and the eight 4-byte words of a page. -/
def galPayload (s : Byte) (r x ch ver res : Byte) (page : List Byte) : List Byte := [2, s, r, x, 8, ch, ver, res] ++ page

/-- A page followed by the two words that belong to no Galileo page. -/
def padded (page : List Byte) : List Byte := page ++ List.replicate 8 0

/-- `pl` is a message with the page `page` of Galileo satellite `s`. -/
def IsGalPage (s : Byte) (page pl : List Byte) : Prop :=
  page.length = 32 ∧ ∃ r x ch ver res, pl = galPayload s r x ch ver res page

/-- Not a message about Galileo satellite `s` (it is long enough to tell). -/
def NotGal (s : Byte) (pl : List Byte) : Prop := 2 ≤ pl.length ∧ (pl[0]? ≠ some 2 ∨ pl[1]? ≠ some s)

/-- In `ins`, all that Galileo satellite `s` sends are words of the batch `p` other than word 2, in any order and any number of
times, and pages that are damaged or of other kinds. -/
def GalTraffic (s : Byte) (p : GalParams) (ins : List NavIn) : Prop :=
  ∀ pl, NavIn.sfrbx pl ∈ ins → NotGal s pl ∨ ∃ page, IsGalPage s page pl ∧
    (¬ GoodPage page ∨ ∃ t k, k ≤ 6 ∧ k ≠ 2 ∧ GalTime.Ok t ∧ SentPage p t k (padded page))

/-- Word `k` of `p` (sent at `t`, if `k = 0`) arrives from satellite `s` in `ins`. -/
def GalArrives (s : Byte) (p : GalParams) (t : GalTime) (k : Nat) (ins : List NavIn) : Prop :=
  ∃ pl page, NavIn.sfrbx pl ∈ ins ∧ IsGalPage s page pl ∧ SentPage p t k (padded page)

end Ublox.Dev
