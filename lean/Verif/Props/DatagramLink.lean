import Verif.Props.DeviceLink

/-!
# C120: the RTK link over a network that loses, repeats and reorders

The examples carry the link of C33 over UDP. A datagram network may lose, repeat and reorder what is written to it, but
hands over each write whole.
-/

namespace Ublox
namespace Dev

open Nav (Nav NavCall Mode Sfrbx NavOp)

/-- What a run of a base writes to RTK interfaces: only whole valid RTCM3 frames. -/
theorem run_writes {md : Mode} {d d' : Dev} {evs evs' : List Ev} {es0 es : List Eff}
    (h : Reach md d evs es0) (hs : d.run md evs' = .ok (d', es)) :
    ∀ i f, (i, f) ∈ es.filterMap Eff.rtk? → ∃ p, RtcmFrame p f ∧ 1 ≤ p.length ∧ p.length ≤ 1018 := by
  induction evs' generalizing d evs es0 es with
  | nil => cases hs; intro i f hf; cases hf
  | cons e evs' ih =>
    unfold run at hs
    rw [bind_ok] at hs
    obtain ⟨⟨d1, e1⟩, h1, hs⟩ := hs
    dsimp only at hs
    rw [bind_ok] at hs
    obtain ⟨⟨d2, e2⟩, h2, hs⟩ := hs
    cases hs
    intro i f hf
    rw [List.filterMap_append, List.mem_append] at hf
    rcases hf with hf | hf
    · by_cases hx : ∃ s, e = .rx s
      · obtain ⟨s, rfl⟩ := hx
        exact ((c32_receiver_data h h1).2 i f hf).2
      · by_cases hy : ∃ j s, e = .rtkRx j s
        · obtain ⟨j, s, rfl⟩ := hy
          obtain ⟨k1, k2⟩ := c32_rtk_data h h1
          by_cases hr : RoverOn evs j
          · rw [k1 hr] at hf; cases hf
          · rw [(k2 hr).1] at hf; cases hf
        · have k := c32_other_calls h h1
          exfalso
          cases e with
          | rx s => exact hx ⟨s, rfl⟩
          | rtkRx j s => exact hy ⟨j, s, rfl⟩
          | listen l => cases k; cases hf
          | subscribe l c i => cases k; cases hf
          | ephCb => cases k; cases hf
          | gephCb => cases k; cases hf
          | configBase i st => obtain ⟨ms, rfl⟩ := k; cases hf
          | configRover i => obtain ⟨ms, rfl⟩ := k; cases hf
    · exact ih (h.snoc h1) h2 i f hf

/-- C120. Whatever a base does and receives (`evb`), and whichever of the datagrams it writes to interface `i` the network
hands to a rover, how often and in which order (`net`): the rover does not fail, its receiver gets exactly these datagrams,
one write each, in the order of arrival, and every one of them is a whole RTCM3 frame with a valid CRC; afterwards the rover
is ready for the next. -/
theorem c120_lossy_link {mb mr : Mode} {b r : Dev} {evb evr : List Ev} {eb er0 : List Eff} {i j : Nat} {net : List (List Byte)}
    (hb : Reach mb b evb eb) (hnet : ∀ f ∈ net, (i, f) ∈ eb.filterMap Eff.rtk?)
    (hr : Reach mr r evr er0) (hcr : RoverOn evr j) (hp : r.dbg.parsingMessage = false) :
    (∃ r', r.run mr (net.map (.rtkRx j)) = .ok (r', net.map .toReceiver) ∧ r'.dbg.parsingMessage = false) ∧
    ∀ f ∈ net, ∃ p, RtcmFrame p f ∧ 1 ≤ p.length ∧ p.length ≤ 1018 := by
  have hf : ∀ f ∈ net, ∃ p, RtcmFrame p f ∧ 1 ≤ p.length ∧ p.length ≤ 1018 := by
    obtain ⟨u, g, g2, ss, d0, e0, k1, k2, k3, k4, k5⟩ := hb
    intro f hf
    exact run_writes (evs := []) (es0 := []) ⟨u, g, g2, ss, d0, e0, k1, k2, k3, k4, (by rfl)⟩ k5 i f (hnet f hf)
  refine ⟨?_, hf⟩
  obtain ⟨hist, hd⟩ := hr.inv.dbg
  obtain ⟨g, css, e, hg⟩ := rtcm_stream_total net hf hd hp
  exact ⟨_, rtkRx_chunks ((hr.inv.fwd j).2 hcr) e, hg⟩

/-- A second valid frame. -/
def exFrame2 : List Byte := [0xD3, 0x00, 0x02, 0x01, 0x02, 0xDC, 0xD5, 0xF3]

/-- A base that writes two frames to interface 9, and a network that hands over the second twice, then the first: the
hypotheses on the base's side, and what a rover on interface 7 makes of it. -/
example : (exRun [.configBase 9 false, .rx (exFrame ++ [0xB5, 0x00] ++ exFrame2.take 5), .rx (exFrame2.drop 5)]).map
      (fun x => x.2.filterMap Eff.rtk?) = some [(9, exFrame), (9, exFrame2)] ∧
    (∀ f ∈ [exFrame2, exFrame2, exFrame], (9, f) ∈ [(9, exFrame), (9, exFrame2)]) ∧
    (exRun [.configRover 7, .rtkRx 7 exFrame2, .rtkRx 7 exFrame2, .rtkRx 7 exFrame]).map
      (fun x => ((x.2.filterMap Eff.receiver?).drop 1, x.1.dbg.parsingMessage)) =
        some ([exFrame2, exFrame2, exFrame], false) := by decide +kernel

end Dev
end Ublox
