import Verif.Spec.Text
import Verif.Props.ResyncDevice

/-!
# C135: text between the messages disturbs nothing
-/

namespace Ublox
namespace Dev

open Nav (Nav NavCall Mode Sfrbx NavOp)

theorem text_no_start {t : List Byte} (h : (Piece.text t).WF) (prev : Byte) (n : Nat) :
    ¬ ((prev :: t)[n]? = some 0xB5 ∧ (prev :: t)[n + 1]? = some 0x62) := by
  obtain ⟨h1, h2⟩ := h
  rintro ⟨a, b⟩
  cases n with
  | zero =>
    rw [List.getElem?_cons_succ] at b
    exact h2 (by rw [List.head?_eq_getElem?]; exact b)
  | succ n =>
    rw [List.getElem?_cons_succ] at a
    have := h1 _ (List.mem_of_getElem? a)
    exact absurd this (by decide)

theorem text_no_d3 {t : List Byte} (h : (Piece.text t).WF) (n : Nat) : t[n]? ≠ some 0xD3 := fun a =>
  absurd (h.1 _ (List.mem_of_getElem? a)) (by decide)

theorem demux_line (ps : List Piece) (hw : ∀ p ∈ ps, p.WF) (prev : Byte) (s : List Byte) :
    ∃ last, demux prev (line ps ++ s) = (messages ps ++ (demux last s).1, (demux last s).2) := by
  induction ps generalizing prev with
  | nil => exact ⟨prev, rfl⟩
  | cons p ps ih =>
    have hp := hw p (by simp)
    have ih := ih fun x hx => hw x (by simp [hx])
    have e : line (p :: ps) ++ s = p.bytes ++ (line ps ++ s) := by simp [line]
    rw [e]
    cases p with
    | msg m =>
      obtain ⟨l1, e1⟩ := demux_wire [m] (fun x hx => by rw [List.mem_singleton.1 hx]; exact hp) prev (line ps ++ s)
      have e0 : wire [m] = m.bytes := by simp [wire]
      rw [e0] at e1
      obtain ⟨last, e2⟩ := ih l1
      refine ⟨last, ?_⟩
      show demux prev (m.bytes ++ _) = _
      rw [e1, e2]
      rfl
    | text t =>
      obtain ⟨l1, e1⟩ := demux_skip prev t (line ps ++ s) (text_no_d3 hp) (text_no_start hp prev)
      obtain ⟨last, e2⟩ := ih l1
      refine ⟨last, ?_⟩
      show demux prev (t ++ _) = _
      rw [e1, e2]
      rfl

/-- **C135.** A base between messages receives any sequence of well-formed UBX messages, RTCM3 frames and stretches of
text: every message has exactly the effects it has without the text, once and in order — UBX messages at their subscribers
(ephemeris data also at the decoder), RTCM3 frames on the link — nothing else happens, and the base is between messages
again. -/
theorem c135_base {md : Mode} {d d' : Dev} {evs : List Ev} {es0 es : List Eff} {i : Nat} {ps : List Piece}
    (h : Reach md d evs es0) (hb : configured evs = (.base, some i))
    (hu : d.ubx.parsingMessage = false) (hr : d.rtcm.parsingMessage = false) (hw : ∀ p ∈ ps, p.WF)
    (hs : d.step md (.rx (line ps)) = .ok (d', es)) :
    Shows md (recipients evs) (List.replicate (baseCalls evs) i) d.nav (messages ps) d'.nav es ∧
    d'.ubx.parsingMessage = false ∧ d'.rtcm.parsingMessage = false := by
  obtain ⟨last, hl⟩ := demux_line ps hw d.ubx.prev []
  rw [List.append_nil] at hl
  have hd : demux last [] = ([], .idle last) := by rw [demux]
  rw [hd, List.append_nil] at hl
  have hw := c30_any_stream h hb hu hr hs
  rw [hl] at hw
  obtain ⟨a, -, -⟩ := readCb_shows (h.idle hu hr) hs
  have hrole : d.role = .base := by have := h.inv.role; rw [hb] at this; exact (Prod.mk.inj this).1
  rw [hrole] at a
  obtain ⟨k1, k2, -⟩ := demux_eq d.ubx.prev (line ps)
  rw [hl] at k1 k2
  change DAbs d' _ (dRun true _ _ _).1 (dRun true _ _ _).2.1 at a
  rw [k1, k2] at a
  exact ⟨hw, uOpen_iff a.ubx, rOpen_iff a.rtcm⟩

theorem text_total {md : Mode} {d : Dev} {users : List Nat} {prev : Byte} {t : List Byte} (hbase : d.role = .base)
    (ha : DAbs d users (.idle prev) .idle) (hw : (Piece.text t).WF) : ∃ d' es, readCb md d t = .ok (d', es) := by
  cases hr : readCb md d t with
  | ok x => exact ⟨x.1, x.2, rfl⟩
  | error e =>
    exfalso
    obtain ⟨pre, b, post, d1, e1, hs, hpre, he⟩ := readCb_err hr
    obtain ⟨a1, s1, -⟩ := readCb_shows ha hpre
    have hb : (d.role == .base) = true := by rw [hbase]; rfl
    rw [hb] at a1
    obtain ⟨k1, k2, -⟩ := demux_eq prev pre
    have hp1 : ∀ n : Nat, pre[n]? ≠ some 0xD3 := by
      intro n hn
      refine text_no_d3 hw n ?_
      rw [hs, List.getElem?_append_left (List.getElem?_eq_some_iff.1 hn).1, hn]
    have hp2 : ∀ n : Nat, ¬ ((prev :: pre)[n]? = some 0xB5 ∧ (prev :: pre)[n + 1]? = some 0x62) := by
      rintro n ⟨x, y⟩
      refine text_no_start hw prev n ⟨?_, ?_⟩
      · rw [hs, ← List.cons_append, List.getElem?_append_left (List.getElem?_eq_some_iff.1 x).1, x]
      · rw [hs, ← List.cons_append, List.getElem?_append_left (List.getElem?_eq_some_iff.1 y).1, y]
    obtain ⟨last, hl⟩ := demux_skip prev pre [] hp1 hp2
    rw [List.append_nil] at hl
    have hd : demux last [] = ([], .idle last) := by rw [demux]
    rw [hl, hd] at k1 k2
    rw [k1, k2] at a1
    have hev : ∀ x, (rxStep (.idle last) b).2 ≠ some x := by
      intro x hx
      change (if last = 0xB5 ∧ b = 0x62 then (Tail.opened [], (none : Option Item)) else (Tail.idle b, none)).2 = _ at hx
      split at hx <;> cases hx
    rcases rxByte_err a1 he with ⟨-, p, -, hp⟩ | ⟨p, -, -, hp, -⟩ | ⟨-, -, bs, hbs, -⟩
    · exact hev _ hp
    · exact hev _ hp
    · cases hbs

/-- C135, no undefined behaviour: without MON-VER and RXM-SFRBX messages (C16, C61) all of it is processed. -/
theorem c135_total {md : Mode} {d : Dev} {evs : List Ev} {es0 : List Eff} {i : Nat} {ps : List Piece}
    (h : Reach md d evs es0) (hb : configured evs = (.base, some i))
    (hu : d.ubx.parsingMessage = false) (hr : d.rtcm.parsingMessage = false) (hw : ∀ p ∈ ps, p.WF)
    (h1 : ∀ p, Msg.ubx 0x0A 0x04 p ∉ messages ps) (h2 : ∀ p, Msg.ubx 0x02 0x13 p ∉ messages ps) :
    ∃ d' es, d.step md (.rx (line ps)) = .ok (d', es) := by
  induction ps generalizing d evs es0 with
  | nil => exact ⟨d, [], rfl⟩
  | cons p ps ih =>
    have hp := hw p (by simp)
    have first : ∃ d1 e1, d.step md (.rx p.bytes) = .ok (d1, e1) := by
      cases p with
      | msg m =>
        have e0 : wire [m] = m.bytes := by simp [wire]
        have := c30_total (ms := [m]) h hb hu hr (fun x hx => by rw [List.mem_singleton.1 hx]; exact hp)
          (fun q hq => h1 q (by rw [List.mem_singleton.1 hq]; simp [messages, Piece.msg?]))
          (fun q hq => h2 q (by rw [List.mem_singleton.1 hq]; simp [messages, Piece.msg?]))
        rw [e0] at this
        exact this
      | text t =>
        have hrole : d.role = .base := by have := h.inv.role; rw [hb] at this; exact (Prod.mk.inj this).1
        exact text_total hrole (h.idle hu hr) hp
    obtain ⟨d1, e1, hs1⟩ := first
    have e : line [p] = p.bytes := by simp [line]
    obtain ⟨-, hu1, hr1⟩ := c135_base (ps := [p]) h hb hu hr (fun x hx => by rw [List.mem_singleton.1 hx]; exact hp)
      (by rw [e]; exact hs1)
    have hb1 : configured (evs ++ [.rx p.bytes]) = (.base, some i) := by
      unfold configured at hb ⊢
      rw [List.foldl_append, hb]
      rfl
    have sub : ∀ x, x ∈ messages ps → x ∈ messages (p :: ps) := by
      intro x hx
      unfold messages at hx ⊢
      rw [List.mem_filterMap] at hx ⊢
      obtain ⟨y, hy, hyx⟩ := hx
      exact ⟨y, by simp [hy], hyx⟩
    obtain ⟨d2, e2, hs2⟩ := ih (h.snoc hs1) hb1 hu1 hr1 (fun x hx => hw x (by simp [hx]))
      (fun q hq => h1 q (sub _ hq)) (fun q hq => h2 q (sub _ hq))
    refine ⟨d2, e1 ++ e2, ?_⟩
    have el : line (p :: ps) = p.bytes ++ line ps := by simp [line]
    change readCb md d (line (p :: ps)) = _
    rw [el, readCb_append]
    change readCb md d p.bytes = _ at hs1
    change readCb md d1 (line ps) = _ at hs2
    rw [hs1, ok_bind]
    dsimp only
    rw [hs2, ok_bind]

theorem scan_line (ps : List Piece) (hw : ∀ p ∈ ps, p.WF) (hx : ∀ p ∈ ps, ∀ f, p ≠ .msg (.rtcm f)) (prev : Byte) :
    ∃ last, (scan prev (line ps)).2 = .idle last ∧ goodMsgs (scan prev (line ps)).1 = messages ps := by
  induction ps generalizing prev with
  | nil => exact ⟨prev, by rw [show line [] = [] from rfl, scan], by rw [show line [] = [] from rfl, scan]; rfl⟩
  | cons p ps ih =>
    have hp := hw p (by simp)
    have ih := ih (fun x hx => hw x (by simp [hx])) (fun x hy => hx x (by simp [hy]))
    have el : line (p :: ps) = p.bytes ++ line ps := by simp [line]
    cases p with
    | msg m =>
      cases m with
      | rtcm f => exact absurd rfl (hx _ (by simp) f)
      | ubx c i q =>
        obtain ⟨last, e1, e2⟩ := ih (fletcherB (ubxBody c i q))
        have er := Ubx.rxRun_ubxFrame prev c i q hp.1 hp.2
        have eb : (Piece.msg (.ubx c i q)).bytes = ubxFrame c i q := rfl
        rw [eb] at el
        generalize ubxFrame c i q = w at el er
        refine ⟨last, ?_, ?_⟩
        · rw [el, scan_eq_rxRun]
          rw [scan_eq_rxRun] at e1
          dsimp only at e1 ⊢
          rw [rxRun_append, er]
          exact e1
        · rw [el, scan_eq_rxRun]
          rw [scan_eq_rxRun] at e2
          dsimp only at e2 ⊢
          rw [rxRun_append, er]
          dsimp only
          rw [List.filterMap_append, List.filterMap_append]
          have : (List.replicate (q.length + 7) (none : Option Item)).filterMap id = [] := by simp
          rw [this]
          exact congrArg (Msg.ubx c i q :: ·) e2
    | text t =>
      obtain ⟨l1, e⟩ := scan_skip prev t (line ps) (text_no_start hp prev)
      obtain ⟨last, e1, e2⟩ := ih l1
      refine ⟨last, ?_, ?_⟩
      · rw [el]; show (scan prev (t ++ _)).2 = _; rw [e, e1]
      · rw [el]; show goodMsgs (scan prev (t ++ _)).1 = _; rw [e, e2]; rfl

/-- **C135**, the other roles: among UBX messages, text disturbs nothing either. -/
theorem c135_not_base {md : Mode} {d d' : Dev} {evs : List Ev} {es0 es : List Eff} {ps : List Piece}
    (h : Reach md d evs es0) (hb : (configured evs).1 ≠ .base) (hu : d.ubx.parsingMessage = false)
    (hw : ∀ p ∈ ps, p.WF) (hx : ∀ p ∈ ps, ∀ f, p ≠ .msg (.rtcm f))
    (hs : d.step md (.rx (line ps)) = .ok (d', es)) :
    Shows md (recipients evs) [] d.nav (messages ps) d'.nav es ∧ d'.ubx.parsingMessage = false := by
  have w := c73_not_base h hb hu hs
  obtain ⟨last, e1, e2⟩ := scan_line ps hw hx d.ubx.prev
  rw [e2] at w
  refine ⟨w, ?_⟩
  have hi := h.inv
  obtain ⟨hU, r1⟩ := hi.ubx
  obtain ⟨hR, r2⟩ := hi.rtcm
  obtain ⟨l0, -, ha⟩ := Ubx.idle_of_reach r1 hu
  obtain ⟨t, ht, -⟩ := r2.inv.tail
  have hd : DAbs d (registered evs) (.idle d.ubx.prev) t := ⟨hi.wired, ⟨ha.1, ha.2.1, rfl⟩, ht⟩
  obtain ⟨a, -, -⟩ := readCb_shows hd hs
  have hrole : d.role ≠ .base := by have := congrArg Prod.fst hi.role; intro hh; rw [← this] at hb; exact hb hh
  have hf : (d.role == .base) = false := by
    cases hx : d.role with
    | base => exact absurd hx hrole
    | none => rfl
    | rover => rfl
  rw [hf] at a
  have au := a.ubx
  rw [(dRun_ubx_all (.idle d.ubx.prev) t (line ps)).1] at au
  rw [scan_eq_rxRun] at e1
  dsimp only at e1
  rw [e1] at au
  exact uOpen_iff au

/-! ### The hypotheses can be met -/

/-- `$GNGGA,1*7D` and the end of the line. -/
def exNmea : List Byte := [0x24, 0x47, 0x4E, 0x47, 0x47, 0x41, 0x2C, 0x31, 0x2A, 0x37, 0x44, 0x0D, 0x0A]

/-- Two sentences, a UBX message, a sentence, an RTCM3 frame, a sentence. -/
def exLine : List Piece := [.text exNmea, .text exNmea, .msg (.ubx 0x01 0x07 [1, 2, 3]), .text exNmea, .msg (.rtcm exFrame),
  .text exNmea]

example : ((exRun exBase).map fun x => (x.1.ubx.parsingMessage, x.1.rtcm.parsingMessage)) = some (false, false) ∧
    (exRun (exBase ++ [.rx (line exLine)])).map (fun x => x.2.filterMap brief) =
      some [(5, [0x01, 0x07, 1, 2, 3, 0, 0]), (9, exFrame)] := by decide +kernel

/-- Why the text must not begin with a `b`: a message whose last check byte is `B5`, a single `b`, and another message, which
is lost (the last byte of the first message and the `b` look like the start of a message of 1793 bytes). -/
example : (exRun (exBase ++ [.rx (line [.msg (.ubx 0x01 0x07 [0, 132]), .text [0x62], .msg (.ubx 0x01 0x07 [1, 2, 3])])])).map
      (fun x => (x.2.filterMap brief, x.1.ubx.parsingMessage)) =
    some ([(5, [0x01, 0x07, 0, 132, 0, 0, 0])], true) := by decide +kernel

example : (Piece.text exNmea).WF := ⟨by decide, by decide⟩

end Dev
end Ublox
