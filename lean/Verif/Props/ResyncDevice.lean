import Verif.Spec.ResyncDevice
import Verif.Props.Resync
import Verif.Props.DeviceLink

/-!
# C122: after garbage the whole device falls in step again
-/

namespace Ublox

theorem NoZeroHeader.suffix {x s : List Byte} (h : NoZeroHeader (x ++ s)) : NoZeroHeader s :=
  fun pre c i rest e => h (x ++ pre) c i rest (by rw [e]; simp)

theorem NoZeroHeader.d3 {s : List Byte} (h : NoZeroHeader s) : NoZeroHeader (0xD3 :: s) := by
  intro pre c i rest e
  cases pre with
  | nil => cases e
  | cons x pre => exact h pre c i rest (List.cons.inj e).2

/-- A message as an item of a stream. -/
def UbxMsg.item (m : UbxMsg) : Item := .good m.cls m.id m.payload

namespace Dev

open Nav (Nav NavCall Mode Sfrbx NavOp)
open Ubx (cut)

theorem wire_eq (ms : List Msg) : wire ms = (ms.map Msg.bytes).flatten := List.flatMap_def ..

theorem wire_split (ms : List Msg) (k : Nat) : wire ms = wire (ms.take k) ++ wire (ms.drop k) := by
  rw [wire_eq, wire_eq, wire_eq, ← List.flatten_append, ← List.map_append, List.take_append_drop]

/-- Bytes without any start sequence are skipped. -/
theorem demux_skip (prev : Byte) (b w : List Byte) (h1 : ∀ n : Nat, b[n]? ≠ some 0xD3)
    (h2 : ∀ n : Nat, ¬ ((prev :: b)[n]? = some 0xB5 ∧ (prev :: b)[n + 1]? = some 0x62)) :
    ∃ last, demux prev (b ++ w) = demux last w := by
  induction b generalizing prev with
  | nil => exact ⟨prev, rfl⟩
  | cons y b ih =>
    have h0 := h2 0
    simp only [List.getElem?_cons_zero, List.getElem?_cons_succ, Option.some.injEq] at h0
    have hy : y ≠ 0xD3 := fun e => h1 0 (by rw [e]; rfl)
    obtain ⟨last, e⟩ := ih y (fun n => h1 (n + 1)) (fun n => h2 (n + 1))
    refine ⟨last, ?_⟩
    rw [← e, List.cons_append]
    conv_lhs => unfold demux
    rw [if_neg h0, if_neg hy]

/-- The same when the byte before is forgotten (`D3` stands for it). -/
theorem demux_skip_d3 (b w : List Byte) (h1 : ∀ n : Nat, b[n]? ≠ some 0xD3)
    (h2 : ∀ n : Nat, ¬ (b[n]? = some 0xB5 ∧ b[n + 1]? = some 0x62)) : ∃ last, demux 0xD3 (b ++ w) = demux last w := by
  apply demux_skip _ _ _ h1
  intro n
  cases n with
  | zero => intro h; cases h.1
  | succ n => exact h2 n

theorem demux_wire' (ms : List Msg) (hw : ∀ m ∈ ms, m.WF) (prev : Byte) : (demux prev (wire ms)).1 = ms := by
  obtain ⟨last, e⟩ := demux_wire ms hw prev []
  rw [List.append_nil] at e
  rw [e]
  show ms ++ (demux last []).1 = ms
  have : (demux last []).1 = [] := by unfold demux; rfl
  rw [this, List.append_nil]

/-- Starting in the middle of clean messages, between messages: at most the message cut in two is lost. -/
theorem demux_mid (ms : List Msg) (hc : ∀ m ∈ ms, m.Clean) (n : Nat) (hn : n ≤ (wire ms).length) (prev : Byte)
    (hp : n = 0 ∨ prev = 0xD3 ∨ (wire ms)[n - 1]? = some prev) :
    ∃ k X, (∀ j < k, (wire (ms.take j)).length < n) ∧ (demux prev ((wire ms).drop n)).1 = X ++ ms.drop k := by
  have hw : ∀ m ∈ ms, m.WF := fun m hm => (hc m hm).1
  rw [wire_eq] at hn
  obtain ⟨k, b, h1, h2, h3⟩ := cut (ms.map Msg.bytes) n hn
  have hwt : ∀ j, ((ms.map Msg.bytes).take j).flatten = wire (ms.take j) := by
    intro j; rw [wire_eq, List.map_take]
  rw [← wire_eq] at h2 h3 hn
  rw [hwt] at h2
  have hlost : ∀ j < k, (wire (ms.take j)).length < n := fun j hj => by have := h1 j hj; rwa [hwt] at this
  have hdrop : (wire ms).drop n = b ++ wire (ms.drop k) := by
    have e : (wire ms).take n ++ (wire ms).drop n = (wire ms).take n ++ (b ++ wire (ms.drop k)) := by
      rw [List.take_append_drop, ← List.append_assoc, ← h2]
      exact wire_split ms k
    exact List.append_cancel_left e
  rw [hdrop]
  have hwd : ∀ m ∈ ms.drop k, m.WF := fun m hm => hw m (List.mem_of_mem_drop hm)
  rcases h3 with rfl | ⟨f, a, pre, g1, g2, g3, g4⟩
  · exact ⟨k, [], hlost, by rw [List.nil_append, demux_wire' _ hwd]; rfl⟩
  · obtain ⟨m, hm, rfl⟩ := List.mem_map.1 g1
    obtain ⟨c1, c2, c3⟩ := hc m hm
    have ha1 : 1 ≤ a.length := List.length_pos_iff.2 g3
    have q : ∀ i, m.bytes[a.length + i]? = b[i]? := by
      intro i
      rw [g2, List.getElem?_append_right (by omega)]
      congr 1
      omega
    have hb1 : ∀ i : Nat, b[i]? ≠ some 0xD3 := fun i hi => c2 (a.length + i) (by omega) ((q i).trans hi)
    have hb2 : ∀ i : Nat, ¬ (b[i]? = some 0xB5 ∧ b[i + 1]? = some 0x62) :=
      fun i hi => c3 (a.length + i) (by omega) ⟨(q i).trans hi.1, (q (i + 1)).trans hi.2⟩
    have done : (∃ last, demux prev (b ++ wire (ms.drop k)) = demux last (wire (ms.drop k))) →
        ∃ k' X, (∀ j < k', (wire (ms.take j)).length < n) ∧ (demux prev (b ++ wire (ms.drop k))).1 = X ++ ms.drop k' := by
      rintro ⟨last, e⟩
      exact ⟨k, [], hlost, by rw [e, demux_wire' _ hwd]; rfl⟩
    have hlen : n = pre.length + a.length := by
      have := congrArg List.length g4
      rw [List.length_take, List.length_append] at this
      omega
    rcases hp with hp | rfl | hp
    · omega
    · exact done (demux_skip_d3 _ _ hb1 hb2)
    · have hlast : a[a.length - 1]? = some prev := by
        rw [← hp]
        have e1 : (wire ms)[n - 1]? = ((wire ms).take n)[n - 1]? := by
          rw [List.getElem?_take_of_lt (by omega)]
        rw [e1, g4, List.getElem?_append_right (by omega)]
        congr 1
        omega
      have hmlast : m.bytes[a.length - 1]? = some prev := by
        rw [g2, List.getElem?_append_left (by omega)]
        exact hlast
      by_cases ha2 : a.length = 1
      · rw [ha2] at hmlast
        cases m with
        | rtcm f =>
          obtain ⟨p, ⟨⟨b1, b2, x0, x1, x2, hf, -⟩, -⟩, -⟩ := c1
          have : f[0]? = some 0xD3 := by rw [hf]; rfl
          have hd : prev = 0xD3 := Option.some.inj (hmlast.symm.trans this)
          subst hd
          exact done (demux_skip_d3 _ _ hb1 hb2)
        | ubx c i p =>
          have : (Msg.ubx c i p).bytes[0]? = some 0xB5 := rfl
          have hd : prev = 0xB5 := Option.some.inj (hmlast.symm.trans this)
          subst hd
          refine ⟨k, [.ubx c i p], hlost, ?_⟩
          have hb : (Msg.ubx c i p).bytes = 0xB5 :: b := by
            rw [g2]
            match a, ha2, hlast with
            | [x], _, hl => rw [Option.some.inj hl]; rfl
          have e := demux_wire' (.ubx c i p :: ms.drop k) (by
            intro m' hm'
            rcases List.mem_cons.1 hm' with rfl | hm'
            · exact c1
            · exact hwd m' hm') 0
          have hwire : wire (.ubx c i p :: ms.drop k) = 0xB5 :: (b ++ wire (ms.drop k)) := by
            rw [wire_eq, wire_eq, List.map_cons, List.flatten_cons, hb]; rfl
          have e2 : demux 0 (0xB5 :: (b ++ wire (ms.drop k))) = demux 0xB5 (b ++ wire (ms.drop k)) := by
            conv_lhs => unfold demux
            rw [if_neg (by decide), if_neg (by decide)]
          rw [hwire, e2] at e
          rw [e]
          rfl
      · apply done
        apply demux_skip _ _ _ hb1
        intro i
        cases i with
        | zero =>
          rintro ⟨z1, z2⟩
          have : a.length - 1 + 1 = a.length + 0 := by omega
          exact c3 (a.length - 1) (by omega) ⟨hmlast.trans z1, by rw [this, q 0]; exact z2⟩
        | succ i => exact hb2 i

/-- What is left of garbage followed by clean messages after a frame of `n` bytes, and the messages lost in it. -/
theorem drop_garbage (ms : List Msg) (hc : ∀ m ∈ ms, m.Clean) (g : List Byte) (n N : Nat) (hN : n ≤ N) (prev : Byte)
    (hl : n ≤ (g ++ wire ms).length) (hp : prev = 0xD3 ∨ (g ++ wire ms)[n - 1]? = some prev) (h1 : 1 ≤ n)
    (ih : n ≤ g.length → ∃ k X, (∀ j < k, (wire (ms.take j)).length < N) ∧
      (demux prev (g.drop n ++ wire ms)).1 = X ++ ms.drop k) :
    ∃ k X, (∀ j < k, (wire (ms.take j)).length < N) ∧ (demux prev ((g ++ wire ms).drop n)).1 = X ++ ms.drop k := by
  by_cases hg : n ≤ g.length
  · rw [List.drop_append_of_le_length hg]
    exact ih hg
  · rw [List.length_append] at hl
    have e : (g ++ wire ms).drop n = (wire ms).drop (n - g.length) := by
      rw [List.drop_append, List.drop_of_length_le (by omega), List.nil_append]
    rw [e]
    obtain ⟨k, X, a1, a2⟩ := demux_mid ms hc (n - g.length) (by omega) prev (by
      right
      rcases hp with hp | hp
      · exact .inl hp
      · right
        rw [← hp, List.getElem?_append_right (by omega)]
        congr 1
        omega)
    exact ⟨k, X, fun j hj => by have := a1 j hj; omega, a2⟩

/-- Garbage and then clean messages: from some message on, which starts less than 2054 bytes in, all are seen. -/
theorem demux_resync (ms : List Msg) (hc : ∀ m ∈ ms, m.Clean) (prev : Byte) (g : List Byte)
    (hz : NoZeroHeader (prev :: (g ++ wire ms))) :
    ∃ k X, (∀ j < k, (wire (ms.take j)).length < 2054) ∧ (demux prev (g ++ wire ms)).1 = X ++ ms.drop k := by
  have hw : ∀ m ∈ ms, m.WF := fun m hm => (hc m hm).1
  have lost : ∀ n, (wire ms).length ≤ n → n < 2054 →
      ∃ k X, (∀ j < k, (wire (ms.take j)).length < 2054) ∧ ([] : List Msg) = X ++ ms.drop k := by
    intro n h1 h2
    refine ⟨ms.length, [], fun j hj => ?_, by simp⟩
    have := congrArg List.length (wire_split ms j)
    rw [List.length_append] at this
    omega
  induction hn : g.length using Nat.strongRecOn generalizing prev g with
  | ind n ih =>
    subst hn
    match g with
    | [] => exact ⟨0, [], fun j hj => by omega, by rw [List.nil_append, demux_wire' _ hw]; rfl⟩
    | x :: g =>
      have hz2 : NoZeroHeader (x :: (g ++ wire ms)) := NoZeroHeader.suffix (x := [prev]) hz
      have hzd : ∀ p m, 1 ≤ m → m ≤ g.length → (p = 0xD3 ∨ (g ++ wire ms)[m - 1]? = some p) →
          NoZeroHeader (p :: (g.drop m ++ wire ms)) := by
        intro p m h1 h2 hp
        have e : x :: (g ++ wire ms) = (x :: g.take m) ++ (g.drop m ++ wire ms) := by
          rw [List.cons_append, ← List.append_assoc, List.take_append_drop]
        rcases hp with rfl | hp
        · rw [e] at hz2
          exact hz2.suffix.d3
        · have e2 : x :: (g ++ wire ms) = (x :: g.take (m - 1)) ++ (p :: (g.drop m ++ wire ms)) := by
            rw [List.getElem?_append_left (by omega)] at hp
            obtain ⟨hlt, hp⟩ := List.getElem?_eq_some_iff.1 hp
            have : g.drop (m - 1) = p :: g.drop m := by
              rw [List.drop_eq_getElem_cons hlt, hp]
              congr 2
              omega
            have e3 : p :: (g.drop m ++ wire ms) = g.drop (m - 1) ++ wire ms := by rw [this]; rfl
            rw [e3, List.cons_append, ← List.append_assoc, List.take_append_drop]
          rw [e2] at hz2
          exact hz2.suffix
      have next : ∀ p m, 1 ≤ m → m ≤ 2054 → m ≤ (g ++ wire ms).length → (p = 0xD3 ∨ (g ++ wire ms)[m - 1]? = some p) →
          ∃ k X, (∀ j < k, (wire (ms.take j)).length < 2054) ∧ (demux p ((g ++ wire ms).drop m)).1 = X ++ ms.drop k := by
        intro p m h1 h2 h3 h4
        refine drop_garbage ms hc g m 2054 h2 p h3 h4 h1 fun hg => ?_
        refine ih (g.drop m).length (by simp only [List.length_drop, List.length_cons]; omega) p (g.drop m) (hzd p m h1 hg h4) rfl
      rw [List.cons_append]
      have hwl : (wire ms).length ≤ (g ++ wire ms).length := by simp
      rw [List.cons_append] at hz
      by_cases hs : prev = 0xB5 ∧ x = 0x62
      · clear hzd hz2 ih
        generalize g ++ wire ms = R at *
        unfold demux
        rw [if_pos hs]
        match R with
        | [] => exact lost 0 hwl (by omega)
        | [c] => exact lost 1 hwl (by omega)
        | [c, i] => exact lost 2 hwl (by omega)
        | [c, i, lo] => exact lost 3 hwl (by omega)
        | c :: i :: lo :: hi :: R =>
          dsimp only
          split
          case isTrue h2 =>
            exact next hi 4 (by omega) (by omega) (by simp) (.inr rfl)
          case isFalse h2 =>
            split
            case isTrue h0 =>
              exfalso
              have e1 : lo = 0 := by apply BitVec.eq_of_toNat_eq; simp; omega
              have e2 : hi = 0 := by apply BitVec.eq_of_toNat_eq; simp; omega
              apply hz [] c i R
              rw [hs.1, hs.2, e1, e2]
              rfl
            case isFalse h0 =>
              split
              next a y R' heq =>
                have hlen := congrArg List.length heq
                simp only [List.length_drop, List.length_cons] at hlen
                obtain ⟨k, X, k1, k2⟩ := next y (lo.toNat + 256 * hi.toNat + 6) (by omega) (by omega)
                  (by simp only [List.length_cons]; omega) (.inr (by
                    show R[lo.toNat + 256 * hi.toNat + 1]? = some y
                    rw [← List.getElem?_drop, heq]; rfl))
                have e : (c :: i :: lo :: hi :: R).drop (lo.toNat + 256 * hi.toNat + 6) = R' := by
                  show R.drop (lo.toNat + 256 * hi.toNat + 2) = R'
                  rw [← List.drop_drop, heq]; rfl
                rw [e] at k2
                split
                · exact ⟨k, _ :: X, k1, by rw [k2]; rfl⟩
                · exact ⟨k, X, k1, k2⟩
              next hne =>
                have hl : R.length < lo.toNat + 256 * hi.toNat + 2 := by
                  rcases hd : R.drop (lo.toNat + 256 * hi.toNat) with _ | ⟨a, _ | ⟨y, t⟩⟩
                  · have := congrArg List.length hd; simp at this; omega
                  · have := congrArg List.length hd; simp at this; omega
                  · exact absurd hd (hne a y t)
                simp only [List.length_cons] at hwl
                exact lost (R.length + 4) hwl (by omega)
      · by_cases hd : x = 0xD3
        · clear hzd hz2 ih
          generalize g ++ wire ms = R at *
          unfold demux
          rw [if_neg hs, if_pos hd]
          match R with
          | [] => exact lost 0 hwl (by omega)
          | [b1] => exact lost 1 hwl (by omega)
          | b1 :: b2 :: R =>
            have hlt := Rtcm.rtcmLen_lt b1 b2
            dsimp only
            split
            case isTrue h0 => exact next 0xD3 2 (by omega) (by omega) (by simp) (.inl rfl)
            case isFalse h0 =>
              split
              case isTrue h1 =>
                generalize hq : rtcmLen b1 b2 + 3 = q at *
                obtain ⟨k, X, k1, k2⟩ := next 0xD3 (q + 2) (by omega) (by omega)
                  (by simp only [List.length_cons]; omega) (.inl rfl)
                have e : (b1 :: b2 :: R).drop (q + 2) = R.drop q := rfl
                rw [e] at k2
                split
                · exact ⟨k, _ :: X, k1, by rw [k2]; rfl⟩
                · exact ⟨k, X, k1, k2⟩
              case isFalse h1 =>
                simp only [List.length_cons] at hwl
                exact lost (R.length + 2) hwl (by omega)
        · have e : demux prev (x :: (g ++ wire ms)) = demux x (g ++ wire ms) := by
            conv_lhs => unfold demux
            rw [if_neg hs, if_neg hd]
          rw [e]
          exact ih g.length (by simp) x g hz2 rfl

theorem Shows.append_inv' {md : Mode} {rcv : Byte → Byte → List Nat} {lk : List Nat} {n n' : Nav} {X ms : List Msg} {es : List Eff}
    (h : Shows md rcv lk n (X ++ ms) n' es) :
    ∃ n1 es1 es2, es = es1 ++ es2 ∧ Shows md rcv lk n X n1 es1 ∧ Shows md rcv lk n1 ms n' es2 := by
  induction X generalizing n es with
  | nil => exact ⟨n, [], es, rfl, .nil, h⟩
  | cons m X ih =>
    rw [List.cons_append] at h
    cases h with
    | rtcm h =>
      obtain ⟨n1, e1, e2, rfl, a, b⟩ := ih h
      exact ⟨n1, _, e2, by rw [← List.append_assoc], .rtcm a, b⟩
    | ubx c1 c2 c3 h =>
      obtain ⟨n1, e1, e2, rfl, a, b⟩ := ih h
      exact ⟨n1, _, e2, by rw [← List.append_assoc], .ubx c1 c2 c3 a, b⟩
    | sfrbx c1 c2 c3 h =>
      obtain ⟨n1, e1, e2, rfl, a, b⟩ := ih h
      exact ⟨n1, _, e2, by rw [← List.append_assoc], .sfrbx c1 c2 c3 a, b⟩

/-- C122, a base. Let a base that is between messages receive any bytes `g` and then clean messages (UBX and RTCM3, in any
order).  Unless a header announcing length 0 is among the bytes (C07), some number `k` of messages is lost, all of which start
less than 2054 bytes after the garbage, and the effects of the device end with exactly the effects of all the other messages:
every UBX message at its subscribers, every RTCM3 frame on the link. -/
theorem c122_base {md : Mode} {d d' : Dev} {evs : List Ev} {es0 es : List Eff} {i : Nat} {g : List Byte} {ms : List Msg}
    (h : Reach md d evs es0) (hb : configured evs = (.base, some i))
    (hu : d.ubx.parsingMessage = false) (hr : d.rtcm.parsingMessage = false) (hc : ∀ m ∈ ms, m.Clean)
    (hz : NoZeroHeader (d.ubx.prev :: (g ++ wire ms))) (hs : d.step md (.rx (g ++ wire ms)) = .ok (d', es)) :
    ∃ k n1 es1 es2, (∀ j < k, (wire (ms.take j)).length < 2054) ∧ es = es1 ++ es2 ∧
      Shows md (recipients evs) (List.replicate (baseCalls evs) i) n1 (ms.drop k) d'.nav es2 := by
  have w := c30_any_stream h hb hu hr hs
  obtain ⟨k, X, k1, k2⟩ := demux_resync ms hc d.ubx.prev g hz
  rw [k2] at w
  obtain ⟨n1, e1, e2, he, -, hw⟩ := w.append_inv'
  exact ⟨k, n1, e1, e2, k1, he, hw⟩

/-! ### The other roles -/

theorem scan_skip (prev : Byte) (b w : List Byte)
    (h2 : ∀ n : Nat, ¬ ((prev :: b)[n]? = some 0xB5 ∧ (prev :: b)[n + 1]? = some 0x62)) :
    ∃ last, scan prev (b ++ w) = scan last w := by
  induction b generalizing prev with
  | nil => exact ⟨prev, rfl⟩
  | cons y b ih =>
    have h0 := h2 0
    simp only [List.getElem?_cons_zero, List.getElem?_cons_succ, Option.some.injEq] at h0
    obtain ⟨last, e⟩ := ih y (fun n => h2 (n + 1))
    refine ⟨last, ?_⟩
    rw [← e, List.cons_append]
    conv_lhs => unfold scan
    rw [if_neg h0]

theorem scan_wire (ms : List UbxMsg) (hc : ∀ m ∈ ms, m.Clean) (prev : Byte) :
    (scan prev (onWire ms)).1 = ms.map fun m => .good m.cls m.id m.payload := by
  rw [scan_eq_rxRun]
  induction ms generalizing prev with
  | nil => rfl
  | cons m ms ih =>
    obtain ⟨h1, h2, -⟩ := hc m (by simp)
    have e : onWire (m :: ms) = ubxFrame m.cls m.id m.payload ++ onWire ms := rfl
    have ih' := ih (fun x hx => hc x (by simp [hx])) (fletcherB (ubxBody m.cls m.id m.payload))
    rw [e, rxRun_append, Ubx.rxRun_ubxFrame _ _ _ _ h1 h2, List.filterMap_append]
    dsimp only at ih' ⊢
    rw [ih']
    simp

theorem onWire_split (ms : List UbxMsg) (k : Nat) : onWire ms = onWire (ms.take k) ++ onWire (ms.drop k) := by
  unfold onWire
  rw [← List.flatten_append, ← List.map_append, List.take_append_drop]

theorem scan_mid (ms : List UbxMsg) (hc : ∀ m ∈ ms, m.Clean) (n : Nat) (hn : n ≤ (onWire ms).length) (prev : Byte)
    (hp : n = 0 ∨ (onWire ms)[n - 1]? = some prev) :
    ∃ k X, (∀ j < k, (onWire (ms.take j)).length < n) ∧
      (scan prev ((onWire ms).drop n)).1 = X ++ (ms.drop k).map UbxMsg.item := by
  have hwe : ∀ l : List UbxMsg, onWire l = (l.map UbxMsg.frame).flatten := fun _ => rfl
  rw [hwe] at hn
  obtain ⟨k, b, h1, h2, h3⟩ := cut (ms.map UbxMsg.frame) n hn
  have hwt : ∀ j, ((ms.map UbxMsg.frame).take j).flatten = onWire (ms.take j) := by
    intro j; rw [hwe, List.map_take]
  rw [← hwe] at h2 h3 hn
  rw [hwt] at h2
  have hlost : ∀ j < k, (onWire (ms.take j)).length < n := fun j hj => by have := h1 j hj; rwa [hwt] at this
  have hdrop : (onWire ms).drop n = b ++ onWire (ms.drop k) := by
    have e : (onWire ms).take n ++ (onWire ms).drop n = (onWire ms).take n ++ (b ++ onWire (ms.drop k)) := by
      rw [List.take_append_drop, ← List.append_assoc, ← h2]
      exact onWire_split ms k
    exact List.append_cancel_left e
  rw [hdrop]
  have hwd : ∀ m ∈ ms.drop k, m.Clean := fun m hm => hc m (List.mem_of_mem_drop hm)
  rcases h3 with rfl | ⟨f, a, pre, g1, g2, g3, g4⟩
  · exact ⟨k, [], hlost, by rw [List.nil_append, scan_wire _ hwd]; rfl⟩
  · obtain ⟨m, hm, rfl⟩ := List.mem_map.1 g1
    obtain ⟨c1, c2, c3⟩ := hc m hm
    have ha1 : 1 ≤ a.length := List.length_pos_iff.2 g3
    have q : ∀ i, m.frame[a.length + i]? = b[i]? := by
      intro i
      rw [g2, List.getElem?_append_right (by omega)]
      congr 1
      omega
    have hb2 : ∀ i : Nat, ¬ (b[i]? = some 0xB5 ∧ b[i + 1]? = some 0x62) :=
      fun i hi => c3 (a.length + i) (by omega) ⟨(q i).trans hi.1, (q (i + 1)).trans hi.2⟩
    have hlen : n = pre.length + a.length := by
      have := congrArg List.length g4
      rw [List.length_take, List.length_append] at this
      omega
    rcases hp with hp | hp
    · omega
    · have hlast : a[a.length - 1]? = some prev := by
        rw [← hp]
        have e1 : (onWire ms)[n - 1]? = ((onWire ms).take n)[n - 1]? := by
          rw [List.getElem?_take_of_lt (by omega)]
        rw [e1, g4, List.getElem?_append_right (by omega)]
        congr 1
        omega
      have hmlast : m.frame[a.length - 1]? = some prev := by
        rw [g2, List.getElem?_append_left (by omega)]
        exact hlast
      by_cases ha2 : a.length = 1
      · rw [ha2] at hmlast
        have : m.frame[0]? = some 0xB5 := rfl
        have hd : prev = 0xB5 := Option.some.inj (hmlast.symm.trans this)
        subst hd
        refine ⟨k, [m.item], hlost, ?_⟩
        have hb : m.frame = 0xB5 :: b := by
          rw [g2]
          match a, ha2, hlast with
          | [x], _, hl => rw [Option.some.inj hl]; rfl
        have e := scan_wire (m :: ms.drop k) (by
          intro m' hm'
          rcases List.mem_cons.1 hm' with rfl | hm'
          · exact ⟨c1, c2, c3⟩
          · exact hwd m' hm') 0
        have hwire : onWire (m :: ms.drop k) = 0xB5 :: (b ++ onWire (ms.drop k)) := by
          rw [hwe, hwe, List.map_cons, List.flatten_cons, hb]; rfl
        have e2 : scan 0 (0xB5 :: (b ++ onWire (ms.drop k))) = scan 0xB5 (b ++ onWire (ms.drop k)) := by
          conv_lhs => unfold scan
          rw [if_neg (by decide)]
        rw [hwire, e2] at e
        rw [e]
        rfl
      · obtain ⟨last, e⟩ := scan_skip prev b (onWire (ms.drop k)) (by
          intro i
          cases i with
          | zero =>
            rintro ⟨z1, z2⟩
            have : a.length - 1 + 1 = a.length + 0 := by omega
            exact c3 (a.length - 1) (by omega) ⟨hmlast.trans z1, by rw [this, q 0]; exact z2⟩
          | succ i => exact hb2 i)
        exact ⟨k, [], hlost, by rw [e, scan_wire _ hwd]; rfl⟩

/-- Garbage and then clean UBX messages, for a UBX receiver. -/
theorem scan_resync (ms : List UbxMsg) (hc : ∀ m ∈ ms, m.Clean) (prev : Byte) (g : List Byte)
    (hz : NoZeroHeader (prev :: (g ++ onWire ms))) :
    ∃ k X, (∀ j < k, (onWire (ms.take j)).length < 2054) ∧
      (scan prev (g ++ onWire ms)).1 = X ++ (ms.drop k).map UbxMsg.item := by
  have lost : ∀ n, (onWire ms).length ≤ n → n < 2054 →
      ∃ k X, (∀ j < k, (onWire (ms.take j)).length < 2054) ∧ ([] : List Item) = X ++ (ms.drop k).map UbxMsg.item := by
    intro n h1 h2
    refine ⟨ms.length, [], fun j hj => ?_, by simp⟩
    have := congrArg List.length (onWire_split ms j)
    rw [List.length_append] at this
    omega
  induction hn : g.length using Nat.strongRecOn generalizing prev g with
  | ind n ih =>
    subst hn
    match g with
    | [] => exact ⟨0, [], fun j hj => by omega, by rw [List.nil_append, scan_wire _ hc]; rfl⟩
    | x :: g =>
      have hz2 : NoZeroHeader (x :: (g ++ onWire ms)) := NoZeroHeader.suffix (x := [prev]) hz
      have next : ∀ p m, 1 ≤ m → m ≤ 2054 → m ≤ (g ++ onWire ms).length → (g ++ onWire ms)[m - 1]? = some p →
          ∃ k X, (∀ j < k, (onWire (ms.take j)).length < 2054) ∧
            (scan p ((g ++ onWire ms).drop m)).1 = X ++ (ms.drop k).map UbxMsg.item := by
        intro p m h1 h2 h3 h4
        by_cases hg : m ≤ g.length
        · rw [List.drop_append_of_le_length hg]
          refine ih (g.drop m).length (by simp only [List.length_drop, List.length_cons]; omega) p (g.drop m) ?_ rfl
          have e2 : x :: (g ++ onWire ms) = (x :: g.take (m - 1)) ++ (p :: (g.drop m ++ onWire ms)) := by
            rw [List.getElem?_append_left (by omega)] at h4
            obtain ⟨hlt, hp⟩ := List.getElem?_eq_some_iff.1 h4
            have : g.drop (m - 1) = p :: g.drop m := by
              rw [List.drop_eq_getElem_cons hlt, hp]
              congr 2
              omega
            have e3 : p :: (g.drop m ++ onWire ms) = g.drop (m - 1) ++ onWire ms := by rw [this]; rfl
            rw [e3, List.cons_append, ← List.append_assoc, List.take_append_drop]
          rw [e2] at hz2
          exact hz2.suffix
        · rw [List.length_append] at h3
          have e : (g ++ onWire ms).drop m = (onWire ms).drop (m - g.length) := by
            rw [List.drop_append, List.drop_of_length_le (by omega), List.nil_append]
          rw [e]
          obtain ⟨k, X, a1, a2⟩ := scan_mid ms hc (m - g.length) (by omega) p (by
            right
            rw [← h4, List.getElem?_append_right (by omega)]
            congr 1
            omega)
          exact ⟨k, X, fun j hj => by have := a1 j hj; omega, a2⟩
      have hwl : (onWire ms).length ≤ (g ++ onWire ms).length := by simp
      rw [List.cons_append] at hz ⊢
      by_cases hs : prev = 0xB5 ∧ x = 0x62
      · clear hz2 ih
        generalize g ++ onWire ms = R at *
        unfold scan
        rw [if_pos hs]
        match R with
        | [] => exact lost 0 hwl (by omega)
        | [c] => exact lost 1 hwl (by omega)
        | [c, i] => exact lost 2 hwl (by omega)
        | [c, i, lo] => exact lost 3 hwl (by omega)
        | c :: i :: lo :: hi :: R =>
          dsimp only
          split
          case isTrue h2 =>
            obtain ⟨k, X, k1, k2⟩ := next hi 4 (by omega) (by omega) (by simp) rfl
            exact ⟨k, .tooLong :: X, k1, congrArg (Item.tooLong :: ·) k2⟩
          case isFalse h2 =>
            split
            case isTrue h0 =>
              exfalso
              have e1 : lo = 0 := by apply BitVec.eq_of_toNat_eq; simp; omega
              have e2 : hi = 0 := by apply BitVec.eq_of_toNat_eq; simp; omega
              apply hz [] c i R
              rw [hs.1, hs.2, e1, e2]
              rfl
            case isFalse h0 =>
              split
              next a y R' heq =>
                have hlen := congrArg List.length heq
                simp only [List.length_drop, List.length_cons] at hlen
                obtain ⟨k, X, k1, k2⟩ := next y (lo.toNat + 256 * hi.toNat + 6) (by omega) (by omega)
                  (by simp only [List.length_cons]; omega) (by
                    show R[lo.toNat + 256 * hi.toNat + 1]? = some y
                    rw [← List.getElem?_drop, heq]; rfl)
                have e : (c :: i :: lo :: hi :: R).drop (lo.toNat + 256 * hi.toNat + 6) = R' := by
                  show R.drop (lo.toNat + 256 * hi.toNat + 2) = R'
                  rw [← List.drop_drop, heq]; rfl
                rw [e] at k2
                split
                · exact ⟨k, _ :: X, k1, by rw [k2]; rfl⟩
                · exact ⟨k, _ :: X, k1, by rw [k2]; rfl⟩
              next hne =>
                have hl : R.length < lo.toNat + 256 * hi.toNat + 2 := by
                  rcases hd : R.drop (lo.toNat + 256 * hi.toNat) with _ | ⟨a, _ | ⟨y, t⟩⟩
                  · have := congrArg List.length hd; simp at this; omega
                  · have := congrArg List.length hd; simp at this; omega
                  · exact absurd hd (hne a y t)
                simp only [List.length_cons] at hwl
                exact lost (R.length + 4) hwl (by omega)
      · have e : scan prev (x :: (g ++ onWire ms)) = scan x (g ++ onWire ms) := by
          conv_lhs => unfold scan
          rw [if_neg hs]
        rw [e]
        exact ih g.length (by simp) x g hz2 rfl

/-- C122, the other roles: the same for UBX messages, with nothing written anywhere. -/
theorem c122_not_base {md : Mode} {d d' : Dev} {evs : List Ev} {es0 es : List Eff} {g : List Byte} {ms : List UbxMsg}
    (h : Reach md d evs es0) (hb : (configured evs).1 ≠ .base) (hu : d.ubx.parsingMessage = false) (hc : ∀ m ∈ ms, m.Clean)
    (hz : NoZeroHeader (d.ubx.prev :: (g ++ onWire ms))) (hs : d.step md (.rx (g ++ onWire ms)) = .ok (d', es)) :
    ∃ k n1 es1 es2, (∀ j < k, (onWire (ms.take j)).length < 2054) ∧ es = es1 ++ es2 ∧
      Shows md (recipients evs) [] n1 ((ms.drop k).map fun m => .ubx m.cls m.id m.payload) d'.nav es2 := by
  have w := c73_not_base h hb hu hs
  obtain ⟨k, X, k1, k2⟩ := scan_resync ms hc d.ubx.prev g hz
  have e : goodMsgs (X ++ (ms.drop k).map UbxMsg.item) =
      goodMsgs X ++ (ms.drop k).map fun m => .ubx m.cls m.id m.payload := by
    unfold goodMsgs
    rw [List.filterMap_append]
    congr 1
    generalize ms.drop k = l
    induction l with
    | nil => rfl
    | cons m l ih => exact congrArg (Msg.ubx m.cls m.id m.payload :: ·) ih
  rw [k2, e] at w
  obtain ⟨n1, e1, e2, he, -, hw⟩ := w.append_inv'
  exact ⟨k, n1, e1, e2, k1, he, hw⟩

/-! ### The hypotheses can be met -/

theorem Msg.clean_of {m : Msg} (h : m.WF) (h2 : ∀ n < m.bytes.length, 1 ≤ n → m.bytes[n]? ≠ some 0xD3)
    (h3 : ∀ n < m.bytes.length, 1 ≤ n → ¬ (m.bytes[n]? = some 0xB5 ∧ m.bytes[n + 1]? = some 0x62)) : m.Clean := by
  refine ⟨h, fun n hn hc => ?_, fun n hn hc => ?_⟩
  · by_cases hl : n < m.bytes.length
    · exact h2 n hl hn hc
    · rw [List.getElem?_eq_none (by omega)] at hc; cases hc
  · by_cases hl : n < m.bytes.length
    · exact h3 n hl hn hc
    · rw [List.getElem?_eq_none (by omega)] at hc; cases hc.1

/-- A position message, an RTCM3 frame, and both again. -/
def exClean : List Msg := [.ubx 0x01 0x07 [1, 2, 3], .rtcm exFrame, .ubx 0x01 0x07 [4, 0xB5], .rtcm exFrame]

/-- Garbage that ends in an RTCM3 header announcing 10 bytes. -/
def exNoise : List Byte := [0x62, 0xB5, 0x00, 0xD3, 0x00, 0x0A]

/-- A base on interface 9 that meets the hypotheses of `c122_base`; the first message and the first frame are lost, the others
are passed on. -/
example : (∀ m ∈ exClean, m.Clean) ∧ NoZeroHeader (0x6B :: (exNoise ++ wire exClean)) ∧
    ((exRun exBase).map fun x => (x.1.ubx.parsingMessage, x.1.rtcm.parsingMessage, x.1.ubx.prev)) = some (false, false, 0x6B) ∧
    ((exRun (exBase ++ [.rx (exNoise ++ wire exClean)])).map fun x => x.2.filterMap brief) =
      some [(5, [0x01, 0x07, 4, 0xB5, 0, 0, 0]), (9, exFrame)] := by
  refine ⟨fun m hm => ?_, Ubx.no_zero_of (by decide +kernel), by decide +kernel, by decide +kernel⟩
  simp only [exClean, List.mem_cons, List.not_mem_nil, or_false] at hm
  rcases hm with rfl | rfl | rfl | rfl
  · exact Msg.clean_of ⟨by decide, by decide⟩ (by decide +kernel) (by decide +kernel)
  · exact Msg.clean_of (exMsgs_wf (.rtcm exFrame) (by simp [exMsgs])) (by decide +kernel) (by decide +kernel)
  · exact Msg.clean_of ⟨by decide, by decide⟩ (by decide +kernel) (by decide +kernel)
  · exact Msg.clean_of (exMsgs_wf (.rtcm exFrame) (by simp [exMsgs])) (by decide +kernel) (by decide +kernel)

end Dev
end Ublox
