import Verif.Lemmas.DeviceInv

/-!
# Whole streams through the driver
-/

namespace Ublox
namespace Dev

open Nav (Nav NavCall Mode Sfrbx NavOp)
open Rtcm (RTail REvent rtStep rtRun)

/-- The mixed scanner over a stream. -/
def dRun (base : Bool) : Tail → RTail → List Byte → Tail × RTail × List (Option Item × Option REvent)
  | t, r, [] => (t, r, [])
  | t, r, b :: bs =>
    let q := dRun base (dStep base t r b).1 (dStep base t r b).2.1 bs
    (q.1, q.2.1, (dStep base t r b).2.2 :: q.2.2)

theorem dRun_append (base : Bool) (t : Tail) (r : RTail) (a b : List Byte) :
    dRun base t r (a ++ b) =
      ((dRun base (dRun base t r a).1 (dRun base t r a).2.1 b).1, (dRun base (dRun base t r a).1 (dRun base t r a).2.1 b).2.1,
        (dRun base t r a).2.2 ++ (dRun base (dRun base t r a).1 (dRun base t r a).2.1 b).2.2) := by
  induction a generalizing t r with
  | nil => rfl
  | cons x xs ih => simp only [List.cons_append, dRun, ih]

theorem dRun_ubx (base : Bool) (t : Tail) (r : RTail) (q : List Byte)
    (h : ∀ q1 x q2, q = q1 ++ x :: q2 → uOpen (rxRun t q1).1 = true) :
    dRun base t r q = ((rxRun t q).1, r, (rxRun t q).2.map fun i => (i, none)) := by
  induction q generalizing t with
  | nil => rfl
  | cons x xs ih =>
    have h0 : uOpen t = true := h [] x xs rfl
    have e : dStep base t r x = ((rxStep t x).1, r, (rxStep t x).2, none) := by unfold dStep; rw [if_pos h0]
    simp only [dRun, rxRun, e]
    rw [ih]
    · simp
    · intro q1 y q2 hq
      have := h (x :: q1) y q2 (by rw [hq]; rfl)
      simpa only [rxRun] using this

theorem dRun_rtcm (t : Tail) (r : RTail) (q : List Byte) (ht : uOpen t = false)
    (h : ∀ q1 x q2, q = q1 ++ x :: q2 → rOpen (rtRun r q1).1 = true) :
    dRun true t r q = (t, (rtRun r q).1, (rtRun r q).2.map fun e => (none, e)) := by
  induction q generalizing r with
  | nil => rfl
  | cons x xs ih =>
    have h0 : rOpen r = true := h [] x xs rfl
    have e : dStep true t r x = (t, (rtStep r x).1, none, (rtStep r x).2) := by
      unfold dStep; rw [if_neg (by simp [ht]), if_pos (by simp [h0])]
    simp only [dRun, rtRun, e]
    rw [ih]
    · simp
    · intro q1 y q2 hq
      have := h (x :: q1) y q2 (by rw [hq]; rfl)
      simpa only [rtRun] using this

/-- Not a base: the UBX parser sees every byte. -/
theorem dRun_ubx_all (t : Tail) (r : RTail) (q : List Byte) :
    (dRun false t r q).1 = (rxRun t q).1 ∧ (dRun false t r q).2.2.map (·.1) = (rxRun t q).2 := by
  induction q generalizing t r with
  | nil => exact ⟨rfl, rfl⟩
  | cons x xs ih =>
    have e : (dStep false t r x).1 = (rxStep t x).1 ∧ (dStep false t r x).2.2.1 = (rxStep t x).2 := by
      unfold dStep
      split
      · exact ⟨rfl, rfl⟩
      · rw [if_neg (by simp)]; exact ⟨rfl, rfl⟩
    simp only [dRun, rxRun, List.map_cons, e.1, e.2]
    exact ⟨(ih _ _).1, by rw [(ih _ _).2]⟩

open Classical in
/-- The good messages among what the scanner completed. -/
noncomputable def msgs : List (Option Item × Option REvent) → List Msg
  | [] => []
  | (it, ev) :: l =>
    (match it with
      | some (.good c i p) => [Msg.ubx c i p]
      | _ => []) ++
    (match ev with
      | some (.frame f) => if CrcValid f then [Msg.rtcm f] else []
      | _ => []) ++ msgs l

theorem msgs_append (a b : List (Option Item × Option REvent)) : msgs (a ++ b) = msgs a ++ msgs b := by
  induction a with
  | nil => rfl
  | cons x xs ih => obtain ⟨it, ev⟩ := x; simp only [List.cons_append, msgs, ih, List.append_assoc]

theorem msgs_none_u (n : Nat) : msgs ((List.replicate n (none : Option Item)).map fun i => (i, none)) = [] := by
  induction n with
  | zero => rfl
  | succ n ih => simp only [List.replicate_succ, List.map_cons, msgs, ih, List.append_nil]

theorem msgs_none_r (n : Nat) : msgs ((List.replicate n (none : Option REvent)).map fun i => (none, i)) = [] := by
  induction n with
  | zero => rfl
  | succ n ih => simp only [List.replicate_succ, List.map_cons, msgs, ih, List.append_nil]

/-- Scanner states of a stream's end. -/
def MixTail.u : MixTail → Tail
  | .idle p => .idle p
  | .ubx bs => .opened bs
  | .rtcm _ => .idle 0xD3
def MixTail.r : MixTail → RTail
  | .rtcm bs => .opened bs
  | _ => .idle

theorem dStep_idle {b prev : Byte} (h1 : ¬ (prev = 0xB5 ∧ b = 0x62)) (h2 : b ≠ 0xD3) :
    dStep true (.idle prev) .idle b = (.idle b, .idle, none, none) := by
  unfold dStep
  rw [if_neg (by simp [uOpen]), if_neg (by simp [rOpen])]
  have e1 : rxStep (.idle prev) b = (.idle b, none) := by simp only [rxStep]; rw [if_neg h1]
  have e2 : rtStep .idle b = (.idle, none) := by simp only [rtStep]; rw [if_neg h2]
  rw [e1, e2]

theorem dStep_open : dStep true (.idle 0xB5) .idle 0x62 = (.opened [], .idle, none, none) := by
  unfold dStep
  rw [if_neg (by simp [uOpen]), if_neg (by simp [rOpen])]
  rfl

theorem dStep_d3 (prev : Byte) : dStep true (.idle prev) .idle 0xD3 = (.idle 0xD3, .opened [0xD3], none, none) := by
  unfold dStep
  rw [if_neg (by simp [uOpen]), if_neg (by simp [rOpen])]
  have e1 : rxStep (.idle prev) 0xD3 = (.idle 0xD3, none) := by
    simp only [rxStep]; rw [if_neg (by rintro ⟨-, h⟩; exact absurd h (by decide))]
  rw [e1]
  rfl

theorem prefix_len {q q1 q2 : List Byte} {x : Byte} (h : q = q1 ++ x :: q2) : q1.length < q.length := by
  rw [h]; simp

theorem dRun_ubx_hdr (base : Bool) (r : RTail) (c i lo hi : Byte) (q : List Byte) :
    dRun base (.opened []) r (c :: i :: lo :: hi :: q) =
      ((dRun base (rxStep (.opened [c, i, lo]) hi).1 r q).1, (dRun base (rxStep (.opened [c, i, lo]) hi).1 r q).2.1,
       (none, none) :: (none, none) :: (none, none) :: ((rxStep (.opened [c, i, lo]) hi).2, none) ::
        (dRun base (rxStep (.opened [c, i, lo]) hi).1 r q).2.2) := by
  have e6 : dStep base (.opened []) r c = (.opened [c], r, none, none) := rfl
  have e7 : dStep base (.opened [c]) r i = (.opened [c, i], r, none, none) := rfl
  have e8 : dStep base (.opened [c, i]) r lo = (.opened [c, i, lo], r, none, none) := rfl
  have e9 : dStep base (.opened [c, i, lo]) r hi =
    ((rxStep (.opened [c, i, lo]) hi).1, r, (rxStep (.opened [c, i, lo]) hi).2, none) := rfl
  simp only [dRun, e6, e7, e8, e9]

/-- The mixed scanner of a base is `demux`. -/
theorem demux_eq (prev : Byte) (s : List Byte) :
    (dRun true (.idle prev) .idle s).1 = MixTail.u (demux prev s).2 ∧
    (dRun true (.idle prev) .idle s).2.1 = MixTail.r (demux prev s).2 ∧
    msgs (dRun true (.idle prev) .idle s).2.2 = (demux prev s).1 := by
  induction hn : s.length using Nat.strongRecOn generalizing prev s with
  | ind n ih =>
    subst hn
    unfold demux
    match s with
    | [] => exact ⟨rfl, rfl, rfl⟩
    | b :: rest =>
      simp only
      split
      case isTrue h =>
        obtain ⟨rfl, rfl⟩ := h
        have eb : ∀ q, dRun true (.idle 0xB5) .idle (0x62 :: q) =
            ((dRun true (.opened []) .idle q).1, (dRun true (.opened []) .idle q).2.1,
              (none, none) :: (dRun true (.opened []) .idle q).2.2) := by
          intro q; simp only [dRun, dStep_open]
        rw [eb]
        match rest with
        | [] => exact ⟨rfl, rfl, rfl⟩
        | [c] => exact ⟨rfl, rfl, rfl⟩
        | [c, i] => exact ⟨rfl, rfl, rfl⟩
        | [c, i, lo] => exact ⟨rfl, rfl, rfl⟩
        | c :: i :: lo :: hi :: rest' =>
          rw [dRun_ubx_hdr]
          simp only [msgs, List.nil_append]
          split
          case isTrue h2 =>
            have e2 : rxStep (.opened [c, i, lo]) hi = (.idle hi, some .tooLong) := by
              simp only [rxStep, List.cons_append, List.nil_append]; rw [if_pos h2]
            rw [e2]
            simpa using ih rest'.length (by simp; omega) hi rest' rfl
          case isFalse h2 =>
            split
            case isTrue h0 =>
              have e2 : rxStep (.opened [c, i, lo]) hi = (.opened [c, i, lo, hi], none) := by
                simp only [rxStep, List.cons_append, List.nil_append]; rw [if_neg h2, if_pos h0]
              rw [e2]
              simp only [List.nil_append]
              rw [dRun_ubx, rxRun_zero c i lo hi h0 rest' []]
              · exact ⟨rfl, rfl, msgs_none_u _⟩
              · intro q1 x q2 _
                rw [rxRun_zero c i lo hi h0 q1 []]; rfl
            case isFalse h0 =>
              have e2 : rxStep (.opened [c, i, lo]) hi = (.opened [c, i, lo, hi], none) := by
                simp only [rxStep, List.cons_append, List.nil_append]; rw [if_neg h2, if_neg h0, if_neg (by simp)]
              rw [e2]
              simp only [List.nil_append]
              split
              next a x rest'' heq =>
                have hlen := congrArg List.length heq
                simp only [List.length_drop, List.length_cons] at hlen
                have hsplit : rest' = (rest'.take (lo.toNat + 256 * hi.toNat) ++ [a, x]) ++ rest'' := by
                  rw [List.append_assoc]
                  show rest' = _ ++ (a :: x :: rest'')
                  rw [← heq, List.take_append_drop]
                generalize hp : rest'.take (lo.toNat + 256 * hi.toNat) = p at hsplit
                have hpl : p.length = lo.toNat + 256 * hi.toNat := by rw [← hp]; simp; omega
                have e4 := rxRun_opened c i lo hi h0 h2 (p ++ [a]) [] (by simp; omega)
                have e3 : rxStep (.opened (c :: i :: lo :: hi :: (p ++ [a]))) x = (.idle x,
                      some (if a = fletcherA (c :: i :: lo :: hi :: p) ∧ x = fletcherB (c :: i :: lo :: hi :: p)
                        then .good c i p else .badChecksum)) := by
                  simp only [rxStep, List.cons_append]
                  rw [if_neg h2, if_neg h0, if_pos (by simp; omega), ← hpl]
                  rw [List.append_assoc, List.take_left, List.drop_left]
                  simp
                have e5 : rxRun (.opened [c, i, lo, hi]) (p ++ [a, x]) = (.idle x,
                    List.replicate (p.length + 1) none ++
                      [some (if a = fletcherA (c :: i :: lo :: hi :: p) ∧ x = fletcherB (c :: i :: lo :: hi :: p)
                        then .good c i p else .badChecksum)]) := by
                  rw [show p ++ [a, x] = (p ++ [a]) ++ [x] by simp, rxRun_append, e4]
                  simp only [List.nil_append, rxRun, e3, List.length_append, List.length_cons, List.length_nil]
                rw [hsplit, dRun_append, dRun_ubx true (.opened [c, i, lo, hi]) .idle (p ++ [a, x]), e5]
                · obtain ⟨i1, i2, i3⟩ := ih rest''.length (by simp; omega) x rest'' rfl
                  simp only
                  refine ⟨i1, i2, ?_⟩
                  rw [msgs_append, List.map_append, msgs_append, msgs_none_u, i3]
                  simp only [List.map_cons, List.map_nil, msgs, List.nil_append, List.append_nil]
                  by_cases hck : a = fletcherA (c :: i :: lo :: hi :: p) ∧ x = fletcherB (c :: i :: lo :: hi :: p)
                  · rw [if_pos hck, if_pos hck]; rfl
                  · rw [if_neg hck, if_neg hck]; rfl
                · intro q1 y q2 hq
                  have hl := prefix_len hq
                  simp only [List.length_append, List.length_cons, List.length_nil] at hl
                  rw [rxRun_opened c i lo hi h0 h2 q1 [] (by simp; omega)]
                  rfl
              next hne =>
                have hl : rest'.length < lo.toNat + 256 * hi.toNat + 2 := by
                  rcases hd : rest'.drop (lo.toNat + 256 * hi.toNat) with _ | ⟨a, _ | ⟨x, t⟩⟩
                  · have := congrArg List.length hd; simp at this; omega
                  · have := congrArg List.length hd; simp at this; omega
                  · exact absurd hd (hne a x t)
                rw [dRun_ubx, rxRun_opened c i lo hi h0 h2 rest' [] (by simp; omega)]
                · exact ⟨rfl, rfl, msgs_none_u _⟩
                · intro q1 x q2 hq
                  have := prefix_len hq
                  rw [rxRun_opened c i lo hi h0 h2 q1 [] (by simp; omega)]; rfl
      case isFalse h =>
        split
        case isTrue hb =>
          subst hb
          have eb : ∀ q, dRun true (.idle prev) .idle (0xD3 :: q) =
              ((dRun true (.idle 0xD3) (.opened [0xD3]) q).1, (dRun true (.idle 0xD3) (.opened [0xD3]) q).2.1,
                (none, none) :: (dRun true (.idle 0xD3) (.opened [0xD3]) q).2.2) := by
            intro q; simp only [dRun, dStep_d3]
          rw [eb]
          match rest with
          | [] => exact ⟨rfl, rfl, rfl⟩
          | [b1] => exact ⟨rfl, rfl, rfl⟩
          | b1 :: b2 :: rest' =>
            have e1 : dStep true (.idle 0xD3) (.opened [0xD3]) b1 = (.idle 0xD3, .opened [0xD3, b1], none, none) := rfl
            have e2 : dStep true (.idle 0xD3) (.opened [0xD3, b1]) b2 =
              (.idle 0xD3, (rtStep (.opened [0xD3, b1]) b2).1, none, (rtStep (.opened [0xD3, b1]) b2).2) := rfl
            simp only [dRun, e1, e2, msgs, List.nil_append]
            split
            case isTrue h0 =>
              have e3 : rtStep (.opened [0xD3, b1]) b2 = (.idle, some .zeroLen) := by
                simp only [rtStep, List.cons_append, List.nil_append]; rw [if_pos h0]
              rw [e3]
              simpa using ih rest'.length (by simp; omega) 0xD3 rest' rfl
            case isFalse h0 =>
              have e3 : rtStep (.opened [0xD3, b1]) b2 = (.opened [0xD3, b1, b2], none) := by
                simp only [rtStep, List.cons_append, List.nil_append]; rw [if_neg h0, if_neg (by simp)]
              rw [e3]
              simp only [List.nil_append]
              split
              case isTrue hl =>
                have hsplit := (List.take_append_drop (rtcmLen b1 b2 + 3) rest').symm
                generalize hq : rest'.take (rtcmLen b1 b2 + 3) = q at hsplit
                generalize hd : rest'.drop (rtcmLen b1 b2 + 3) = rest'' at hsplit
                have hql : q.length = rtcmLen b1 b2 + 3 := by rw [← hq]; simp; omega
                have hf := Rtcm.rtRun_frame b1 b2 q h0 hql
                have e4 : rtRun (.opened [0xD3, b1, b2]) q =
                    (.idle, List.replicate (q.length - 1) none ++ [some (.frame (0xD3 :: b1 :: b2 :: q))]) := by
                  have k1 : rtStep .idle 0xD3 = (.opened [0xD3], none) := rfl
                  have k2 : rtStep (.opened [0xD3]) b1 = (.opened [0xD3, b1], none) := rfl
                  simp only [rtRun, k1, k2, e3] at hf
                  have f1 := (Prod.mk.inj hf).1
                  have f2 := (Prod.mk.inj hf).2
                  rw [show q.length + 2 = (q.length - 1) + 1 + 1 + 1 by omega] at f2
                  simp only [List.replicate_succ, List.cons_append, List.cons.injEq, true_and] at f2
                  exact Prod.ext f1 f2
                rw [hsplit, dRun_append, dRun_rtcm _ _ q rfl, e4]
                · obtain ⟨i1, i2, i3⟩ := ih rest''.length (by rw [hsplit]; simp; omega) 0xD3 rest'' rfl
                  simp only
                  refine ⟨i1, i2, ?_⟩
                  rw [msgs_append, List.map_append, msgs_append, msgs_none_r, i3]
                  simp only [List.map_cons, List.map_nil, msgs, List.nil_append, List.append_nil]
                  split <;> rfl
                · intro q1 y q2 hq
                  have hl := prefix_len hq
                  rw [Rtcm.rtRun_opened 0xD3 b1 b2 h0 q1 [] (by simp; omega)]
                  rfl
              case isFalse hl =>
                rw [dRun_rtcm _ _ rest' rfl, Rtcm.rtRun_opened 0xD3 b1 b2 h0 rest' [] (by simp; omega)]
                · exact ⟨rfl, rfl, msgs_none_r _⟩
                · intro q1 x q2 hq
                  have := prefix_len hq
                  rw [Rtcm.rtRun_opened 0xD3 b1 b2 h0 q1 [] (by simp; omega)]; rfl
        case isFalse hb =>
          simp only [dRun, dStep_idle h hb, msgs, List.nil_append]
          exact ih rest.length (by simp) b rest rfl

theorem demux_ubx (prev c i : Byte) (p s : List Byte) (h1 : 1 ≤ p.length) (h2 : p.length ≤ 2048) :
    demux prev (ubxFrame c i p ++ s) =
      (.ubx c i p :: (demux (fletcherB (ubxBody c i p)) s).1, (demux (fletcherB (ubxBody c i p)) s).2) := by
  have hl := Ubx.len_bytes p.length (by omega)
  rw [Ubx.ubxFrame_eq']
  generalize hlo : BitVec.ofNat 8 p.length = lo at hl
  generalize hhi : BitVec.ofNat 8 (p.length / 256) = hi at hl
  have hbody : ubxBody c i p = c :: i :: lo :: hi :: p := by unfold ubxBody; rw [hlo, hhi]
  rw [hbody]
  simp only [List.cons_append]
  rw [demux]
  simp only
  rw [if_neg (by rintro ⟨-, h⟩; exact absurd h (by decide)), if_neg (by decide), demux]
  simp only
  rw [if_pos ⟨trivial, trivial⟩, if_neg (by omega), if_neg (by omega)]
  have hd : (p ++ [fletcherA (c :: i :: lo :: hi :: p), fletcherB (c :: i :: lo :: hi :: p)] ++ s).drop (lo.toNat + 256 * hi.toNat)
      = fletcherA (c :: i :: lo :: hi :: p) :: fletcherB (c :: i :: lo :: hi :: p) :: s := by
    rw [hl, List.append_assoc, List.drop_left]; rfl
  have ht : (p ++ [fletcherA (c :: i :: lo :: hi :: p), fletcherB (c :: i :: lo :: hi :: p)] ++ s).take (lo.toNat + 256 * hi.toNat)
      = p := by
    rw [hl, List.append_assoc, List.take_left]
  split
  next a x rest'' heq =>
    rw [hd] at heq
    simp only [List.cons.injEq] at heq
    obtain ⟨rfl, rfl, rfl⟩ := heq
    rw [ht, if_pos ⟨rfl, rfl⟩]
  next hne => exact absurd hd (hne _ _ _)

theorem demux_rtcm (prev : Byte) {p f : List Byte} (s : List Byte) (h : RtcmFrame p f) (h1 : 1 ≤ p.length) :
    demux prev (f ++ s) = (.rtcm f :: (demux 0xD3 s).1, (demux 0xD3 s).2) := by
  obtain ⟨⟨b1, b2, c0, c1, c2, rfl, hl⟩, hv⟩ := h
  simp only [List.cons_append]
  rw [demux.eq_def]
  simp only
  rw [if_neg (by rintro ⟨-, h⟩; exact absurd h (by decide)), if_pos trivial, if_neg (by omega), if_pos (by simp; omega)]
  have ht : (p ++ [c0, c1, c2] ++ s).take (rtcmLen b1 b2 + 3) = p ++ [c0, c1, c2] := by
    rw [← hl, show p.length + 3 = (p ++ [c0, c1, c2]).length by simp, List.take_left]
  have hd : (p ++ [c0, c1, c2] ++ s).drop (rtcmLen b1 b2 + 3) = s := by
    rw [← hl, show p.length + 3 = (p ++ [c0, c1, c2]).length by simp, List.drop_left]
  rw [ht, hd, if_pos hv]

theorem demux_wire (ms : List Msg) (hw : ∀ m ∈ ms, m.WF) (prev : Byte) (s : List Byte) :
    ∃ last, demux prev (wire ms ++ s) = (ms ++ (demux last s).1, (demux last s).2) := by
  induction ms generalizing prev with
  | nil => exact ⟨prev, rfl⟩
  | cons m ms ih =>
    have hm := hw m (by simp)
    have ih := ih fun m' hm' => hw m' (by simp [hm'])
    have e : wire (m :: ms) ++ s = m.bytes ++ (wire ms ++ s) := by simp [wire]
    rw [e]
    cases m with
    | ubx c i p =>
      obtain ⟨last, hlast⟩ := ih (fletcherB (ubxBody c i p))
      refine ⟨last, ?_⟩
      show demux prev (ubxFrame c i p ++ _) = _
      rw [demux_ubx _ _ _ _ _ hm.1 hm.2, hlast]; rfl
    | rtcm f =>
      obtain ⟨p, hf, h1, h2⟩ := hm
      obtain ⟨last, hlast⟩ := ih 0xD3
      refine ⟨last, ?_⟩
      show demux prev (f ++ _) = _
      rw [demux_rtcm _ _ hf h1, hlast]; rfl

/-! ### The device shows what the scanner finds -/

theorem Shows.append {md : Mode} {rcv : Byte → Byte → List Nat} {lk : List Nat} {n n1 n2 : Nav} {ms1 ms2 : List Msg}
    {es1 es2 : List Eff} (h1 : Shows md rcv lk n ms1 n1 es1) (h2 : Shows md rcv lk n1 ms2 n2 es2) :
    Shows md rcv lk n (ms1 ++ ms2) n2 (es1 ++ es2) := by
  induction h1 with
  | nil => exact h2
  | rtcm _ ih => rw [List.append_assoc]; exact .rtcm (ih h2)
  | ubx a b c _ ih => rw [List.append_assoc]; exact .ubx a b c (ih h2)
  | sfrbx a b c _ ih => rw [List.append_assoc]; exact .sfrbx a b c (ih h2)

/-- Interfaces to which a frame is written. -/
def lks (d : Dev) : List Nat :=
  match d.role, d.rtk with
  | .base, some i => d.rtcm.listeners.map fun _ => i
  | _, _ => []

theorem Same.lks {d d' : Dev} (h : Same d d') : lks d' = lks d := by
  unfold Dev.lks; rw [h.role, h.rtk, h.rlisteners]

open Classical in
theorem step_shows {md : Mode} {d : Dev} {users : List Nat} {it : Option Item} {ev : Option REvent} {n' : Nav} {e1 : List Eff}
    (h : ItemShows md d users it n' e1) :
    Shows md (fun c i => users.filter (d.userSub c i)) (lks d) d.nav (msgs [(it, ev)]) n' (e1 ++ rtcmEffs d ev) := by
  have hr : ∀ n : Nav, Shows md (fun c i => users.filter (d.userSub c i)) (lks d) n
      (match ev with
      | some (.frame f) => if CrcValid f then [Msg.rtcm f] else []
      | _ => []) n (rtcmEffs d ev) := by
    intro n
    have hq : ∀ x : Option REvent, (∀ f, x ≠ some (.frame f)) → rtcmEffs d x = [] := by
      intro x hx
      unfold rtcmEffs
      split
      · exact absurd rfl (hx _)
      · rfl
    match ev with
    | none => rw [hq none (by simp)]; exact .nil
    | some .zeroLen => rw [hq _ (by simp)]; exact .nil
    | some (.frame f) =>
      simp only
      by_cases hv : CrcValid f
      · rw [if_pos hv]
        have : rtcmEffs d (some (.frame f)) = ((lks d).map fun i => .toRtk i f) ++ [] := by
          unfold rtcmEffs lks
          cases d.role <;> cases d.rtk <;> simp [hv]
        rw [this]
        exact .rtcm .nil
      · rw [if_neg hv]
        have : rtcmEffs d (some (.frame f)) = [] := by
          unfold rtcmEffs
          cases d.role <;> cases d.rtk <;> simp [hv]
        rw [this]
        exact .nil
  simp only [msgs, List.append_nil]
  refine Shows.append ?_ (hr n')
  unfold ItemShows at h
  split at h
  · rename_i c i p
    obtain ⟨buf, b1, b2, he⟩ := h
    unfold ubxEffs at he
    split at he
    · rename_i hc
      obtain ⟨rfl, rfl⟩ := hc
      rw [bind_ok] at he
      obtain ⟨⟨n1, cs⟩, h1, he⟩ := he
      obtain ⟨rfl, rfl⟩ := Prod.mk.inj (Except.ok.inj he)
      have := Shows.sfrbx (rcv := fun c i => users.filter (d.userSub c i)) (lk := lks d) (p := p) b1 b2 h1 .nil
      simpa [userEffs] using this
    · rename_i hc
      obtain ⟨rfl, rfl⟩ := Prod.mk.inj (Except.ok.inj he)
      have := Shows.ubx (md := md) (n := d.nav) (rcv := fun c i => users.filter (d.userSub c i)) (lk := lks d) (p := p) hc b1 b2 .nil
      simpa [userEffs] using this
  · rename_i hne
    obtain ⟨rfl, rfl⟩ := h
    split
    · exact absurd rfl (hne _ _ _)
    · exact .nil

theorem readCb_shows {md : Mode} {d d' : Dev} {users : List Nat} {t : Tail} {r : RTail} {s : List Byte} {es : List Eff}
    (ha : DAbs d users t r) (h : readCb md d s = .ok (d', es)) :
    DAbs d' users (dRun (d.role == .base) t r s).1 (dRun (d.role == .base) t r s).2.1 ∧ Same d d' ∧
      Shows md (fun c i => users.filter (d.userSub c i)) (lks d) d.nav (msgs (dRun (d.role == .base) t r s).2.2) d'.nav es := by
  induction s generalizing d t r es with
  | nil => cases h; exact ⟨ha, Same.refl _, .nil⟩
  | cons b bs ih =>
    obtain ⟨d1, e1, e2, h1, h2, rfl⟩ := readCb_cons_ok h
    obtain ⟨a1, s1, e0, rfl, i1⟩ := rxByte_sim ha h1
    obtain ⟨a2, s2, w2⟩ := ih a1 h2
    rw [s1.role] at a2 w2
    have hsub : (fun c i => users.filter (d1.userSub c i)) = fun c i => users.filter (d.userSub c i) := by
      funext c i; rw [s1.userSub]
    rw [s1.lks, hsub] at w2
    refine ⟨a2, s1.trans s2, ?_⟩
    simp only [dRun]
    have := (step_shows (ev := (dStep (d.role == .base) t r b).2.2.2) i1).append w2
    rw [← msgs_append] at this
    exact this

theorem readCb_err {md : Mode} {d : Dev} {s : List Byte} {e : UB} (h : readCb md d s = .error e) :
    ∃ pre b post d1 e1, s = pre ++ b :: post ∧ readCb md d pre = .ok (d1, e1) ∧ rxByte md d1 b = .error e := by
  induction s generalizing d with
  | nil => cases h
  | cons b bs ih =>
    rw [readCb_cons, bind_err] at h
    rcases h with h | ⟨⟨d1, e1⟩, h1, h⟩
    · exact ⟨[], b, bs, d, [], rfl, rfl, h⟩
    · dsimp only at h
      rw [bind_err] at h
      rcases h with h | ⟨⟨d2, e2⟩, h2, h⟩
      · obtain ⟨pre, x, post, d2, e2, rfl, h2, h3⟩ := ih h
        refine ⟨b :: pre, x, post, d2, e1 ++ e2, rfl, ?_, h3⟩
        rw [readCb_cons, h1, ok_bind]
        dsimp only
        rw [h2, ok_bind]
      · cases h

theorem mem_msgs_ubx {l : List (Option Item × Option REvent)} {c i : Byte} {p : List Byte} {ev : Option REvent}
    (h : (some (Item.good c i p), ev) ∈ l) : Msg.ubx c i p ∈ msgs l := by
  induction l with
  | nil => cases h
  | cons x xs ih =>
    obtain ⟨it, ev'⟩ := x
    simp only [msgs]
    rcases List.mem_cons.1 h with h | h
    · obtain ⟨rfl, -⟩ := Prod.mk.inj h
      simp
    · exact List.mem_append_right _ (ih h)

/-- The RTCM part of a stream cut short inside a well-formed message stream stays below the buffer size. -/
theorem demux_prefix (ms : List Msg) (hw : ∀ m ∈ ms, m.WF) (prev : Byte) (pre post : List Byte) (h : wire ms = pre ++ post)
    {bs : List Byte} (hb : (demux prev pre).2 = .rtcm bs) : bs.length < 1024 := by
  induction ms generalizing prev pre with
  | nil =>
    have : pre = [] := by
      have := congrArg List.length h
      simp [wire] at this
      exact List.eq_nil_of_length_eq_zero (by omega)
    subst this
    rw [demux] at hb
    cases hb
  | cons m ms ih =>
    have hm := hw m (by simp)
    have ih := ih (fun m' hm' => hw m' (by simp [hm']))
    have e : wire (m :: ms) = m.bytes ++ wire ms := by simp [wire]
    rw [e] at h
    rcases List.append_eq_append_iff.1 h with ⟨pre', rfl, h'⟩ | ⟨q, hq, h'⟩
    · -- the message is complete
      cases m with
      | ubx c i p =>
        change (demux prev (ubxFrame c i p ++ pre')).2 = _ at hb
        rw [demux_ubx _ _ _ _ _ hm.1 hm.2] at hb
        exact ih _ pre' h' hb
      | rtcm f =>
        obtain ⟨p, hf, h1, h2⟩ := hm
        change (demux prev (f ++ pre')).2 = _ at hb
        rw [demux_rtcm _ _ hf h1] at hb
        exact ih _ pre' h' hb
    · cases m with
      | rtcm f =>
        change f = pre ++ q at hq
        cases q with
        | nil =>
          rw [List.append_nil] at hq
          subst hq
          obtain ⟨p, hf, h1, h2⟩ := hm
          have := demux_rtcm prev [] hf h1
          rw [List.append_nil] at this
          rw [this, demux] at hb
          cases hb
        | cons y q =>
          obtain ⟨p, ⟨⟨b1, b2, c0, c1, c2, hf, hl⟩, hv⟩, h1, h2⟩ := hm
          have hlen : pre.length + q.length + 1 = p.length + 6 := by
            have := congrArg List.length hq
            rw [hf] at this
            simp at this
            omega
          match pre, hq with
          | [], _ => rw [demux] at hb; cases hb
          | [x], hq =>
            have hx : x = 0xD3 := by rw [hf] at hq; simp at hq; exact hq.1.symm
            subst hx
            rw [demux.eq_def] at hb
            simp only at hb
            rw [if_neg (by rintro ⟨-, h⟩; exact absurd h (by decide)), if_pos trivial] at hb
            cases hb
            simp
          | [x, y1], hq =>
            have hx : x = 0xD3 := by rw [hf] at hq; simp at hq; exact hq.1.symm
            subst hx
            rw [demux.eq_def] at hb
            simp only at hb
            rw [if_neg (by rintro ⟨-, h⟩; exact absurd h (by decide)), if_pos trivial] at hb
            cases hb
            simp
          | x :: y1 :: y2 :: pre', hq =>
            rw [hf] at hq
            simp only [List.cons_append, List.cons.injEq] at hq
            obtain ⟨rfl, rfl, rfl, hq⟩ := hq
            simp only [List.length_cons] at hlen
            rw [demux.eq_def] at hb
            simp only at hb
            rw [if_neg (by rintro ⟨-, h⟩; exact absurd h (by decide)), if_pos trivial, if_neg (by omega), if_neg (by omega)] at hb
            cases hb
            simp; omega
      | ubx c i p =>
        change ubxFrame c i p = pre ++ q at hq
        cases q with
        | nil =>
          rw [List.append_nil] at hq
          subst hq
          have := demux_ubx prev c i p [] hm.1 hm.2
          rw [List.append_nil] at this
          rw [this, demux] at hb
          cases hb
        | cons y q =>
          have hlb := Ubx.len_bytes p.length (by have := hm.2; omega)
          have hm1 := hm.1
          have hm2 := hm.2
          have hlen := congrArg List.length hq
          rw [Ubx.ubxFrame_length] at hlen
          rw [Ubx.ubxFrame_eq'] at hq
          simp only [List.length_append, List.length_cons] at hlen
          match pre, hq with
          | [], _ => rw [demux] at hb; cases hb
          | [x], hq =>
            simp only [List.cons_append, List.cons.injEq] at hq
            obtain ⟨rfl, -⟩ := hq
            rw [demux.eq_def] at hb
            simp only at hb
            rw [if_neg (by rintro ⟨-, h⟩; exact absurd h (by decide)), if_neg (by decide), demux] at hb
            cases hb
          | x :: x1 :: pre', hq =>
            simp only [List.cons_append, List.cons.injEq] at hq
            obtain ⟨rfl, rfl, hq⟩ := hq
            rw [demux.eq_def] at hb
            simp only at hb
            rw [if_neg (by rintro ⟨-, h⟩; exact absurd h (by decide)), if_neg (by decide), demux.eq_def] at hb
            simp only at hb
            rw [if_pos ⟨trivial, trivial⟩] at hb
            match pre', hq with
            | [], _ => cases hb
            | [_], _ => cases hb
            | [_, _], _ => cases hb
            | [_, _, _], _ => cases hb
            | c' :: i' :: lo :: hi :: rest', hq =>
              simp only [List.cons_append, List.cons.injEq] at hq
              obtain ⟨rfl, rfl, rfl, rfl, hq⟩ := hq
              simp only [List.length_cons] at hlen
              simp only at hb
              rw [hlb, if_neg (by omega), if_neg (by omega)] at hb
              split at hb
              next a x rest'' heq =>
                have := congrArg List.length heq
                simp only [List.length_drop, List.length_cons] at this
                omega
              next => cases hb

/-- No undefined behaviour on well-formed streams without MON-VER and RXM-SFRBX messages. -/
theorem readCb_total_base {md : Mode} {d : Dev} {users : List Nat} {prev : Byte} {ms : List Msg} (hbase : d.role = .base)
    (ha : DAbs d users (.idle prev) .idle) (hw : ∀ m ∈ ms, m.WF)
    (h1 : ∀ p, Msg.ubx 0x0A 0x04 p ∉ ms) (h2 : ∀ p, Msg.ubx 0x02 0x13 p ∉ ms) :
    ∃ d' es, readCb md d (wire ms) = .ok (d', es) := by
  cases hr : readCb md d (wire ms) with
  | ok x => exact ⟨x.1, x.2, rfl⟩
  | error e =>
    exfalso
    obtain ⟨pre, b, post, d1, e1, hs, hpre, he⟩ := readCb_err hr
    obtain ⟨a1, s1, -⟩ := readCb_shows ha hpre
    have hb : (d.role == .base) = true := by rw [hbase]; rfl
    have hb1 : (d1.role == .base) = true := by rw [s1.role, hbase]; rfl
    rw [hb] at a1
    obtain ⟨k1, k2, k3⟩ := demux_eq prev pre
    have hmsgs : msgs (dRun true (.idle prev) .idle (wire ms)).2.2 = ms := by
      obtain ⟨last, hl⟩ := demux_wire ms hw prev []
      rw [List.append_nil] at hl
      rw [(demux_eq prev (wire ms)).2.2, hl, demux]
      simp
    have hev : ∀ c i p, (dStep true (dRun true (.idle prev) .idle pre).1 (dRun true (.idle prev) .idle pre).2.1 b).2.2.1
        = some (.good c i p) → Msg.ubx c i p ∈ ms := by
      intro c i p h
      rw [← hmsgs, hs, dRun_append]
      refine mem_msgs_ubx (ev := (dStep true (dRun true (.idle prev) .idle pre).1 (dRun true (.idle prev) .idle pre).2.1 b).2.2.2) ?_
      rw [← h]
      simp [dRun]
    rcases rxByte_err a1 he with ⟨-, p, hp, -⟩ | ⟨p, -, hp, -⟩ | ⟨-, -, bs, hbs, hl⟩
    · rw [hb1] at hp; exact h1 p (hev _ _ _ hp)
    · rw [hb1] at hp; exact h2 p (hev _ _ _ hp)
    · rw [k2] at hbs
      cases hm : (demux prev pre).2 with
      | idle l => rw [hm] at hbs; cases hbs
      | ubx l => rw [hm] at hbs; cases hbs
      | rtcm l =>
        rw [hm] at hbs
        cases hbs
        have := demux_prefix ms hw prev pre (b :: post) hs hm
        omega

end Dev
end Ublox
