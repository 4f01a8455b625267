import Verif.Spec.NavScreen
import Verif.Props.NavGal

/-!
# C143: what the console says about navigation messages

Model: `Verif/Model/NavScreen.lean`; specification: `Verif/Spec/NavScreen.lean`.
-/

namespace Ublox.Nav

open UTCTime (decNat decInt)
open Data

theorem width2_eq (n : Nat) : width2 n = pad2 n := by
  unfold width2 pad2
  by_cases h : n < 10
  · rw [if_pos h, show decNat n = [UTCTime.digit n] by rw [decNat, if_pos h]]; rfl
  · rw [if_neg h]
    have : 2 ≤ (decNat n).length := by
      rw [decNat, if_neg h, List.length_append]
      have : 1 ≤ (decNat (n / 10)).length := by
        rw [decNat]; split <;> simp
      simp; omega
    rw [show 2 - (decNat n).length = 0 by omega]; rfl

/-- The text of the ephemeris decoder on the words of a collection. -/
theorem galInavSays_eq {row : List Byte} {w : Nat → List Byte} (h : RowHolds row w)
    (ht : ∀ k, k ≤ 6 → wType (w k) = k) :
    galInavSays row = if wU (w 0) 6 2 ≠ 2 then
        .ok ({ err := "decode_gal_inav error: word0-time=".toList ++ decNat (wU (w 0) 6 2) ++ "\n".toList }, false)
      else if iodNav (w 1) ≠ iodNav (w 2) ∨ iodNav (w 1) ≠ iodNav (w 3) ∨ iodNav (w 1) ≠ iodNav (w 4) then
        .ok ({ err := "decode_gal_inav error: ionav=".toList ++ decNat (iodNav (w 1)) ++ " ".toList ++ decNat (iodNav (w 2)) ++
          " ".toList ++ decNat (iodNav (w 3)) ++ " ".toList ++ decNat (iodNav (w 4)) ++ "\n".toList }, false)
      else (do
        let ttr ← UTCTime.fromGalileo (galWeek (w 0)) ((galTow (w 0) * 1000 : Nat) : Int)
        let t ← UTCTime.fromGalileo (galWeek (w 0)) ((galToe (w 1) * 1000 : Nat) : Int)
        let dt := t.sub ttr
        let week1 : Int := if secGt dt 302400 then (galWeek (w 0) : Int) - 1 else if secLt dt (-302400) then (galWeek (w 0) : Int) + 1
          else galWeek (w 0)
        .ok ({ out := "Week = ".toList ++ decInt (week1 + 1024) ++ ", toes = ".toList ++ decNat (galToe (w 1)) ++ "\n".toList },
          true)) := by
  unfold galInavSays
  simp only [h.u 0 0 6 0, h.u 0 6 2 6, h.u 0 96 12 96, h.u 0 108 20 108, h.u 1 0 6 128, h.u 1 6 10 134, h.u 1 16 14 144,
    h.u 2 0 6 256, h.u 2 6 10 262, h.u 3 0 6 384, h.u 3 6 10 390, h.u 4 0 6 512, h.u 4 6 10 518, ok_bind]
  have t0 := ht 0 (by omega)
  have t1 := ht 1 (by omega)
  have t2 := ht 2 (by omega)
  have t3 := ht 3 (by omega)
  have t4 := ht 4 (by omega)
  unfold wType at t0 t1 t2 t3 t4
  rw [t0, t1, t2, t3, t4, if_neg (by simp)]
  rfl

/-- Words with dates that fit: the text of the week. -/
theorem galWeekText (w : Nat → List Byte) (hfit : DatesFit (w 0) (w 1) (w 4)) :
    (do
        let ttr ← UTCTime.fromGalileo (galWeek (w 0)) ((galTow (w 0) * 1000 : Nat) : Int)
        let t ← UTCTime.fromGalileo (galWeek (w 0)) ((galToe (w 1) * 1000 : Nat) : Int)
        let dt := t.sub ttr
        let week1 : Int := if secGt dt 302400 then (galWeek (w 0) : Int) - 1 else if secLt dt (-302400) then (galWeek (w 0) : Int) + 1
          else galWeek (w 0)
        .ok ({ out := "Week = ".toList ++ decInt (week1 + 1024) ++ ", toes = ".toList ++ decNat (galToe (w 1)) ++ "\n".toList },
          true) : M (Printed × Bool)) =
      .ok ({ out := "Week = ".toList ++ decInt (toeWeek (w 0) (w 1) + 1024) ++ ", toes = ".toList ++ decNat (galToe (w 1)) ++
        "\n".toList }, true) := by
  obtain ⟨r1, r2, r3, r4⟩ := gal_ranges (w 0) (w 1) (w 4)
  obtain ⟨q1, q2⟩ := toeWeek_range (w 0) (w 1)
  unfold DatesFit at hfit
  unfold UTCTime.fromGalileo
  rw [fromGPS_gen _ _ (by omega) (by omega) (by omega), if_pos (by omega), ok_bind,
    fromGPS_gen _ _ (by omega) (by omega) (by omega), if_pos (by omega), ok_bind]
  dsimp only
  rw [sub_sec, secGt_sec, secLt_sec]
  have hw : (if decide ((315964818 + (galWeek (w 0) : Int) * 604800 + galToe (w 1)) -
        (315964818 + (galWeek (w 0) : Int) * 604800 + galTow (w 0)) > 302400) = true then (galWeek (w 0) : Int) - 1
      else if decide ((315964818 + (galWeek (w 0) : Int) * 604800 + galToe (w 1)) -
        (315964818 + (galWeek (w 0) : Int) * 604800 + galTow (w 0)) < -302400) = true then (galWeek (w 0) : Int) + 1
      else galWeek (w 0)) = toeWeek (w 0) (w 1) := by
    unfold toeWeek
    simp only [decide_eq_true_eq]
    by_cases k1 : (galToe (w 1) : Int) - galTow (w 0) > 302400
    · rw [if_pos (by omega), if_pos k1]
    · rw [if_neg (by omega), if_neg k1]
      by_cases k2 : (galToe (w 1) : Int) - galTow (w 0) < -302400
      · rw [if_pos (by omega), if_pos k2]
      · rw [if_neg (by omega), if_neg k2]
  rw [hw]

/-- Storing an accepted page, with its text. -/
theorem storeSays {d buf row row' : List Byte} {e : Eph} {md : Mode}
    (hacc : (galAccept md buf (buf.drop 16) (wType d) row e).map (·.row) = .ok row') :
    galAcceptSays buf (buf.drop 16) (wType d) row =
      if row'.getD 112 0 ≠ 0x7F then .ok { err := "GAL waiting for other subframes\n".toList }
      else (do
        let (t, good) ← galInavSays row'
        if !good then .ok t
        else .ok { t with err := t.err ++ "GAL Success\n".toList }) := by
  obtain ⟨o, ho, rfl⟩ : ∃ o, galAccept md buf (buf.drop 16) (wType d) row e = .ok o ∧ o.row = row' := by
    cases h : galAccept md buf (buf.drop 16) (wType d) row e with
    | error u => rw [h] at hacc; cases hacc
    | ok o => rw [h] at hacc; exact ⟨o, rfl, Except.ok.inj hacc⟩
  unfold galAccept at ho
  obtain ⟨row0, h0, ho⟩ := bind_ok.1 ho
  obtain ⟨row1, h1, ho⟩ := bind_ok.1 ho
  obtain ⟨row2, h2, ho⟩ := bind_ok.1 ho
  obtain ⟨f, hf, ho⟩ := bind_ok.1 ho
  obtain ⟨row3, h3, ho⟩ := bind_ok.1 ho
  unfold galAcceptSays
  rw [h0, ok_bind, h1, ok_bind, h2, ok_bind, hf, ok_bind]
  dsimp only at h3 ho ⊢
  rw [h3, ok_bind]
  have hr : row3.getD 112 0 = f ||| BitVec.ofNat 8 (1 <<< wType d) := by
    unfold wr at h3
    by_cases hl : 112 < row2.length
    · rw [if_pos hl] at h3
      have h3 := Except.ok.inj h3
      rw [← h3, List.getD_eq_getElem?_getD, List.getElem?_set_self hl]; rfl
    · rw [if_neg hl] at h3; cases h3
  have hrow : o.row = row3 := by
    by_cases hc : f ||| BitVec.ofNat 8 (1 <<< wType d) ≠ 0x7F
    · rw [if_pos hc] at ho; have ho := Except.ok.inj ho; rw [← ho]
    · rw [if_neg hc] at ho
      obtain ⟨⟨e1, good⟩, -, ho⟩ := bind_ok.1 ho
      dsimp only at ho
      cases good with
      | false => have ho := Except.ok.inj ho; rw [← ho]
      | true =>
        obtain ⟨_, -, ho⟩ := bind_ok.1 ho
        have ho := Except.ok.inj ho; rw [← ho]
  rw [hrow, hr]

/-- The text about a page up to the point where it is accepted. -/
theorem galSays_eq {d row : List Byte} (hd : 32 ≤ d.length) (s : Byte) (H : List (List Byte)) :
    ∃ buf, HoldsW 8 buf d ∧
      (GoodPage d → s ≠ 0 → galSays s d row = galAcceptSays buf (buf.drop 16) (wType d) row) ∧
      (GoodPage d → pageText s d H =
        collectedText [latestW 0 H, latestW 1 H, latestW 2 H, latestW 3 H, latestW 4 H, latestW 5 H, latestW 6 H]) ∧
      (¬ GoodPage d → galSays s d row = .ok (pageText s d H)) := by
  obtain ⟨buf, h1, hh, -⟩ := swap_holds d 8 (by omega)
  refine ⟨buf, hh, ?_⟩
  obtain ⟨c1, k1, l1, b1⟩ := copyBits_ok buf 15 0 4 (List.replicate 26 0) (by rw [hh.1]; omega) (by simp)
  rw [List.length_replicate] at l1
  obtain ⟨c2, k2, l2, b2⟩ := copyBits_ok buf 11 16 118 c1 (by rw [hh.1]; omega) (by omega)
  have hb : ∀ p, p < 200 → bitAt c2 p = bitAt (galFrame d) p := by
    intro p hp
    rw [b2, b1, galFrame_bit _ _ (by omega)]
    by_cases p1 : p < 4
    · rw [if_neg (by omega), if_neg (by omega), if_pos p1, bitAt_zeros]
    · rw [if_neg p1]
      by_cases p2 : p < 118
      · rw [if_neg (by omega), if_pos (by omega), if_pos p2, hh.2 _ (by omega), galBit_raw]; congr 1; omega
      · rw [if_pos (by omega), if_neg p2, hh.2 _ (by omega), galBit_raw]
  obtain ⟨c, hc, hiff⟩ := crc_test (d := d) (by omega) hb
  have key : galSays s d row =
      (if galBit d 1 = true ∨ galBit d 129 = true then .ok { err := "Skipping alert page".toList }
      else if galBit d 0 = true ∨ galBit d 128 = false then
        .ok { err := "gal page even/odd error: sat=".toList ++ width2 s.toNat ++ "\n".toList }
      else if c ≠ fieldVal (galFrame d) 200 24 then
        .ok { err := "GAL CRC Error: sat=".toList ++ width2 s.toNat ++ "\n".toList }
      else if wType d > 6 then .ok {}
      else if s = 0 then .error .oobWrite
      else galAcceptSays buf (buf.drop 16) (wType d) row) := by
    unfold galSays
    rw [h1, ok_bind]
    dsimp only
    rw [getBit1 hh 0 (by omega), ok_bind, getBit1 hh 1 (by omega), ok_bind, getBit1odd hh 0 (by omega), ok_bind,
      getBit1odd hh 1 (by omega), ok_bind, k1, ok_bind, k2, ok_bind, hc, ok_bind, sent_eq hh, ok_bind, type_eq hh, ok_bind]
    generalize "Skipping alert page".toList = a1
    generalize "gal page even/odd error: sat=".toList ++ width2 s.toNat ++ "\n".toList = a2
    generalize "GAL CRC Error: sat=".toList ++ width2 s.toNat ++ "\n".toList = a3
    cases galBit d 1 <;> cases galBit d 129 <;> cases galBit d 0 <;> cases galBit d 128 <;> simp
  refine ⟨?_, ?_, ?_⟩
  · intro hg hs
    rw [key, if_neg (by rw [hg.nominal.1, hg.nominal.2]; simp), if_neg (by rw [hg.order.1, hg.order.2]; simp),
      if_neg (by simp [hiff.mpr hg.crc]), if_neg (by have := hg.type; omega), if_neg hs]
  · intro hg
    unfold pageText
    rw [if_neg (by rw [hg.nominal.1, hg.nominal.2]; simp), if_neg (by rw [hg.order.1, hg.order.2]; simp),
      if_neg (by simp [hg.crc]), if_neg (by have := hg.type; omega)]
  · intro hg
    rw [key]
    unfold pageText
    rw [← width2_eq]
    by_cases q1 : galBit d 1 = true ∨ galBit d 129 = true
    · rw [if_pos q1, if_pos q1]
    rw [if_neg q1, if_neg q1]
    by_cases q2 : galBit d 0 = true ∨ galBit d 128 = false
    · rw [if_pos q2, if_pos q2]
    rw [if_neg q2, if_neg q2]
    by_cases q3 : CrcValid (galFrame d)
    · rw [if_neg (show ¬ c ≠ _ from fun h => h (hiff.mpr q3)), if_neg (show ¬ ¬ CrcValid (galFrame d) from fun h => h q3)]
      by_cases q4 : wType d > 6
      · rw [if_pos q4, if_pos q4]
      · exact absurd ⟨by simpa using q1, by simpa using q2, q3, by omega⟩ hg
    · rw [if_pos (show c ≠ _ from fun h => q3 (hiff.mp h)), if_pos q3]

theorem collectedText_full (d0 d1 d2 d3 d4 d5 d6 : List Byte) :
    collectedText [some d0, some d1, some d2, some d3, some d4, some d5, some d6] =
    if wU d0 6 2 ≠ 2 then { err := "decode_gal_inav error: word0-time=".toList ++ decNat (wU d0 6 2) ++ "\n".toList }
    else if iodNav d1 ≠ iodNav d2 ∨ iodNav d1 ≠ iodNav d3 ∨ iodNav d1 ≠ iodNav d4 then
      { err := "decode_gal_inav error: ionav=".toList ++ decNat (iodNav d1) ++ " ".toList ++ decNat (iodNav d2) ++
          " ".toList ++ decNat (iodNav d3) ++ " ".toList ++ decNat (iodNav d4) ++ "\n".toList }
    else
      { out := "Week = ".toList ++ decInt (toeWeek d0 d1 + 1024) ++ ", toes = ".toList ++ decNat (galToe d1) ++ "\n".toList
        err := "GAL Success\n".toList } := rfl

/-- The text about an accepted page. -/
theorem acceptSays {md : Mode} {d buf row : List Byte} {P : List (List Byte)} {e : Eph} {o : GalOut} (hh : HoldsW 8 buf d)
    (ht : wType d ≤ 6) (hc : GalColl P row) (hacc : galAccept md buf (buf.drop 16) (wType d) row e = .ok o) :
    galAcceptSays buf (buf.drop 16) (wType d) row = .ok (collectedText [latestW 0 (addPage P d), latestW 1 (addPage P d),
      latestW 2 (addPage P d), latestW 3 (addPage P d), latestW 4 (addPage P d), latestW 5 (addPage P d), latestW 6 (addPage P d)])
    ∧ (o.reports = [] ↔ (collectedText [latestW 0 (addPage P d), latestW 1 (addPage P d),
      latestW 2 (addPage P d), latestW 3 (addPage P d), latestW 4 (addPage P d), latestW 5 (addPage P d), latestW 6 (addPage P d)]).err
        ≠ "GAL Success\n".toList) := by
  obtain ⟨row', hc', a1, a2, a3, a4⟩ := accept_cases (md := md) hh ht hc e
  have hs : ∀ row'', o.row = row'' → _ := fun row'' h => storeSays (row' := row'') (by rw [hacc]; exact congrArg _ h)
  generalize addPage P d = Q at *
  have hiff := complete_iff hc'
  by_cases b1 : Complete Q
  · have w : ∀ k, k ≤ 6 → latestW k Q = some (wordOf Q k) := fun k hk => wordOf_eq (b1 k hk)
    rw [w 0 (by omega), w 1 (by omega), w 2 (by omega), w 3 (by omega), w 4 (by omega), w 5 (by omega), w 6 (by omega)]
    have inav := galInavSays_eq (hc'.holds b1).1 (hc'.holds b1).2
    by_cases b2 : ConsistentP Q
    · by_cases b3 : DatesFit (wordOf Q 0) (wordOf Q 1) (wordOf Q 4)
      · rw [a4 b1 b2 b3] at hacc
        obtain ⟨_, -, hacc⟩ := bind_ok.1 hacc
        have hacc := Except.ok.inj hacc
        rw [hs row' (by rw [← hacc]), if_neg (fun hh => hh (hiff.mpr b1)), inav, if_neg (fun h => h b2.1),
          if_neg (by rintro (h | h | h); exacts [h b2.2.1, h b2.2.2.1, h b2.2.2.2]), galWeekText _ b3, ok_bind]
        rw [collectedText_full]
        rw [if_neg (fun h => h b2.1), if_neg (by rintro (h | h | h); exacts [h b2.2.1, h b2.2.2.1, h b2.2.2.2])]
        refine ⟨rfl, ?_⟩
        rw [← hacc]
        exact ⟨fun h => (by cases h), fun h => absurd rfl h⟩
      · rw [a3 b1 b2 b3] at hacc; cases hacc
    · rw [a2 b1 b2] at hacc
      have hacc := Except.ok.inj hacc
      rw [hs row' (by rw [← hacc]), if_neg (fun hh => hh (hiff.mpr b1)), inav]
      rw [collectedText_full]
      by_cases k1 : wU (wordOf Q 0) 6 2 ≠ 2
      · rw [if_pos k1, if_pos k1, ok_bind]
        refine ⟨rfl, ?_⟩
        rw [← hacc]
        refine ⟨fun _ h => ?_, fun _ => rfl⟩
        have h := congrArg (fun l => l.head?) h
        revert h
        simp
      · rw [if_neg k1, if_neg k1]
        by_cases k2 : iodNav (wordOf Q 1) ≠ iodNav (wordOf Q 2) ∨ iodNav (wordOf Q 1) ≠ iodNav (wordOf Q 3) ∨
            iodNav (wordOf Q 1) ≠ iodNav (wordOf Q 4)
        · rw [if_pos k2, if_pos k2, ok_bind]
          refine ⟨rfl, ?_⟩
          rw [← hacc]
          refine ⟨fun _ h => ?_, fun _ => rfl⟩
          have h := congrArg (fun l => l.head?) h
          revert h
          simp
        · refine absurd ⟨Decidable.of_not_not k1, ?_⟩ b2
          obtain ⟨k2, k3⟩ := not_or.1 k2
          obtain ⟨k3, k4⟩ := not_or.1 k3
          exact ⟨Decidable.of_not_not k2, Decidable.of_not_not k3, Decidable.of_not_not k4⟩
  · rw [a1 b1] at hacc
    have hacc := Except.ok.inj hacc
    have ht : ∀ a0 a1 a2 a3 a4 a5 a6 : Option (List Byte), ¬ (a0.isSome ∧ a1.isSome ∧ a2.isSome ∧ a3.isSome ∧ a4.isSome ∧
        a5.isSome ∧ a6.isSome) → collectedText [a0, a1, a2, a3, a4, a5, a6] = { err := "GAL waiting for other subframes\n".toList } := by
      intro a0 a1 a2 a3 a4 a5 a6 h
      cases a0 <;> cases a1 <;> cases a2 <;> cases a3 <;> cases a4 <;> cases a5 <;> cases a6 <;>
        first | rfl | exact absurd ⟨rfl, rfl, rfl, rfl, rfl, rfl, rfl⟩ h
    rw [hs row' (by rw [← hacc]), if_pos (fun hh => b1 (hiff.mp hh)), ht]
    · refine ⟨rfl, ?_⟩
      rw [← hacc]
      refine ⟨fun _ h => ?_, fun _ => rfl⟩
      have h := congrArg List.length h
      revert h
      decide
    · rintro ⟨h0, h1, h2, h3, h4, h5, h6⟩
      apply b1
      intro k hk
      match k with
      | 0 => exact h0
      | 1 => exact h1
      | 2 => exact h2
      | 3 => exact h3
      | 4 => exact h4
      | 5 => exact h5
      | 6 => exact h6
      | k + 7 => omega

theorem holdsW_unique {k : Nat} {a b d : List Byte} (ha : HoldsW k a d) (hb : HoldsW k b d) : a = b :=
  ext_bitAt (by rw [ha.1, hb.1]) fun i hi => by rw [ha.2 i (by rw [ha.1] at hi; omega), hb.2 i (by rw [ha.1] at hi; omega)]

/-- A page that is not good does not produce the success message. -/
theorem pageText_bad {s : Byte} {d : List Byte} {H : List (List Byte)} (hg : ¬ GoodPage d) :
    (pageText s d H).err ≠ "GAL Success\n".toList := by
  unfold pageText
  by_cases q1 : galBit d 1 = true ∨ galBit d 129 = true
  · rw [if_pos q1]; decide
  rw [if_neg q1]
  by_cases q2 : galBit d 0 = true ∨ galBit d 128 = false
  · rw [if_pos q2]
    intro h
    have h := congrArg (fun l => l.head?) h
    revert h
    simp
  rw [if_neg q2]
  by_cases q3 : CrcValid (galFrame d)
  · rw [if_neg (show ¬ ¬ CrcValid (galFrame d) from fun h => h q3)]
    by_cases q4 : wType d > 6
    · rw [if_pos q4]; decide
    · exact absurd ⟨by simpa using q1, by simpa using q2, q3, by omega⟩ hg
  · rw [if_pos q3]
    intro h
    have h := congrArg (fun l => l[4]?) h
    revert h
    simp

/-- The text about a page, and whether it is the success message. -/
theorem page_both {md : Mode} {ops : List NavOp} {n n' : Nav} {cs : List (List NavCall)} {junk : List Byte}
    {m : Sfrbx} {c : List NavCall} (hwf : ∀ op ∈ ops, op.WF) (hm : (NavOp.sfrbx junk m).WF)
    (hrun : Nav.init.run md ops = .ok (n, cs)) (hgal : m.gnssId = 2)
    (hstep : n.step md (.sfrbx junk m) = .ok (n', c)) :
    n.says (.sfrbx junk m) =
      .ok (pageText m.svId m.dwrd (sinceWord2 (pagesOf m.svId (ops ++ [.sfrbx junk m])))) ∧
    ∃ rs, c = ephCalls n.ephCbs rs ∧
      (rs = [] ↔ (pageText m.svId m.dwrd (sinceWord2 (pagesOf m.svId (ops ++ [.sfrbx junk m])))).err ≠ "GAL Success\n".toList) := by
  have hcoll := galcoll_run md m.svId ops n cs hwf hrun
  obtain ⟨r, hr, hcall, nx⟩ := step_eph (by rw [hgal]; decide) hstep
  have hlen : 32 ≤ m.dwrd.length := by rw [hm.2]; omega
  have hsay : n.says (.sfrbx junk m) = galSays m.svId m.dwrd (n.gal m.svId.toNat) := by
    unfold Nav.says
    dsimp only
    rw [if_neg (by rw [hgal]; decide), if_pos hgal]
  rw [hsay]
  obtain ⟨buf, hh, g1, g2, g3⟩ := galSays_eq (row := n.gal m.svId.toNat) hlen m.svId
    (sinceWord2 (pagesOf m.svId (ops ++ [.sfrbx junk m])))
  by_cases hg : GoodPage m.dwrd
  · rw [g2 hg, sinceWord2_page m.svId ops junk m ⟨hgal, rfl, hg⟩]
    have hs := (gal_good hgal hlen hg hcoll hr).2.2.1
    rw [g1 hg hs]
    rw [ephStep_gal hgal] at hr
    obtain ⟨o, h1, h2⟩ := bind_ok.1 hr
    obtain ⟨buf', hh', q1, -, -⟩ := decodeGalileo_eq (md := md) (row := n.gal m.svId.toNat) hlen
      { n.cur m.svId with sat := m.svId, gnssID := m.gnssId }
    rw [q1 hg hs, holdsW_unique hh' hh] at h1
    have h2 := Except.ok.inj h2
    have := acceptSays hh hg.type hcoll h1
    refine ⟨this.1, o.reports, ?_, this.2⟩
    rw [hcall, ← h2]
  · refine ⟨g3 hg, [], ?_, fun _ => pageText_bad hg, fun _ => rfl⟩
    rw [gal_bad _ hgal hlen hg] at hr
    have hr := Except.ok.inj hr
    rw [hcall, ← hr]

/-- C143, Galileo: after any history, the text written on a page of satellite `s` says what became of the page: alert page,
halves in the wrong order, wrong CRC, waiting for other words, words that do not fit together (with the offending numbers),
or an ephemeris (with its week and time of ephemeris); a page with a word of another type is passed over silently. -/
theorem c143_galileo (md : Mode) (ops : List NavOp) (n n' : Nav) (cs : List (List NavCall)) (junk : List Byte)
    (m : Sfrbx) (c : List NavCall) (hwf : ∀ op ∈ ops, op.WF) (hm : (NavOp.sfrbx junk m).WF)
    (hrun : Nav.init.run md ops = .ok (n, cs)) (hgal : m.gnssId = 2)
    (hstep : n.step md (.sfrbx junk m) = .ok (n', c)) :
    n.says (.sfrbx junk m) =
      .ok (pageText m.svId m.dwrd (sinceWord2 (pagesOf m.svId (ops ++ [.sfrbx junk m])))) :=
  (page_both hwf hm hrun hgal hstep).1

/-- C143, Galileo: with a callback registered, the success message is written exactly when callbacks are made. -/
theorem c143_success (md : Mode) (ops : List NavOp) (n n' : Nav) (cs : List (List NavCall)) (junk : List Byte)
    (m : Sfrbx) (c : List NavCall) (hwf : ∀ op ∈ ops, op.WF) (hm : (NavOp.sfrbx junk m).WF)
    (hrun : Nav.init.run md ops = .ok (n, cs)) (hgal : m.gnssId = 2)
    (hstep : n.step md (.sfrbx junk m) = .ok (n', c)) (hcb : NavOp.addEphCb ∈ ops) :
    ∃ t, n.says (.sfrbx junk m) = .ok t ∧ (t.err = "GAL Success\n".toList ↔ c ≠ []) := by
  obtain ⟨h1, rs, h2, h3⟩ := page_both hwf hm hrun hgal hstep
  refine ⟨_, h1, ?_⟩
  have hpos : 0 < n.ephCbs := by
    rw [(run_ephCbs hrun).1]
    have : 0 < ephCbCount ops := by
      unfold ephCbCount
      exact List.length_pos_of_mem (List.mem_filter.2 ⟨hcb, rfl⟩)
    omega
  constructor
  · intro he hc
    cases rs with
    | nil => exact h3.1 rfl he
    | cons x rs =>
      rw [h2] at hc
      unfold ephCalls at hc
      have := congrArg List.length hc
      simp at this
      omega
  · intro hc
    refine Decidable.of_not_not fun he => hc ?_
    rw [h2, h3.2 he]; rfl

/-- C143, GLONASS: the text says satellite and number of the string if the string is used (reference time known, check bits
in order, string 1 to 4), and is empty otherwise – in every state of the parser. -/
theorem c143_glonass (n : Nav) (junk : List Byte) (m : Sfrbx) (hm : (NavOp.sfrbx junk m).WF) (hglo : m.gnssId = 6) :
    n.says (.sfrbx junk m) = .ok (stringText m.svId n.gpsTime m.dwrd) := by
  have key : ∀ g : GEph, g.sat = m.svId → gloSays n.gpsTime m.svId m.dwrd g = .ok (stringText m.svId n.gpsTime m.dwrd) := by
    intro g hg
    unfold gloSays stringText
    by_cases h1 : m.svId = 255
    · rw [if_pos h1, if_neg (fun h => h.1 h1)]
    rw [if_neg h1]
    by_cases h2 : n.gpsTime = ⟨0, 0⟩
    · rw [if_pos ((eq_zero _).mpr h2), if_neg (fun h => h.2.1 h2)]
    rw [if_neg (fun hh => h2 ((eq_zero _).mp hh))]
    obtain ⟨buf, b1, b2, b3⟩ := swap_holds m.dwrd 4 (by rw [hm.2]; omega)
    rw [b1, ok_bind, gloTest_ok buf (by rw [b2.1]; omega), ok_bind, b2.str]
    cases h3 : usable (gloBit m.dwrd) with
    | false =>
      have hno : ¬ (m.svId ≠ 255 ∧ n.gpsTime ≠ ⟨0, 0⟩ ∧ false = true ∧ 1 ≤ gloNum m.dwrd ∧ gloNum m.dwrd ≤ 4) :=
        fun h => absurd h.2.2.1 (by decide)
      rw [if_neg hno]; rfl
    | true =>
      have hn : getBit 4 buf 1 = .ok (gloNum m.dwrd) := b2.getU 4 1 84 81
      simp only [Bool.not_true, Bool.false_eq_true, if_false]
      rw [hn, ok_bind, hg]
      by_cases h4 : gloNum m.dwrd < 1 ∨ 4 < gloNum m.dwrd
      · rw [if_pos h4, if_neg (fun h => by omega)]
      · rw [if_neg h4, if_pos ⟨h1, h2, trivial, by omega, by omega⟩]
  unfold Nav.says
  dsimp only
  rw [if_pos (show m.gnssId = GLONASS from hglo)]
  rcases findLast_gen GEph.sat m.svId n.geph 0 none with ⟨h1, h2⟩ | ⟨pre, x, post, h1, h2, h3, h4⟩
  · rw [show (fun x : GEph => x.sat) = GEph.sat from rfl, h1]; exact key _ rfl
  · rw [show (fun x : GEph => x.sat) = GEph.sat from rfl, h4]
    dsimp only
    rw [show n.geph[0 + pre.length]? = some x by rw [h1]; simp]
    exact key _ h2

/-- C143: messages of other systems (GPS, BeiDou, …) and the other operations write nothing. -/
theorem c143_silent (n : Nav) (op : NavOp)
    (h : ∀ junk m, op = .sfrbx junk m → m.gnssId ≠ 2 ∧ m.gnssId ≠ 6) : n.says op = .ok ⟨[], []⟩ := by
  cases op with
  | sfrbx junk m =>
    unfold Nav.says
    dsimp only
    rw [if_neg (show ¬ m.gnssId = GLONASS from (h junk m rfl).2), if_neg (h junk m rfl).1]
  | _ => rfl

/-! ## Concrete cases -/

/-- The text of the last of a sequence of operations. -/
def lastText (ops : List NavOp) (op : NavOp) : Option (String × String) :=
  match Nav.init.run .lenient ops with
  | .ok (n, _) => match n.says op with
    | .ok t => some (String.ofList t.err, String.ofList t.out)
    | .error _ => none
  | .error _ => none

/-- Collecting, a wrong CRC, success, a word 0 without time. -/
example : (lastText ([gal2, gal3].map (gal 7)) (gal 7 gal4), lastText [] (gal 7 gal1bad)) =
    (some ("GAL waiting for other subframes\n", ""), some ("GAL CRC Error: sat= 7\n", "")) := by decide +kernel

example : lastText ([gal2, gal3, gal4, gal5, gal6, gal0].map (gal 7)) (gal 7 gal1) =
    some ("GAL Success\n", "Week = 2224, toes = 60000\n") := by decide +kernel

example : lastText ([gal2, gal3, gal4, gal5, gal6, gal1].map (gal 7)) (gal 7 gal0notime) =
    some ("decode_gal_inav error: word0-time=0\n", "") := by decide +kernel

/-- GLONASS strings with and without a reference time. -/
example : (lastText [.setTime ⟨1600000000, 0⟩] (gloMsg 12 3 glo3), lastText [] (gloMsg 12 3 glo3)) =
    (some ("GLO Sat 12, frm 3\n", ""), some ("", "")) := by decide +kernel

end Ublox.Nav
