import Verif.Lemmas.NavGal
import Verif.Lemmas.NavStrict
import Verif.Lemmas.NavGloRun

/-! Helper lemmas: the Galileo decoder page by page, and over whole histories. -/

namespace Ublox.Nav

/-! ## One page -/

theorem bits1 (f : Nat → Bool) (a : Nat) : bitsVal f a 1 = if f a then 1 else 0 := by
  simp [bitsVal, Bool.toNat]

theorem getBit1 {buf d : List Byte} (h : HoldsW 8 buf d) (p : Nat) (hp : p < 256) :
    getBit 1 buf p = .ok (if galBit d p then 1 else 0) := by
  rw [getBit_ok (by omega) (by omega) (by rw [h.1]; omega)]
  unfold fieldVal
  rw [bits1, h.2 p (by omega), galBit_raw]

theorem holds_odd {buf d : List Byte} (h : HoldsW 8 buf d) : (buf.drop 16).length = 16 ∧
    ∀ p, p < 128 → bitAt (buf.drop 16) p = galBit d (128 + p) := by
  refine ⟨by rw [List.length_drop, h.1], fun p hp => ?_⟩
  rw [bitAt_drop, h.2 _ (by omega), galBit_raw]

theorem getBit1odd {buf d : List Byte} (h : HoldsW 8 buf d) (p : Nat) (hp : p < 128) :
    getBit 1 (buf.drop 16) p = .ok (if galBit d (128 + p) then 1 else 0) := by
  rw [getBit_ok (by omega) (by omega) (by rw [(holds_odd h).1]; omega)]
  unfold fieldVal
  rw [bits1, (holds_odd h).2 p hp]

theorem galFrame_bit (d : List Byte) (i : Nat) (h : i < 224) : bitAt (galFrame d) i =
    if i < 4 then false else if i < 118 then galBit d (i - 4) else galBit d (128 + (i - 118)) := by
  unfold galFrame; rw [bitAt_packBits _ _ _ (by omega)]

theorem sent_eq {buf d : List Byte} (h : HoldsW 8 buf d) :
    getBit 24 (buf.drop 16) 82 = .ok (fieldVal (galFrame d) 200 24) := by
  rw [getBit_ok (by omega) (by omega) (by rw [(holds_odd h).1]; omega)]
  congr 1
  unfold fieldVal
  apply bitsVal_congr
  intro k hk
  rw [(holds_odd h).2 _ (by omega), galFrame_bit _ _ (by omega), if_neg (by omega), if_neg (by omega)]
  congr 1; omega

theorem type_eq {buf d : List Byte} (h : HoldsW 8 buf d) : getBit 6 buf 2 = .ok (wType d) := by
  rw [getBit_ok (by omega) (by omega) (by rw [h.1]; omega)]
  congr 1
  unfold fieldVal wType wU
  apply bitsVal_congr
  intro k hk
  rw [h.2 _ (by omega)]
  unfold wordBit
  rw [if_pos (by omega), galBit_raw, Nat.zero_add]

theorem bitAt_zeros (n i : Nat) : bitAt (List.replicate n (0 : Byte)) i = false := by
  unfold bitAt
  rw [List.getElem?_replicate]
  split
  · rename_i h; simp only [Option.ite_none_right_eq_some, Option.some.injEq] at h; rw [← h.2]; simp
  · rfl

/-- The decoder up to the point where the page is accepted. -/
theorem decodeGalileo_eq {md : Mode} {d row : List Byte} (hd : 32 ≤ d.length) (e : Eph) :
    ∃ buf, HoldsW 8 buf d ∧
      (GoodPage d → e.sat ≠ 0 → decodeGalileo md d row e = galAccept md buf (buf.drop 16) (wType d) row e) ∧
      (GoodPage d → e.sat = 0 → decodeGalileo md d row e = .error .oobWrite) ∧
      (¬ GoodPage d → decodeGalileo md d row e = .ok ⟨row, e, [], false⟩) := by
  obtain ⟨buf, h1, hh, -⟩ := swap_holds d 8 (by omega)
  refine ⟨buf, hh, ?_⟩
  obtain ⟨c1, k1, l1, b1⟩ := copyBits_ok buf 15 0 4 (List.replicate 26 0) (by rw [hh.1]; omega) (by simp)
  rw [List.length_replicate] at l1
  obtain ⟨c2, k2, l2, b2⟩ := copyBits_ok buf 11 16 118 c1 (by rw [hh.1]; omega) (by omega)
  have hb : ∀ p, p < 200 → bitAt c2 p = bitAt (galFrame d) p := by
    intro p hp
    rw [b2, b1, galFrame_bit _ _ (by omega)]
    by_cases p1 : p < 4
    · rw [if_neg (by omega), if_neg (by omega), if_pos p1, bitAt_zeros]
    · rw [if_neg p1]
      by_cases p2 : p < 118
      · rw [if_neg (by omega), if_pos (by omega), if_pos p2, hh.2 _ (by omega), galBit_raw]; congr 1; omega
      · rw [if_pos (by omega), if_neg p2, hh.2 _ (by omega), galBit_raw]
  obtain ⟨c, hc, hiff⟩ := crc_test (d := d) (by omega) hb
  have key : decodeGalileo md d row e =
      (if galBit d 1 = true ∨ galBit d 129 = true then .ok ⟨row, e, [], false⟩
      else if galBit d 0 = true ∨ galBit d 128 = false then .ok ⟨row, e, [], false⟩
      else if c ≠ fieldVal (galFrame d) 200 24 then .ok ⟨row, e, [], false⟩
      else if wType d > 6 then .ok ⟨row, e, [], false⟩
      else if e.sat = 0 then .error .oobWrite
      else galAccept md buf (buf.drop 16) (wType d) row e) := by
    unfold decodeGalileo
    rw [h1, ok_bind]
    dsimp only
    rw [getBit1 hh 0 (by omega), ok_bind, getBit1 hh 1 (by omega), ok_bind, getBit1odd hh 0 (by omega), ok_bind,
      getBit1odd hh 1 (by omega), ok_bind, k1, ok_bind, k2, ok_bind, hc, ok_bind, sent_eq hh, ok_bind, type_eq hh, ok_bind]
    cases galBit d 1 <;> cases galBit d 129 <;> cases galBit d 0 <;> cases galBit d 128 <;> simp
  refine ⟨?_, ?_, ?_⟩
  · intro hg hs
    rw [key, if_neg (by rw [hg.nominal.1, hg.nominal.2]; simp), if_neg (by rw [hg.order.1, hg.order.2]; simp),
      if_neg (by simp [hiff.mpr hg.crc]), if_neg (by have := hg.type; omega), if_neg hs]
  · intro hg hs
    rw [key, if_neg (by rw [hg.nominal.1, hg.nominal.2]; simp), if_neg (by rw [hg.order.1, hg.order.2]; simp),
      if_neg (by simp [hiff.mpr hg.crc]), if_neg (by have := hg.type; omega), if_pos hs]
  · intro hg
    rw [key]
    split
    · rfl
    split
    · rfl
    split
    · rfl
    split
    · rfl
    · rename_i q1 q2 q3 q4
      refine absurd ⟨?_, ?_, hiff.mp (by simpa using q3), by omega⟩ hg
      · simpa using q1
      · simpa using q2

/-! ## Reading the page store -/

/-- The row holds the seven words `w 0 .. w 6`. -/
structure RowHolds (row : List Byte) (w : Nat → List Byte) : Prop where
  len : row.length = 380
  bits : ∀ k i, k ≤ 6 → i < 128 → bitAt row (128 * k + i) = wordBit (w k) i

theorem RowHolds.field {row : List Byte} {w : Nat → List Byte} (h : RowHolds row w) (k a n p : Nat) (hk : k ≤ 6)
    (hp : p = 128 * k + a) (hn : a + n ≤ 128) : fieldVal row p n = wU (w k) a n := by
  subst hp
  unfold fieldVal wU
  apply bitsVal_congr
  intro j hj
  rw [Nat.add_assoc, h.bits k (a + j) hk (by omega)]

theorem RowHolds.u {row : List Byte} {w : Nat → List Byte} (h : RowHolds row w) (k a n p : Nat) (hk : k ≤ 6 := by decide)
    (hp : p = 128 * k + a := by decide) (h1 : 1 ≤ n := by decide) (h2 : n ≤ 32 := by decide)
    (hn : a + n ≤ 128 := by decide) : getBitRt row p n = .ok (wU (w k) a n) := by
  rw [getBitRt_ok h1 h2 (by rw [h.len]; omega), h.field k a n p hk hp hn]

theorem RowHolds.s {row : List Byte} {w : Nat → List Byte} (h : RowHolds row w) (k a n p : Nat) (hk : k ≤ 6 := by decide)
    (hp : p = 128 * k + a := by decide) (h1 : 1 ≤ n := by decide) (h2 : n ≤ 32 := by decide)
    (hn : a + n ≤ 128 := by decide) : getBitRtS row p n = .ok (wS (w k) a n) := by
  rw [c36_getBitRtS n p row h1 h2 (by unfold FieldIn; rw [h.len]; omega), h.field k a n p hk hp hn, wS]

theorem wU_lt (d : List Byte) (a n : Nat) : wU d a n < 2 ^ n := bitsVal_lt _ _ _

attribute [local irreducible] wU wS

/-- The members written before the consistency tests. -/
def galUpd (w : Nat → List Byte) (e : Eph) : Eph := { e with
    toes := wU (w 1) 16 14 * 60
    m0 := ⟨wS (w 1) 30 32, [.p2 31, .pi]⟩
    ecc := ⟨wU (w 1) 62 32, [.p2 33]⟩
    omega0 := ⟨wS (w 2) 16 32, [.p2 31, .pi]⟩
    i0 := ⟨wS (w 2) 48 32, [.p2 31, .pi]⟩
    w := ⟨wS (w 2) 80 32, [.p2 31, .pi]⟩
    idot := ⟨wS (w 2) 112 14, [.p2 43, .pi]⟩
    omegadot := ⟨wS (w 3) 16 24, [.p2 43, .pi]⟩
    deltaN := ⟨wS (w 3) 40 16, [.p2 43, .pi]⟩
    cuc := ⟨wS (w 3) 56 16, [.p2 29]⟩
    cus := ⟨wS (w 3) 72 16, [.p2 29]⟩
    crc := ⟨wS (w 3) 88 16, [.p2 5]⟩
    crs := ⟨wS (w 3) 104 16, [.p2 5]⟩
    cic := ⟨wS (w 4) 22 16, [.p2 29]⟩
    cis := ⟨wS (w 4) 38 16, [.p2 29]⟩
    af0 := ⟨wS (w 4) 68 31, [.p2 34]⟩
    af1 := ⟨wS (w 4) 99 21, [.p2 46]⟩
    af2 := ⟨wS (w 4) 120 6, [.p2 59]⟩
    tgd0 := ⟨wS (w 5) 47 10, [.p2 32]⟩
    tgd1 := ⟨wS (w 5) 57 10, [.p2 32]⟩ }

/-- The members written after them. -/
def galFin (w : Nat → List Byte) (week : Int) (toe toc : UTCTime) (e : Eph) : Eph := { e with
    sqrta := ⟨wU (w 1) 94 32, [.p2 19]⟩
    iodc := iodNav (w 1)
    iode := iodNav (w 1) % 256
    toe := toe
    toc := toc
    week := (week % 65536).toNat }

/-- The two conversions decide the week. -/
def galDates (w : Nat → List Byte) (e1 : Eph) : M (Eph × Bool) := do
  let ttr ← UTCTime.fromGalileo (galWeek (w 0)) ((galTow (w 0) * 1000 : Nat) : Int)
  let t ← UTCTime.fromGalileo (galWeek (w 0)) ((galToe (w 1) * 1000 : Nat) : Int)
  let dt := t.sub ttr
  let week1 : Int := if secGt dt 302400 then (galWeek (w 0) : Int) - 1 else if secLt dt (-302400) then (galWeek (w 0) : Int) + 1
    else galWeek (w 0)
  let toe ← UTCTime.fromGalileo (week1 + 1024) ((galToe (w 1) * 1000 : Nat) : Int)
  let tocT ← UTCTime.fromGalileo (week1 + 1024) ((galToc (w 4) * 1000 : Nat) : Int)
  .ok (galFin w (week1 + 1024) toe tocT e1, true)

theorem galInav_eq {row : List Byte} {w : Nat → List Byte} (h : RowHolds row w) (e : Eph)
    (ht : ∀ k, k ≤ 6 → wType (w k) = k) :
    galInav row e = if wU (w 0) 6 2 ≠ 2 then .ok (galUpd w e, false)
      else if iodNav (w 1) ≠ iodNav (w 2) ∨ iodNav (w 1) ≠ iodNav (w 3) ∨ iodNav (w 1) ≠ iodNav (w 4) then .ok (galUpd w e, false)
      else galDates w (galUpd w e) := by
  unfold galInav
  simp only [h.u 0 0 6 0, h.u 0 6 2 6, h.u 0 96 12 96, h.u 0 108 20 108, h.u 1 0 6 128, h.u 1 6 10 134, h.u 1 16 14 144,
    h.s 1 30 32 158, h.u 1 62 32 190, h.u 1 94 32 222, h.u 2 0 6 256, h.u 2 6 10 262, h.s 2 16 32 272, h.s 2 48 32 304,
    h.s 2 80 32 336, h.s 2 112 14 368, h.u 3 0 6 384, h.u 3 6 10 390, h.s 3 16 24 400, h.s 3 40 16 424, h.s 3 56 16 440,
    h.s 3 72 16 456, h.s 3 88 16 472, h.s 3 104 16 488, h.u 4 0 6 512, h.u 4 6 10 518, h.u 4 16 6 528, h.s 4 22 16 534,
    h.s 4 38 16 550, h.u 4 54 14 566, h.s 4 68 31 580, h.s 4 99 21 611, h.s 4 120 6 632, h.u 5 0 6 640, h.s 5 47 10 687,
    h.s 5 57 10 697, h.u 5 67 2 707, h.u 5 69 2 709, h.u 5 71 1 711, h.u 5 72 1 712, ok_bind]
  have t0 := ht 0 (by omega)
  have t1 := ht 1 (by omega)
  have t2 := ht 2 (by omega)
  have t3 := ht 3 (by omega)
  have t4 := ht 4 (by omega)
  unfold wType at t0 t1 t2 t3 t4
  rw [t0, t1, t2, t3, t4, if_neg (by simp)]
  rfl

/-- `fromGPS` on whole seconds, with its overflow. -/
theorem fromGPS_gen (w : Int) (s : Nat) (h0 : 0 ≤ w) (h1 : w ≤ 6000) (hs : s ≤ 1048575) :
    UTCTime.fromGPS w ((s * 1000 : Nat) : Int) =
      if w * 604800 + s ≤ 2147483647 then .ok ⟨315964818 + w * 604800 + s, 0⟩ else .error .overflow := by
  have e0 : ((s * 1000 : Nat) : Int) = (s : Int) * 1000 := by omega
  have e1 : ((s : Int) * 1000).tdiv 1000 = s := by rw [Int.tdiv_eq_ediv_of_nonneg (by omega)]; omega
  have e2 : ((s : Int) * 1000).tmod 1000 = 0 := by rw [Int.tmod_eq_emod_of_nonneg (by omega)]; omega
  have e3 : UTCTime.wrapNsec ⟨w * UTCTime.SEC_IN_WEEK + s + UTCTime.GPS_UTC_OFFSET, 0 * UTCTime.E9⟩ =
      ⟨315964818 + w * 604800 + s, 0⟩ := by
    unfold UTCTime.wrapNsec UTCTime.E9 UTCTime.SEC_IN_WEEK UTCTime.GPS_UTC_OFFSET
    simp only [Int.zero_mul]
    rw [if_neg (by omega), if_neg (by omega)]
    rw [UTCTime.mk.injEq]; exact ⟨by omega, rfl⟩
  unfold UTCTime.fromGPS
  by_cases c1 : w * 604800 ≤ 2147483647
  · have b1 : UTCTime.int32 (w * UTCTime.SEC_IN_WEEK) = .ok (w * UTCTime.SEC_IN_WEEK) := by
      unfold UTCTime.int32 UTCTime.SEC_IN_WEEK; rw [if_pos (by omega)]
    rw [b1, ok_bind, e0, e1]
    by_cases c2 : w * 604800 + s ≤ 2147483647
    · have b2 : UTCTime.int32 (w * UTCTime.SEC_IN_WEEK + s) = .ok (w * UTCTime.SEC_IN_WEEK + s) := by
        unfold UTCTime.int32 UTCTime.SEC_IN_WEEK; rw [if_pos (by omega)]
      rw [b2, ok_bind, e2, e3, if_pos c2]
    · have b2 : UTCTime.int32 (w * UTCTime.SEC_IN_WEEK + s) = .error .overflow := by
        unfold UTCTime.int32 UTCTime.SEC_IN_WEEK; rw [if_neg (by omega)]
      rw [b2, if_neg c2]; rfl
  · have b1 : UTCTime.int32 (w * UTCTime.SEC_IN_WEEK) = .error .overflow := by
      unfold UTCTime.int32 UTCTime.SEC_IN_WEEK; rw [if_neg (by omega)]
    rw [b1, if_neg (by omega)]; rfl

theorem sub_sec (a b : Int) : UTCTime.sub ⟨a, 0⟩ ⟨b, 0⟩ = ⟨a - b, 0⟩ := by
  unfold UTCTime.sub UTCTime.wrapNsec UTCTime.E9
  simp only [Int.sub_self]
  rw [if_neg (by omega), if_neg (by omega)]

theorem secGt_sec (a n : Int) : secGt ⟨a, 0⟩ n = decide (a > n) := by
  unfold secGt UTCTime.E9; rw [decide_eq_decide]; dsimp only; omega

theorem secLt_sec (a n : Int) : secLt ⟨a, 0⟩ n = decide (a < n) := by
  unfold secLt UTCTime.E9; rw [decide_eq_decide]; dsimp only; omega

theorem toeWeek_range (d0 d1 : List Byte) : (galWeek d0 : Int) - 1 ≤ toeWeek d0 d1 ∧ toeWeek d0 d1 ≤ galWeek d0 + 1 := by
  unfold toeWeek; split
  · omega
  split <;> omega

theorem gal_ranges (d0 d1 d4 : List Byte) : galWeek d0 < 4096 ∧ galTow d0 < 1048576 ∧ galToe d1 ≤ 982980 ∧ galToc d4 ≤ 982980 := by
  have h1 := wU_lt d0 96 12
  have h2 := wU_lt d0 108 20
  have h3 := wU_lt d1 16 14
  have h4 := wU_lt d4 54 14
  refine ⟨h1, h2, ?_, ?_⟩
  · unfold galToe; omega
  · unfold galToc; omega

theorem galDates_eq (w : Nat → List Byte) (e1 : Eph) : galDates w e1 =
    if DatesFit (w 0) (w 1) (w 4) then
      .ok (galFin w (toeWeek (w 0) (w 1) + 1024)
        ⟨315964818 + (toeWeek (w 0) (w 1) + 1024) * 604800 + galToe (w 1), 0⟩
        ⟨315964818 + (toeWeek (w 0) (w 1) + 1024) * 604800 + galToc (w 4), 0⟩ e1, true)
    else .error .overflow := by
  obtain ⟨r1, r2, r3, r4⟩ := gal_ranges (w 0) (w 1) (w 4)
  obtain ⟨q1, q2⟩ := toeWeek_range (w 0) (w 1)
  unfold galDates UTCTime.fromGalileo
  rw [fromGPS_gen _ _ (by omega) (by omega) (by omega), fromGPS_gen _ _ (by omega) (by omega) (by omega)]
  by_cases c1 : (galWeek (w 0) : Int) * 604800 + galTow (w 0) ≤ 2147483647
  · rw [if_pos c1, ok_bind]
    by_cases c2 : (galWeek (w 0) : Int) * 604800 + galToe (w 1) ≤ 2147483647
    · rw [if_pos c2, ok_bind]
      dsimp only
      rw [sub_sec, secGt_sec, secLt_sec]
      have hw : (if decide ((315964818 + (galWeek (w 0) : Int) * 604800 + galToe (w 1)) -
            (315964818 + (galWeek (w 0) : Int) * 604800 + galTow (w 0)) > 302400) = true then (galWeek (w 0) : Int) - 1
          else if decide ((315964818 + (galWeek (w 0) : Int) * 604800 + galToe (w 1)) -
            (315964818 + (galWeek (w 0) : Int) * 604800 + galTow (w 0)) < -302400) = true then (galWeek (w 0) : Int) + 1
          else galWeek (w 0)) = toeWeek (w 0) (w 1) := by
        unfold toeWeek
        simp only [decide_eq_true_eq]
        by_cases k1 : (galToe (w 1) : Int) - galTow (w 0) > 302400
        · rw [if_pos (by omega), if_pos k1]
        · rw [if_neg (by omega), if_neg k1]
          by_cases k2 : (galToe (w 1) : Int) - galTow (w 0) < -302400
          · rw [if_pos (by omega), if_pos k2]
          · rw [if_neg (by omega), if_neg k2]
      rw [hw, fromGPS_gen _ _ (by omega) (by omega) (by omega), fromGPS_gen _ _ (by omega) (by omega) (by omega)]
      by_cases c3 : (toeWeek (w 0) (w 1) + 1024) * 604800 + galToe (w 1) ≤ 2147483647
      · rw [if_pos c3, ok_bind]
        by_cases c4 : (toeWeek (w 0) (w 1) + 1024) * 604800 + galToc (w 4) ≤ 2147483647
        · rw [if_pos c4, ok_bind, if_pos ⟨c3, c4⟩]
        · rw [if_neg c4, if_neg (show ¬ DatesFit (w 0) (w 1) (w 4) from fun h => c4 h.2)]; rfl
      · rw [if_neg c3, if_neg (show ¬ DatesFit (w 0) (w 1) (w 4) from fun h => c3 h.1)]; rfl
    · rw [if_neg c2, if_neg (show ¬ DatesFit (w 0) (w 1) (w 4) from fun h => by unfold DatesFit at h; omega)]; rfl
  · rw [if_neg c1, if_neg (show ¬ DatesFit (w 0) (w 1) (w 4) from fun h => by unfold DatesFit at h; omega)]; rfl

/-! ## Storing a page -/

/-- What the page store holds for a satellite, given the pages since the latest word of type 2. -/
structure GalColl (P : List (List Byte)) (row : List Byte) : Prop where
  len : row.length = 380
  flag : ∀ k, k < 8 → (row.getD 112 0).getLsbD k = (decide (k ≤ 6) && (latestW k P).isSome)
  bits : ∀ k d, k ≤ 6 → latestW k P = some d → ∀ i, i < 128 → bitAt row (128 * k + i) = wordBit d i

/-- One more page. -/
def addPage (P : List (List Byte)) (d : List Byte) : List (List Byte) := if wType d = 2 then [d] else P ++ [d]

theorem sinceWord2_snoc (H : List (List Byte)) (d : List Byte) : sinceWord2 (H ++ [d]) = addPage (sinceWord2 H) d := by
  unfold sinceWord2 addPage; rw [List.foldl_append]; rfl

theorem latestW_snoc (k : Nat) (P : List (List Byte)) (d : List Byte) :
    latestW k (P ++ [d]) = if wType d = k then some d else latestW k P := by
  unfold latestW
  by_cases h : wType d = k
  · simp [List.filter_append, h]
  · simp [List.filter_append, h]

theorem latestW_addPage (k : Nat) (P : List (List Byte)) (d : List Byte) :
    latestW k (addPage P d) = if wType d = k then some d else if wType d = 2 then none else latestW k P := by
  unfold addPage
  by_cases h : wType d = 2
  · rw [if_pos h, if_pos h]
    have := latestW_snoc k [] d
    rw [List.nil_append] at this
    rw [this]; rfl
  · rw [if_neg h, if_neg h, latestW_snoc]

theorem latestW_type {k : Nat} {P : List (List Byte)} {d : List Byte} (h : latestW k P = some d) : wType d = k := by
  have := List.mem_of_getLast? h
  simpa using (List.mem_filter.mp this).2

theorem coll_zero : GalColl [] (List.replicate 380 0) := by
  refine ⟨List.length_replicate, fun k hk => ?_, fun k d _ h => ?_⟩
  · rw [List.getD_eq_getElem?_getD, List.getElem?_replicate, if_pos (by omega)]
    simp [latestW]
  · cases h

theorem getD_bit {row : List Byte} (h : row.length = 380) (k : Nat) (hk : k < 8) :
    (row.getD 112 0).getLsbD k = bitAt row (903 - k) := by
  unfold bitAt
  rw [List.getD_eq_getElem?_getD, show (903 - k) / 8 = 112 by omega, List.getElem?_eq_getElem (by omega)]
  dsimp only [Option.getD]
  congr 1; omega

theorem all_flags (b : Byte) : b = 0x7F ↔ ∀ k, k < 8 → b.getLsbD k = decide (k ≤ 6) := by
  constructor
  · rintro rfl; decide
  · intro h
    apply BitVec.eq_of_getLsbD_eq
    intro i hi
    rw [h i hi]
    revert i
    decide

/-- Storing an accepted page. -/
theorem store_ok {md : Mode} {d buf row : List Byte} {P : List (List Byte)} (hh : HoldsW 8 buf d) (ht : wType d ≤ 6)
    (hc : GalColl P row) (e : Eph) :
    ∃ row', GalColl (addPage P d) row' ∧ galAccept md buf (buf.drop 16) (wType d) row e =
      if row'.getD 112 0 ≠ 0x7F then .ok ⟨row', e, [], false⟩
      else (do
        let (e1, good) ← galInav row' e
        if !good then .ok ⟨row', e1, [], false⟩
        else do
          offEnd md
          .ok ⟨row', e1, [e1], true⟩) := by
  obtain ⟨row0, h0, l0, b0⟩ : ∃ row0, restartFlags (wType d) row = .ok row0 ∧ row0.length = 380 ∧
      ∀ p, bitAt row0 p = if wType d = 2 ∧ p / 8 = 112 then false else bitAt row p := by
    unfold restartFlags
    by_cases h2 : wType d = 2
    · rw [if_pos h2, wr_ok (by rw [hc.len]; omega)]
      refine ⟨_, rfl, by rw [List.length_set, hc.len], fun p => ?_⟩
      rw [bitAt_set _ (by rw [hc.len]; omega)]
      by_cases hp : p / 8 = 112
      · rw [if_pos hp, if_pos ⟨h2, hp⟩]; simp
      · rw [if_neg hp, if_neg (fun h => hp h.2)]
    · rw [if_neg h2]
      exact ⟨row, rfl, hc.len, fun p => by rw [if_neg (fun h => h2 h.1)]⟩
  obtain ⟨row1, h1, l1, b1⟩ := storeBytes_ok buf 14 2 (wType d * 16) row0 (by rw [hh.1]; omega) (by omega)
  obtain ⟨row2, h2, l2, b2⟩ := storeBytes_ok (buf.drop 16) 2 2 (wType d * 16 + 14) row1 (by rw [(holds_odd hh).1]; omega)
    (by omega)
  have hl2 : row2.length = 380 := by omega
  have hrd : rd row2 112 = .ok (row2.getD 112 0) := by
    rw [rd_ok (by omega), List.getD_eq_getElem?_getD, List.getElem?_eq_getElem (by omega)]; rfl
  refine ⟨row2.set 112 (row2.getD 112 0 ||| BitVec.ofNat 8 (1 <<< wType d)), ⟨?_, ?_, ?_⟩, ?_⟩
  · rw [List.length_set, hl2]
  · intro k hk
    rw [List.getD_eq_getElem?_getD, List.getElem?_set_self (by omega)]
    dsimp only [Option.getD]
    rw [BitVec.getLsbD_or, getD_bit hl2 k hk, b2, if_neg (by omega), b1, if_neg (by omega), b0, latestW_addPage]
    have hbit : (BitVec.ofNat 8 (1 <<< wType d)).getLsbD k = decide (wType d = k) := by
      rw [BitVec.getLsbD_ofNat, Nat.one_shiftLeft, Nat.testBit_two_pow]
      simp [hk]
    rw [hbit, ← getD_bit hc.len k hk, hc.flag k hk]
    by_cases c1 : wType d = k
    · rw [if_pos c1]; simp [c1]; omega
    · rw [if_neg c1]
      by_cases c2 : wType d = 2
      · rw [if_pos ⟨c2, by omega⟩, if_pos c2]; simp [c1]
      · rw [if_neg (fun h => c2 h.1), if_neg c2]; simp [c1]
  · intro k dk hk hlat i hi
    rw [bitAt_set _ (by omega), if_neg (by omega), b2]
    rw [latestW_addPage] at hlat
    by_cases c1 : wType d = k
    · rw [if_pos c1] at hlat
      injection hlat with hlat
      subst hlat
      by_cases ci : i < 112
      · rw [if_neg (by omega), b1, if_pos (by omega), hh.2 _ (by omega)]
        unfold wordBit
        rw [if_pos ci, galBit_raw]; congr 1; omega
      · rw [if_pos (by omega), (holds_odd hh).2 _ (by omega)]
        unfold wordBit
        rw [if_neg ci]; congr 1; omega
    · rw [if_neg c1] at hlat
      by_cases c2 : wType d = 2
      · rw [if_pos c2] at hlat; cases hlat
      · rw [if_neg c2] at hlat
        rw [if_neg (by omega), b1, if_neg (by omega), b0, if_neg (fun h => c2 h.1)]
        exact hc.bits k dk hk hlat i hi
  · unfold galAccept
    rw [h0, ok_bind, h1, ok_bind, h2, ok_bind, hrd, ok_bind]
    dsimp only
    rw [wr_ok (by omega), ok_bind, List.getD_eq_getElem?_getD (l := row2.set _ _), List.getElem?_set_self (by omega)]
    rfl

/-! ## One message -/

/-- The word of type `k` in the collection (any list if there is none). -/
def wordOf (P : List (List Byte)) (k : Nat) : List Byte := (latestW k P).getD []

theorem wordOf_eq {P : List (List Byte)} {k : Nat} (h : (latestW k P).isSome) : latestW k P = some (wordOf P k) := by
  unfold wordOf
  cases hl : latestW k P with
  | none => rw [hl] at h; cases h
  | some d => rfl

/-- All seven words are there. -/
def Complete (P : List (List Byte)) : Prop := ∀ k, k ≤ 6 → (latestW k P).isSome

theorem complete_iff {P : List (List Byte)} {row : List Byte} (hc : GalColl P row) : row.getD 112 0 = 0x7F ↔ Complete P := by
  rw [all_flags]
  constructor
  · intro h k hk
    have := h k (by omega)
    rw [hc.flag k (by omega)] at this
    simpa [hk] using this
  · intro h k hk
    rw [hc.flag k hk]
    by_cases h6 : k ≤ 6
    · simp [h6, h k h6]
    · simp [h6]

theorem GalColl.holds {P : List (List Byte)} {row : List Byte} (hc : GalColl P row) (h : Complete P) :
    RowHolds row (wordOf P) ∧ ∀ k, k ≤ 6 → wType (wordOf P k) = k :=
  ⟨⟨hc.len, fun k i hk hi => hc.bits k _ hk (wordOf_eq (h k hk)) i hi⟩,
   fun k hk => latestW_type (wordOf_eq (h k hk))⟩

/-- The ephemeris in the words of a collection. -/
def galEph (w : Nat → List Byte) (e : Eph) : Eph :=
  galFin w (toeWeek (w 0) (w 1) + 1024)
    ⟨315964818 + (toeWeek (w 0) (w 1) + 1024) * 604800 + galToe (w 1), 0⟩
    ⟨315964818 + (toeWeek (w 0) (w 1) + 1024) * 604800 + galToc (w 4), 0⟩ (galUpd w e)

/-- Words 0-4 of a collection are consistent. -/
def ConsistentP (P : List (List Byte)) : Prop :=
  Consistent (wordOf P 0) (wordOf P 1) (wordOf P 2) (wordOf P 3) (wordOf P 4)

/-- The four outcomes of an accepted page. -/
theorem accept_cases {md : Mode} {d buf row : List Byte} {P : List (List Byte)} (hh : HoldsW 8 buf d) (ht : wType d ≤ 6)
    (hc : GalColl P row) (e : Eph) :
    ∃ row', GalColl (addPage P d) row' ∧
      (¬ Complete (addPage P d) → galAccept md buf (buf.drop 16) (wType d) row e = .ok ⟨row', e, [], false⟩) ∧
      (Complete (addPage P d) → ¬ ConsistentP (addPage P d) →
        galAccept md buf (buf.drop 16) (wType d) row e = .ok ⟨row', galUpd (wordOf (addPage P d)) e, [], false⟩) ∧
      (Complete (addPage P d) → ConsistentP (addPage P d) →
        ¬ DatesFit (wordOf (addPage P d) 0) (wordOf (addPage P d) 1) (wordOf (addPage P d) 4) →
        galAccept md buf (buf.drop 16) (wType d) row e = .error .overflow) ∧
      (Complete (addPage P d) → ConsistentP (addPage P d) →
        DatesFit (wordOf (addPage P d) 0) (wordOf (addPage P d) 1) (wordOf (addPage P d) 4) →
        galAccept md buf (buf.drop 16) (wType d) row e = (do
          offEnd md
          .ok ⟨row', galEph (wordOf (addPage P d)) e, [galEph (wordOf (addPage P d)) e], true⟩)) := by
  obtain ⟨row', hc', heq⟩ := store_ok (md := md) hh ht hc e
  refine ⟨row', hc', ?_⟩
  generalize addPage P d = Q at *
  rw [heq]
  have hiff := complete_iff hc'
  have inav : Complete Q → galInav row' e = _ := fun h => galInav_eq (hc'.holds h).1 e (hc'.holds h).2
  have hcons : ConsistentP Q ↔ ¬ (wU (wordOf Q 0) 6 2 ≠ 2) ∧ ¬ (iodNav (wordOf Q 1) ≠ iodNav (wordOf Q 2) ∨
      iodNav (wordOf Q 1) ≠ iodNav (wordOf Q 3) ∨ iodNav (wordOf Q 1) ≠ iodNav (wordOf Q 4)) := by
    unfold ConsistentP Consistent
    simp only [ne_eq, not_or, not_not]
  refine ⟨?_, ?_, ?_, ?_⟩
  · intro h
    rw [if_pos (fun hh => h (hiff.mp hh))]
  · intro h h2
    rw [if_neg (fun hh => hh (hiff.mpr h)), inav h]
    by_cases k1 : wU (wordOf Q 0) 6 2 ≠ 2
    · rw [if_pos k1, ok_bind]; rfl
    · rw [if_neg k1]
      have k2 : ¬ ¬ _ := fun k2 => h2 (hcons.mpr ⟨k1, k2⟩)
      rw [not_not] at k2
      rw [if_pos k2, ok_bind]; rfl
  · intro h h2 h3
    obtain ⟨k1, k2⟩ := hcons.mp h2
    rw [if_neg (fun hh => hh (hiff.mpr h)), inav h, if_neg k1, if_neg k2, galDates_eq, if_neg h3]; rfl
  · intro h h2 h3
    obtain ⟨k1, k2⟩ := hcons.mp h2
    rw [if_neg (fun hh => hh (hiff.mpr h)), inav h, if_neg k1, if_neg k2, galDates_eq, if_pos h3, ok_bind]; rfl

theorem galEph_carries (w : Nat → List Byte) (e : Eph) (s : Byte) (h1 : e.sat = s) (h2 : e.gnssID = 2) :
    CarriesGal (galEph w e) s (w 0) (w 1) (w 2) (w 3) (w 4) (w 5) := by
  obtain ⟨r1, -, -, -⟩ := gal_ranges (w 0) (w 1) (w 4)
  obtain ⟨q1, q2⟩ := toeWeek_range (w 0) (w 1)
  have hw : (((toeWeek (w 0) (w 1) + 1024) % 65536).toNat : Int) = toeWeek (w 0) (w 1) + 1024 := by omega
  unfold galEph galFin galUpd
  cases e
  dsimp only at h1 h2
  exact ⟨h1, h2, rfl, rfl, rfl, rfl, rfl, rfl, rfl, rfl, rfl, rfl, rfl, rfl, rfl, rfl, rfl, rfl, rfl, rfl, rfl, rfl, rfl, rfl,
    rfl, hw, rfl, rfl⟩

/-- The page as `ephStep` sees it. -/
theorem ephStep_gal {md : Mode} {junk : List Byte} {t : UTCTime} {row : List Byte} {m : Sfrbx} {e : Eph} (hm : m.gnssId = 2) :
    ephStep md junk t row m e = (do
      let o ← decodeGalileo md m.dwrd row { e with sat := m.svId, gnssID := m.gnssId }
      .ok ⟨o.eph, t, o.row, o.reports, some o.ret⟩) := by
  unfold ephStep
  dsimp only
  rw [if_neg (by rw [hm]; decide), if_pos hm]

/-! ## Histories -/

theorem pagesOf_snoc (s : Byte) (ops : List NavOp) (op : NavOp) : pagesOf s (ops ++ [op]) = pagesOf s ops ++ pagesOf s [op] := by
  unfold pagesOf; rw [List.filterMap_append]

theorem pagesOf_other (s : Byte) (junk : List Byte) (m : Sfrbx) (h : ¬ (m.gnssId = 2 ∧ m.svId = s ∧ GoodPage m.dwrd)) :
    pagesOf s [.sfrbx junk m] = [] := by
  unfold pagesOf
  simp only [List.filterMap_cons, List.filterMap_nil]
  rw [if_neg h]

theorem pagesOf_page (s : Byte) (junk : List Byte) (m : Sfrbx) (h : m.gnssId = 2 ∧ m.svId = s ∧ GoodPage m.dwrd) :
    pagesOf s [.sfrbx junk m] = [m.dwrd] := by
  unfold pagesOf
  simp only [List.filterMap_cons, List.filterMap_nil]
  rw [if_pos h]

theorem pagesOf_snoc_other (s : Byte) (ops : List NavOp) (junk : List Byte) (m : Sfrbx)
    (h : ¬ (m.gnssId = 2 ∧ m.svId = s ∧ GoodPage m.dwrd)) : pagesOf s (ops ++ [.sfrbx junk m]) = pagesOf s ops := by
  rw [pagesOf_snoc, pagesOf_other _ _ _ h, List.append_nil]

theorem sinceWord2_page (s : Byte) (ops : List NavOp) (junk : List Byte) (m : Sfrbx)
    (h : m.gnssId = 2 ∧ m.svId = s ∧ GoodPage m.dwrd) :
    sinceWord2 (pagesOf s (ops ++ [.sfrbx junk m])) = addPage (sinceWord2 (pagesOf s ops)) m.dwrd := by
  rw [pagesOf_snoc, pagesOf_page _ _ _ h, sinceWord2_snoc]

theorem ephStep_row {md : Mode} {junk : List Byte} {t : UTCTime} {row : List Byte} {m : Sfrbx} {e : Eph} {r : EphOut}
    (hm : m.gnssId ≠ 2) (h : ephStep md junk t row m e = .ok r) : r.row = row := by
  unfold ephStep at h
  dsimp only at h
  split at h
  · rw [bind_ok] at h
    obtain ⟨a, -, h⟩ := h
    injection h with h; subst h; rfl
  rw [bind_ok] at h
  obtain ⟨a, -, h⟩ := h
  injection h with h; subst h; rfl

/-- A good page of satellite `s`: new row, and what is reported. -/
theorem gal_good {md : Mode} {junk : List Byte} {t : UTCTime} {row : List Byte} {m : Sfrbx} {e : Eph} {r : EphOut}
    {P : List (List Byte)} (hm : m.gnssId = 2) (hd : 32 ≤ m.dwrd.length) (hg : GoodPage m.dwrd) (hc : GalColl P row)
    (h : ephStep md junk t row m e = .ok r) :
    GalColl (addPage P m.dwrd) r.row ∧ r.gpsTime = t ∧ m.svId ≠ 0 ∧
      ((r.reports = [] ∧ r.ret = some false ∧ ¬ (Complete (addPage P m.dwrd) ∧ ConsistentP (addPage P m.dwrd))) ∨
       ∃ x, r.reports = [x] ∧ r.ret = some true ∧ r.eph = x ∧ Complete (addPage P m.dwrd) ∧ ConsistentP (addPage P m.dwrd) ∧
         md = .lenient ∧
         CarriesGal x m.svId (wordOf (addPage P m.dwrd) 0) (wordOf (addPage P m.dwrd) 1) (wordOf (addPage P m.dwrd) 2)
           (wordOf (addPage P m.dwrd) 3) (wordOf (addPage P m.dwrd) 4) (wordOf (addPage P m.dwrd) 5)) := by
  rw [ephStep_gal hm, bind_ok] at h
  obtain ⟨o, h1, h⟩ := h
  injection h with h; subst h
  obtain ⟨buf, hh, g1, g2, -⟩ := decodeGalileo_eq (md := md) (row := row) hd { e with sat := m.svId, gnssID := m.gnssId }
  by_cases hs : m.svId = 0
  · rw [g2 hg hs] at h1; cases h1
  rw [g1 hg hs] at h1
  obtain ⟨row', hc', a1, a2, a3, a4⟩ := accept_cases (md := md) hh hg.type hc { e with sat := m.svId, gnssID := m.gnssId }
  generalize addPage P m.dwrd = Q at *
  by_cases b1 : Complete Q
  · by_cases b2 : ConsistentP Q
    · by_cases b3 : DatesFit (wordOf Q 0) (wordOf Q 1) (wordOf Q 4)
      · rw [a4 b1 b2 b3, bind_ok] at h1
        obtain ⟨_, ho, h1⟩ := h1
        have h1 := Except.ok.inj h1
        rw [← h1]
        refine ⟨hc', rfl, hs, .inr ⟨_, rfl, rfl, rfl, b1, b2, ?_, galEph_carries _ _ _ rfl hm⟩⟩
        cases md with
        | lenient => rfl
        | strict => cases ho
      · rw [a3 b1 b2 b3] at h1; cases h1
    · rw [a2 b1 b2] at h1
      have h1 := Except.ok.inj h1
      rw [← h1]
      exact ⟨hc', rfl, hs, .inl ⟨rfl, rfl, fun h => b2 h.2⟩⟩
  · rw [a1 b1] at h1
    have h1 := Except.ok.inj h1
    rw [← h1]
    exact ⟨hc', rfl, hs, .inl ⟨rfl, rfl, fun h => b1 h.1⟩⟩

/-- A page that is not good. -/
theorem gal_bad {md : Mode} {junk : List Byte} {t : UTCTime} {row : List Byte} {m : Sfrbx} (e : Eph)
    (hm : m.gnssId = 2) (hd : 32 ≤ m.dwrd.length) (hg : ¬ GoodPage m.dwrd) :
    ephStep md junk t row m e = .ok ⟨{ e with sat := m.svId, gnssID := m.gnssId }, t, row, [], some false⟩ := by
  obtain ⟨buf, hh, -, -, g3⟩ := decodeGalileo_eq (md := md) (row := row) hd { e with sat := m.svId, gnssID := m.gnssId }
  rw [ephStep_gal hm, g3 hg]; rfl

theorem galcoll_step (md : Mode) (s : Byte) (op : NavOp) (n n' : Nav) (c : List NavCall) (ops : List NavOp) (hop : op.WF)
    (IH : GalColl (sinceWord2 (pagesOf s ops)) (n.gal s.toNat)) (hs : n.step md op = .ok (n', c)) :
    GalColl (sinceWord2 (pagesOf s (ops ++ [op]))) (n'.gal s.toNat) := by
  cases op with
  | setTime t =>
    injection hs with hs; injection hs with hs _
    rw [← hs, pagesOf_snoc, show pagesOf s [.setTime t] = [] from rfl, List.append_nil]; exact IH
  | addEphCb =>
    injection hs with hs; injection hs with hs _
    rw [← hs, pagesOf_snoc, show pagesOf s [.addEphCb] = [] from rfl, List.append_nil]; exact IH
  | addGephCb =>
    injection hs with hs; injection hs with hs _
    rw [← hs, pagesOf_snoc, show pagesOf s [.addGephCb] = [] from rfl, List.append_nil]; exact IH
  | sfrbx junk m =>
    by_cases hg : m.gnssId = GLONASS
    · obtain ⟨r, -, -, nx⟩ := step_glo hg hs
      rw [pagesOf_snoc_other _ _ _ _ (by rw [hg]; intro h; exact absurd h.1 (by decide)), nx.rows]; exact IH
    · obtain ⟨r, hr, -, nx⟩ := step_eph hg hs
      by_cases hsv : m.svId = s
      · subst hsv
        rw [nx.row]
        by_cases h2 : m.gnssId = 2
        · have hlen : 32 ≤ m.dwrd.length := by rw [hop.2]; omega
          by_cases hgood : GoodPage m.dwrd
          · rw [sinceWord2_page _ _ _ _ ⟨h2, rfl, hgood⟩]
            exact (gal_good h2 hlen hgood IH hr).1
          · rw [pagesOf_snoc_other _ _ _ _ (fun h => hgood h.2.2)]
            rw [gal_bad _ h2 hlen hgood] at hr
            have hr := Except.ok.inj hr
            rw [← hr]; exact IH
        · rw [pagesOf_snoc_other _ _ _ _ (fun h => h2 h.1), ephStep_row h2 hr]; exact IH
      · rw [pagesOf_snoc_other _ _ _ _ (fun h => hsv h.2.1), nx.rows _ (fun h => hsv (BitVec.eq_of_toNat_eq h).symm)]; exact IH

theorem galcoll_run (md : Mode) (s : Byte) (ops : List NavOp) :
    ∀ (n : Nav) (cs : List (List NavCall)), (∀ op ∈ ops, op.WF) → Nav.init.run md ops = .ok (n, cs) →
    GalColl (sinceWord2 (pagesOf s ops)) (n.gal s.toNat) := by
  induction ops using List.reverseRec with
  | nil =>
    intro n cs _ h
    rw [run_nil] at h
    rw [h.1]
    exact coll_zero
  | append_singleton ops op ih =>
    intro n cs hwf h
    rw [run_append] at h
    obtain ⟨n1, c1, c2, h1, h2, rfl⟩ := h
    rw [run_cons] at h2
    obtain ⟨n2, c, cs', hs, h3, rfl⟩ := h2
    rw [run_nil] at h3
    rw [h3.1]
    exact galcoll_step md s op n1 n2 c ops (hwf op (by simp)) (ih n1 c1 (fun o ho => hwf o (List.mem_append_left _ ho)) h1) hs

end Ublox.Nav
