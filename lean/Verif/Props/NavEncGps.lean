import Verif.Spec.NavEncGps
import Verif.Props.NavGps
import Verif.Lemmas.Bits

/-!
# C48 from the transmitter's side
-/

namespace Ublox.Nav

open Data

theorem byteOf_bit (f : Nat → Bool) (j : Nat) (h : j < 8) : (byteOf f).getLsbD j = f j := by
  unfold byteOf
  rcases j with _ | _ | _ | _ | _ | _ | _ | _ | j <;> first | omega | simp [BitVec.ofBoolListLE]

theorem packWords_length (f : Nat → Nat → Bool) : (packWords f).length = 40 := by simp [packWords]

theorem gpsBit_pack (f : Nat → Nat → Bool) (w b : Nat) (h1 : 1 ≤ w) (h2 : w ≤ 10) (h3 : 1 ≤ b) (h4 : b ≤ 30) :
    gpsBit (packWords f) w b = f w b := by
  unfold gpsBit packWords
  have hk : 4 * (w - 1) + (30 - b) / 8 < 40 := by omega
  rw [List.getD_eq_getElem?_getD, List.getElem?_map, List.getElem?_range hk]
  simp only [Option.map_some, Option.getD_some]
  rw [byteOf_bit _ _ (by omega)]
  congr 1
  · omega
  · omega

/-- No two of the fields share a bit, all widths positive and inside the data bits of the ten words. -/
def Apart : List (Nat × Nat × Nat) → Bool
  | [] => true
  | (w, b, n) :: r => r.all (fun x => x.1 != w || decide (x.2.1 + x.2.2 ≤ b) || decide (b + n ≤ x.2.1)) &&
      decide (1 ≤ w ∧ w ≤ 10 ∧ 1 ≤ b ∧ b + n ≤ 25) && Apart r

def shape (f : Fld) : Nat × Nat × Nat := (f.w, f.b, f.n)

theorem fldBit_mem (fill : Nat → Nat → Bool) : ∀ (fs : List Fld), Apart (fs.map shape) = true → ∀ f ∈ fs, ∀ k, k < f.n →
    fldBit fill fs f.w (f.b + k) = f.v.testBit (f.n - 1 - k) := by
  intro fs
  induction fs with
  | nil => intro _ f hf; simp at hf
  | cons g fs ih =>
    intro ha f hf k hk
    simp only [List.map_cons, shape, Apart, Bool.and_eq_true, List.all_eq_true, Bool.or_eq_true, bne_iff_ne, ne_eq,
      decide_eq_true_eq] at ha
    obtain ⟨⟨h1, h2⟩, h3⟩ := ha
    rcases List.mem_cons.mp hf with rfl | hm
    · rw [fldBit, if_pos (by simp [Fld.covers, hk]), Nat.add_sub_cancel_left]
    · have hx := h1 (shape f) (List.mem_map_of_mem hm)
      simp only [shape] at hx
      rw [fldBit, if_neg, ih h3 f hm k hk]
      simp only [Fld.covers, Bool.and_eq_true, beq_iff_eq, decide_eq_true_eq, not_and]
      intro a b
      rcases hx with (hx | hx) | hx
      · exact absurd a.1.symm hx
      · omega
      · omega

theorem apart_in : ∀ (l : List (Nat × Nat × Nat)), Apart l = true → ∀ x ∈ l, 1 ≤ x.1 ∧ x.1 ≤ 10 ∧ 1 ≤ x.2.1 ∧ x.2.1 + x.2.2 ≤ 25 := by
  intro l
  induction l with
  | nil => intro _ x hx; simp at hx
  | cons g l ih =>
    intro ha x hx
    obtain ⟨w, b, n⟩ := g
    simp only [Apart, Bool.and_eq_true, decide_eq_true_eq] at ha
    rcases List.mem_cons.mp hx with rfl | hm
    · exact ha.1.2
    · exact ih ha.2 x hm

/-- A field of a packed subframe has its value. -/
theorem gpsU_pack (fill : Nat → Nat → Bool) (fs : List Fld) (ha : Apart (fs.map shape) = true) (f : Fld) (hf : f ∈ fs)
    (hv : f.v < 2 ^ f.n) : gpsU (packWords (fldBit fill fs)) f.w f.b f.n = f.v := by
  have hi := apart_in _ ha _ (List.mem_map_of_mem hf)
  simp only [shape] at hi
  refine bitsVal_eq_of_testBit _ _ _ _ hv fun k hk => ?_
  rw [gpsBit_pack _ _ _ hi.1 hi.2.1 (by omega) (by omega)]
  exact fldBit_mem fill fs ha f hf k hk

theorem rep_lt (n : Nat) (x : Int) : rep n x < 2 ^ n := by
  unfold rep
  have h1 := Int.emod_nonneg x (show (2 : Int) ^ n ≠ 0 by positivity)
  have h2 := Int.emod_lt_of_pos x (show (0 : Int) < 2 ^ n by positivity)
  have : ((2 ^ n : Nat) : Int) = (2 : Int) ^ n := by push_cast; rfl
  omega

theorem twosComp_rep (n : Nat) (hn : 1 ≤ n) (x : Int) (h : InS n x) : twosComp n (rep n x) = x := by
  obtain ⟨k, rfl⟩ : ∃ k, n = k + 1 := ⟨n - 1, by omega⟩
  obtain ⟨h1, h2⟩ := h
  simp only [Nat.add_sub_cancel] at h1 h2
  have e : (2 : Int) ^ (k + 1) = 2 * 2 ^ k := by rw [pow_succ]; ring
  have e2 : ((2 ^ k : Nat) : Int) = (2 : Int) ^ k := by push_cast; rfl
  unfold twosComp rep
  simp only [Nat.add_sub_cancel]
  by_cases hx : 0 ≤ x
  · have hm : x % 2 ^ (k + 1) = x := Int.emod_eq_of_lt hx (by omega)
    rw [hm, if_pos (by omega)]
    omega
  · have hm : x % 2 ^ (k + 1) = x + 2 ^ (k + 1) := by
      rw [← Int.add_emod_right, Int.emod_eq_of_lt (by omega) (by omega)]
    rw [hm, if_neg (by omega)]
    omega

/-! ## What the subframes say -/

theorem u32_of {d : List Byte} {w v : Nat} (h1 : gpsU d w 17 8 = v / 2 ^ 24) (h2 : gpsU d (w + 1) 1 24 = v % 2 ^ 24) :
    gpsU32 d w = v := by
  unfold gpsU32
  rw [h1, h2]; omega

section
variable {fill : Nat → Nat → Bool} {p : GpsParams}

theorem fits1 (h : p.Ok) : ∀ f ∈ fields1 p, f.v < 2 ^ f.n := by
  intro f hf
  simp only [fields1, List.mem_cons, List.not_mem_nil, or_false] at hf
  have h0 := h.iodc
  rcases hf with rfl | rfl | rfl | rfl | rfl | rfl | rfl | rfl | rfl | rfl | rfl | rfl | rfl
  · show 1 < 2 ^ 3; decide
  · exact h.week
  · exact h.codeOnL2
  · exact h.ura
  · exact h.health
  · show p.iodc / 256 < 2 ^ 2; omega
  · exact h.l2p
  · exact rep_lt _ _
  · show p.iodc % 256 < 2 ^ 8; omega
  · exact h.toc
  · exact rep_lt _ _
  · exact rep_lt _ _
  · exact rep_lt _ _

theorem fits2 (h : p.Ok) : ∀ f ∈ fields2 p, f.v < 2 ^ f.n := by
  intro f hf
  simp only [fields2, split32, List.cons_append, List.nil_append, List.mem_cons, List.not_mem_nil, or_false] at hf
  have h0 := h.iodc
  have h1 := rep_lt 32 p.m0
  have h2 := h.ecc
  have h3 := h.sqrta
  rcases hf with rfl | rfl | rfl | rfl | rfl | rfl | rfl | rfl | rfl | rfl | rfl | rfl | rfl | rfl
  · show 2 < 2 ^ 3; decide
  · show p.iodc % 256 < 2 ^ 8; omega
  · exact rep_lt _ _
  · exact rep_lt _ _
  · show rep 32 p.m0 / 2 ^ 24 < 2 ^ 8; omega
  · show rep 32 p.m0 % 2 ^ 24 < 2 ^ 24; omega
  · exact rep_lt _ _
  · show p.ecc / 2 ^ 24 < 2 ^ 8; omega
  · show p.ecc % 2 ^ 24 < 2 ^ 24; omega
  · exact rep_lt _ _
  · show p.sqrta / 2 ^ 24 < 2 ^ 8; omega
  · show p.sqrta % 2 ^ 24 < 2 ^ 24; omega
  · exact h.toe
  · exact h.fit

theorem fits3 (h : p.Ok) : ∀ f ∈ fields3 p, f.v < 2 ^ f.n := by
  intro f hf
  simp only [fields3, split32, List.cons_append, List.nil_append, List.mem_cons, List.not_mem_nil, or_false] at hf
  have h0 := h.iodc
  have h1 := rep_lt 32 p.omega0
  have h2 := rep_lt 32 p.i0
  have h3 := rep_lt 32 p.w
  rcases hf with rfl | rfl | rfl | rfl | rfl | rfl | rfl | rfl | rfl | rfl | rfl | rfl | rfl
  · show 3 < 2 ^ 3; decide
  · exact rep_lt _ _
  · show rep 32 p.omega0 / 2 ^ 24 < 2 ^ 8; omega
  · show rep 32 p.omega0 % 2 ^ 24 < 2 ^ 24; omega
  · exact rep_lt _ _
  · show rep 32 p.i0 / 2 ^ 24 < 2 ^ 8; omega
  · show rep 32 p.i0 % 2 ^ 24 < 2 ^ 24; omega
  · exact rep_lt _ _
  · show rep 32 p.w / 2 ^ 24 < 2 ^ 8; omega
  · show rep 32 p.w % 2 ^ 24 < 2 ^ 24; omega
  · exact rep_lt _ _
  · show p.iodc % 256 < 2 ^ 8; omega
  · exact rep_lt _ _

theorem get1 (h : p.Ok) (f : Fld) (hf : f ∈ fields1 p) : gpsU (subframe1 fill p) f.w f.b f.n = f.v :=
  gpsU_pack fill (fields1 p) rfl f hf (fits1 h f hf)

theorem get2 (h : p.Ok) (f : Fld) (hf : f ∈ fields2 p) : gpsU (subframe2 fill p) f.w f.b f.n = f.v :=
  gpsU_pack fill (fields2 p) rfl f hf (fits2 h f hf)

theorem get3 (h : p.Ok) (f : Fld) (hf : f ∈ fields3 p) : gpsU (subframe3 fill p) f.w f.b f.n = f.v :=
  gpsU_pack fill (fields3 p) rfl f hf (fits3 h f hf)

theorem id1 (h : p.Ok) : gpsId (subframe1 fill p) = 1 := get1 h ⟨2, 20, 3, 1⟩ (by simp [fields1])
theorem id2 (h : p.Ok) : gpsId (subframe2 fill p) = 2 := get2 h ⟨2, 20, 3, 2⟩ (by simp [fields2])
theorem id3 (h : p.Ok) : gpsId (subframe3 fill p) = 3 := get3 h ⟨2, 20, 3, 3⟩ (by simp [fields3])

theorem issue1 (h : p.Ok) : issueOf (subframe1 fill p) = p.iodc % 256 := by
  unfold issueOf
  rw [id1 h, if_pos rfl]
  exact get1 h ⟨8, 1, 8, p.iodc % 256⟩ (by simp [fields1])

theorem issue2 (h : p.Ok) : issueOf (subframe2 fill p) = p.iodc % 256 := by
  unfold issueOf
  rw [id2 h, if_neg (by decide), if_pos rfl]
  exact get2 h ⟨3, 1, 8, p.iodc % 256⟩ (by simp [fields2])

theorem issue3 (h : p.Ok) : issueOf (subframe3 fill p) = p.iodc % 256 := by
  unfold issueOf
  rw [id3 h, if_neg (by decide), if_neg (by decide)]
  exact get3 h ⟨10, 1, 8, p.iodc % 256⟩ (by simp [fields3])

theorem s_of {d : List Byte} {w b n : Nat} {x : Int} (hn : 1 ≤ n) (hx : InS n x) (h : gpsU d w b n = rep n x) :
    gpsS d w b n = x := by
  unfold gpsS
  rw [h, twosComp_rep n hn x hx]

theorem s32_of {d : List Byte} {w : Nat} {x : Int} (hx : InS 32 x) (h1 : gpsU d w 17 8 = rep 32 x / 2 ^ 24)
    (h2 : gpsU d (w + 1) 1 24 = rep 32 x % 2 ^ 24) : gpsS32 d w = x := by
  unfold gpsS32
  rw [u32_of h1 h2, twosComp_rep 32 (by decide) x hx]

/-- The decoder's view of the subframes is the transmitter's parameters. -/
theorem reports_of_carries {e : Eph} {s : Byte} {f1 f2 f3 : Nat → Nat → Bool} (h : p.Ok)
    (c : CarriesGps e s (subframe1 f1 p) (subframe2 f2 p) (subframe3 f3 p)) : ReportsGps e s p := by
  have g1 := fun f hf => get1 (fill := f1) h f hf
  have g2 := fun f hf => get2 (fill := f2) h f hf
  have g3 := fun f hf => get3 (fill := f3) h f hf
  have wk := g1 ⟨3, 1, 10, p.week⟩ (by simp [fields1])
  have i8 := g1 ⟨8, 1, 8, p.iodc % 256⟩ (by simp [fields1])
  have tc := g1 ⟨8, 9, 16, p.toc⟩ (by simp [fields1])
  have te := g2 ⟨10, 1, 16, p.toe⟩ (by simp [fields2])
  have tg := s_of (by decide) h.tgd (g1 ⟨7, 17, 8, rep 8 p.tgd⟩ (by simp [fields1]))
  dsimp only at wk i8 tc te tg
  constructor
  · exact c.sat
  · exact c.gnss
  · rw [c.one.week, wk]
  · rw [c.one.codeOnL2, g1 ⟨3, 11, 2, p.codeOnL2⟩ (by simp [fields1])]
  · rw [c.one.ura, g1 ⟨3, 13, 4, p.ura⟩ (by simp [fields1])]
  · rw [c.one.health, g1 ⟨3, 17, 6, p.health⟩ (by simp [fields1])]
  · rw [c.one.iodc, i8, g1 ⟨3, 23, 2, p.iodc / 256⟩ (by simp [fields1])]
    dsimp only
    omega
  · rw [c.iode]; exact i8
  · rw [c.one.l2p, g1 ⟨4, 1, 1, p.l2p⟩ (by simp [fields1])]
  · rw [c.one.tgd, tg]
  · rw [c.one.tocs, tc]
  · rw [c.one.af2, s_of (by decide) h.af2 (g1 ⟨9, 1, 8, rep 8 p.af2⟩ (by simp [fields1]))]
  · rw [c.one.af1, s_of (by decide) h.af1 (g1 ⟨9, 9, 16, rep 16 p.af1⟩ (by simp [fields1]))]
  · rw [c.one.af0, s_of (by decide) h.af0 (g1 ⟨10, 1, 22, rep 22 p.af0⟩ (by simp [fields1]))]
  · rw [c.two.crs, s_of (by decide) h.crs (g2 ⟨3, 9, 16, rep 16 p.crs⟩ (by simp [fields2]))]
  · rw [c.two.deltaN, s_of (by decide) h.deltaN (g2 ⟨4, 1, 16, rep 16 p.deltaN⟩ (by simp [fields2]))]
  · rw [c.two.m0, s32_of h.m0 (g2 ⟨4, 17, 8, rep 32 p.m0 / 2 ^ 24⟩ (by simp [fields2, split32]))
      (g2 ⟨5, 1, 24, rep 32 p.m0 % 2 ^ 24⟩ (by simp [fields2, split32]))]
  · rw [c.two.cuc, s_of (by decide) h.cuc (g2 ⟨6, 1, 16, rep 16 p.cuc⟩ (by simp [fields2]))]
  · rw [c.two.ecc, u32_of (g2 ⟨6, 17, 8, p.ecc / 2 ^ 24⟩ (by simp [fields2, split32]))
      (g2 ⟨7, 1, 24, p.ecc % 2 ^ 24⟩ (by simp [fields2, split32]))]
  · rw [c.two.cus, s_of (by decide) h.cus (g2 ⟨8, 1, 16, rep 16 p.cus⟩ (by simp [fields2]))]
  · rw [c.two.sqrta, u32_of (g2 ⟨8, 17, 8, p.sqrta / 2 ^ 24⟩ (by simp [fields2, split32]))
      (g2 ⟨9, 1, 24, p.sqrta % 2 ^ 24⟩ (by simp [fields2, split32]))]
  · rw [c.two.toes, te]
  · rw [c.two.fit, g2 ⟨10, 17, 1, p.fit⟩ (by simp [fields2])]
  · rw [c.three.cic, s_of (by decide) h.cic (g3 ⟨3, 1, 16, rep 16 p.cic⟩ (by simp [fields3]))]
  · rw [c.three.omega0, s32_of h.omega0 (g3 ⟨3, 17, 8, rep 32 p.omega0 / 2 ^ 24⟩ (by simp [fields3, split32]))
      (g3 ⟨4, 1, 24, rep 32 p.omega0 % 2 ^ 24⟩ (by simp [fields3, split32]))]
  · rw [c.three.cis, s_of (by decide) h.cis (g3 ⟨5, 1, 16, rep 16 p.cis⟩ (by simp [fields3]))]
  · rw [c.three.i0, s32_of h.i0 (g3 ⟨5, 17, 8, rep 32 p.i0 / 2 ^ 24⟩ (by simp [fields3, split32]))
      (g3 ⟨6, 1, 24, rep 32 p.i0 % 2 ^ 24⟩ (by simp [fields3, split32]))]
  · rw [c.three.crc, s_of (by decide) h.crc (g3 ⟨7, 1, 16, rep 16 p.crc⟩ (by simp [fields3]))]
  · rw [c.three.w, s32_of h.w (g3 ⟨7, 17, 8, rep 32 p.w / 2 ^ 24⟩ (by simp [fields3, split32]))
      (g3 ⟨8, 1, 24, rep 32 p.w % 2 ^ 24⟩ (by simp [fields3, split32]))]
  · rw [c.three.omegadot, s_of (by decide) h.omegadot (g3 ⟨9, 1, 24, rep 24 p.omegadot⟩ (by simp [fields3]))]
  · rw [c.three.idot, s_of (by decide) h.idot (g3 ⟨10, 9, 14, rep 14 p.idot⟩ (by simp [fields3]))]
  · rw [c.toe, wk, te]; push_cast; rfl
  · rw [c.toc, wk, tc]; push_cast; rfl

/-- C48 from the transmitter's side: for all values of the ephemeris parameters that fit their fields and all values of all other
bits, when the three subframes encoding them arrive for a satellite with nothing pending, in any order in which subframe 3 is not
first, with any traffic of other satellites in between, the first two make no callback and the third makes every registered
callback exactly once, with exactly those parameters.  (Subframe 3 first: `c48_order_refuted`.) -/
theorem c48_exact_partial (md : Mode) (s : Byte) (p : GpsParams) (hp : p.Ok) (a b c : Nat) (habc : [a, b, c].Perm [1, 2, 3])
    (ha : a ≠ 3) (fa fb fc : Nat → Nat → Bool) (ops mid1 mid2 : List NavOp) (ja jb jc : List Byte) (xa xb xc : Byte)
    (n n0 : Nav) (cs0 cs : List (List NavCall)) (hja : ja.length = 30) (hjb : jb.length = 30) (hjc : jc.length = 30)
    (hwf : ∀ op ∈ ops, op.WF) (h0 : Nav.init.run md ops = .ok (n0, cs0)) (hnp : NothingPending s ops cs0)
    (u1 : ∀ op ∈ mid1, Unrelated s op) (u2 : ∀ op ∈ mid2, Unrelated s op)
    (h : Nav.init.run md (ops ++ .sfrbx ja ⟨0, s, xa, subframe fa p a⟩ :: (mid1 ++ .sfrbx jb ⟨0, s, xb, subframe fb p b⟩ ::
      (mid2 ++ [.sfrbx jc ⟨0, s, xc, subframe fc p c⟩]))) = .ok (n, cs)) :
    ∃ e c1 c2, ReportsGps e s p ∧ c1.length = mid1.length ∧ c2.length = mid2.length ∧
      cs = cs0 ++ [] :: (c1 ++ [] :: (c2 ++ [reportTo (ephCbCount (ops ++ mid1 ++ mid2)) e])) := by
  have hl : ∀ f k, (subframe f p k).length = 40 := by
    intro f k
    unfold subframe subframe1 subframe2 subframe3
    split
    · exact packWords_length _
    · split <;> exact packWords_length _
  have hid : ∀ f k, k = 1 ∨ k = 2 ∨ k = 3 → gpsId (subframe f p k) = k := by
    intro f k hk
    unfold subframe
    rcases hk with rfl | rfl | rfl
    · exact id1 hp
    · exact id2 hp
    · exact id3 hp
  have his : ∀ f k, issueOf (subframe f p k) = p.iodc % 256 := by
    intro f k
    unfold subframe
    split
    · exact issue1 hp
    · split
      · exact issue2 hp
      · exact issue3 hp
  have hm : ∀ x, x ∈ [a, b, c] → x = 1 ∨ x = 2 ∨ x = 3 := fun x hx => by simpa using (habc.mem_iff (a := x)).mp hx
  have ma := hm a (by simp)
  have mb := hm b (by simp)
  have mc := hm c (by simp)
  obtain ⟨e, d1, d2, d3, c1, c2, q1, q2, q3, q4, q5, q6, q7⟩ :=
    c48_reported_partial md s ops mid1 mid2 ja jb jc ⟨0, s, xa, subframe fa p a⟩ ⟨0, s, xb, subframe fb p b⟩
      ⟨0, s, xc, subframe fc p c⟩ n cs0 cs n0 (by
        intro op ho
        rcases List.mem_append.mp ho with ho | ho
        · exact hwf op ho
        · simp only [List.mem_cons, List.not_mem_nil, or_false] at ho
          rcases ho with rfl | rfl | rfl
          · exact ⟨hja, hl _ _⟩
          · exact ⟨hjb, hl _ _⟩
          · exact ⟨hjc, hl _ _⟩) h0 hnp ⟨rfl, rfl⟩ ⟨rfl, rfl⟩ ⟨rfl, rfl⟩ u1 u2
      (by dsimp only; rw [hid fa a ma, hid fb b mb, hid fc c mc]; exact habc) (by dsimp only; rw [hid fa a ma]; exact ha)
      (by dsimp only; rw [his, his]) (by dsimp only; rw [his, his]) h
  refine ⟨e, c1, c2, ?_, q1, q2, q3⟩
  dsimp only at q4 q5 q6
  have hp' := habc
  have key : ∃ f1 f2 f3, d1 = subframe1 f1 p ∧ d2 = subframe2 f2 p ∧ d3 = subframe3 f3 p := by
    unfold latest at q4 q5 q6
    rcases ma with rfl | rfl | rfl <;> rcases mb with rfl | rfl | rfl <;> rcases mc with rfl | rfl | rfl <;>
      first
      | (exact absurd habc (by decide))
      | (simp [hid] at q4 q5 q6
         subst q4 q5 q6
         exact ⟨_, _, _, rfl, rfl, rfl⟩)
  obtain ⟨f1, f2, f3, rfl, rfl, rfl⟩ := key
  exact reports_of_carries hp q7

end

/-- A concrete case: extreme and ordinary values, every other bit one. -/
def exParams : GpsParams :=
  { week := 1023, codeOnL2 := 2, ura := 15, health := 63, iodc := 773, l2p := 1, tgd := -127, toc := 65535, af2 := -128,
    af1 := 32767, af0 := -2097152, crs := -32768, deltaN := 12345, m0 := -2147483648, cuc := -1, ecc := 4294967295,
    cus := 1, sqrta := 2147483648, toe := 65535, fit := 1, cic := 32767, omega0 := 2147483647, cis := -32768, i0 := -1,
    crc := 100, w := -2147483647, omegadot := -8388608, idot := 8191 }

theorem exParams_ok : exParams.Ok := by
  constructor <;> first | decide | (unfold InS; decide)

/-- The hypotheses of `c48_exact_partial` are met: two callbacks, order 2, 3, 1, traffic in between. -/
example : NothingPending 7 [.addEphCb, .addEphCb] [[], []] ∧ [2, 3, 1].Perm [1, 2, 3] ∧
    (callsAfter .strict [.addEphCb, .addEphCb, gps 7 (subframe (fun _ _ => true) exParams 2), gps 8 gps2,
      gps 7 (subframe (fun _ _ => true) exParams 3), gps 9 gps1, gps 7 (subframe (fun _ _ => true) exParams 1)]).map
      (·.map List.length) = .ok [0, 0, 0, 0, 0, 0, 2] := by
  exact ⟨.inl (by simp [Unrelated]), by decide, by decide +kernel⟩

end Ublox.Nav
