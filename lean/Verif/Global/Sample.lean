import Verif.Global.RunProps
import Verif.Threads.Sample

/-!
# A concrete case for C91 and C92: the same box on one rank and on two
-/
namespace Verif.Global

open Grid MoveP Charge Torus Threads
open Boundary (Rank Species Env live fitsMsg grow sampleD)
open Field (Pos FC FMem World EntOn fieldExt vox)
open Distribute (doubleRounding doubleRounding_accurate)

/-- The box of 4 by 3 by 2 cells on one rank. -/
def oneD : Decomp := ⟨4, 3, 2, 1, 1, 1⟩

/-- The ranks as the particles see them. -/
noncomputable def boxEnv (n : ℕ) (g : Fin n → LGrid) (r : Fin n) : Env ℝ Unit where
  g := g r
  ws := n
  rank := r
  nsp := 1
  nb := 0
  interact := fun _ _ _ _ _ _ _ => ((), [], [])
  r8V := 1 / 8
  freshP := fun _ => ⟨fun _ => 0, 0, fun _ => 0, 0⟩
  freshM := fun _ => ⟨fun _ => 0, 0⟩
  fuel := 4

/-- The ranks as the fields see them. -/
noncomputable def boxWorld (n : ℕ) (g : Fin n → LGrid) : World ℝ n := fun r =>
  ⟨g r, n, 1, 1 / 2, 1, fun _ => 1, fun _ => 1, 1, 0, fun _ => ⟨fun _ => 1, fun _ => 1, fun _ => 1, 1, fun _ => 1⟩,
    fun _ _ => 0, fun _ _ => 0, fun _ => 0⟩

/-- The setup of the sample on `n` ranks with `P` pipelines. -/
noncomputable def boxSetup (D : Decomp) (n : ℕ) (g : Fin n → LGrid) (P : ℕ) : Setup ℝ Unit n where
  D := D
  t0 := fun _ _ => 77
  F := boxWorld n g
  B := boxEnv n g
  Rd := doubleRounding
  P := P
  nf := 16
  N := 3
  nsp := 1
  sc := ⟨1 / 2, fun _ => 1, 1 / 8⟩
  C := ⟨1, 1 / 2, 1, 0, fun _ => 1⟩
  M := ⟨fun _ _ => ⟨fun _ => 1, fun _ => 1, fun _ => 1, 1, fun _ => 1⟩,
    fun _ _ => ⟨fun _ => 1, fun _ => 1, fun _ => 1, 1, fun _ => 1⟩,
    fun _ => ⟨fun _ => 1, fun _ => 1, fun _ => 1, 1, fun _ => 1⟩⟩

/-- A particle about to leave its cell, in cell number `i` of its rank. -/
noncomputable def boxPart (i : ℤ) (d : Fin 3 → ℝ := ![9 / 10, 1 / 2, 0]) (u : Fin 3 → ℝ := ![3 / 4, 0, 0]) : MoveP.Part ℝ := ⟨d, i, u, 7⟩

/-- A rank with particles in the cells `i 0`, `i 1`, … -/
noncomputable def boxRank (i : ℤ → ℤ) (np : ℕ) (q : ℝ := -1) (d : Fin 3 → ℝ := ![9 / 10, 1 / 2, 0]) (u : Fin 3 → ℝ := ![3 / 4, 0, 0]) : Rank ℝ Unit :=
  ⟨fun _ => ⟨q, fun j => boxPart (i j) d u, np, 4, fun _ => ⟨fun _ => 0, 0⟩, 0, 100⟩, fun _ _ => 0, fun _ => 0, (), 0, 0⟩

/-- The constants of the push. -/
noncomputable def boxDrive (s : ℕ → ℤ) (e : ℝ := 1) : Drive ℝ := ⟨Real.sqrt, fun _ => e, fun _ => 1 / 2, s⟩

lemma grids (D : Decomp) (n : ℕ) (hD : D.ok n = true) : ∃ g : Fin n → LGrid, ∀ r : Fin n,
    gridOf D n (fun _ _ => 77) r = some (g r) ∧ (g r).nx = D.lx ∧ (g r).ny = D.ly ∧ (g r).nz = D.lz := by
  have h := (Decomp.ok_iff _ n).mp hD
  have ex : ∀ r : Fin n, ∃ g, gridOf D n (fun _ _ => 77) r = some g ∧ g.nx = D.lx ∧ g.ny = D.ly ∧ g.nz = D.lz := by
    intro r
    obtain ⟨g, e, gx, gy, gz, -⟩ := partitionPeriodic_T h (fun _ => localNv D) (fun _ => rfl) (fun _ => 77) r r.2
    exact ⟨g, e, gx, gy, gz⟩
  choose g h1 using ex
  exact ⟨g, h1⟩

/-- All that the theorems ask of one of the two setups. -/
structure Good (D : Decomp) (n : ℕ) (g : Fin n → LGrid) (P : ℕ) (R : Fin n → Rank ℝ Unit) : Prop where
  ok : (boxSetup D n g P).Ok
  fit : ∀ m fi, Fit (boxSetup D n g P) ⟨⟨R, fun _ _ => 0, m⟩, fi⟩
  few : P ≤ 3
  parts : ∀ r id, ((R r).sp id).np ≤ 2 ∧ ((R r).sp id).max_nm = 100
  tot : ∑ r, ((R r).sp 0).np = 2

lemma Good.cut {D : Decomp} {n : ℕ} {g : Fin n → LGrid} {P : ℕ} {R : Fin n → Rank ℝ Unit} (h : Good D n g P R) (s : ℕ → ℤ)
    (e : ℝ := 1) : Cut (boxSetup D n g P) (boxDrive s e) where
  whole := ⟨h.ok.box, le_rfl, fun _ => rfl⟩
  fits := h.ok.fits
  sane := box_sane h.ok (fun x hx => ⟨Real.sqrt_nonneg x, Real.mul_self_sqrt hx⟩) (fun k => by norm_num [boxDrive, abs_le])
  volume := ⟨1, one_ne_zero, fun _ => rfl⟩

lemma Good.runs {D : Decomp} {n : ℕ} {g : Fin n → LGrid} {P : ℕ} {R : Fin n → Rank ℝ Unit} (h : Good D n g P R) (s : ℕ → ℤ)
    (m : Fin n → FMem ℝ) (fi : Fin n → ℤ → Boris.Interp ℝ) (e : ℝ := 1) : ∃ μ0 μ1 l0 l,
      Begin (boxSetup D n g P) (boxDrive s e) ⟨⟨R, fun _ _ => 0, m⟩, fi⟩ μ0 l0 ∧
      Cycles (boxSetup D n g P) (boxDrive s e) ⟨0, 1, 1, 1, 1, 1⟩ 0 μ0 1 μ1 l := by
  have sane := (h.cut s e).sane
  obtain ⟨μ0, l0, hb, hk⟩ := begin_runs h.ok (boxDrive s e) (h.fit m fi)
  have tot : total (boxSetup D n g P) μ0.toState = 2 := by
    unfold total
    simp only [hk]
    simpa [boxSetup] using h.tot
  obtain ⟨μ1, l, hc⟩ := cycle_runs h.ok (by simp [boxSetup]) (fun _ => by simp [boxSetup, boxEnv])
    (by have := h.few; show P ≤ 256; omega) sane ⟨0, 1, 1, 1, 1, 1⟩ 0 (by simp) (begin_fit sane (h.fit m fi) hb)
    (fun r id _ => by
      have := h.parts r id
      have := h.few
      unfold Room
      rw [(hk r id).1, (hk r id).2]
      show ((R r).sp id).np + 24 * P ≤ ((R r).sp id).max_nm
      omega)
    (by rw [tot]; decide) (by rw [tot]; decide)
  exact ⟨μ0, μ1, l0, _, hb, .step (.refl _ _) hc⟩

lemma good {D : Decomp} {n : ℕ} {g : Fin n → LGrid} {P np : ℕ} (hD : D.ok n = true)
    (hg : ∀ r : Fin n, gridOf D n (fun _ _ => 77) r = some (g r) ∧ (g r).nx = D.lx ∧ (g r).ny = D.ly ∧ (g r).nz = D.lz)
    (hf : localNv D < 2 ^ 31) (hP : 0 < P ∧ P ≤ 3)
    (h1 : (SfInterface.accArgs D.lx D.ly D.lz 16 P).n < 2 ^ 31)
    (h2 : (P : ℤ) * (SfInterface.pow2Ceil2 (SfInterface.nvOf D.lx D.ly D.lz) * ((16 : ℕ) : ℤ)) < 2 ^ 31)
    (hr : Resolved D) {i : ℤ → ℤ} (hnp : np ≤ 2) (hn : n * np = 2)
    (hi : ∀ j, 0 ≤ j → j < (np : ℤ) → ∃ c : Cell, c.Interior D.lx D.ly D.lz ∧ i j = VOXEL D.lx D.ly c.x c.y c.z)
    {q : ℝ} {d u : Fin 3 → ℝ} (hd : ∀ k, -1 ≤ d k ∧ d k ≤ 1) : Good D n g P fun _ => boxRank i np q d u where
  ok :=
    { box :=
        { ok := hD
          grid := fun r => (hg r).1
          cells := ⟨fun _ => rfl, fun _ _ => rfl, fun _ _ => by norm_num [boxSetup, boxWorld], hf⟩
          same := fun _ => rfl
          ws := fun _ => rfl
          rank := fun _ => rfl
          nsp := fun _ _ => rfl }
      rounding := doubleRounding_accurate
      rounds := le_rfl
      nsp := fun _ => rfl
      nf := by simp [boxSetup]
      threads := ⟨hP.1, by show P ≤ 2 ^ 16; omega⟩
      fuel := fun _ => by simp [boxSetup, boxEnv]
      acc := fun r => by
        show (SfInterface.accArgs (g r).nx (g r).ny (g r).nz 16 P).n < 2 ^ 31
        rw [(hg r).2.1, (hg r).2.2.1, (hg r).2.2.2]; exact h1
      acc' := fun r => by
        show (P : ℤ) * (SfInterface.pow2Ceil2 (SfInterface.nvOf (g r).nx (g r).ny (g r).nz) * ((16 : ℕ) : ℤ)) < 2 ^ 31
        rw [(hg r).2.1, (hg r).2.2.1, (hg r).2.2.2]; exact h2
      dt := by norm_num [boxSetup]
      vol := by norm_num [boxSetup]
      dt_same := rfl
      rd_same := rfl
      resolved := hr
      consts := ⟨fun _ => rfl, fun _ => rfl, fun _ => rfl, fun _ => rfl, fun _ => rfl⟩
      made := ⟨fun _ _ _ _ => rfl, fun _ _ _ _ => rfl, fun _ _ _ => rfl⟩
      medium := fun s => .inr fun a => by simp [Insulating, boxSetup] }
  fit := fun m fi =>
    { particles := fun r id _ => by
        refine ⟨?_, ?_, ?_, ?_⟩
        · show np ≤ 4; omega
        · show np < 2 ^ 31; omega
        · show 100 < 2 ^ 31; norm_num
        · intro j h0 hj
          obtain ⟨c, c1, c2⟩ := hi j h0 hj
          refine ⟨⟨c, ?_, ?_⟩, ?_⟩
          · show c.Interior (g r).nx (g r).ny (g r).nz
            rw [(hg r).2.1, (hg r).2.2.1, (hg r).2.2.2]; exact c1
          · show i j = VOXEL (g r).nx (g r).ny c.x c.y c.z
            rw [(hg r).2.1, (hg r).2.2.1]; exact c2
          · exact hd
      sized := fun r id _ => by simp [Sized, boxRank]
      tidy := fun r b _ v _ _ k hne => absurd rfl hne }
  few := hP.2
  parts := fun r id => ⟨hnp, rfl⟩
  tot := by simpa [boxRank] using hn

/-- Cells of the particles of the rank of `oneD`. -/
def oneCells (j : ℤ) : ℤ := if j = 0 then 38 else 40

/-- The hypotheses of `run_any_decomposition` hold together: the same box on two ranks with one thread and sorting in every
step, and on one rank with three threads and no sorting; two particles about to cross into other cells, one of them between the
ranks and one around the box; any fields; cleaning in the step. -/
example (G : Fields ℝ) : ∃ (Z1 : Setup ℝ Unit 2) (Z2 : Setup ℝ Unit 1) (V : Drive ℝ) (si : ℕ → ℤ) (A : Settings) (q : ℕ → ℝ)
    (x0 : Box ℝ) (μ0 μ1 μ2 : Machine ℝ Unit 2) (ν0 ν1 ν2 : Machine ℝ Unit 1) (l1 l2 k1 k2 : List (Msg ℝ)),
    Cut Z1 V ∧ Cut Z2 { V with sort_interval := si } ∧ universeOf Z1 q = universeOf Z2 q ∧ Z1.P = 1 ∧ Z2.P = 3 ∧
    V.sort_interval 0 = 1 ∧ si 0 = 0 ∧ x0.f = G ∧ Multiset.card (x0.parts 0) = 2 ∧
    Fit Z1 μ0 ∧ Fit Z2 ν0 ∧ Holding Z1 q μ0 x0 ∧ Holding Z2 q ν0 x0 ∧
    Begin Z1 V μ0 μ1 l1 ∧ Cycles Z1 V A 0 μ1 1 μ2 l2 ∧
    Begin Z2 { V with sort_interval := si } ν0 ν1 k1 ∧ Cycles Z2 { V with sort_interval := si } A 0 ν1 1 ν2 k2 ∧
    due A.clean_div_e_interval 0 ∧ due A.clean_div_b_interval 0 := by
  obtain ⟨g, hg⟩ := grids sampleD 2 (by decide)
  obtain ⟨h, hh⟩ := grids oneD 1 (by decide)
  have g1 : Good sampleD 2 g 1 fun _ => boxRank (fun _ => 26) 1 :=
    good (by decide) hg (by decide) ⟨by norm_num, by norm_num⟩ (by decide) (by decide) (by unfold Resolved; decide) (by norm_num) (by norm_num)
      (fun j _ _ => ⟨⟨2, 1, 1⟩, by unfold Cell.Interior; decide, by decide⟩) (fun k => by fin_cases k <;> norm_num)
  have g2 : Good oneD 1 h 3 fun _ => boxRank oneCells 2 :=
    good (by decide) hh (by decide) ⟨by norm_num, by norm_num⟩ (by decide) (by decide) (by unfold Resolved; decide) (by norm_num) (by norm_num)
      (fun j h0 h1 => by
        have h1 : j < 2 := h1
        rcases (by omega : j = 0 ∨ j = 1) with rfl | rfl
        · exact ⟨⟨2, 1, 1⟩, by unfold Cell.Interior; decide, by decide⟩
        · exact ⟨⟨4, 1, 1⟩, by unfold Cell.Interior; decide, by decide⟩)
      (fun k => by fin_cases k <;> norm_num)
  obtain ⟨m1, e1⟩ := holds_exists (by decide) (fun _ _ => 77) (F := boxWorld 2 g) (D := sampleD) (fun r => (hg r).1) G
  obtain ⟨m2, e2⟩ := holds_exists (by decide) (fun _ _ => 77) (F := boxWorld 1 h) (D := oneD) (fun r => (hh r).1) G
  obtain ⟨μ1, μ2, l1, l2, b1, c1⟩ := g1.runs (fun _ => 1) m1 fun _ _ => ⟨0, 0, 0, 0, 0, 0, 0, 0, 0, 0, 0, 0, 0, 0, 0, 0, 0, 0⟩
  obtain ⟨ν1, ν2, k1, k2, b2, c2⟩ := g2.runs (fun _ => 0) m2 fun _ _ => ⟨0, 0, 0, 0, 0, 0, 0, 0, 0, 0, 0, 0, 0, 0, 0, 0, 0, 0⟩
  let at_ (s : Pos) : GPart ℝ := ⟨s, ![9 / 10, 1 / 2, 0], ![3 / 4, 0, 0], 7⟩
  have pos : ∀ {n : ℕ} {D : Decomp} {g : Fin n → LGrid} (_ : ∀ r : Fin n, gridOf D n (fun _ _ => 77) r = some (g r) ∧
      (g r).nx = D.lx ∧ (g r).ny = D.ly ∧ (g r).nz = D.lz) (r : Fin n) (hD : D.ok n = true) (c : Cell) (i : ℤ)
      (_ : c.Interior D.lx D.ly D.lz) (_ : i = VOXEL D.lx D.ly c.x c.y c.z), lift D r (g r) (boxPart i) =
      at_ (siteAt D r ![c.x, c.y, c.z]) := by
    intro n D g hg r hD c i hc hi
    have hm := grid_mesh hD (fun _ _ => 77) (G := g) (fun r => (hg r).1) r
    obtain ⟨q1, q2, q3, q4, q5, q6⟩ := hc
    unfold lift boxPart
    have : posOf (g r) i = ![c.x, c.y, c.z] := by
      rw [hi, ← (hg r).2.1, ← (hg r).2.2.1]
      exact posOf_voxel hm (x := c.x) (y := c.y) (z := c.z) ⟨by omega, by rw [(hg r).2.1]; omega⟩ ⟨by omega, by rw [(hg r).2.2.1]; omega⟩
    rw [this]
  have p1 : gather sampleD (boxEnv 2 g) (fun _ => boxRank (fun _ => 26) 1) 0 = {at_ ![1, 0, 0], at_ ![3, 0, 0]} := by
    unfold gather
    rw [Fin.sum_univ_two]
    have s0 : siteAt sampleD (0 : Fin 2) ![2, 1, 1] = ![1, 0, 0] := by decide
    have s1 : siteAt sampleD (1 : Fin 2) ![2, 1, 1] = ![3, 0, 0] := by decide
    have a0 := pos hg 0 (by decide) ⟨2, 1, 1⟩ 26 (by unfold Cell.Interior; decide) (by decide)
    have a1 := pos hg 1 (by decide) ⟨2, 1, 1⟩ 26 (by unfold Cell.Interior; decide) (by decide)
    simp only [s0, s1] at a0 a1
    have e : live (((boxRank (fun _ => 26) 1).sp 0).p) ((boxRank (fun _ => 26) 1).sp 0).np = [boxPart 26] := by
      simp [live, boxRank, Distribute.upTo]
    rw [e]
    show ({lift sampleD 0 (g 0) (boxPart 26)} : Multiset _) + {lift sampleD 1 (g 1) (boxPart 26)} = _
    rw [a0, a1]
    rfl
  have p2 : gather oneD (boxEnv 1 h) (fun _ => boxRank oneCells 2) 0 = {at_ ![1, 0, 0], at_ ![3, 0, 0]} := by
    unfold gather
    rw [Fin.sum_univ_one]
    have s0 : siteAt oneD (0 : Fin 1) ![2, 1, 1] = ![1, 0, 0] := by decide
    have s1 : siteAt oneD (0 : Fin 1) ![4, 1, 1] = ![3, 0, 0] := by decide
    have a0 := pos hh 0 (by decide) ⟨2, 1, 1⟩ 38 (by unfold Cell.Interior; decide) (by decide)
    have a1 := pos hh 0 (by decide) ⟨4, 1, 1⟩ 40 (by unfold Cell.Interior; decide) (by decide)
    simp only [s0, s1] at a0 a1
    have e : live (((boxRank oneCells 2).sp 0).p) ((boxRank oneCells 2).sp 0).np = [boxPart 38, boxPart 40] := by
      simp [live, boxRank, Distribute.upTo, List.range_succ, oneCells]
    rw [e]
    show (([lift oneD 0 (h 0) (boxPart 38), lift oneD 0 (h 0) (boxPart 40)] : List (GPart ℝ)) : Multiset (GPart ℝ)) = _
    rw [a0, a1]
    rfl
  refine ⟨_, _, boxDrive fun _ => 1, fun _ => 0, _, fun _ => -1, ⟨fun _ => {at_ ![1, 0, 0], at_ ![3, 0, 0]}, G⟩, _, μ1, μ2, _, ν1, ν2,
    l1, l2, k1, k2, g1.cut _, g2.cut _, ?_, rfl, rfl, rfl, rfl, rfl, rfl, g1.fit _ _, g2.fit _ _, ⟨fun id hid => ?_, fun _ _ _ => rfl, fun k _ => e1 k⟩,
    ⟨fun id hid => ?_, fun _ _ _ => rfl, fun k _ => e2 k⟩, b1, c1, b2, c2, by simp [due], by simp [due]⟩
  · have : Torus.sizeOf sampleD = Torus.sizeOf oneD := by decide
    show (⟨Torus.sizeOf sampleD, _, _, _, _, _⟩ : Universe ℝ) = ⟨Torus.sizeOf oneD, _, _, _, _, _⟩
    rw [this]
    rfl
  · obtain rfl : id = 0 := Nat.lt_one_iff.mp hid
    exact p1
  · obtain rfl : id = 0 := Nat.lt_one_iff.mp hid
    exact p2

end Verif.Global
