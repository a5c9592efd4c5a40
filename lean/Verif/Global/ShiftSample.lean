import Verif.Global.ShiftProps
import Verif.Global.Sample

/-!
# A concrete case for C101 and C102
-/
namespace Verif.Global

open Grid MoveP Charge Torus Threads
open Boundary (Rank Species Env live fitsMsg grow sampleD)
open Field (Pos FC FMem World EntOn fieldExt vox)
open Distribute (doubleRounding doubleRounding_accurate)

/-- Cells of the particles of the rank of `oneD`, one cell further than in `oneCells`. -/
def shiftCells (j : ℤ) : ℤ := if j = 0 then 39 else 37

/-- The hypotheses of `run_any_place` (and of `particles_kept`) hold together: a box on two ranks with one thread and sorting in every
step, and the same one cell further along x on one rank with three threads and no sorting; two particles about to cross into other cells, one of them between the
ranks and one around the box; any fields; cleaning in the step. -/
example (G : Fields ℝ) : ∃ (Z1 : Setup ℝ Unit 2) (Z2 : Setup ℝ Unit 1) (V : Drive ℝ) (si : ℕ → ℤ) (A : Settings) (q : ℕ → ℝ)
    (x0 : Box ℝ) (μ0 μ1 μ2 : Machine ℝ Unit 2) (ν0 ν1 ν2 : Machine ℝ Unit 1) (l1 l2 k1 k2 : List (Msg ℝ)),
    Cut Z1 V ∧ Cut Z2 { V with sort_interval := si } ∧ universeOf Z2 q = (universeOf Z1 q).ahead ![1, 0, 0] ∧ Z1.P = 1 ∧ Z2.P = 3 ∧
    V.sort_interval 0 = 1 ∧ si 0 = 0 ∧ x0.f = G ∧ Multiset.card (x0.parts 0) = 2 ∧
    Fit Z1 μ0 ∧ Fit Z2 ν0 ∧ Holding Z1 q μ0 x0 ∧ Holding Z2 q ν0 (x0.ahead (Torus.sizeOf Z1.D) ![1, 0, 0]) ∧
    Begin Z1 V μ0 μ1 l1 ∧ Cycles Z1 V A 0 μ1 1 μ2 l2 ∧
    Begin Z2 { V with sort_interval := si } ν0 ν1 k1 ∧ Cycles Z2 { V with sort_interval := si } A 0 ν1 1 ν2 k2 ∧
    due A.clean_div_e_interval 0 ∧ due A.clean_div_b_interval 0 := by
  obtain ⟨g, hg⟩ := grids sampleD 2 (by decide)
  obtain ⟨h, hh⟩ := grids oneD 1 (by decide)
  have g1 : Good sampleD 2 g 1 fun _ => boxRank (fun _ => 26) 1 :=
    good (by decide) hg (by decide) ⟨by norm_num, by norm_num⟩ (by decide) (by decide) (by unfold Resolved; decide) (by norm_num) (by norm_num)
      (fun j _ _ => ⟨⟨2, 1, 1⟩, by unfold Cell.Interior; decide, by decide⟩) (fun k => by fin_cases k <;> norm_num)
  have g2 : Good oneD 1 h 3 fun _ => boxRank shiftCells 2 :=
    good (by decide) hh (by decide) ⟨by norm_num, by norm_num⟩ (by decide) (by decide) (by unfold Resolved; decide) (by norm_num) (by norm_num)
      (fun j h0 h1 => by
        have h1 : j < 2 := h1
        rcases (by omega : j = 0 ∨ j = 1) with rfl | rfl
        · exact ⟨⟨3, 1, 1⟩, by unfold Cell.Interior; decide, by decide⟩
        · exact ⟨⟨1, 1, 1⟩, by unfold Cell.Interior; decide, by decide⟩)
      (fun k => by fin_cases k <;> norm_num)
  obtain ⟨m1, e1⟩ := holds_exists (by decide) (fun _ _ => 77) (F := boxWorld 2 g) (D := sampleD) (fun r => (hg r).1) G
  obtain ⟨m2, e2⟩ := holds_exists (by decide) (fun _ _ => 77) (F := boxWorld 1 h) (D := oneD) (fun r => (hh r).1)
    fun k s => G k (ahead (Torus.sizeOf sampleD) (-![1, 0, 0]) s)
  obtain ⟨μ1, μ2, l1, l2, b1, c1⟩ := g1.runs (fun _ => 1) m1 fun _ _ => ⟨0, 0, 0, 0, 0, 0, 0, 0, 0, 0, 0, 0, 0, 0, 0, 0, 0, 0⟩
  obtain ⟨ν1, ν2, k1, k2, b2, c2⟩ := g2.runs (fun _ => 0) m2 fun _ _ => ⟨0, 0, 0, 0, 0, 0, 0, 0, 0, 0, 0, 0, 0, 0, 0, 0, 0, 0⟩
  let at_ (s : Pos) : GPart ℝ := ⟨s, ![9 / 10, 1 / 2, 0], ![3 / 4, 0, 0], 7⟩
  have pos : ∀ {n : ℕ} {D : Decomp} {g : Fin n → LGrid} (_ : ∀ r : Fin n, gridOf D n (fun _ _ => 77) r = some (g r) ∧
      (g r).nx = D.lx ∧ (g r).ny = D.ly ∧ (g r).nz = D.lz) (r : Fin n) (hD : D.ok n = true) (c : Cell) (i : ℤ)
      (_ : c.Interior D.lx D.ly D.lz) (_ : i = VOXEL D.lx D.ly c.x c.y c.z), lift D r (g r) (boxPart i) =
      at_ (siteAt D r ![c.x, c.y, c.z]) := by
    intro n D g hg r hD c i hc hi
    have hm := grid_mesh hD (fun _ _ => 77) (G := g) (fun r => (hg r).1) r
    obtain ⟨q1, q2, q3, q4, q5, q6⟩ := hc
    unfold lift boxPart
    have : posOf (g r) i = ![c.x, c.y, c.z] := by
      rw [hi, ← (hg r).2.1, ← (hg r).2.2.1]
      exact posOf_voxel hm (x := c.x) (y := c.y) (z := c.z) ⟨by omega, by rw [(hg r).2.1]; omega⟩ ⟨by omega, by rw [(hg r).2.2.1]; omega⟩
    rw [this]
  have p1 : gather sampleD (boxEnv 2 g) (fun _ => boxRank (fun _ => 26) 1) 0 = {at_ ![1, 0, 0], at_ ![3, 0, 0]} := by
    unfold gather
    rw [Fin.sum_univ_two]
    have s0 : siteAt sampleD (0 : Fin 2) ![2, 1, 1] = ![1, 0, 0] := by decide
    have s1 : siteAt sampleD (1 : Fin 2) ![2, 1, 1] = ![3, 0, 0] := by decide
    have a0 := pos hg 0 (by decide) ⟨2, 1, 1⟩ 26 (by unfold Cell.Interior; decide) (by decide)
    have a1 := pos hg 1 (by decide) ⟨2, 1, 1⟩ 26 (by unfold Cell.Interior; decide) (by decide)
    simp only [s0, s1] at a0 a1
    have e : live (((boxRank (fun _ => 26) 1).sp 0).p) ((boxRank (fun _ => 26) 1).sp 0).np = [boxPart 26] := by
      simp [live, boxRank, Distribute.upTo]
    rw [e]
    show ({lift sampleD 0 (g 0) (boxPart 26)} : Multiset _) + {lift sampleD 1 (g 1) (boxPart 26)} = _
    rw [a0, a1]
    rfl
  have p2 : gather oneD (boxEnv 1 h) (fun _ => boxRank shiftCells 2) 0 = {at_ ![2, 0, 0], at_ ![0, 0, 0]} := by
    unfold gather
    rw [Fin.sum_univ_one]
    have s0 : siteAt oneD (0 : Fin 1) ![3, 1, 1] = ![2, 0, 0] := by decide
    have s1 : siteAt oneD (0 : Fin 1) ![1, 1, 1] = ![0, 0, 0] := by decide
    have a0 := pos hh 0 (by decide) ⟨3, 1, 1⟩ 39 (by unfold Cell.Interior; decide) (by decide)
    have a1 := pos hh 0 (by decide) ⟨1, 1, 1⟩ 37 (by unfold Cell.Interior; decide) (by decide)
    simp only [s0, s1] at a0 a1
    have e : live (((boxRank shiftCells 2).sp 0).p) ((boxRank shiftCells 2).sp 0).np = [boxPart 39, boxPart 37] := by
      simp [live, boxRank, Distribute.upTo, List.range_succ, shiftCells]
    rw [e]
    show (([lift oneD 0 (h 0) (boxPart 39), lift oneD 0 (h 0) (boxPart 37)] : List (GPart ℝ)) : Multiset (GPart ℝ)) = _
    rw [a0, a1]
    rfl
  refine ⟨_, _, boxDrive fun _ => 1, fun _ => 0, _, fun _ => -1, ⟨fun _ => {at_ ![1, 0, 0], at_ ![3, 0, 0]}, G⟩, _, μ1, μ2, _, ν1, ν2,
    l1, l2, k1, k2, g1.cut _, g2.cut _, ?_, rfl, rfl, rfl, rfl, rfl, rfl, g1.fit _ _, g2.fit _ _, ⟨fun id hid => ?_, fun _ _ _ => rfl, fun k _ => e1 k⟩,
    ⟨fun id hid => ?_, fun _ _ _ => rfl, fun k _ => e2 k⟩, b1, c1, b2, c2, by simp [due], by simp [due]⟩
  · have : Torus.sizeOf oneD = Torus.sizeOf sampleD := by decide
    show (⟨Torus.sizeOf oneD, _, _, _, _, _⟩ : Universe ℝ) = ⟨Torus.sizeOf sampleD, _, _, _, _, _⟩
    rw [this]
    rfl
  · obtain rfl : id = 0 := Nat.lt_one_iff.mp hid
    exact p1
  · obtain rfl : id = 0 := Nat.lt_one_iff.mp hid
    refine p2.trans ?_
    have s1 : ahead (Torus.sizeOf sampleD) ![1, 0, 0] ![1, 0, 0] = ![2, 0, 0] := by decide
    have s2 : ahead (Torus.sizeOf sampleD) ![1, 0, 0] ![3, 0, 0] = ![0, 0, 0] := by decide
    show _ = ({at_ (ahead (Torus.sizeOf sampleD) ![1, 0, 0] ![1, 0, 0]), at_ (ahead (Torus.sizeOf sampleD) ![1, 0, 0] ![3, 0, 0])} : Multiset _)
    rw [s1, s2]

end Verif.Global
