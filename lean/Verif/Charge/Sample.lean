import Verif.Charge.Whole
import Verif.Boundary.Sample
import Verif.Distribute.Props

/-!
# A concrete case for the whole step

Two ranks, 4×3×2 cells, one particle on each rank that moves a quarter of a cell per step towards the other rank.
-/
namespace Verif.Charge

open Grid Deposit SfInterface MoveP
open Boundary (Env Rank Species live ids sampleD sample_grids)
open Field (FMem FC World NodeOn)

/-- The ranks as the particles see them. -/
noncomputable def stepEnv (g : Fin 2 → LGrid) (r : Fin 2) : Env ℝ Unit where
  g := g r
  ws := 2
  rank := r
  nsp := 1
  nb := 0
  interact := fun _ _ _ _ _ _ _ => ((), [], [])
  r8V := 1 / 8
  freshP := fun _ => ⟨fun _ => 0, 0, fun _ => 0, 0⟩
  freshM := fun _ => ⟨fun _ => 0, 0⟩
  fuel := 4

/-- The ranks as the fields see them. -/
noncomputable def stepWorld (g : Fin 2 → LGrid) : World ℝ 2 := fun r =>
  ⟨g r, 2, 1, 1 / 2, 1, fun _ => 1, fun _ => 1, 1, 0, fun _ => ⟨fun _ => 1, fun _ => 1, fun _ => 1, 1, fun _ => 1⟩,
    fun _ _ => 0, fun _ _ => 0, fun _ => 0⟩

/-- No fields. -/
noncomputable def stepPush : PushPar ℝ :=
  ⟨Real.sqrt, fun _ => ⟨0, 0, 0, 0, 0, 0, 0, 0, 0, 0, 0, 0, 0, 0, 0, 0, 0, 0⟩, fun _ => 1, fun _ => 1 / 2⟩

/-- One particle next to the upper face of cell (2,1,1). -/
noncomputable def stepSpecies : Species ℝ :=
  ⟨-1, fun _ => ⟨![9/10, 1/2, 0], 26, ![3/4, 0, 0], 7⟩, 1, 4, fun _ => ⟨fun _ => 0, 0⟩, 0, 4⟩

/-- The state of every rank. -/
noncomputable def stepRank : Rank ℝ Unit := ⟨fun _ => stepSpecies, fun _ _ => 0, fun _ => 0, (), 0, 0⟩

/-- The hypotheses of `step_continuity_courant` and `step_runs` hold together, for the number of exchanges of the program. -/
example : ∃ (F : World ℝ 2) (B : Fin 2 → Env ℝ Unit) (R' : Fin 2 → Rank ℝ Unit) (st' : Fin 2 → ℤ → ℝ)
    (m0' m' m1' : Fin 2 → FMem ℝ), PeriodicBox sampleD (fun _ _ => 77) F B ∧
    MeasureRho F (1 / 8) 1 (fun _ => stepRank.sp) (fun _ _ => 0) m0' ∧
    ParticlePhase B Distribute.doubleRounding (fun _ => stepPush) 3 16 3 (fun _ => stepRank) (fun _ _ => 0) R' st' ∧
    CurrentPhase F Distribute.doubleRounding 3 ⟨1 / 2, fun _ => 1, 1 / 8⟩ (fun r => (R' r).a) (fun _ _ => 0) m' ∧
    MeasureRho F (1 / 8) 1 (fun r => (R' r).sp) (fun _ _ => 0) m1' ∧
    ((∑ r, ((R' r).sp 0).np = 2) ∧ ∀ r, ((R' r).sp 0).nm = 0) ∧
    ∀ x : Fin 2 × Field.Pos, NodeOn (F x.1).g x.2 → ∃ out inn : Fin 3 → Fin 2 × Field.Pos,
      (m1' x.1 (Field.vox (F x.1).g x.2, .rhof) - m0' x.1 (Field.vox (F x.1).g x.2, .rhof)) / (1 / 2) +
        ∑ a, 1 * (m' (out a).1 (Field.vox (F (out a).1).g (out a).2, .jf a) -
          m' (inn a).1 (Field.vox (F (inn a).1).g (inn a).2, .jf a)) = 0 := by
  obtain ⟨g, hg⟩ := sample_grids
  have hB : PeriodicBox sampleD (fun _ _ => 77) (stepWorld g) (stepEnv g) :=
    { ok := by decide
      grid := fun r => (hg r).1
      cells := ⟨fun _ => rfl, fun _ _ => rfl, fun _ _ => by norm_num [stepWorld], by decide⟩
      same := fun _ => rfl
      ws := fun _ => rfl
      rank := fun _ => rfl
      nsp := fun _ _ => rfl }
  have hX : Courant stepPush := ⟨fun x hx => ⟨Real.sqrt_nonneg x, Real.mul_self_sqrt hx⟩, fun k => by
    norm_num [stepPush, abs_le]⟩
  have hs : ∀ r, ∀ id < 1, Settled (stepWorld g r).g (stepRank.sp id) := by
    intro r id _
    refine ⟨by simp [stepRank, stepSpecies], by simp [stepRank, stepSpecies], by simp [stepRank, stepSpecies], ?_⟩
    intro i _ _
    refine ⟨⟨⟨2, 1, 1⟩, ?_, ?_⟩, ?_⟩
    · simp [Cell.Interior, stepWorld, (hg r).2.1, (hg r).2.2.1, (hg r).2.2.2.1]
    · simp [stepRank, stepSpecies, VOXEL, stepWorld, (hg r).2.1, (hg r).2.2.1]
    · intro k
      fin_cases k <;> norm_num [stepRank, stepSpecies]
  have hint' : ∀ r, (accArgs (stepWorld g r).g.nx (stepWorld g r).g.ny (stepWorld g r).g.nz 16 3).n < 2 ^ 31 := by
    intro r
    show (accArgs (g r).nx (g r).ny (g r).nz 16 3).n < 2 ^ 31
    rw [(hg r).2.1, (hg r).2.2.1, (hg r).2.2.2.1]
    decide
  have hint : ∀ r, ((3 : ℕ) : ℤ) * (pow2Ceil2 (nvOf (stepWorld g r).g.nx (stepWorld g r).g.ny (stepWorld g r).g.nz) *
      ((16 : ℕ) : ℤ)) < 2 ^ 31 := by
    intro r
    show ((3 : ℕ) : ℤ) * (pow2Ceil2 (nvOf (g r).nx (g r).ny (g r).nz) * ((16 : ℕ) : ℤ)) < 2 ^ 31
    rw [(hg r).2.1, (hg r).2.2.1, (hg r).2.2.2.1]
    decide
  have tot : ∑ _r : Fin 2, ∑ id ∈ Finset.range 1, (stepRank.sp id).np = 2 := by simp [stepRank, stepSpecies]
  obtain ⟨⟨m0', a0⟩, ⟨R', st', a1⟩, h2⟩ := step_runs hB _ Distribute.doubleRounding_accurate (fun _ => stepPush)
    (fun _ => hX) 3 16 3 1 le_rfl (fun _ => rfl) (by norm_num) (fun _ => by simp [stepEnv]) (by norm_num) (by norm_num)
    (by norm_num) (fun _ => by simp [stepEnv]) hint' hint ⟨1 / 2, fun _ => 1, 1 / 8⟩ (fun _ => stepRank) (fun _ _ => 0) hs
    (by rw [tot]; decide) (by rw [tot]; decide) (fun _ _ => 0) (fun _ _ => 0) (fun _ _ => 0)
  obtain ⟨⟨m', a2⟩, ⟨m1', a3⟩⟩ := h2 R' st' a1
  have e := exchanges_suffice_periodic hB Distribute.doubleRounding_accurate (fun _ => hX) le_rfl (by norm_num)
    (by norm_num) (fun _ => by simp [stepEnv]) hs a1
  refine ⟨stepWorld g, stepEnv g, R', st', m0', m', m1', hB, a0, a1, a2, a3,
    ⟨?_, fun r => (e.1 r 0 (by simp [stepEnv])).1⟩, fun x hx => ?_⟩
  · rw [e.2 0 (fun _ => by simp [stepEnv])]
    simp [stepRank, stepSpecies]
  · obtain ⟨k1, k2⟩ := step_continuity_courant hB _ Distribute.doubleRounding_accurate (fun _ => stepPush) (fun _ => hX) 3 16 3 1
      le_rfl (fun _ => rfl) (by norm_num) (by norm_num) (by norm_num) (fun _ => by simp [stepEnv]) hint' hint
      ⟨1 / 2, fun _ => 1, 1 / 8⟩ (by norm_num) (by norm_num) (fun _ => stepRank) R' (fun _ _ => 0) st'
      (fun r b _ v _ _ k hne => absurd rfl hne) hs (fun _ _ _ _ => rfl) _ m0' _ m' _ m1' a0 a1 a2 a3 x hx
    choose out ho using fun a => (k1 a).1
    choose inn hi using fun a => (k1 a).2
    exact ⟨out, inn, k2 out inn ho hi⟩

end Verif.Charge
