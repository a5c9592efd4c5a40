import Verif.Field.CleanE
import Verif.Field.Sample

/-!
# Ranks that meet the hypotheses
-/
namespace Verif.Field

open Grid

/-- One rank, periodic in all directions: its own neighbour on every side. -/
def ringWorld : World ℚ 1 := fun _ => sampleEnv 0

lemma ring_periodic : ringWorld.Periodic fun _ _ => 0 where
  ws := fun _ => rfl
  mesh := fun _ => sample_mesh 0
  dims := fun _ _ => rfl
  d := fun _ _ => rfl
  d0 := fun _ _ => by simp [ringWorld, sampleEnv]
  link := fun r r' s => by
    have e1 : World.dst ringWorld r s = some 0 := by
      simp [World.dst, ringWorld, sampleEnv, sampleGrid, sideBC]
    have e2 : World.src ringWorld r' s = some 0 := by
      simp [World.src, ringWorld, sampleEnv, sampleGrid, sideBC]
    rw [e1, e2]
    constructor <;> intro _ <;> congr 1 <;> exact Subsingleton.elim _ _
  nbr := fun r s => by simp [World.dst, ringWorld, sampleEnv, sampleGrid, sideBC]
  rd := fun _ _ => rfl

/-- The passes of C27 have a result from every field, on every set of ranks that fit together and whose walls
have known codes. -/
theorem clean_passes_run {K : Type*} [Field K] {n : ℕ} {W : World K n} (hW : W.Linked)
    (hk : ∀ r, AllKnown (W r)) {R : Distribute.Rounding} (hR : R.Accurate) {P : ℕ} (hP : 0 < P)
    (hP2 : P ≤ 2 ^ 16) (m0 : Fin n → FMem K) :
    ∃ m1 m2 m3 : Fin n → FMem K, (∀ r, ComputeDivB (W r) R P (m0 r) (m1 r)) ∧
      (∀ r, CleanDivB (W r) R P (W.ghostMail slotsDivB m1 r) (m1 r) (m2 r)) ∧
      ∀ r, ComputeDivB (W r) R P (m2 r) (m3 r) := by
  choose m1 h1 using fun r => compute_div_b_runs (hW.mesh r) hR hP hP2 (m0 r)
  choose m2 h2 using fun r => clean_div_b_runs (hW.mesh r) (hk r) hR hP hP2 (m1 r)
    (W.ghostMail slotsDivB m1 r) (by
      obtain ⟨rs, e, -⟩ := ghost_exchange hW (fun g hg => slotsDivB_ok hg) slots_dims.2.2 m1 r
      rw [e]; simp)
  choose m3 h3 using fun r => compute_div_b_runs (hW.mesh r) hR hP hP2 (m2 r)
  exact ⟨m1, m2, m3, h1, h2, h3⟩

/-- The same for E. -/
theorem clean_e_passes_run {K : Type*} [Field K] {n : ℕ} {W : World K n} (hW : W.Linked)
    (hk : ∀ r, AllKnown (W r)) {R : Distribute.Rounding} (hR : R.Accurate) {P : ℕ} (hP : 0 < P)
    (hP2 : P ≤ 2 ^ 16) (m0 : Fin n → FMem K) :
    ∃ m1 m2 m3 : Fin n → FMem K,
      (∀ r, ComputeDivE (W r) R P (updateDivE (W r)) (W.ghostMail slotsNormE m0 r) (m0 r) (m1 r)) ∧
      (∀ r, CleanDivE (W r) R P (marderE (W r)) (m1 r) (m2 r)) ∧
      ∀ r, ComputeDivE (W r) R P (updateDivE (W r)) (W.ghostMail slotsNormE m2 r) (m2 r) (m3 r) := by
  have mail : ∀ m r, endRemote (W r) slotsNormE (W.ghostMail slotsNormE m r) ≠ none := fun m r => by
    obtain ⟨rs, e, -⟩ := ghost_exchange hW (fun g hg => slotsNormE_ok hg) slots_dims.2.1 m r
    rw [e]; simp
  choose m1 h1 using fun r => (compute_div_e_runs (hW.mesh r) (hk r) hR hP hP2 (updateDivE (W r)) (m0 r)
    (W.ghostMail slotsNormE m0 r) (mail m0 r)).1
  choose m2 h2 using fun r => clean_div_e_runs (hW.mesh r) (hk r) hR hP hP2 (marderE (W r)) (m1 r)
  choose m3 h3 using fun r => (compute_div_e_runs (hW.mesh r) (hk r) hR hP hP2 (updateDivE (W r)) (m2 r)
    (W.ghostMail slotsNormE m2 r) (mail m2 r)).1
  exact ⟨m1, m2, m3, h1, h2, h3⟩

/-- C27 on a concrete mesh: any field on the 4 by 3 by 1 periodic box. -/
example (m0 : Fin 1 → FMem ℚ) : ∃ m1 m2 m3 : Fin 1 → FMem ℚ,
    (∀ r, ComputeDivB (ringWorld r) Distribute.doubleRounding 3 (m0 r) (m1 r)) ∧
    (∀ r, CleanDivB (ringWorld r) Distribute.doubleRounding 3 (ringWorld.ghostMail slotsDivB m1 r) (m1 r) (m2 r)) ∧
    (∀ r, ComputeDivB (ringWorld r) Distribute.doubleRounding 3 (m2 r) (m3 r)) ∧
    errB ringWorld m3 ≤ errB ringWorld m1 := by
  have hR := Distribute.doubleRounding_accurate
  obtain ⟨m1, m2, m3, h1, h2, h3⟩ := clean_passes_run ring_periodic.toLinked
    (fun r s hs => absurd hs (not_wall ring_periodic r s)) hR (P := 3) (by norm_num) (by norm_num) m0
  refine ⟨m1, m2, m3, h1, h2, h3, clean_div_b_contracts ring_periodic hR (by norm_num) (by norm_num) (fun r => ?_) h1 h2 h3⟩
  refine ⟨0, ?_, by simp [ringWorld, sampleEnv]⟩
  show 1 < dims (sampleGrid 0) 0
  simp [dims, sampleGrid]

/-- C32 on concrete ranks: a 4 by 5 by 6 mesh on 2 by 1 by 3 ranks. -/
example : ∃ W : World ℚ 6, W.Linked ∧ ∀ r, dims (W r).g = ![2, 5, 2] := by
  have hD : (⟨4, 5, 6, 2, 1, 3⟩ : Decomp).ok 6 = true := by decide
  have h := (Decomp.ok_iff _ 6).mp hD
  have ex : ∀ r : Fin 6, ∃ g, gridOf ⟨4, 5, 6, 2, 1, 3⟩ 6 (fun _ _ => 77) r = some g ∧
      g.nx = 2 ∧ g.ny = 5 ∧ g.nz = 2 := by
    intro r
    obtain ⟨g, e, gx, gy, gz, -⟩ :=
      partitionPeriodic_T h (fun _ => localNv ⟨4, 5, 6, 2, 1, 3⟩) (fun _ => rfl) (fun _ => 77) r r.2
    exact ⟨g, e, by rw [gx]; rfl, by rw [gy]; rfl, by rw [gz]; rfl⟩
  choose g hg hx hy hz using ex
  let W : World ℚ 6 := fun r => { sampleEnv 0 with g := g r, ws := 6 }
  have := periodic_world_linked (W := W) hD (fun _ _ => 77) hg
    ⟨fun _ => rfl, fun _ _ => rfl, fun _ _ => by simp [W, sampleEnv], by decide⟩
  refine ⟨W, this.1, fun r => ?_⟩
  funext a
  show dims (g r) a = _
  fin_cases a <;> simp [dims, hx, hy, hz]

end Verif.Field
