import Verif.AdvanceP.Charge
import Mathlib.Analysis.Real.Sqrt

/-!
# The hypotheses of the theorems about `advance_p` can be met

Runs of `advance_p` exist for every pipeline count; on every domain of every periodic decomposition,
with a true square root and a time step below the Courant limit of one cell per step, every push of a
particle inside of the domain is valid.
-/
namespace Verif.AdvanceP

open MoveP Boris Grid Distribute Deposit SfInterface

variable {K : Type} [Field K] [LinearOrder K] [IsStrictOrderedRing K]

/-- `advance_p` can run from every memory, with every pipeline count. -/
theorem advance_exists (R : Rounding) (hR : R.Accurate) (A : Args K) (P : ℕ) (hP : 0 < P)
    (hP2 : P ≤ 2 ^ 16) (hM : A.max_nm < 2 ^ 31) (m : Mem K) : ∃ m' res, Advance R A P m m' res :=
  ⟨_, _, _, mapM_some _ _ _ fun r hr => thread_eq R A P r hP
    (by have := List.mem_range.mp hr; omega) (moverSegs R hR A P hP hP2 hM), runs_seq _ m, rfl⟩

/-- Slower than light and one cell per step: every push is valid. -/
theorem courant_push_ok (A : Args K) (h : LocalMesh A.g)
    (hrt : ∀ x, 0 ≤ x → 0 ≤ A.rt x ∧ A.rt x * A.rt x = x) (hc : ∀ k, |A.cdt_d k| ≤ 1)
    (hf : 3 < A.fuel) (m : Mem K) (hw : WellPlaced A m) :
    ∀ i : ℤ, 0 ≤ i → i < A.np → PushOk A (m.part i) := by
  intro i h0 h1
  obtain ⟨⟨c, hc1, hi⟩, hd⟩ := hw i h0 h1
  obtain ⟨p', left, a', e, -⟩ := push_ok A h (m.part i) c hc1 hi hd (fun _ => 1)
    (fun k => (normDisp_le A hrt _ k).trans (by simpa using hc k)) (by simpa using hf)
  exact ⟨p', left, a', e⟩

/-- C10 and C16 on every domain of every periodic decomposition, without further hypotheses on the
particles than being inside of the domain: `advance_p` runs, its movers are in order, and the charge
is conserved. -/
theorem advance_p_periodic_box (R : Rounding) (hR : R.Accurate) (P : ℕ) (hP : 0 < P)
    (hP2 : P ≤ 2 ^ 16) (D : Decomp) (ws : ℕ) (hD : D.ok ws = true) (t0 : ℕ → ℤ → ℤ) (r : ℕ)
    (hr : r < ws) (A : Args K) (hg : gridOf D ws t0 r = some A.g)
    (hN : A.np < 2 ^ 31) (hM : A.max_nm < 2 ^ 31)
    (hrt : ∀ x, 0 ≤ x → 0 ≤ A.rt x ∧ A.rt x * A.rt x = x) (hc : ∀ k, |A.cdt_d k| ≤ 1)
    (hf : 3 < A.fuel) (sc : Scales K) (hdt : sc.dt ≠ 0)
    (hV : sc.r8V = sc.rd 0 * sc.rd 1 * sc.rd 2 * (1 / 8)) (m : Mem K) (hw : WellPlaced A m) :
    (∃ m' res, Advance R A P m m' res) ∧ ∀ m' res, Advance R A P m m' res →
      ∃ pm nm ρ ρ', res = some (pm, nm) ∧ ((moverList pm nm).map Mover.i).Pairwise (· < ·) ∧
      accumulateRhoP A.g sc.r8V A.qsp ((upTo A.np).map m.part) (fun _ => 0) = some ρ ∧
      accumulateRhoP A.g sc.r8V A.qsp ((upTo A.np).map (placed (moverList pm nm) m'))
        (fun _ => 0) = some ρ' ∧
      ∀ N : ℤ × ℤ × ℤ,
        ∑ n ∈ (Finset.Ico 0 (nvox A.g)).filter (fun n => nodeClass A.g (fun _ => true) n = N),
          ((ρ' n - ρ n) / sc.dt +
            (divJ A.g sc (totalAcc A.g P m') n - divJ A.g sc (totalAcc A.g P m) n)) = 0 := by
  have hm := periodic_localMesh D ws hD t0 r hr A.g hg
  have hok := courant_push_ok A hm hrt hc hf m hw
  have hv : 0 ≤ nvox A.g := by
    have := hm.nx; have := hm.ny; have := hm.nz
    unfold nvox; positivity
  refine ⟨advance_exists R hR A P hP hP2 hM m, fun m' res ha => ?_⟩
  obtain ⟨pm, nm, ρ, ρ', e, h1, h2, h3⟩ := advance_p_conserves_charge R hR A P hP hP2 hN hM hm sc hdt
    hV (fun _ => true) (fun _ _ _ _ _ _ _ => rfl) m m' hw hok res ha
  obtain ⟨pm1, nm1, e1, -, h5, -⟩ := advance_p_movers R hR A P hP hP2 hN hM hv m m' hok res ha
  rw [e, Option.some.injEq, Prod.mk.injEq] at e1
  obtain ⟨rfl, rfl⟩ := e1
  exact ⟨pm, nm, ρ, ρ', e, h5, h1, h2, h3⟩

/-- Three pipelines, 100 particles spread over two cells of a 2×3×1 domain, in non-zero fields. -/
noncomputable example : ∃ (A : Args ℝ) (m : Mem ℝ), LocalMesh A.g ∧ A.np = 100 ∧ WellPlaced A m ∧
    (∀ i : ℤ, 0 ≤ i → i < A.np → PushOk A (m.part i)) ∧
    ∃ m' res, Advance doubleRounding A 3 m m' res := by
  obtain ⟨g, e, gx, gy, gz, -⟩ := partitionPeriodic_T ((Decomp.ok_iff ⟨2, 3, 1, 2, 1, 1⟩ 2).mp (by decide))
    (fun _ => localNv ⟨2, 3, 1, 2, 1, 1⟩) (fun _ => rfl) (fun _ => 77) 1 (show 1 < 2 by decide)
  have hl := periodic_localMesh ⟨2, 3, 1, 2, 1, 1⟩ 2 (by decide) (fun _ _ => 77) 1 (by decide) g e
  let A : Args ℝ := ⟨g, Real.sqrt, fun _ => ⟨1, 2, 0, 0, 0, 0, 1, 0, 0, 3, 0, 0, 1, 0, 0, 1, 0, 0⟩,
    1/2, fun _ => 1/2, -1, 100, 40, 4⟩
  let m : Mem ℝ := .mk (fun i => ⟨![1/2, -1, 0], VOXEL g.nx g.ny 1 (1 + i % 2) 1, ![1, i, 3], 5⟩)
    (fun _ _ => 0) (fun _ => ⟨0, 0⟩) (fun _ => ⟨0, 0, true⟩)
  have hw : WellPlaced A m := by
    intro i h0 h1
    refine ⟨⟨⟨1, 1 + i % 2, 1⟩, ?_, rfl⟩, ?_⟩
    · have := Int.emod_two_eq_zero_or_one i
      simp only [Cell.Interior, A, gx, gy, gz]
      rcases this with h | h <;> rw [h] <;> decide
    · intro k
      show -1 ≤ (![1/2, -1, 0] : Fin 3 → ℝ) k ∧ (![1/2, -1, 0] : Fin 3 → ℝ) k ≤ 1
      fin_cases k <;> norm_num
  refine ⟨A, m, hl, rfl, hw, courant_push_ok A hl (fun x hx => ⟨Real.sqrt_nonneg x, Real.mul_self_sqrt hx⟩)
    (fun k => ?_) (show 3 < 4 by decide) m hw, advance_exists _ doubleRounding_accurate A 3 (by decide) (by decide)
    (show 40 < 2 ^ 31 by decide) m⟩
  show |(1/2 : ℝ)| ≤ 1
  rw [abs_of_nonneg] <;> norm_num

end Verif.AdvanceP
