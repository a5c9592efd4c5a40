import Verif.Normal.NearProps

/-! The hypotheses of the theorems on random numbers can be met. -/
namespace Verif.Normal

open MeasureTheory ProbabilityTheory

/-- With 64 strips, as `frandn` has: a number above one comes out as often as it should. -/
example : ∃ T : Table, ∃ _ : NeZero T.N, T.N = 64 ∧ Exact T ∧
    ideal T.N {ω | ∃ n z, randn T n ω = some z ∧ 1 < z.1} = gaussianReal 0 1 {x | 1 < x} := by
  obtain ⟨T, hN, h⟩ := exact_table_exists 64 (by norm_num)
  haveI : NeZero T.N := ⟨by omega⟩
  refine ⟨T, inferInstance, hN, h, ?_⟩
  have hs : MeasurableSet {x : ℝ | 1 < x} := measurableSet_Ioi
  have := randn_normal T h ({x : ℝ | 1 < x} ×ˢ Set.univ) (hs.prod MeasurableSet.univ)
  rw [Measure.prod_prod] at this
  simpa [returns] using this

/-- With 256 strips, as `drandn` has: the loop ends. -/
example : ∃ T : Table, ∃ _ : NeZero T.N, T.N = 256 ∧ Exact T := by
  obtain ⟨T, hN, h⟩ := exact_table_exists 256 (by norm_num)
  exact ⟨T, ⟨by omega⟩, hN, h⟩

/-- A strip near the middle, a quick accept: the number comes out with its sign. -/
example : randn (⟨2, fun i => i, fun i => Real.exp (-(i : ℝ) ^ 2 / 2), 1⟩ : Table) 1 (fun _ => (true, 1, 1 / 4)) =
    some (-(1 / 2), fun _ => (true, 1, 1 / 4)) := by
  simp only [randn, trip, next, sgn]
  norm_num
  rfl

end Verif.Normal
