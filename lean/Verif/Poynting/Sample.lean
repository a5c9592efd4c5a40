import Verif.Poynting.Props
import Mathlib.Data.Rat.Defs
import Mathlib.Algebra.Field.Rat
import Mathlib.Algebra.Ring.Rat
import Mathlib.Tactic.NormNum

/-! Boxes that meet the hypotheses of the theorems about `poynting_flux`. -/
namespace Verif.Poynting.Sample

/-- Two by one domains of 4 × 3 × 3 cells, one domain along x. -/
def box : Box ℚ := ⟨4, 3, 3, 1, 2, 1, 2⟩

/-- Uniform fields. -/
def u : Fields ℚ := ⟨3, 1, -1, 2⟩

/-- (3·2 + 1·1) / (2·5)². -/
example : flux box (fun _ _ => u) 5 = some (7 / 100) := by
  rw [flux_uniform_partial box (fun _ _ => u) 5 rfl (by decide) (by decide) (by decide) (by decide) (by norm_num [box]) (by norm_num) u fun _ _ _ _ _ _ _ _ => rfl]
  norm_num [u, box]

/-- The same in two domains along x. -/
example : flux { box with px := 2 } (fun _ _ => u) 5 = none :=
  flux_undefined _ _ _ (by decide) (by decide) (by decide) (by decide) (by decide)

end Verif.Poynting.Sample
