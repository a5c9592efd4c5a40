import Verif.Modify.Props

/-! An example for C113. -/
namespace Verif.Modify.Sample

/-- A `%le` that takes any text without sign and exponent, for the example. -/
def fd (t : List Char) : Scan ℕ :=
  let ds := t.takeWhile Char.isDigit
  if ds = [] then .no else .value (digitsVal ds)

/-- The parameters before. -/
def s0 : Vars ℕ := ⟨11, 100, 1, 2, 3, 4⟩

/-- The lines of the file. -/
def ls : List (List Char) :=
  ["# longer run".toList, "num_step 2000".toList, "quota 23.5".toList, "field_interval -7".toList, "hydro_interval\t+40 steps".toList, "num_step 3000".toList]

theorem ls_short : ∀ l ∈ ls, l.length < 126 ∧ '\n' ∉ l := by decide

/-- The file is read: the last line for `num_step` wins, the negative interval becomes zero. -/
theorem sample_modify : modify fd (fileOf ls) s0 = some ⟨23, 3000, 1, 40, 0, 4⟩ := by decide +kernel

/-- Hypotheses and conclusion of `modify_sets` for it. -/
theorem sample_sets : Result "num_step" ls id 100 3000 ∧ Result "checkpt_interval" ls (max 0) 1 1 ∧ Result "hydro_interval" ls (max 0) 2 40 ∧
    Result "field_interval" ls (max 0) 3 0 ∧ Result "particle_interval" ls (max 0) 4 4 :=
  modify_sets fd ls ls_short s0 _ sample_modify

end Verif.Modify.Sample
