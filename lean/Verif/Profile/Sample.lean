import Verif.Profile.Props
import Verif.Profile.Counts
import Mathlib.Data.Rat.Floor

/-!
# Samples for C120
-/
namespace Verif.Profile
open Step (Cfg)

/-- Two intervals of a run, times in seconds. -/
def twoIntervals : List (Ev ℚ) :=
  [.block .advance_p 0 3 1, .block .advance_b 3 4 2, .update true, .block .advance_p 4 (9 / 2) 1, .block .sort_p 5 6 1]

/-- The columns of a row but the times per call. -/
structure Columns where
  name : Timer
  pct : ℤ
  t : ℚ
  n : ℤ
  pctTotal : ℤ
  tTotal : ℚ
  nTotal : ℤ
  deriving DecidableEq

/-- The columns of a row. -/
def Row.columns (r : Row ℚ) : Columns := ⟨r.name, r.pct, r.t, r.n, r.pctTotal, r.tTotal, r.nTotal⟩

-- Both tables: the rows come in the fixed order, the second has the interval beside the total.
example : ((run start (twoIntervals ++ [.update true])).map fun q => q.2.map fun t => t.map Row.columns) =
    some [[⟨.advance_p, 75, 3, 1, 75, 3, 1⟩, ⟨.advance_b, 25, 1, 2, 25, 1, 2⟩],
      [⟨.sort_p, 67, 1, 1, 18, 1, 1⟩, ⟨.advance_p, 33, 1 / 2, 1, 64, 7 / 2, 2⟩, ⟨.advance_b, 0, 0, 0, 18, 1, 2⟩]] := by
  decide +kernel

-- The hypotheses of `profile_table`, `profile_percent` and `profile_defined_partial` are met by it.
example : ∃ s out, run start (twoIntervals ++ [.update true]) = some (s, out) := by
  have : (run start (twoIntervals ++ [.update true])).isSome = true := by decide +kernel
  obtain ⟨q, hq⟩ := Option.isSome_iff_exists.mp this
  exact ⟨q.1, q.2, hq⟩

example : Forward twoIntervals := by
  intro i a b n h
  simp only [twoIntervals, List.mem_cons, Ev.block.injEq, List.not_mem_nil, or_false, reduceCtorEq, false_or] at h
  rcases h with ⟨-, rfl, rfl, -⟩ | ⟨-, rfl, rfl, -⟩ | ⟨-, rfl, rfl, -⟩ | ⟨-, rfl, rfl, -⟩ <;> norm_num

/-- A run with one species that cleans the electric field in every step and prints the table in every second. -/
def oneSpecies : Cfg where
  numStep := 0
  sorts := [20]
  hasCollisions := false
  hasEmitters := false
  numCommRound := 3
  cleanDivEInterval := 1
  numDivERound := 2
  cleanDivBInterval := 0
  numDivBRound := 2
  syncSharedInterval := 0
  statusInterval := 2

/-- Blocks of one second each. -/
def oneSecond : Shape → Ev ℚ
  | .block i n => .block i 0 1 n
  | .update d => .update d

/-- The history of the first two steps after a restore, up to the table. -/
def restored : List (Ev ℚ) := (((stepsBlocks oneSpecies true 40 2).dropLast).dropLast).map oneSecond

-- The table has no row for `accumulate_rho_p`, although it was called in both steps and took two of fifty seconds.
example : .accumulate_rho_p ∉ shown restored ∧ time restored .accumulate_rho_p = 2 ∧ allTime restored = 50 ∧
    done (Step.runLog oneSpecies 2 40) .accumulate_rho_p = 2 := by
  decide +kernel

example : calls restored .advance_b = 4 ∧ calls restored .boundary_p = 6 ∧
    done (Step.runLog oneSpecies 2 40) .boundary_p = 6 := by
  decide +kernel

-- The hypothesis of `calls_counted_partial` and `rho_miscounted` is met by blocks of a second for all runs.
example (c : Cfg) (n : ℕ) : ((stepsBlocks c true 40 n).map oneSecond).map shape = stepsBlocks c true 40 n := by
  rw [List.map_map]
  conv_rhs => rw [← List.map_id (stepsBlocks c true 40 n)]
  apply List.map_congr_left
  intro e _
  cases e <;> rfl

end Verif.Profile
