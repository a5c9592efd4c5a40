import Verif.Collide.Lemmas3
import Mathlib.MeasureTheory.Integral.IntervalIntegral.Basic

/-!
# Averages over the numbers that decide which of two particles of unequal weight are scattered

Specification of C119.  `mean n F` is the average of `F` over `n` independent numbers that are uniform between 0 and 1,
`pipeMean` the same for the numbers of several pipelines.
-/
namespace Verif.Collide
open Verif.Collision Verif.SortP

/-- Average over `n` independent numbers, uniform between 0 and 1. -/
noncomputable def mean : ℕ → (List ℝ → ℝ) → ℝ
  | 0, F => F []
  | n + 1, F => ∫ r in (0 : ℝ)..1, mean n fun rs => F (r :: rs)

/-- Average over the numbers of the pipelines in the list, `ns r` for pipeline `r`. -/
noncomputable def pipeMean (ns : ℕ → ℕ) : List ℕ → ((ℕ → List ℝ) → ℝ) → ℝ
  | [], F => F fun _ => []
  | r :: ranks, F => mean (ns r) fun rs => pipeMean ns ranks fun rss => F fun s => if s = r then rs else rss s

/-- The first numbers that decide which particle is scattered are replaced by those of the list. -/
def setR : List (ℝ × ℝ × ℝ) → List ℝ → List (ℝ × ℝ × ℝ)
  | gs, [] => gs
  | [], _ :: _ => []
  | g :: gs, r :: rs => (g.1, g.2.1, r) :: setR gs rs

/-- The same for the generators of all pipelines. -/
def regen (gens : ℕ → TAGen ℝ) (rss : ℕ → List ℝ) : ℕ → TAGen ℝ := fun r => ((gens r).1, setR (gens r).2 (rss r))

end Verif.Collide
