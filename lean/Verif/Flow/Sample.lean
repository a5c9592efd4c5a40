import Verif.Flow.Props

/-!
# Property C124: a concrete case
-/
namespace Verif.Flow
open Verif.Place Verif.Streak

/-- A charge whose products are not exact. -/
def charge : ℚ := rnd32 (1 / 10)

/-- A displacement. -/
def shift : Fin 3 → ℚ := ![rnd32 (1 / 3), rnd32 (-1 / 7), rnd32 (1 / 5)]

/-- A midpoint. -/
def middle : Fin 3 → ℚ := ![rnd32 (1 / 9), rnd32 (2 / 3), rnd32 (-3 / 5)]

/-- The hypotheses of `share_mean`, `shares_total` and `deposit_near` are met, for both corrections, and the roundings are seen: the four
contributions do not add up exactly. -/
example : Corr (corrPush charge shift) charge shift ∧ Corr (corrMove charge shift) charge shift ∧ (∀ k, |shift k| ≤ 1) ∧
    (∀ k, |middle k| ≤ 1) ∧
    ∑ i, shares charge (shift 0) (middle 1) (middle 2) (corrPush charge shift) i ≠ 4 * (charge * shift 0) :=
  ⟨.inl rfl, .inr rfl, by decide +kernel, by decide +kernel, by decide +kernel⟩

/-- Half of the way light moves in a voxel, in each direction. -/
def light : Fin 3 → ℚ := fun _ => rnd32 (1 / 2)

/-- The hypotheses of `push_near` are met, with a root that is not too small. -/
example : (∀ k, |middle k| ≤ 1) ∧ Slow ⟨middle, disp (fun y => (y + 1) / 2) light shift⟩ ∧ (∀ k, rnd32 (middle k) = middle k) ∧
    (∀ k, |newPos (middle k) (disp (fun y => (y + 1) / 2) light shift k)| ≤ 1) :=
  ⟨by decide +kernel, by unfold Slow; decide +kernel, by decide +kernel, by decide +kernel⟩

end Verif.Flow
