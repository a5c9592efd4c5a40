import Verif.Vector.LaneProps
import Mathlib.Data.Rat.Defs
import Mathlib.Tactic.NormNum

/-! Cases that meet the hypotheses of the theorems about lanes. -/
namespace Verif.Vector.LaneSample

/-- Whole multiples of 2⁻¹⁴⁹ up to 2²³, the subnormal numbers: sums are exact. -/
def word (k : ℤ) : Word := if k < 0 then BitVec.ofNat 32 k.natAbs ^^^ Word.sign else BitVec.ofNat 32 k.natAbs

/-- Their arithmetic as far as sums go. -/
def small : Arith Word where
  zero := 0
  one := word 1
  half := 0
  add a b := word (Word.key a + Word.key b)
  sub a b := word (Word.key a + Word.key (Word.fneg b))
  mul a _ := a
  div a _ := a
  sqrt := id
  rsqrtE := id
  rcpE := id
  fmadd a _ _ := a
  fmsub a _ _ := a
  fnmadd a _ _ := a

/-- `none_full`, `opposite_wrong`: zero minus zero has no sign. -/
example : small.sub small.zero 0 = 0 := by decide

/-- `trilinear_sse`. -/
example : ∀ a b, small.sub a b = small.add a (Word.fneg b) := fun _ _ => rfl

/-- The sum of 3 and -5 units is -2 units, in each lane. -/
example : (V4Sse.ops small).fadd (fun _ _ => word 3) (fun _ _ => word (-5)) 0 2 = word (-2) := by decide

/-- 1.0f < 2.0f, -1.0f < 1.0f. -/
example : Word.finite 0x3f800000#32 ∧ Word.finite 0x40000000#32 ∧ Word.flt 0x3f800000#32 0x40000000#32 = true ∧ Word.flt 0xbf800000#32 0x3f800000#32 = true := by
  unfold Word.finite; decide

/-- What is not a number. -/
example : Word.nan 0x7fc00000#32 = true ∧ Word.nan 0x3f800000#32 = false := by decide

/-- The estimate 2/5 of the inverse root of 4: relative error -1/5; of the inverse: 1/5 instead of 1/4, error -1/5. -/
example : (2 : ℚ) * 2 = 4 ∧ (2 / 5 : ℚ) = (1 + -1 / 5) / 2 ∧ (1 / 5 : ℚ) = (1 + -1 / 5) / 4 := by norm_num

example : V4Sse.rsqrt (exact ℚ id (fun _ => 2 / 5) id) (fun _ _ => 4) 0 0 = (1 - (-1 / 5) ^ 2 * (3 + -1 / 5) / 2) / 2 :=
  (rsqrt_right id (fun _ => 2 / 5) id).1 _ 0 0 2 (-1 / 5) (by norm_num) (by norm_num) (by norm_num)

/-- An aligned and a misaligned address. -/
example : (V4Sse.increment small (fun _ => word 3) 8 (fun _ _ => word 4)).isSome ∧ V4Sse.increment small (fun _ => word 3) 9 (fun _ _ => word 4) = none :=
  ⟨rfl, rfl⟩

end Verif.Vector.LaneSample
