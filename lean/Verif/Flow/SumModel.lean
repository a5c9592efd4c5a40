import Verif.Flow.Lemmas

/-!
# The current on an edge from the deposits of all particles, with rounding to single precision

Model of the sums between the deposits of particles and the current of the fields: `a[k] += ...` of advance_p and move_p,
/repo/src/species_advance/standard/pipeline/advance_p_pipeline.cc:186-208, `reduce_array_pipeline_scalar`,
/repo/src/sf_interface/pipeline/reduce_array_pipeline.cc:20-160, and `unload_accumulator_pipeline_scalar`,
/repo/src/sf_interface/pipeline/unload_accumulator_pipeline.cc:18-85.  Given are the numbers that the particles of each pipeline add to a
slot; what they are is C124, and that the slots are the right ones is C34.  Every addition is rounded to nearest; overflow and
underflow are left out.
-/
namespace Verif.Flow
open Verif.Place Verif.Streak

/-- `v0 + v1`. -/
def radd (x y : ℚ) : ℚ := rnd32 (x + y)

/-- A slot of a pipeline after its particles, from 0 on (`clear_array`). -/
def accum (xs : List ℚ) : ℚ := xs.foldl radd 0

/-- `O1` … `O9` and the loop over the arrays, reduce_array_pipeline.cc:46-160: the slot of the first array after those of the others have
been added to it. -/
def reduceAll (a : ℚ) : List ℚ → ℚ
  | [] => a
  | [v1] => radd a v1
  | [v1, v2] => radd (radd a v1) v2
  | [v1, v2, v3] => radd (radd a v1) (radd v2 v3)
  | [v1, v2, v3, v4] => radd (radd (radd a v1) (radd v2 v3)) v4
  | [v1, v2, v3, v4, v5] => radd (radd (radd a v1) (radd v2 v3)) (radd v4 v5)
  | [v1, v2, v3, v4, v5, v6] => radd (radd (radd a v1) (radd v2 v3)) (radd (radd v4 v5) v6)
  | [v1, v2, v3, v4, v5, v6, v7] => radd (radd (radd a v1) (radd v2 v3)) (radd (radd v4 v5) (radd v6 v7))
  | [v1, v2, v3, v4, v5, v6, v7, v8] => radd (radd (radd (radd a v1) (radd v2 v3)) (radd (radd v4 v5) (radd v6 v7))) v8
  | v1 :: v2 :: v3 :: v4 :: v5 :: v6 :: v7 :: v8 :: v9 :: rest =>
    reduceAll (radd (radd (radd (radd a v1) (radd v2 v3)) (radd (radd v4 v5) (radd v6 v7))) (radd v8 v9)) rest

/-- The slot of the first array, `a0` being what its own particles have added and `as` what those of the other arrays have. -/
def slotSum (a0 : List ℚ) (as : List (List ℚ)) : ℚ := reduceAll (accum a0) (as.map accum)

/-- `jf += c*( a0 + ay + az + ayz )`, unload_accumulator_pipeline.cc:65-67. -/
def unload (jf c s0 s1 s2 s3 : ℚ) : ℚ := rnd32 (jf + rnd32 (c * radd (radd (radd s0 s1) s2) s3))

end Verif.Flow
