import Verif.Common.Interleave
import Verif.Common.Mem
import Verif.Distribute.Model
import Verif.Grid.Model
import Mathlib.Algebra.Field.Basic

/-!
# Clearing and reducing the private arrays of the pipelines

Model of /repo/src/sf_interface/pipeline/reduce_array_pipeline.cc and clear_array_pipeline.cc, scalar
versions.  The storage of an accumulator or hydro array (all private copies one after the other) is a
flat array of `size` numbers, `ℤ → K`.  Exact arithmetic.  An index that is not representable as `int`
or an access outside of the storage makes the program undefined (`none`).  Pipelines and the host run
interleaved (`Runs`).
-/
namespace Verif.SfInterface

open Distribute (Rounding distribute items)
open Grid (VOXEL)

variable {K : Type*} [Field K]

/-- The fields of `reduce_pipeline_args_t`
(/repo/src/sf_interface/pipeline/sf_interface_pipeline.h:67-75): `a` is the position of `args->a` in
the storage, all counts in floats. -/
structure RedArgs where
  size : ℤ
  a : ℤ
  n : ℕ
  nArray : ℕ
  sArray : ℤ
  nBlock : ℕ

/-- `O1` … `O9`, reduce_array_pipeline.cc:46-139: the sum of `v0` … `v_c` in the association of the
code.  (Other `c` do not occur.) -/
def opSum (c : ℕ) (v : ℕ → K) : K :=
  match c with
  | 0 => v 0
  | 1 => v 0 + v 1
  | 2 => (v 0 + v 1) + v 2
  | 3 => (v 0 + v 1) + (v 2 + v 3)
  | 4 => ((v 0 + v 1) + (v 2 + v 3)) + v 4
  | 5 => ((v 0 + v 1) + (v 2 + v 3)) + (v 4 + v 5)
  | 6 => ((v 0 + v 1) + (v 2 + v 3)) + ((v 4 + v 5) + v 6)
  | 7 => ((v 0 + v 1) + (v 2 + v 3)) + ((v 4 + v 5) + (v 6 + v 7))
  | 8 => (((v 0 + v 1) + (v 2 + v 3)) + ((v 4 + v 5) + (v 6 + v 7))) + v 8
  | _ => (((v 0 + v 1) + (v 2 + v 3)) + ((v 4 + v 5) + (v 6 + v 7))) + (v 8 + v 9)

/-- The index `k + (r+r0)*sr` of macro `B`, reduce_array_pipeline.cc:43. -/
def bIndex (sr r0 : ℤ) (j : ℤ) (r : ℕ) : ℤ := j + ((r : ℤ) + r0) * sr

/-- One execution of `Oc( j )`: `A` reads `a[j]`, `B` reads `b[…]` with `b = a + sr`, `C` stores. -/
def redOp (a sr r0 : ℤ) (c : ℕ) (j : ℤ) (m : ℤ → K) : ℤ → K :=
  put m (a + j) (opSum c fun r => if r = 0 then m (a + j) else m (a + sr + bIndex sr r0 j r))

/-- All indices of `Oc( j )` are `int`s and inside of the storage. -/
def redOk (size a sr r0 : ℤ) (c : ℕ) (j : ℤ) : Bool :=
  decide (0 ≤ a + j ∧ a + j < size) && (List.range c).all fun r =>
    decide (-2 ^ 31 ≤ bIndex sr r0 j (r + 1) ∧ bIndex sr r0 j (r + 1) < 2 ^ 31 ∧
      0 ≤ a + sr + bIndex sr r0 j (r + 1) ∧ a + sr + bIndex sr r0 j (r + 1) < size)

/-- `while( nr ) switch( nr ) …`, reduce_array_pipeline.cc:141-158: the values of `r0` and the number of
arrays added in each pass. -/
def passes (nr : ℕ) (r0 : ℤ) : List (ℤ × ℕ) :=
  if h : nr = 0 then [] else
    let c := if nr ≤ 8 then nr else 9
    (r0, c) :: passes (nr - c) (r0 + c)
termination_by nr
decreasing_by
  split <;> omega

/-- The steps of a pipeline, in order, when the elements are shared out in blocks of `b`
(`DISTRIBUTE( args->n, b, … )`). -/
def reduceRankB (b : ℕ) (R : Rounding) (A : RedArgs) (p P : ℕ) : Option (List ((ℤ → K) → ℤ → K)) :=
  (items (distribute R A.n b p P)).bind fun js =>
    let prog := (passes (A.nArray - 1) (-1)).flatMap fun rc => js.map fun j => (rc.1, rc.2, j)
    if prog.all fun x => redOk A.size A.a A.sArray x.1 x.2.1 x.2.2 then
      some (prog.map fun x => redOp A.a A.sArray x.1 x.2.1 x.2.2)
    else none

/-- `reduce_array_pipeline_scalar`, reduce_array_pipeline.cc:20-170. -/
def reduceRank (R : Rounding) (A : RedArgs) (p P : ℕ) : Option (List ((ℤ → K) → ℤ → K)) :=
  reduceRankB 1 R A p P

/-- A reduction with shares in blocks of `b`: some interleaving of the pipelines and the host takes the
storage `m` to `m'`. -/
def ReduceB (b : ℕ) (R : Rounding) (A : RedArgs) (P : ℕ) (m m' : ℤ → K) : Prop :=
  ∃ ts, (List.range (P + 1)).mapM (fun p => reduceRankB (K := K) b R A p P) = some ts ∧ Runs ts m m'

/-- `EXEC_PIPELINES( reduce_array, args, 0 ); WAIT_PIPELINES();`: some interleaving of the pipelines
and the host takes the storage `m` to `m'`. -/
def Reduce (R : Rounding) (A : RedArgs) (P : ℕ) (m m' : ℤ → K) : Prop :=
  ∃ ts, (List.range (P + 1)).mapM (fun p => reduceRank (K := K) R A p P) = some ts ∧ Runs ts m m'

/-- `clear_array_pipeline_scalar`, clear_array_pipeline.cc:9-28: the stores of a pipeline; `CLEAR` is a
`memset` to zero (/repo/src/util/util_base.h:279). -/
def clearRank (R : Rounding) (A : RedArgs) (p P : ℕ) : Option (List ((ℤ → K) → ℤ → K)) :=
  (items (distribute R A.n A.nBlock p P)).bind fun js =>
    let prog := (List.range A.nArray).flatMap fun (k : ℕ) => js.map fun j => A.a + k * A.sArray + j
    if prog.all fun x => decide (0 ≤ x ∧ x < A.size) then some (prog.map fun x m => put m x 0) else none

/-- `EXEC_PIPELINES( clear_array, args, 0 ); WAIT_PIPELINES();`. -/
def Clear (R : Rounding) (A : RedArgs) (P : ℕ) (m m' : ℤ → K) : Prop :=
  ∃ ts, (List.range (P + 1)).mapM (fun p => clearRank (K := K) R A p P) = some ts ∧ Runs ts m m'

/-- `POW2_CEIL( u, 2 )`, /repo/src/util/util_base.h:163. -/
def pow2Ceil2 (u : ℤ) : ℤ := (u + 1) / 2 * 2

/-- Number of voxels, /repo/src/grid/ops.cc:28-31. -/
def nvOf (nx ny nz : ℤ) : ℤ := (nz + 2) * ((ny + 2) * (nx + 2))

/-- The arguments set up by `reduce_accumulator_array_pipeline` and `clear_accumulator_array_pipeline`
(reduce_array_pipeline.cc:190-199, clear_array_pipeline.cc:51-62) for the array made by
`new_accumulator_array` (/repo/src/sf_interface/accumulator_array.cc:62-95) with `np` pipelines;
`nf = sizeof(accumulator_t)/sizeof(float)`. -/
def accArgs (nx ny nz : ℤ) (nf np : ℕ) : RedArgs :=
  let stride := pow2Ceil2 (nvOf nx ny nz)
  let i0 := VOXEL nx ny 1 1 1 / 2 * 2
  let na := (VOXEL nx ny nx ny nz - i0 + 1 + 1) / 2 * 2
  { size := (np + 1) * stride * nf, a := i0 * nf, n := na.toNat * nf, nArray := np + 1,
    sArray := stride * nf, nBlock := 256 }

/-- The arguments set up by `reduce_hydro_array_pipeline` and `clear_hydro_array_pipeline`
(reduce_array_pipeline.cc:218-226, clear_array_pipeline.cc:83-89) for the array made by
`new_hydro_array` (/repo/src/sf_interface/hydro_array.cc:66-97). -/
def hydroArgs (nx ny nz : ℤ) (nf np : ℕ) : RedArgs :=
  let stride := pow2Ceil2 (nvOf nx ny nz)
  { size := (np + 1) * stride * nf, a := 0, n := (nvOf nx ny nz).toNat * nf, nArray := np + 1,
    sArray := stride * nf, nBlock := 1 }

end Verif.SfInterface
