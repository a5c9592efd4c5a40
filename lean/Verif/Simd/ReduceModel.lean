import Verif.Simd.Model
import Verif.SfInterface.Reduce
import Verif.Interp.Model

/-!
# Vector builds: reducing the private arrays, loading the interpolators

Model of /repo/src/sf_interface/pipeline/reduce_array_pipeline_v4.cc, _v8.cc, _v16.cc and of
`load_interpolator_pipeline_v4` (interpolator_array_pipeline.cc:142-249).  `clear_array` has no vector
version (clear_array_pipeline.cc has the scalar pipeline only).
-/
namespace Verif.Simd

open SfInterface
open Distribute (Rounding distribute)

variable {K : Type*} [Field K]

/-- `for( j = i ; j < i1; j += W )` with `i1 = i + n`: the values of `j`, macro `LOOP`
(reduce_array_pipeline_v4.cc:31, _v8.cc:31, _v16.cc:31). -/
def loopStarts (W : Width) (first n : ℤ) : List ℤ :=
  (List.range ((n + (W.lanes : ℤ) - 1) / (W.lanes : ℤ)).toNat).map fun b => first + (W.lanes : ℤ) * (b : ℕ)

/-- One execution of `Oc( j )`: `load_Wx1` of `a[j] …` and of `b[…] …`, the sum lane by lane, `store_Wx1`
(reduce_array_pipeline_v4.cc:33-132; the sums are associated as in the scalar version). -/
def redOpV (W : Width) (a sr r0 : ℤ) (c : ℕ) (j : ℤ) (m : ℤ → K) : ℤ → K :=
  let v : ℕ → Vec W.lanes K := fun r k =>
    if r = 0 then m (a + j + ((k : ℕ) : ℤ)) else m (a + sr + bIndex sr r0 j r + ((k : ℕ) : ℤ))
  (List.finRange W.lanes).foldl
    (fun m' (k : Fin W.lanes) => put m' (a + j + ((k : ℕ) : ℤ)) (opSum c fun r => v r k)) m

/-- All indices of `Oc( j )` are `int`s and all lanes are inside of the storage. -/
def redOkV (W : Width) (size a sr r0 : ℤ) (c : ℕ) (j : ℤ) : Bool :=
  decide (0 ≤ a + j ∧ a + j + W.lanes ≤ size) && (List.range c).all fun r =>
    decide (-2 ^ 31 ≤ bIndex sr r0 j (r + 1) ∧ bIndex sr r0 j (r + 1) < 2 ^ 31 ∧
      0 ≤ a + sr + bIndex sr r0 j (r + 1) ∧ a + sr + bIndex sr r0 j (r + 1) + W.lanes ≤ size)

/-- What pipeline `p` does in a vector build: `DISTRIBUTE( args->n, W, … )` and the passes
(reduce_array_pipeline_v4.cc:14-165); the calling thread (`p = P`) runs the *scalar* function
(/repo/src/util/pipelines/pipelines_exec_pth.h:21-52). -/
def reduceRankV (W : Width) (R : Rounding) (A : RedArgs) (p P : ℕ) : Option (List ((ℤ → K) → ℤ → K)) :=
  if p = P then reduceRank R A p P else
    (distribute R A.n W.lanes p P).bind fun (i, n) =>
      let prog := (passes (A.nArray - 1) (-1)).flatMap fun rc =>
        (loopStarts W i n).map fun j => (rc.1, rc.2, j)
      if prog.all fun x => redOkV W A.size A.a A.sArray x.1 x.2.1 x.2.2 then
        some (prog.map fun x => redOpV W A.a A.sArray x.1 x.2.1 x.2.2)
      else none

/-- `EXEC_PIPELINES( reduce_array, args, 0 ); WAIT_PIPELINES();` in a vector build. -/
def ReduceV (W : Width) (R : Rounding) (A : RedArgs) (P : ℕ) (m m' : ℤ → K) : Prop :=
  ∃ ts, (List.range (P + 1)).mapM (fun p => reduceRankV (K := K) W R A p P) = some ts ∧ Runs ts m m'

/-! ## Interpolators -/

open Interp Boris Field Grid

/-- `toggle_bits( m, a )` for a mask of sign bits, /repo/src/util/v4/v4_portable.h:1212-1222. -/
def toggle {w : ℕ} (s : Vec w Bool) (a : Vec w K) : Vec w K := fun k => if s k then -a k else a k

/-- `sgn_1_2`, interpolator_array_pipeline.cc:163. -/
def sgn12 : Vec 4 Bool := ![false, true, true, false]
/-- `sgn_2_3`, line 164. -/
def sgn23 : Vec 4 Bool := ![false, false, true, true]
/-- `sgn_1_3`, line 165. -/
def sgn13 : Vec 4 Bool := ![false, true, false, true]
/-- `sel_0_1`, line 166. -/
def sel01 : Vec 4 Bool := ![true, true, false, false]

/-- The four coefficients of a component of E, lines 191-199, 201-209, 211-219. -/
def eCoeffV (w0 w1 w2 w3 : K) : Vec 4 K :=
  let v0 := toggle sgn12 (splat w0)
  let v1 : Vec 4 K := splat w1
  let v2 := toggle sgn12 (splat w2)
  let v3 : Vec 4 K := splat w3
  splat (1 / 4) * ((v3 + v0) + toggle sgn23 (v1 + v2))

/-- Body of the loop, lines 190-240: the coefficients stored at `pi`.  The 16 numbers up to `dcbydy` are
stored by four `store_4x1`; the last one stores `cbz`, `dcbzdz` and two numbers of padding
(`PAD_SIZE_INTERPOLATOR ≥ 2`, /repo/src/sf_interface/sf_interface.h:27-70), which nobody reads. -/
def coefficientsV (f : FMem K) (s : Stencil) : Interp K :=
  let e (v : ℤ) (a : Fin 3) : K := f (v, .e a)
  let b (v : ℤ) (a : Fin 3) : K := f (v, .cb a)
  let x := eCoeffV (e s.pf0 0) (e s.pfy 0) (e s.pfz 0) (e s.pfyz 0)
  let y := eCoeffV (e s.pf0 1) (e s.pfz 1) (e s.pfx 1) (e s.pfzx 1)
  let z := eCoeffV (e s.pf0 2) (e s.pfx 2) (e s.pfy 2) (e s.pfxy 2)
  let xy : Vec 4 K := splat (1 / 2) * (merge sel01 (splat (b s.pfx 0)) (splat (b s.pfy 1)) +
    toggle sgn13 (merge sel01 (splat (b s.pf0 0)) (splat (b s.pf0 1))))
  let zz : Vec 4 K := splat (1 / 2) * (splat (b s.pfz 2) + toggle sgn13 (splat (b s.pf0 2)))
  { ex := x 0, dexdy := x 1, dexdz := x 2, d2exdydz := x 3
    ey := y 0, deydz := y 1, deydx := y 2, d2eydzdx := y 3
    ez := z 0, dezdx := z 1, dezdy := z 2, d2ezdxdy := z 3
    cbx := xy 0, dcbxdx := xy 1, cby := xy 2, dcbydy := xy 3
    cbz := zz 0, dcbzdz := zz 1 }

/-- One pass of the loop. -/
def loadOneV (f : FMem K) (s : Stencil) : IMem K → IMem K :=
  fun m => Function.update m s.pi (coefficientsV f s)

/-- `load_interpolator_array` in a v4 build; the voxels of the pipelines (lines 172-188, 242-249) are
those of the scalar version, and the calling thread returns at once in both. -/
def LoadInterpolatorV (R : Rounding) (g : LGrid) (P : ℕ) (f : FMem K) (m m' : IMem K) : Prop :=
  ∃ ls, (List.range (P + 1)).mapM (loadPipeline R g P) = some ls ∧
    Runs (ls.map fun l => l.map (loadOneV f)) m m'

end Verif.Simd
