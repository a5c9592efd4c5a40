import Mathlib.Algebra.Field.Basic
import Mathlib.Data.List.Range

/-!
The diagnostic `vpic_simulation::poynting_flux` (/repo/src/vpic/diagnostics.cc:13-81). Numbers are exact; a word of memory that was not written has no value (`none`),
and whoever reads it has none either; so has a division by zero.
-/
namespace Verif.Poynting

variable {K : Type} [Field K]

/-- What the function needs of `field_t`. -/
structure Fields (K : Type) where
  ey : K
  ez : K
  cby : K
  cbz : K

/-- The box: cells of a domain (`grid->nx` ...), domains along the axes (`px` ..., doubles with whole values), `grid->cvac`. -/
structure Box (K : Type) where
  nx : ℕ
  ny : ℕ
  nz : ℕ
  px : ℕ
  py : ℕ
  pz : ℕ
  cvac : K

/-- `RANK_TO_INDEX`, diagnostics.cc:13-21: `ix`. -/
def Box.column (b : Box K) (rank : ℕ) : ℕ :=
  let ix := rank
  let iy := ix / b.px
  ix - iy * b.px

/-- `INDEX_FORTRAN_3( x, y, z, 0, nx+1, 0, ny+1, 0, nz+1 )`, /repo/src/util/util_base.h. -/
def Box.index (b : Box K) (x y z : ℕ) : ℕ := x + (b.nx + 2) * (y + (b.ny + 2) * z)

/-- `stride`, diagnostics.cc:37; `ny`, `nz` are at least 1. -/
def Box.stride (b : Box K) : ℕ := (b.ny - 1) * (b.nz - 1)

/-- `memset(pvec, 0, bytes)`, diagnostics.cc:45, for fresh memory of words of four bytes: a word is zero if all its bytes are set and has no value otherwise. -/
def cleared (bytes : ℕ) : ℕ → Option K := fun i => if 4 * i + 3 < bytes then some 0 else none

/-- The quotient, if there is one. -/
def quotient [DecidableEq K] (a b : K) : Option K := if b = 0 then none else some (a / b)

/-- The right side of the assignment, diagnostics.cc:54-62. -/
def contribution [DecidableEq K] (b : Box K) (f : ℕ → Fields K) (e0 : K) (j k : ℕ) : Option K :=
  let k1 := b.index 1 (j + 1) (k + 1)
  let k2 := b.index 2 (j + 1) (k + 1)
  quotient ((f k2).ey * (1 / 2) * ((f k1).cbz + (f k2).cbz) - (f k2).ez * (1 / 2) * ((f k1).cby + (f k2).cby)) (b.cvac * b.cvac * e0 * e0)

/-- Assignment to a word. -/
def put (m : ℕ → Option K) (i : ℕ) (x : Option K) : ℕ → Option K := fun i' => if i' = i then x else m i'

/-- The loops over `j` and `k`, diagnostics.cc:52-64. -/
def fill [DecidableEq K] (b : Box K) (f : ℕ → Fields K) (e0 : K) (m : ℕ → Option K) : ℕ → Option K :=
  (List.range' 1 (b.ny - 1)).foldl (fun m j => (List.range' 1 (b.nz - 1)).foldl (fun m k =>
    put m ((j - 1) * (b.nz - 1) + k - 1) (contribution b f e0 j k)) m) m

/-- The sum of the first words, diagnostics.cc:67-70. -/
def total (m : ℕ → Option K) (n : ℕ) : Option K := (List.range n).foldl (fun s i => do return (← s) + (← m i)) (some 0)

/-- `psum` of one rank, diagnostics.cc:35-70. -/
def local_ [DecidableEq K] (b : Box K) (f : ℕ → Fields K) (e0 : K) (rank : ℕ) : Option K :=
  let m : ℕ → Option K := cleared b.stride
  let m := if b.column rank = 0 then fill b f e0 m else m
  total m b.stride

/-- `poynting_flux`, diagnostics.cc:34-81, on all ranks together; all get the same result. `fields r` are the fields of rank `r`. -/
def flux [DecidableEq K] (b : Box K) (fields : ℕ → ℕ → Fields K) (e0 : K) : Option K := do
  let gpsum ← (List.range (b.px * b.py * b.pz)).foldl (fun s r => do return (← s) + (← local_ b (fields r) e0 r)) (some 0)
  quotient gpsum ((b.stride : K) * b.py * b.pz)

end Verif.Poynting
