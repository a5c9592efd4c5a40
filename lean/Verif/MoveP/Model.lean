import Verif.Grid.Model
import Verif.Common.Mem
import Mathlib.Algebra.Order.Field.Basic
import Mathlib.Data.Fin.VecNotation
import Mathlib.Tactic.FieldSimp

/-!
# The particle mover

Model of the scalar `move_p` (/repo/src/species_advance/standard/move_p.cc:213-380) and of the data
it works on.  `float` is an arbitrary linearly ordered field `K` (exact arithmetic).
-/
namespace Verif.MoveP

open Grid (LGrid)

variable {K : Type*} [Field K] [LinearOrder K]

/-- `particle_t`, /repo/src/species_advance/species_advance_aos.h:21-32: `d = (dx,dy,dz)`,
`u = (ux,uy,uz)`. -/
structure Part (K : Type*) where
  d : Fin 3 → K
  i : ℤ
  u : Fin 3 → K
  w : K

/-- `particle_mover_t`, /repo/src/species_advance/species_advance_aos.h:37-40. -/
structure Mover (K : Type*) where
  disp : Fin 3 → K
  i : ℤ

/-- An accumulator array: voxel ↦ the twelve floats `jx[0..3] jy[0..3] jz[0..3]`,
/repo/src/sf_interface/sf_interface.h (`accumulator_t`). -/
abbrev Accum (K : Type*) := ℤ → Fin 12 → K

/-- Number of voxels of the local mesh, /repo/src/grid/ops.cc:28-31. -/
def nvox (g : LGrid) : ℤ := (g.nz + 2) * ((g.ny + 2) * (g.nx + 2))

/-- `s_dir[axis]`, /repo/src/species_advance/standard/move_p.cc:243-245. -/
def sdir (disp : K) : K := if disp > 0 then 1 else -1

/-- Twice the fractional distance to a face, /repo/src/species_advance/standard/move_p.cc:249-251. -/
def twiceFrac (d disp : K) : K := if disp = 0 then 34 * 10 ^ 37 else (sdir disp - d) / disp

/-- The choice of the streak end, /repo/src/species_advance/standard/move_p.cc:259-262 (before the
halving of line 263); `none` is axis 3. -/
def pickAxis (v0 v1 v2 : K) : K × Option (Fin 3) :=
  let r : K × Option (Fin 3) := (2, none)
  let r := if v0 < r.1 then (v0, some 0) else r
  let r := if v1 < r.1 then (v1, some 1) else r
  if v2 < r.1 then (v2, some 2) else r

/-- The macro `accumulate_j(X,Y,Z)`, /repo/src/species_advance/standard/move_p.cc:281-299 (the same
text as `ACCUMULATE_J`, pipeline/advance_p_pipeline.cc:173-191): the four amounts added, from
`q`, `dispX`, `midY`, `midZ` and `v5`. -/
def accumulateJ (q dispX midY midZ v5 : K) : K × K × K × K :=
  let v4 := q * dispX
  let v1 := v4 * midY
  let v0 := v4 - v1
  let v1 := v1 + v4
  let v4 := 1 + midZ
  let v2 := v0 * v4
  let v3 := v1 * v4
  let v4 := 1 - midZ
  let v0 := v0 * v4
  let v1 := v1 * v4
  let v0 := v0 + v5
  let v1 := v1 - v5
  let v2 := v2 - v5
  let v3 := v3 + v5
  (v0, v1, v2, v3)

/-- The twelve amounts added to the accumulator of a cell for one streak,
/repo/src/species_advance/standard/move_p.cc:277-303. -/
def streakJ (q : K) (mid disp : Fin 3 → K) : Fin 12 → K :=
  let v5 := q * disp 0 * disp 1 * disp 2 * (1 / 3)
  let jx := accumulateJ q (disp 0) (mid 1) (mid 2) v5
  let jy := accumulateJ q (disp 1) (mid 2) (mid 0) v5
  let jz := accumulateJ q (disp 2) (mid 0) (mid 1) v5
  ![jx.1, jx.2.1, jx.2.2.1, jx.2.2.2, jy.1, jy.2.1, jy.2.2.1, jy.2.2.2,
    jz.1, jz.2.1, jz.2.2.1, jz.2.2.2]

/-- `a[v][k] += j[k]` for all twelve elements. -/
def accAdd (a : Accum K) (v : ℤ) (j : Fin 12 → K) : Accum K :=
  fun x k => if x = v then a x k + j k else a x k

/-- What `move_p` works on: the particle, the mover's displacement, the accumulators. -/
structure MState (K : Type*) where
  p : Part K
  disp : Fin 3 → K
  a : Accum K

/-- How one pass of the loop ends: `break` (line 323), `continue`/next pass, or `return 1`. -/
inductive Next | finished | again | boundary
deriving DecidableEq, Repr

/-- Geometry of one streak, /repo/src/species_advance/standard/move_p.cc:235-272: the fraction,
the axis and the half displacement `s_disp`. -/
def streakOf (d disp : Fin 3 → K) : K × Option (Fin 3) × (Fin 3 → K) :=
  let r := pickAxis (twiceFrac (d 0) (disp 0)) (twiceFrac (d 1) (disp 1)) (twiceFrac (d 2) (disp 2))
  let v3 := r.1 * (1 / 2)
  (v3, r.2, fun k => disp k * v3)

/-- One pass of the loop of `move_p`, /repo/src/species_advance/standard/move_p.cc:233-375.
`none`: an accumulator or neighbour access outside of the arrays. -/
def pass (g : LGrid) (q : K) (s : MState K) : Option (Next × MState K) :=
  if s.p.i < 0 ∨ nvox g ≤ s.p.i then none else
    let st := streakOf s.p.d s.disp
    let sd := st.2.2
    let mid : Fin 3 → K := fun k => s.p.d k + sd k
    let a := accAdd s.a s.p.i (streakJ q mid sd)
    let disp : Fin 3 → K := fun k => s.disp k - sd k
    let d : Fin 3 → K := fun k => s.p.d k + (sd k + sd k)
    match st.2.1 with
    | none => some (.finished, { p := { s.p with d := d }, disp := disp, a := a })
    | some axis =>
      let v0 := sdir (s.disp axis)
      let d := Function.update d axis v0
      let face : ℤ := if v0 > 0 then (axis : ℕ) + 3 else (axis : ℕ)
      let neighbor := g.neighbor (6 * s.p.i + face)
      if neighbor = Grid.reflectParticles then
        some (.again, { p := { s.p with d := d, u := Function.update s.p.u axis (-(s.p.u axis)) },
                        disp := Function.update disp axis (-(disp axis)), a := a })
      else if neighbor < g.rangel ∨ neighbor > g.rangeh then
        some (.boundary, { p := { s.p with d := d, i := 8 * s.p.i + face }, disp := disp, a := a })
      else
        some (.again, { p := { s.p with d := Function.update d axis (-v0),
                                        i := neighbor - g.rangel }, disp := disp, a := a })

/-- The loop of `move_p`; the flag is the returned "mover still in use".  `fuel` bounds the number
of passes (`none` when it runs out, or on an access outside of the arrays). -/
def loop (g : LGrid) (q : K) : ℕ → MState K → Option (Bool × MState K)
  | 0, _ => none
  | fuel + 1, s =>
    match pass g q s with
    | none => none
    | some (.finished, s') => some (false, s')
    | some (.boundary, s') => some (true, s')
    | some (.again, s') => loop g q fuel s'

/-- `move_p( p0, pm, a0, g, qsp )`, /repo/src/species_advance/standard/move_p.cc:215-378, on the
particle `p = p0[pm->i]`. -/
def moveP (g : LGrid) (qsp : K) (fuel : ℕ) (s : MState K) : Option (Bool × MState K) :=
  loop g (qsp * s.p.w) fuel s

end Verif.MoveP
