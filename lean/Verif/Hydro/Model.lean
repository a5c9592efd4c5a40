import Verif.Boris.Model
import Verif.Common.Interleave
import Verif.Common.Mem

/-!
# accumulate_hydro_p

Model of the scalar `accumulate_hydro_p`
(/repo/src/species_advance/standard/pipeline/hydro_p_pipeline.cc) in exact arithmetic; `rt` stands for
`sqrt`.  The hydro array (all private copies one after the other) is `ℤ → Fin 14 → K`; the components of
an entry are in the order of `hydro_t` (/repo/src/sf_interface/sf_interface.h:185-192): jx jy jz rho px
py pz ke txx tyy tzz tyz tzx txy.
-/
namespace Verif.Hydro

open MoveP Boris Grid

variable {K : Type*} [Field K]

/-- Constants and arrays of a call, hydro_p_pipeline.cc:24-36 and :233-239; `hSize` is `args->h_size`,
`size` the number of entries allocated. -/
structure Args (K : Type*) where
  g : LGrid
  rt : K → K
  f : ℤ → Interp K
  p : ℤ → MoveP.Part K
  qsp : K
  qdt_2mc : K
  msp : K
  c : K
  r8V : K
  np : ℕ
  hSize : ℤ
  size : ℤ

/-- Momentum, velocity and `ke_mc` of a particle, hydro_p_pipeline.cc:91-147. -/
def kinematics (A : Args K) (p : MoveP.Part K) : (Fin 3 → K) × (Fin 3 → K) × K :=
  let qdt_4mc2 := A.qdt_2mc / (2 * A.c)
  let h := halfE A.qdt_2mc (A.f p.i) p.d
  let b := interpB (A.f p.i) p.d
  let ux := p.u 0 + h 0
  let uy := p.u 1 + h 1
  let uz := p.u 2 + h 2
  let w5 := b 0
  let w6 := b 1
  let w7 := b 2
  let ke_mc := ux * ux + uy * uy + uz * uz
  let vz := A.rt (1 + ke_mc)
  let ke_mc := ke_mc * (A.c / (vz + 1))
  let vz := A.c / vz
  let w0 := qdt_4mc2 * vz
  let w1 := w5 * w5 + w6 * w6 + w7 * w7
  let w2 := w0 * w0 * w1
  let w3 := w0 * (1 + (1 / 3) * w2 * (1 + 2 / 5 * w2))
  let w4 := w3 / (1 + w1 * w3 * w3)
  let w4 := w4 + w4
  let w0 := ux + w3 * (uy * w7 - uz * w6)
  let w1 := uy + w3 * (uz * w5 - ux * w7)
  let w2 := uz + w3 * (ux * w6 - uy * w5)
  let ux := ux + w4 * (w1 * w7 - w2 * w6)
  let uy := uy + w4 * (w2 * w5 - w0 * w7)
  let uz := uz + w4 * (w0 * w6 - w1 * w5)
  (![ux, uy, uz], ![ux * vz, uy * vz, uz * vz], ke_mc)

/-- The trilinear coefficients `w0` … `w7`, hydro_p_pipeline.cc:153-172. -/
def weights (r8V : K) (p : MoveP.Part K) : Fin 8 → K :=
  let dx := p.d 0
  let dy := p.d 1
  let dz := p.d 2
  let w0 := r8V * p.w
  let dx := dx * w0
  let w1 := w0 + dx
  let w0 := w0 - dx
  let w3 := 1 + dy
  let w2 := w0 * w3
  let w3 := w3 * w1
  let dy := 1 - dy
  let w0 := w0 * dy
  let w1 := w1 * dy
  let w7 := 1 + dz
  let w4 := w0 * w7
  let w5 := w1 * w7
  let w6 := w2 * w7
  let w7 := w7 * w3
  let dz := 1 - dz
  let w0 := w0 * dz
  let w1 := w1 * dz
  let w2 := w2 * dz
  let w3 := w3 * dz
  ![w0, w1, w2, w3, w4, w5, w6, w7]

/-- What `ACCUM_HYDRO( wn )` adds to the fourteen components of `h[i]`, hydro_p_pipeline.cc:178-197. -/
def accum (A : Args K) (u v : Fin 3 → K) (ke_mc wn : K) : Fin 14 → K :=
  let t := A.qsp * wn
  let jx := t * v 0
  let jy := t * v 1
  let jz := t * v 2
  let rho := t
  let t := (A.c * A.msp) * wn
  let dx := t * u 0
  let dy := t * u 1
  let dz := t * u 2
  ![jx, jy, jz, rho, dx, dy, dz, t * ke_mc, dx * v 0, dy * v 1, dz * v 2, dy * v 2, dz * v 0, dx * v 1]

/-- Offsets of the eight nodes from `i`, the sums of the increments of hydro_p_pipeline.cc:199-206 with
the strides of :62-69. -/
def offsets (g : LGrid) : Fin 8 → ℤ :=
  let s10 := VOXEL g.nx g.ny 1 0 0 - VOXEL g.nx g.ny 0 0 0
  let s21 := VOXEL g.nx g.ny 0 1 0 - VOXEL g.nx g.ny 1 0 0
  let s43 := VOXEL g.nx g.ny 0 0 1 - VOXEL g.nx g.ny 1 1 0
  ![0, s10, s10 + s21, s10 + s21 + s10, s10 + s21 + s10 + s43, s10 + s21 + s10 + s43 + s10,
    s10 + s21 + s10 + s43 + s10 + s21, s10 + s21 + s10 + s43 + s10 + s21 + s10]

/-- Entry updated for corner `k` of particle `n` by pipeline `rank`: `h = args->h + rank*h_size`,
hydro_p_pipeline.cc:25. -/
def target (A : Args K) (rank : ℕ) (n : ℤ) (k : Fin 8) : ℤ :=
  rank * A.hSize + ((A.p n).i + offsets A.g k)

/-- One `ACCUM_HYDRO`. -/
def accumStep (A : Args K) (rank : ℕ) (n : ℤ) (k : Fin 8) (h : ℤ → Fin 14 → K) : ℤ → Fin 14 → K :=
  let kin := kinematics A (A.p n)
  let t := target A rank n k
  put h t fun q => h t q + accum A kin.1 kin.2.1 kin.2.2 (weights A.r8V (A.p n) k) q

/-- The steps of a pipeline, hydro_p_pipeline.cc:51-209.  `none`: an access outside of the interpolators
or of the hydro array. -/
def hydroRank (R : Distribute.Rounding) (A : Args K) (rank P : ℕ) :
    Option (List ((ℤ → Fin 14 → K) → ℤ → Fin 14 → K)) :=
  (Distribute.items (Distribute.distribute R A.np 16 rank P)).bind fun ns =>
    let prog := ns.flatMap fun n => (List.finRange 8).map fun k => (n, k)
    if prog.all fun x => decide (0 ≤ (A.p x.1).i ∧ (A.p x.1).i < nvox A.g ∧
        0 ≤ target A rank x.1 x.2 ∧ target A rank x.1 x.2 < A.size) then
      some (prog.map fun x => accumStep A rank x.1 x.2)
    else none

/-- `accumulate_hydro_p_pipeline`, hydro_p_pipeline.cc:217-244: some interleaving of the pipelines and the
host takes the hydro array `h` to `h'`. -/
def HydroP (R : Distribute.Rounding) (A : Args K) (P : ℕ) (h h' : ℤ → Fin 14 → K) : Prop :=
  ∃ ts, (List.range (P + 1)).mapM (fun r => hydroRank R A r P) = some ts ∧ Runs ts h h'

end Verif.Hydro
