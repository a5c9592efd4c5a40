import Verif.Simd.Model
import Verif.Hydro.Model
import Verif.EnergyP.Model

/-!
# Vector builds: `center_p`, `uncenter_p`, `energy_p`, `accumulate_hydro_p`

Model of the vector pipelines of the other loops over particles
(/repo/src/species_advance/standard/pipeline/{center_p,uncenter_p,energy_p,hydro_p}_pipeline_v4.cc,
*_v8.cc, *_v16.cc).  One pass of a vector loop (a block of 4, 8 or 16 particles) is one atomic step:
nobody else touches the particles of the block, or the private copy of the hydro array, meanwhile.
-/
namespace Verif.Simd

open MoveP Boris Grid

/-- What pipeline `r` does in a vector build: blocks of particles, or, on the host, the particles of
its own share one by one.  center_p_pipeline_v4.cc:36-48, /repo/src/util/pipelines/pipelines_exec_pth.h:21-52. -/
def partThread {M : Type*} (W : Width) (R : Distribute.Rounding) (np P : ℕ) (big : ℤ → M → M)
    (small : ℤ → List (M → M)) (r : ℕ) : Option (List (M → M)) :=
  match Distribute.distribute R np 16 r P with
  | none => none
  | some (first, n) =>
    if r = P then (Distribute.items (some (first, n))).map fun l => l.flatMap small
    else some ((blockStarts W first n).map big)

section
variable {K : Type*} [Field K]

/-- The new momenta of a block of `center_p`, center_p_pipeline_v4.cc:50-131 (_v8.cc, _v16.cc): load,
half acceleration by `E`, half rotation.  `center_p` writes `fma( v02, fma( v02, two_fifteenths,
one_third ), one )` where `rotateV` has the factors exchanged. -/
def centerV {w : ℕ} (rt : K → K) (qdt : K) (f0 : ℤ → Interp K) (ps : Vec w (MoveP.Part K)) :
    Vec w K × Vec w K × Vec w K :=
  let fl := fieldsV qdt f0 (fun k => (ps k).i) (fun k => (ps k).d 0) (fun k => (ps k).d 1)
    (fun k => (ps k).d 2)
  let ux : Vec w K := fun k => (ps k).u 0
  let uy : Vec w K := fun k => (ps k).u 1
  let uz : Vec w K := fun k => (ps k).u 2
  let ux := ux + fl.1.1
  let uy := uy + fl.1.2.1
  let uz := uz + fl.1.2.2
  rotateV rt (1 / 2 * qdt) ux uy uz fl.2.1 fl.2.2.1 fl.2.2.2

/-- The new momenta of a block of `uncenter_p`, uncenter_p_pipeline_v4.cc:50-131: half rotation back,
then half acceleration back. -/
def uncenterV {w : ℕ} (rt : K → K) (qdt : K) (f0 : ℤ → Interp K) (ps : Vec w (MoveP.Part K)) :
    Vec w K × Vec w K × Vec w K :=
  let fl := fieldsV (-qdt) f0 (fun k => (ps k).i) (fun k => (ps k).d 0) (fun k => (ps k).d 1)
    (fun k => (ps k).d 2)
  let ux : Vec w K := fun k => (ps k).u 0
  let uy : Vec w K := fun k => (ps k).u 1
  let uz : Vec w K := fun k => (ps k).u 2
  let u := rotateV rt (-(1 / 2) * qdt) ux uy uz fl.2.1 fl.2.2.1 fl.2.2.2
  let ux := u.1 + fl.1.1
  let uy := u.2.1 + fl.1.2.1
  let uz := u.2.2 + fl.1.2.2
  (ux, uy, uz)

/-- `store_4x4_tr( ux, uy, uz, q, &p[0].ux, … )`, center_p_pipeline_v4.cc:136-137: momentum and weight
of the particles of a block (`q` as loaded); the 16-lane version writes position and cell back too, as
loaded. -/
def storeU (W : Width) (i : ℤ) (u : Vec W.lanes K × Vec W.lanes K × Vec W.lanes K)
    (p : ℤ → MoveP.Part K) : ℤ → MoveP.Part K :=
  let ps : Vec W.lanes (MoveP.Part K) := fun k => p (i + (k : ℕ))
  (List.finRange W.lanes).foldl (fun m (k : Fin W.lanes) =>
    put m (i + (k : ℕ)) ⟨(ps k).d, (ps k).i, ![u.1 k, u.2.1 k, u.2.2 k], (ps k).w⟩) p

/-- One pass of the loop of the vector `center_p`. -/
def centerBlock (W : Width) (rt : K → K) (qdt : K) (f0 : ℤ → Interp K) (i : ℤ)
    (p : ℤ → MoveP.Part K) : ℤ → MoveP.Part K :=
  storeU W i (centerV rt qdt f0 fun k => p (i + (k : ℕ))) p

/-- One pass of the loop of the vector `uncenter_p`. -/
def uncenterBlock (W : Width) (rt : K → K) (qdt : K) (f0 : ℤ → Interp K) (i : ℤ)
    (p : ℤ → MoveP.Part K) : ℤ → MoveP.Part K :=
  storeU W i (uncenterV rt qdt f0 fun k => p (i + (k : ℕ))) p

/-- One particle on the host, center_p_pipeline.cc:45-98. -/
def hostUpdate (φ : MoveP.Part K → MoveP.Part K) (i : ℤ) :
    List ((ℤ → MoveP.Part K) → ℤ → MoveP.Part K) := [fun m => put m i (φ (m i))]

/-- The kinetic energies of a block, energy_p_pipeline_v4.cc:47-103 (_v8.cc, _v16.cc). -/
def energyV {w : ℕ} (rt : K → K) (msp qdt_2mc : K) (f0 : ℤ → Interp K)
    (ps : Vec w (MoveP.Part K)) : Vec w K :=
  let g := gather f0 fun k => (ps k).i
  let one : Vec w K := splat 1
  let dx : Vec w K := fun k => (ps k).d 0
  let dy : Vec w K := fun k => (ps k).d 1
  let dz : Vec w K := fun k => (ps k).d 2
  let ex := fma (fma dy (g 3) (g 2)) dz (fma dy (g 1) (g 0))
  let ey := fma (fma dz (g 7) (g 6)) dx (fma dz (g 5) (g 4))
  let ez := fma (fma dx (g 11) (g 10)) dy (fma dx (g 9) (g 8))
  let v00 := fma ex (splat qdt_2mc) fun k => (ps k).u 0
  let v01 := fma ey (splat qdt_2mc) fun k => (ps k).u 1
  let v02 := fma ez (splat qdt_2mc) fun k => (ps k).u 2
  let v00 := fma v00 v00 (fma v01 v01 (v02 * v02))
  (splat msp * fun k => (ps k).w) * (v00 / (one + fun k => rt (one k + v00 k)))

/-- `energy_p_pipeline_v4`: one sum per lane over the blocks, then the lanes, energy_p_pipeline_v4.cc:31,
42-118; the host runs the scalar pipeline. -/
def energyRankV (W : Width) (rt : K → K) (msp qdt_2mc : K) (f0 : ℤ → Interp K)
    (ps : ℤ → MoveP.Part K) (R : Distribute.Rounding) (np P r : ℕ) : Option K :=
  match Distribute.distribute R np 16 r P with
  | none => none
  | some (first, n) =>
    if r = P then EnergyP.energyRank (EnergyP.energyOne rt msp qdt_2mc f0) ps R np P r
    else
      let en : Vec W.lanes K := (blockStarts W first n).foldl (fun en i =>
        en + energyV rt msp qdt_2mc f0 fun k => ps (i + (k : ℕ))) 0
      some ((List.finRange W.lanes).foldl (fun s k => s + en k) 0)

/-- `energy_p` of a vector build, energy_p_pipeline.cc:99-107. -/
def energyPV (W : Width) (rt : K → K) (msp qdt_2mc : K) (f0 : ℤ → Interp K) (ps : ℤ → MoveP.Part K)
    (R : Distribute.Rounding) (np P : ℕ) : Option K :=
  ((List.range (P + 1)).mapM fun r => energyRankV W rt msp qdt_2mc f0 ps R np P r).map
    fun en => en.foldl (fun loc x => loc + x) 0

/-! ## Hydro -/

/-- What `ACCUM_HYDRO( w0 )` … `ACCUM_HYDRO( w7 )` need of a block: momenta, velocities, `ke_mc` and the
eight coefficients, hydro_p_pipeline_v4.cc:61-187 (_v8.cc:71-208, _v16.cc:77-211). -/
structure HydroVecs (w : ℕ) (K : Type*) where
  ux : Vec w K
  uy : Vec w K
  uz : Vec w K
  vx : Vec w K
  vy : Vec w K
  vz : Vec w K
  ke : Vec w K
  wn : Fin 8 → Vec w K

@[inherit_doc HydroVecs]
def hydroV {w : ℕ} (A : Hydro.Args K) (ps : Vec w (MoveP.Part K)) : HydroVecs w K :=
  let one : Vec w K := splat 1
  let c : Vec w K := splat A.c
  let dx : Vec w K := fun k => (ps k).d 0
  let dy : Vec w K := fun k => (ps k).d 1
  let dz : Vec w K := fun k => (ps k).d 2
  let fl := fieldsV A.qdt_2mc A.f (fun k => (ps k).i) dx dy dz
  let cbx := fl.2.1
  let cby := fl.2.2.1
  let cbz := fl.2.2.2
  let ux : Vec w K := (fun k => (ps k).u 0) + fl.1.1
  let uy : Vec w K := (fun k => (ps k).u 1) + fl.1.2.1
  let uz : Vec w K := (fun k => (ps k).u 2) + fl.1.2.2
  let ke := fma ux ux (fma uy uy (uz * uz))
  let vz : Vec w K := fun k => A.rt (one k + ke k)
  let ke := (c * ke) * rcp (one + vz)
  let vz := c * rcp vz
  let v00 := splat (A.qdt_2mc / (2 * A.c)) * vz
  let v01 := fma cbx cbx (fma cby cby (cbz * cbz))
  let v02 := (v00 * v00) * v01
  let v03 := v00 * fma (fma (splat (2 / 15)) v02 (splat (1 / 3))) v02 one
  let v04 := v03 * rcp (fma (v03 * v03) v01 one)
  let v04 := v04 + v04
  let v00 := fma (fms uy cbz (uz * cby)) v03 ux
  let v01 := fma (fms uz cbx (ux * cbz)) v03 uy
  let v02 := fma (fms ux cby (uy * cbx)) v03 uz
  let ux := fma (fms v01 cbz (v02 * cby)) v04 ux
  let uy := fma (fms v02 cbx (v00 * cbz)) v04 uy
  let uz := fma (fms v00 cby (v01 * cbx)) v04 uz
  let vx := ux * vz
  let vy := uy * vz
  let vz := uz * vz
  let w0 : Vec w K := splat A.r8V * fun k => (ps k).w
  let dx := dx * w0
  let w1 := w0 + dx
  let w0 := w0 - dx
  let w3 := one + dy
  let w2 := w0 * w3
  let w3 := w3 * w1
  let dy := one - dy
  let w0 := w0 * dy
  let w1 := w1 * dy
  let w7 := one + dz
  let w4 := w0 * w7
  let w5 := w1 * w7
  let w6 := w2 * w7
  let w7 := w7 * w3
  let dz := one - dz
  let w0 := w0 * dz
  let w1 := w1 * dz
  let w2 := w2 * dz
  let w3 := w3 * dz
  ⟨ux, uy, uz, vx, vy, vz, ke, ![w0, w1, w2, w3, w4, w5, w6, w7]⟩

/-- The sixteen vectors of `ACCUM_HYDRO( w )`, `v00` … `v15` of hydro_p_pipeline_v16.cc:236-258 (the four
groups of hydro_p_pipeline_v4.cc:208-232, the two of _v8.cc:236-258); the last two are `pad`. -/
def accumV {w : ℕ} (A : Hydro.Args K) (B : HydroVecs w K) (wn : Vec w K) : Fin 16 → Vec w K :=
  let t := splat A.qsp * wn
  let j0 := t * B.vx
  let j1 := t * B.vy
  let j2 := t * B.vz
  let rho := t
  let t := splat (A.msp * A.c) * wn
  let dx := t * B.ux
  let dy := t * B.uy
  let dz := t * B.uz
  ![j0, j1, j2, rho, dx, dy, dz, t * B.ke, dx * B.vx, dy * B.vy, dz * B.vz, dy * B.vz, dz * B.vx,
    dx * B.vy, splat 0, splat 0]

/-- One `increment_Nx1( h + v + off, … )` on the hydro array, whose entries have 16 floats in every build
(/repo/src/sf_interface/sf_interface.h:27-53, 185-192).  Floats 14 and 15 are `pad`, which nothing reads:
they are not represented.  `none`: an access outside of the entry. -/
def doIncrH (h : ℤ → Fin 14 → K) (x : Incr K) : Option (ℤ → Fin 14 → K) :=
  if x.off + x.vals.length ≤ 16 then
    some fun v k => if v = x.v then h v k + (if x.off ≤ (k : ℕ) then
      (match x.vals[(k : ℕ) - x.off]? with | some y => y | none => 0) else 0) else h v k
  else none

/-- The increments of `ACCUM_HYDRO( w )` in the three builds: groups of four, eight or sixteen vectors,
transposed, every group lane after lane.  hydro_p_pipeline_v4.cc:193-232 (groups at 0, 4, 8, 12),
_v8.cc:214-278 (0 and 8), _v16.cc:217-278 (0). -/
def incrementsH : (W : Width) → (ii : Vec W.lanes ℤ) → (v : Fin 16 → Vec W.lanes K) → List (Incr K)
  | .v4, ii, v =>
    ((List.finRange 4).map fun k => ⟨ii k, 0, List.ofFn (transpose ![v 0, v 1, v 2, v 3] k)⟩) ++
    (((List.finRange 4).map fun k => ⟨ii k, 4, List.ofFn (transpose ![v 4, v 5, v 6, v 7] k)⟩) ++
    (((List.finRange 4).map fun k => ⟨ii k, 8, List.ofFn (transpose ![v 8, v 9, v 10, v 11] k)⟩) ++
    ((List.finRange 4).map fun k => ⟨ii k, 12, List.ofFn (transpose ![v 12, v 13, v 14, v 15] k)⟩)))
  | .v8, ii, v =>
    ((List.finRange 8).map fun k => ⟨ii k, 0, List.ofFn (transpose
      ![v 0, v 1, v 2, v 3, v 4, v 5, v 6, v 7] k)⟩) ++
    ((List.finRange 8).map fun k => ⟨ii k, 8, List.ofFn (transpose
      ![v 8, v 9, v 10, v 11, v 12, v 13, v 14, v 15] k)⟩)
  | .v16, ii, v => (List.finRange 16).map fun k => ⟨ii k, 0, List.ofFn (transpose v k)⟩

/-- The cells of the lanes for the eight corners: `ii += stride_10; …`, hydro_p_pipeline_v4.cc:41-43,
234-241, with `sx`, `sy`, `sz` of /repo/src/grid/ops.cc:28-30. -/
def cornersV {w : ℕ} (g : LGrid) (ii : Vec w ℤ) : Fin 8 → Vec w ℤ :=
  let sx : ℤ := 1
  let sy : ℤ := g.nx + 2
  let sz : ℤ := (g.nx + 2) * (g.ny + 2)
  let stride_10 : Vec w ℤ := fun _ => sx
  let stride_21 : Vec w ℤ := fun _ => sy - sx
  let stride_43 : Vec w ℤ := fun _ => sz - sy - sx
  let i0 := ii
  let i1 := i0 + stride_10
  let i2 := i1 + stride_21
  let i3 := i2 + stride_10
  let i4 := i3 + stride_43
  let i5 := i4 + stride_10
  let i6 := i5 + stride_21
  let i7 := i6 + stride_10
  ![i0, i1, i2, i3, i4, i5, i6, i7]

/-- The increments of a block: corner after corner.  `base` is the first entry of the pipeline's copy. -/
def hydroIncrs (W : Width) (A : Hydro.Args K) (base i : ℤ) : List (Incr K) :=
  let ps : Vec W.lanes (MoveP.Part K) := fun k => A.p (i + (k : ℕ))
  let B := hydroV A ps
  let c := cornersV A.g fun k => (ps k).i
  (List.finRange 8).flatMap fun j => incrementsH W (fun l => base + c j l) (accumV A B (B.wn j))

/-- What the vector pipeline `r` does to the hydro array, hydro_p_pipeline_v4.cc:50-246; the host runs the
scalar pipeline.  `none`: an access outside of the interpolators, of an entry or of the hydro array. -/
def hydroRankV (W : Width) (R : Distribute.Rounding) (A : Hydro.Args K) (P r : ℕ) :
    Option (List ((ℤ → Fin 14 → K) → ℤ → Fin 14 → K)) :=
  match Distribute.distribute R A.np 16 r P with
  | none => none
  | some (first, n) =>
    if r = P then Hydro.hydroRank R A r P
    else
      let starts := blockStarts W first n
      if (starts.all fun i =>
          ((List.finRange W.lanes).all fun k =>
            decide (0 ≤ (A.p (i + (k : ℕ))).i ∧ (A.p (i + (k : ℕ))).i < nvox A.g)) &&
          ((hydroIncrs W A (r * A.hSize) i).all fun x =>
            decide (0 ≤ x.v ∧ x.v < A.size ∧ x.off + x.vals.length ≤ 16))) then
        some (starts.map fun i h =>
          match (hydroIncrs W A (r * A.hSize) i).foldlM doIncrH h with
          | some h' => h'
          | none => h)
      else none

/-- `accumulate_hydro_p` of a vector build, hydro_p_pipeline.cc:217-244. -/
def HydroPV (W : Width) (R : Distribute.Rounding) (A : Hydro.Args K) (P : ℕ) (h h' : ℤ → Fin 14 → K) :
    Prop :=
  ∃ ts, (List.range (P + 1)).mapM (fun r => hydroRankV W R A P r) = some ts ∧ Runs ts h h'

end

variable {K : Type*} [Field K] [LinearOrder K] [IsStrictOrderedRing K]

/-- `center_p` of a vector build: any interleaving of the blocks and of the host,
center_p_pipeline.cc:106-131. -/
def CenterPV (W : Width) (rt : K → K) (qdt : K) (f0 : ℤ → Interp K) (R : Distribute.Rounding)
    (np P : ℕ) (ps ps' : ℤ → MoveP.Part K) : Prop :=
  ∃ ts, (List.range (P + 1)).mapM (partThread W R np P (centerBlock W rt qdt f0)
    (hostUpdate (centerPart rt qdt f0))) = some ts ∧ Runs ts ps ps'

/-- `uncenter_p` of a vector build, uncenter_p_pipeline.cc:106-131. -/
def UncenterPV (W : Width) (rt : K → K) (qdt : K) (f0 : ℤ → Interp K) (R : Distribute.Rounding)
    (np P : ℕ) (ps ps' : ℤ → MoveP.Part K) : Prop :=
  ∃ ts, (List.range (P + 1)).mapM (partThread W R np P (uncenterBlock W rt qdt f0)
    (hostUpdate (uncenterPart rt qdt f0))) = some ts ∧ Runs ts ps ps'

end Verif.Simd
