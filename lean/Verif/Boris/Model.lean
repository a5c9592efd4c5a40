import Verif.MoveP.Model
import Verif.Distribute.Props
import Verif.Common.Interleave

/-!
# Momentum updates

Model of the momentum part of `advance_p`, of `center_p` and `uncenter_p`
(/repo/src/species_advance/standard/pipeline/{advance,center,uncenter}_p_pipeline.cc), scalar
versions, in exact arithmetic over a linearly ordered field.  `rt` stands for `sqrtf`; nothing is
assumed about it here.
-/
namespace Verif.Boris

open MoveP

variable {K : Type*} [Field K] [LinearOrder K] [IsStrictOrderedRing K]

/-- Interpolator of a voxel, /repo/src/sf_interface/sf_interface.h:62-74 (without padding). -/
structure Interp (K : Type*) where
  ex : K
  dexdy : K
  dexdz : K
  d2exdydz : K
  ey : K
  deydz : K
  deydx : K
  d2eydzdx : K
  ez : K
  dezdx : K
  dezdy : K
  d2ezdxdy : K
  cbx : K
  dcbxdx : K
  cby : K
  dcbydy : K
  cbz : K
  dcbzdz : K

/-- `hax, hay, haz`, /repo/src/species_advance/standard/pipeline/advance_p_pipeline.cc:98-105 (the
same lines in center_p_pipeline.cc:57-64, uncenter_p_pipeline.cc:57-64). -/
def halfE (qdt_2mc : K) (f : Interp K) (d : Fin 3 → K) : Fin 3 → K :=
  ![qdt_2mc * ((f.ex + d 1 * f.dexdy) + d 2 * (f.dexdz + d 1 * f.d2exdydz)),
    qdt_2mc * ((f.ey + d 2 * f.deydz) + d 0 * (f.deydx + d 2 * f.d2eydzdx)),
    qdt_2mc * ((f.ez + d 0 * f.dezdx) + d 1 * (f.dezdy + d 0 * f.d2ezdxdy))]

/-- `cbx, cby, cbz`,
/repo/src/species_advance/standard/pipeline/advance_p_pipeline.cc:107-109. -/
def interpB (f : Interp K) (d : Fin 3 → K) : Fin 3 → K :=
  ![f.cbx + d 0 * f.dcbxdx, f.cby + d 1 * f.dcbydy, f.cbz + d 2 * f.dcbzdz]

/-- The rotation, /repo/src/species_advance/standard/pipeline/advance_p_pipeline.cc:120-135 with
`h = qdt_2mc`; center_p_pipeline.cc:78-93 and uncenter_p_pipeline.cc:74-89 with `h = qdt_4mc`. -/
def rotate (rt : K → K) (h : K) (u b : Fin 3 → K) : Fin 3 → K :=
  let v0 := h / rt (1 + (u 0 * u 0 + (u 1 * u 1 + u 2 * u 2)))
  let v1 := b 0 * b 0 + (b 1 * b 1 + b 2 * b 2)
  let v2 := (v0 * v0) * v1
  let v3 := v0 * (1 + v2 * (1 / 3 + v2 * (2 / 15)))
  let v4 := v3 / (1 + v1 * (v3 * v3))
  let v4 := v4 + v4
  let v0 := u 0 + v3 * (u 1 * b 2 - u 2 * b 1)
  let v1 := u 1 + v3 * (u 2 * b 0 - u 0 * b 2)
  let v2 := u 2 + v3 * (u 0 * b 1 - u 1 * b 0)
  ![u 0 + v4 * (v1 * b 2 - v2 * b 1),
    u 1 + v4 * (v2 * b 0 - v0 * b 2),
    u 2 + v4 * (v0 * b 1 - v1 * b 0)]

/-- Momentum update of `advance_p`,
/repo/src/species_advance/standard/pipeline/advance_p_pipeline.cc:91-143. -/
def pushU (rt : K → K) (qdt_2mc : K) (f : Interp K) (d u : Fin 3 → K) : Fin 3 → K :=
  let h := halfE qdt_2mc f d
  let b := interpB f d
  let u : Fin 3 → K := fun k => u k + h k
  let u := rotate rt qdt_2mc u b
  fun k => u k + h k

/-- Body of the loop of `center_p`,
/repo/src/species_advance/standard/pipeline/center_p_pipeline.cc:49-98. -/
def centerU (rt : K → K) (qdt_2mc : K) (f : Interp K) (d u : Fin 3 → K) : Fin 3 → K :=
  let qdt_4mc := 1 / 2 * qdt_2mc
  let h := halfE qdt_2mc f d
  let b := interpB f d
  rotate rt qdt_4mc (fun k => u k + h k) b

/-- Body of the loop of `uncenter_p`,
/repo/src/species_advance/standard/pipeline/uncenter_p_pipeline.cc:50-98. -/
def uncenterU (rt : K → K) (qdt_2mc : K) (f : Interp K) (d u : Fin 3 → K) : Fin 3 → K :=
  let qdt_2mc' := -qdt_2mc
  let qdt_4mc := -(1 / 2) * qdt_2mc
  let h := halfE qdt_2mc' f d
  let b := interpB f d
  let u := rotate rt qdt_4mc u b
  fun k => u k + h k

/-- The particles handled by each pipeline and the host, `DISTRIBUTE( np, 16, … )`,
/repo/src/species_advance/standard/pipeline/center_p_pipeline.cc:43. -/
def shares (R : Distribute.Rounding) (np P : ℕ) : Option (List (List ℤ)) :=
  (List.range (P + 1)).mapM fun p => Distribute.items (Distribute.distribute R np 16 p P)

/-- `center_p`/`uncenter_p` over the whole species: any interleaving of the pipelines, each
updating the momenta of its particles one after the other.
/repo/src/species_advance/standard/pipeline/center_p_pipeline.cc:106-131. -/
def Updates (R : Distribute.Rounding) (np P : ℕ) (φ : Part K → Part K) (ps ps' : ℤ → Part K) :
    Prop :=
  ∃ sh, shares R np P = some sh ∧ Runs (sh.map (mapSteps fun _ => φ)) ps ps'

/-- What `center_p` does to one particle (`f0` the interpolator array). -/
def centerPart (rt : K → K) (qdt_2mc : K) (f0 : ℤ → Interp K) (p : Part K) : Part K :=
  { p with u := centerU rt qdt_2mc (f0 p.i) p.d p.u }

/-- What `uncenter_p` does to one particle. -/
def uncenterPart (rt : K → K) (qdt_2mc : K) (f0 : ℤ → Interp K) (p : Part K) : Part K :=
  { p with u := uncenterU rt qdt_2mc (f0 p.i) p.d p.u }

/-- `center_p`. -/
def CenterP (rt : K → K) (qdt_2mc : K) (f0 : ℤ → Interp K) (R : Distribute.Rounding) (np P : ℕ) :=
  Updates R np P (centerPart rt qdt_2mc f0)

/-- `uncenter_p`. -/
def UncenterP (rt : K → K) (qdt_2mc : K) (f0 : ℤ → Interp K) (R : Distribute.Rounding)
    (np P : ℕ) := Updates R np P (uncenterPart rt qdt_2mc f0)

end Verif.Boris
