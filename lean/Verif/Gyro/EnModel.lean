import Verif.Gyro.Kick

/-!
# The kinetic energy of a species, with rounding to single and double precision

Model of `energy_p_pipeline_scalar` and the sum over the pipelines in `energy_p_pipeline`,
/repo/src/species_advance/standard/pipeline/energy_p_pipeline.cc:17-109.  Which particles belong to which pipeline is left open: the
particles are given as the list of the lists of the pipelines (C64 says that these are all particles once).  Every operation is rounded
to nearest; overflow and underflow are left out.  `mp_allsum_d` and the factor of `cvac*cvac` are left out.
-/
namespace Verif.Gyro
open Verif.Place Verif.Streak Verif.Flow Verif.Drift

/-- Rounding to double precision. -/
abbrev rndD : ℚ → ℚ := rndB 52

/-- `v0*v0 + v1*v1 + v2*v2`, energy_p_pipeline.cc:60. -/
def lenSq (v : Fin 3 → ℚ) : ℚ := rnd32 (rnd32 (rnd32 (v 0 * v 0) + rnd32 (v 1 * v 1)) + rnd32 (v 2 * v 2))

/-- `(msp * p[n].w) * (v0 / (one + sqrtf(one + v0)))`, energy_p_pipeline.cc:62; `rt` is `sqrtf`. -/
def energyOf (rt : ℚ → ℚ) (msp w : ℚ) (v : Fin 3 → ℚ) : ℚ :=
  rnd32 (rnd32 (msp * w) * rnd32 (lenSq v / rnd32 (1 + rt (rnd32 (1 + lenSq v)))))

/-- A particle: weight, momentum and the electric field it sees (`eAt`). -/
structure Seen where
  w : ℚ
  u : Fin 3 → ℚ
  e : Fin 3 → ℚ

/-- The energy of a particle, energy_p_pipeline.cc:46-62. -/
def energyOne (rt : ℚ → ℚ) (msp qdt : ℚ) (p : Seen) : ℚ := energyOf rt msp p.w (kicked qdt p.e p.u)

/-- `en += v0` over some energies, in double precision, energy_p_pipeline.cc:34, 64 and 105-109. -/
def addUp (l : List ℚ) : ℚ := l.foldl (fun en x => rndD (en + x)) 0

/-- `local`, energy_p_pipeline.cc:105-109. -/
def energyAll (rt : ℚ → ℚ) (msp qdt : ℚ) (ls : List (List Seen)) : ℚ := addUp (ls.map fun l => addUp (l.map (energyOne rt msp qdt)))

end Verif.Gyro
