import Verif.Boris.Model

/-!
# Kinetic energy of a species

Model of /repo/src/species_advance/standard/pipeline/energy_p_pipeline.cc, scalar version, in exact
arithmetic.  `rt` stands for `sqrtf`.  The sum over MPI ranks (`mp_allsum_d`) and the final factor
`cvac*cvac` are applied by the caller of this model: what is modelled is `local`.
-/
namespace Verif.EnergyP

open MoveP Boris

variable {K : Type*} [Field K] [LinearOrder K] [IsStrictOrderedRing K]

/-- Body of the loop, energy_p_pipeline.cc:45-66. -/
def energyOne (rt : K → K) (msp qdt_2mc : K) (f0 : ℤ → Interp K) (p : MoveP.Part K) : K :=
  let h := halfE qdt_2mc (f0 p.i) p.d
  let v0 := p.u 0 + h 0
  let v1 := p.u 1 + h 1
  let v2 := p.u 2 + h 2
  let v0 := v0 * v0 + v1 * v1 + v2 * v2
  (msp * p.w) * (v0 / (1 + rt (1 + v0)))

/-- `energy_p_pipeline_scalar`: the sum of one pipeline over its particles in increasing order,
energy_p_pipeline.cc:36-69.  `none` if the pipeline count is zero (division by zero). -/
def energyRank (e : MoveP.Part K → K) (ps : ℤ → MoveP.Part K) (R : Distribute.Rounding) (np P p : ℕ) :
    Option K :=
  (Distribute.items (Distribute.distribute R np 16 p P)).map fun is =>
    is.foldl (fun en n => en + e (ps n)) 0

/-- `energy_p_pipeline`: every pipeline writes its own slot `en[rank]`, then the host adds the slots
`0 .. N_PIPELINE`, energy_p_pipeline.cc:99-107. -/
def energyP (rt : K → K) (msp qdt_2mc : K) (f0 : ℤ → Interp K) (ps : ℤ → MoveP.Part K)
    (R : Distribute.Rounding) (np P : ℕ) : Option K :=
  ((List.range (P + 1)).mapM fun p => energyRank (energyOne rt msp qdt_2mc f0) ps R np P p).map
    fun en => en.foldl (fun loc x => loc + x) 0

end Verif.EnergyP
