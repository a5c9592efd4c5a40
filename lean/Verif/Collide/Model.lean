import Verif.Collision.Model
import Verif.SortP.Model

/-!
# Complete collision operators

Model of the application of a binary collision operator to two species: `apply_takizuka_abe`
(/repo/src/collision/takizuka_abe.cc, /repo/src/collision/pipeline/takizuka_abe_pipeline.cc), of
`apply_binary_collision_model` (/repo/src/collision/binary.cc, /repo/src/collision/pipeline/binary_pipeline.cc) with the hard
sphere and large angle Coulomb kernels, and of `apply_collision_op_list` (/repo/src/collision/collision.cc:59-62).

The particles of all species live in one memory indexed by the number of the species and the number of the particle; an
operator within one species has both numbers equal, as `spi==spj` in the code.  Floating point numbers are
replaced by an ordered field `K`, `sqrtf`, `sin` and `cos` by functions.  A generator is replaced by the lists of numbers
its functions will return, one list for each use; an operator whose lists are used up has no result (`none`).  The pipelines
run one after the other, which is no restriction by C56.
-/
namespace Verif.Collide
open Verif.Collision

/-- `particle_t`, species_advance_aos.h:19-27: `tag` stands for `dx`, `dy`, `dz` and `i`. -/
structure Part (T K : Type) where
  tag : T
  u : Fin 3 → K
  w : K

/-- Number of a species and number of a particle in its array. -/
abbrev Loc := ℕ × ℕ

/-- The particle arrays of all species. -/
abbrev Mem (T K : Type) := Loc → Part T K

variable {T K : Type}

/-- Store of a momentum: `p->ux = ..`, `p->uy = ..`, `p->uz = ..`. -/
def setU (mem : Mem T K) (l : Loc) (u : Fin 3 → K) : Mem T K := fun x => if x = l then { mem l with u := u } else mem x

/-- Replaces the array of one species. -/
def setSpecies (mem : Mem T K) (a : ℕ) (x : ℕ → Part T K) : Mem T K := fun l => if l.1 = a then x l.2 else mem l

/-! ## Takizuka-Abe -/

section ta

variable [Field K] [LinearOrder K]

/-- What the pipelines of the Takizuka-Abe operator read: functions of the C library, `FLT_MIN`, the two species, masses,
charges and partition tables by species number, `cvar0`, and `dtinterval_dV`, takizuka_abe_pipeline.cc:86-103. -/
structure TA (K : Type) where
  rt : K → K
  cs : K → K
  sn : K → K
  eps : K
  a : ℕ
  b : ℕ
  m : ℕ → K
  q : ℕ → K
  part : ℕ → ℕ → ℕ
  cvar0 : K
  dtdV : K

/-- `cvar`, takizuka_abe_pipeline.cc:99-102. -/
def TA.cvar (E : TA K) : K :=
  let mu := (E.m E.a * E.m E.b) / (E.m E.a + E.m E.b)
  E.cvar0 * (E.q E.a * E.q E.a * E.q E.b * E.q E.b) / (mu * mu)

/-- One collision, takizuka_abe_pipeline.cc:14-78, of particle `k` of species i with particle `l` of species j.  `g.1`
is the number returned by `frandn`, `g.2.1` and `g.2.2` those returned by `frand_c0` on lines 53 and 65.  The macro declares
its two pointers `RESTRICT`, so they must differ; that they do is part of C54. -/
def taPair (E : TA K) (mem : Mem T K) (k l : ℕ) (std : K) (g : K × K × K) : Mem T K :=
  let p := mem (E.a, k)
  let q := mem (E.b, l)
  let r := takizukaAbe E.rt E.eps (E.m E.a) (E.m E.b) std g.1 (E.cs g.2.1) (E.sn g.2.1) g.2.2 p.w q.w p.u q.u
  setU (setU mem (E.a, k) r.1) (E.b, l) r.2

/-- The collisions of a voxel one after the other. -/
def taRun (E : TA K) : List ((ℕ × ℕ) × K) → Mem T K → List (K × K × K) → Option (Mem T K × List (K × K × K))
  | [], mem, gs => some (mem, gs)
  | _ :: _, _, [] => none
  | (kl, std) :: ps, mem, g :: gs => taRun E ps (taPair E mem kl.1 kl.2 std g) gs

/-- Pairs and scales of the angle within one species, takizuka_abe_pipeline.cc:137-157,178-212: the first three collisions of
an odd number of particles use half the density. -/
def taListIntra (E : TA K) (dens : K) (k0 nk : ℕ) : List ((ℕ × ℕ) × K) :=
  (taIntra k0 nk).zipIdx.map fun pi =>
    (pi.1, if (nk % 2 = 1 ∧ nk ≥ 3) ∧ pi.2 < 3 then E.rt (1 / 2 * dens * E.cvar * E.dtdV)
      else E.rt (E.cvar * dens * E.dtdV))

/-- Pairs and scale of the angle between two species, takizuka_abe_pipeline.cc:159-176,178-212. -/
def taListInter (E : TA K) (densk densl : K) (k0 nk l0 nl : ℕ) : List ((ℕ × ℕ) × K) :=
  (taInter k0 nk l0 nl).map fun p => (p, E.rt (E.cvar * (if densl > densk then densk else densl) * E.dtdV))

/-- A generator of the Takizuka-Abe operator: what `uirand` and the other functions will return. -/
abbrev TAGen (K : Type) := List ℕ × List (K × K × K)

/-- Body of the voxel loop, takizuka_abe_pipeline.cc:113-213. -/
def taVoxel (E : TA K) (mem : Mem T K) (v : ℕ) (g : TAGen K) : Option (Mem T K × TAGen K) :=
  let k0 := E.part E.a v
  let nk := E.part E.a (v + 1) - k0
  if nk = 0 then some (mem, g)
  else
    match taShuffle Part.w (k0 + nk) (nk - 1) k0 (fun k => mem (E.a, k)) 0 g.1 with
    | none => none
    | some (x, densk, as) =>
      let mem := setSpecies mem E.a x
      if E.a = E.b then (taRun E (taListIntra E densk k0 nk) mem g.2).map fun r => (r.1, as, r.2)
      else
        let l0 := E.part E.b v
        let nl := E.part E.b (v + 1) - l0
        if nl = 0 then some (mem, as, g.2)
        else
          let densl := ((List.range' l0 nl).map fun l => (mem (E.b, l)).w).sum
          (taRun E (taListInter E densk densl k0 nk l0 nl) mem g.2).map fun r => (r.1, as, r.2)

end ta

/-! ## Binary collision model -/

section binary

variable [Field K] [LinearOrder K]

/-- What the pipelines of the binary operator read, binary_pipeline.cc:25-43: the species, masses and partition tables, the
rate constant function, the number of candidates as a function of the number of particles
(`(int)(0.5 + sample*n)`, lines 85 and 101), `dtinterval_dV`, and the momentum transfer `COMPUTE_MOMENTUM_TRANSFER` of the kernel
as a function of the impact parameter. -/
structure Bin (T K : Type) where
  a : ℕ
  b : ℕ
  m : ℕ → K
  part : ℕ → ℕ → ℕ
  rate : Part T K → Part T K → K
  nc : ℕ → ℕ
  dtdV : K
  xfer : K → K → (Fin 3 → K) → Fin 3 → K

/-- The impact parameter, hard_sphere.cc:247-251, large_angle_coulomb.cc:91-95: points are drawn until one is inside
the unit circle. -/
def drawDisc : List (K × K) → Option ((K × K) × List (K × K))
  | [] => none
  | b :: bs => if b.1 * b.1 + b.2 * b.2 ≥ 1 then drawDisc bs else some (b, bs)

/-- The collision function, hard_sphere.cc:320-344 and large_angle_coulomb.cc:167-192: the updates are made one after the
other in memory, since the two particles may be the same one. -/
def binPair (E : Bin T K) (mem : Mem T K) (k l : ℕ) (type : ℕ) (b : K × K) : Mem T K :=
  let x := E.xfer b.1 b.2 fun i => (mem (E.a, k)).u i - (mem (E.b, l)).u i
  let mem := if type % 2 = 1 then
      setU mem (E.a, k) fun i => (mem (E.a, k)).u i - 2 * E.m E.b / (E.m E.a + E.m E.b) * x i else mem
  if type / 2 % 2 = 1 then
      setU mem (E.b, l) fun i => (mem (E.b, l)).u i + 2 * E.m E.a / (E.m E.a + E.m E.b) * x i else mem

/-- A generator of the binary operator: what `uirand`, `frand_c0` and the pairs of the impact parameter will return. -/
abbrev BinGen (K : Type) := List ℕ × List K × List (K × K)

/-- One candidate, binary_pipeline.cc:119-153.  The random number of line 151 is drawn only if the weights
differ. -/
def binCand (E : Bin T K) (norm : K) (k0 nk l0 nl : ℕ) (mem : Mem T K) (g : BinGen K) : Option (Mem T K × BinGen K) :=
  match selectPair k0 nk l0 nl g.1 with
  | none => none
  | some ((k, l), as) =>
    let p := mem (E.a, k)
    let q := mem (E.b, l)
    let pr := (if p.w > q.w then p.w else q.w) * norm * E.rate p q
    match g.2.1 with
    | [] => none
    | r :: rs =>
      if r ≥ pr then some (mem, as, rs, g.2.2)
      else
        let hit := fun (t : ℕ) (rs : List K) =>
          (drawDisc g.2.2).map fun b => (binPair E mem k l t b.1, as, rs, b.2)
        if p.w = q.w then hit (updateType p.w q.w 0) rs
        else
          match rs with
          | [] => none
          | r' :: rs => hit (updateType p.w q.w r') rs

/-- The candidate loop, binary_pipeline.cc:110-153. -/
def binCands (E : Bin T K) (norm : K) (k0 nk l0 nl : ℕ) : ℕ → Mem T K → BinGen K → Option (Mem T K × BinGen K)
  | 0, mem, g => some (mem, g)
  | n + 1, mem, g =>
    match binCand E norm k0 nk l0 nl mem g with
    | none => none
    | some (mem, g) => binCands E norm k0 nk l0 nl n mem g

/-- Body of the voxel loop, binary_pipeline.cc:53-154. -/
def binVoxel (E : Bin T K) (mem : Mem T K) (v : ℕ) (g : BinGen K) : Option (Mem T K × BinGen K) :=
  let k0 := E.part E.a v
  let nk := E.part E.a (v + 1) - k0
  if nk = 0 then some (mem, g)
  else if E.a = E.b then
    let np := nk * (nk + 1) / 2
    let nc := E.nc nk
    binCands E (E.dtdV * ((np : K) / (nc : K))) k0 nk k0 nk nc mem g
  else
    let l0 := E.part E.b v
    let nl := E.part E.b (v + 1) - l0
    if nl = 0 then some (mem, g)
    else
      let np := nk * nl
      let nc := E.nc (if nk > nl then nk else nl)
      binCands E (E.dtdV * ((np : K) / (nc : K))) k0 nk l0 nl nc mem g

end binary

/-! ## Pipelines -/

/-- The voxel loop of one pipeline, takizuka_abe_pipeline.cc:109-111, binary_pipeline.cc:48-51. -/
def runVoxels {M G : Type} (vox : M → ℕ → G → Option (M × G)) : List ℕ → M → G → Option (M × G)
  | [], mem, g => some (mem, g)
  | v :: vs, mem, g =>
    match vox mem v g with
    | none => none
    | some (mem, g) => runVoxels vox vs mem g

/-- `EXEC_PIPELINES`, takizuka_abe_pipeline.cc:223-226, binary_pipeline.cc:179-181: pipeline `r` uses generator `r` of
the pool. -/
def runPipes {M G : Type} (vox : M → ℕ → G → Option (M × G)) (nx ny nz P : ℕ) (gens : ℕ → G) : List ℕ → M → Option M
  | [], mem => some mem
  | r :: rs, mem =>
    match stripe nx ny nz P r (nx + (nx + 2) * (ny + (ny + 2) * nz) + 2) with
    | none => none
    | some vs =>
      match runVoxels vox vs mem (gens r) with
      | none => none
      | some (mem, _) => runPipes vox nx ny nz P gens rs mem

/-! ## Operators -/

/-- The fields of `species_t` used here, species_advance_aos.h:44-86: number of particles, particles, partition table,
step of the last sort. -/
structure Species (T K : Type) where
  np : ℕ
  p : ℤ → Part T K
  part : ℤ → ℤ
  last : ℤ

/-- The particles of all species as one memory. -/
def memOf (st : ℕ → Species T K) : Mem T K := fun l => (st l.1).p l.2

/-- The partition tables with natural numbers as entries. -/
def partOf (st : ℕ → Species T K) : ℕ → ℕ → ℕ := fun c v => ((st c).part v).toNat

/-- Writes the memory back. -/
def putMem (st : ℕ → Species T K) (mem : Mem T K) : ℕ → Species T K :=
  fun c => { st c with p := fun j => if 0 ≤ j then mem (c, j.toNat) else (st c).p j }

/-- `sp->last_sorted` is set and the particles and the partition table are replaced by the result of `srt`, the sort the
library was built with, sort_p_pipeline.cc:220-371 or sort_p.cc:24-138. -/
def sortSpecies (srt : ℕ → (ℤ → Part T K) → (ℤ → ℤ) → Option ((ℤ → Part T K) × (ℤ → ℤ))) (step : ℤ) (st : ℕ → Species T K)
    (c : ℕ) : Option (ℕ → Species T K) :=
  (srt (st c).np (st c).p (st c).part).map fun r =>
    fun d => if d = c then { np := (st c).np, p := r.1, part := r.2, last := step } else st d

/-- `if( sp->last_sorted!=step ) sort_p( sp )`, takizuka_abe.cc:9-10, binary.cc:22-30. -/
def sortIfStale (srt : ℕ → (ℤ → Part T K) → (ℤ → ℤ) → Option ((ℤ → Part T K) × (ℤ → ℤ))) (step : ℤ) (st : ℕ → Species T K)
    (c : ℕ) : Option (ℕ → Species T K) :=
  if (st c).last ≠ step then sortSpecies srt step st c else some st

/-- A collision operator: the species it collides, its interval, and the body of its voxel loop as a function of the partition
tables, with the generators of its pool. -/
structure Op (T K : Type) where
  a : ℕ
  b : ℕ
  interval : ℤ
  Gen : Type
  vox : (ℕ → ℕ → ℕ) → Mem T K → ℕ → Gen → Option (Mem T K × Gen)
  gens : ℕ → Gen

/-- `apply_takizuka_abe`, takizuka_abe.cc:7-12, and `apply_binary_collision_model`, binary.cc:14-34 with
binary_pipeline.cc:158-181 (the checks are made twice there; the second time they do nothing). -/
def applyOp (srt : ℕ → (ℤ → Part T K) → (ℤ → ℤ) → Option ((ℤ → Part T K) × (ℤ → ℤ))) (nx ny nz P : ℕ) (step : ℤ)
    (op : Op T K) (st : ℕ → Species T K) : Option (ℕ → Species T K) :=
  if op.interval < 1 ∨ step.tmod op.interval ≠ 0 then some st
  else
    match sortIfStale srt step st op.a with
    | none => none
    | some st =>
      match sortIfStale srt step st op.b with
      | none => none
      | some st =>
        (runPipes (op.vox (partOf st)) nx ny nz P op.gens (List.range P) (memOf st)).map (putMem st)

/-- `apply_collision_op_list`, collision.cc:59-62. -/
def applyList (srt : ℕ → (ℤ → Part T K) → (ℤ → ℤ) → Option ((ℤ → Part T K) × (ℤ → ℤ))) (nx ny nz P : ℕ) (step : ℤ) :
    List (Op T K) → (ℕ → Species T K) → Option (ℕ → Species T K)
  | [], st => some st
  | op :: ops, st =>
    match applyOp srt nx ny nz P step op st with
    | none => none
    | some st => applyList srt nx ny nz P step ops st

end Verif.Collide
