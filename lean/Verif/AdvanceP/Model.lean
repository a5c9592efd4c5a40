import Verif.Boris.Model
import Verif.Common.Mem

/-!
# advance_p

Model of the scalar `advance_p` (/repo/src/species_advance/standard/pipeline/advance_p_pipeline.cc):
the push of one particle, the loop of a pipeline on the shared memory, and the compaction of the
movers by the host.  Exact arithmetic; `rt` stands for `sqrtf`.
-/
namespace Verif.AdvanceP

open MoveP Boris Grid

variable {K : Type*} [Field K] [LinearOrder K]

/-- `advance_p_pipeline_args_t` (/repo/src/species_advance/standard/pipeline/spa_private.h),
filled in by /repo/src/species_advance/standard/pipeline/advance_p_pipeline.cc:272-289.  `fuel` is
the number of passes allowed to `move_p`. -/
structure Args (K : Type*) where
  g : LGrid
  rt : K → K
  f0 : ℤ → Interp K
  qdt_2mc : K
  cdt_d : Fin 3 → K
  qsp : K
  np : ℕ
  max_nm : ℕ
  fuel : ℕ

/-- The normalised half displacement,
/repo/src/species_advance/standard/pipeline/advance_p_pipeline.cc:145-154. -/
def normDisp (A : Args K) (u : Fin 3 → K) : Fin 3 → K :=
  let v0 := 1 / A.rt (1 + (u 0 * u 0 + (u 1 * u 1 + u 2 * u 2)))
  fun k => u k * A.cdt_d k * v0

/-- The in-bounds test,
/repo/src/species_advance/standard/pipeline/advance_p_pipeline.cc:165-166. -/
def inBounds (d : Fin 3 → K) : Bool :=
  decide (d 0 ≤ 1 ∧ d 1 ≤ 1 ∧ d 2 ≤ 1 ∧ -d 0 ≤ 1 ∧ -d 1 ≤ 1 ∧ -d 2 ≤ 1)

/-- The twelve amounts added to the accumulator for a particle that stays in its cell,
/repo/src/species_advance/standard/pipeline/advance_p_pipeline.cc:172-210 (`m` the streak midpoint,
`u` the half displacement). -/
def inCellJ (q : K) (m u : Fin 3 → K) : Fin 12 → K :=
  let v5 := q * u 0 * u 1 * u 2 * (1 / 3)
  let jx := accumulateJ q (u 0) (m 1) (m 2) v5
  let jy := accumulateJ q (u 1) (m 2) (m 0) v5
  let jz := accumulateJ q (u 2) (m 0) (m 1) v5
  ![jx.1, jx.2.1, jx.2.2.1, jx.2.2.2, jy.1, jy.2.1, jy.2.2.1, jy.2.2.2,
    jz.1, jz.2.1, jz.2.2.1, jz.2.2.2]

/-- The body of the loop over particles,
/repo/src/species_advance/standard/pipeline/advance_p_pipeline.cc:91-221: new particle, new
accumulators, and the remaining displacement if the move could not be completed.  `none`: an access
outside of the interpolators, accumulators or neighbour table, or fuel exhausted. -/
def pushOne (A : Args K) (p : MoveP.Part K) (a : Accum K) :
    Option (MoveP.Part K × Accum K × Option (Fin 3 → K)) :=
  if p.i < 0 ∨ nvox A.g ≤ p.i then none else
    let u := pushU A.rt A.qdt_2mc (A.f0 p.i) p.d p.u
    let s := normDisp A u
    let mid : Fin 3 → K := fun k => p.d k + s k
    let new : Fin 3 → K := fun k => mid k + s k
    if inBounds new then
      some ({ p with d := new, u := u }, accAdd a p.i (inCellJ (p.w * A.qsp) mid s), none)
    else
      match moveP A.g A.qsp A.fuel { p := { p with u := u }, disp := s, a := a } with
      | none => none
      | some (false, s') => some (s'.p, s'.a, none)
      | some (true, s') => some (s'.p, s'.a, some s'.disp)

/-! ## Memory -/

/-- Shared memory: particles, accumulators of all pipelines, movers, one segment per pipeline. -/
inductive Addr | p (i : ℤ) | a (j : ℤ) | pm (k : ℤ) | seg (r : ℕ)
deriving DecidableEq

/-- `particle_mover_seg_t`'s `nm` and `n_ignored`; `ok` is false after an invalid access. -/
structure Seg where
  nm : ℕ
  ign : ℕ
  ok : Bool
deriving DecidableEq

/-- The type of what is stored at an address. -/
def Val (K : Type) : Addr → Type
  | .p _ => MoveP.Part K
  | .a _ => Fin 12 → K
  | .pm _ => Mover K
  | .seg _ => Seg

/-- Contents of the memory shared by the pipelines. -/
abbrev Mem (K : Type) := Memory (Val K)

/-- The particle array. -/
def Mem.part {K : Type} (m : Mem K) (i : ℤ) : MoveP.Part K := m (.p i)
/-- The accumulators, all pipelines' blocks one after the other. -/
def Mem.acc {K : Type} (m : Mem K) (j : ℤ) : Fin 12 → K := m (.a j)
/-- The mover array. -/
def Mem.mover {K : Type} (m : Mem K) (k : ℤ) : Mover K := m (.pm k)
/-- The segment records. -/
def Mem.segm {K : Type} (m : Mem K) (r : ℕ) : Seg := m (.seg r)

/-- A memory from its four parts. -/
def Mem.mk {K : Type} (p : ℤ → MoveP.Part K) (a : ℤ → Fin 12 → K) (pm : ℤ → Mover K)
    (seg : ℕ → Seg) : Mem K
  | .p i => p i
  | .a j => a j
  | .pm k => pm k
  | .seg r => seg r

variable {K : Type} [Field K] [LinearOrder K]

/-- `POW2_CEIL( nv, 2 )`, the distance between accumulator blocks,
/repo/src/species_advance/standard/pipeline/advance_p_pipeline.cc:83-84. -/
def accStride (g : LGrid) : ℤ := 2 * ((nvox g + 1) / 2)

/-- First accumulator of pipeline `r` (the host `r = P` gets the first block),
/repo/src/species_advance/standard/pipeline/advance_p_pipeline.cc:78-85. -/
def accBase (g : LGrid) (P r : ℕ) : ℤ := if r ≠ P then (1 + r) * accStride g else 0

/-- First mover and number of movers of pipeline `r`,
/repo/src/species_advance/standard/pipeline/advance_p_pipeline.cc:66-74. -/
def moverShare (R : Distribute.Rounding) (A : Args K) (P r : ℕ) : Option (ℤ × ℤ) :=
  (Distribute.distribute R (A.max_nm - A.np % 16) 8 r P).map fun (itmp, n) =>
    (itmp, if r = P then A.max_nm - itmp else n)

/-- `nm = 0; itmp = 0`, /repo/src/species_advance/standard/pipeline/advance_p_pipeline.cc:75-76. -/
def initStep (r : ℕ) (m : Mem K) : Mem K :=
  .mk m.part m.acc m.mover fun r' => if r' = r then ⟨0, 0, true⟩ else m.segm r'

/-- Push particle `i` on pipeline `r`, whose accumulators start at `ab`, and movers at `pb` with
room for `cap`.  /repo/src/species_advance/standard/pipeline/advance_p_pipeline.cc:89-239. -/
def pushStep (A : Args K) (ab pb cap : ℤ) (r : ℕ) (i : ℤ) (m : Mem K) : Mem K :=
  let sg := m.segm r
  match pushOne A (m.part i) (fun v => m.acc (ab + v)) with
  | none =>
    .mk m.part m.acc m.mover fun r' => if r' = r then { sg with ok := false } else m.segm r'
  | some (p', a', left) =>
    let acc : ℤ → Fin 12 → K :=
      fun j => if ab ≤ j ∧ j < ab + nvox A.g then a' (j - ab) else m.acc j
    match left with
    | none => .mk (put m.part i p') acc m.mover m.segm
    | some disp =>
      if (sg.nm : ℤ) < cap then
        .mk (put m.part i p') acc (put m.mover (pb + sg.nm) ⟨disp, i⟩)
          fun r' => if r' = r then { sg with nm := sg.nm + 1 } else m.segm r'
      else
        .mk (put m.part i { p' with i := p'.i / 8 }) acc m.mover
          fun r' => if r' = r then { sg with ign := sg.ign + 1 } else m.segm r'

/-- What pipeline `r` does,
/repo/src/species_advance/standard/pipeline/advance_p_pipeline.cc:20-245. -/
def thread (R : Distribute.Rounding) (A : Args K) (P r : ℕ) : Option (List (Mem K → Mem K)) :=
  match Distribute.items (Distribute.distribute R A.np 16 r P), moverShare R A P r with
  | some l, some (pb, cap) => some (initStep r :: l.map (pushStep A (accBase A.g P r) pb cap r))
  | _, _ => none

/-- `MOVE( pm+dst, pm+src, n )` within the mover array of `size` elements (`memmove`); `none` when it
leaves the array. -/
def moveMem (size : ℤ) (pm : ℤ → Mover K) (dst src : ℤ) (n : ℕ) : Option (ℤ → Mover K) :=
  if 0 < n ∧ (dst < 0 ∨ src < 0 ∨ size < dst + n ∨ size < src + n) then none
  else some fun x => if dst ≤ x ∧ x < dst + n then pm (src + (x - dst)) else pm x

/-- The compaction of the movers,
/repo/src/species_advance/standard/pipeline/advance_p_pipeline.cc:306-339: ranks `rs` in order,
`nm` movers so far.  (The messages about ignored movers are not modelled.) -/
def compact (R : Distribute.Rounding) (A : Args K) (P : ℕ) (seg : ℕ → Seg) :
    List ℕ → (ℤ → Mover K) → ℕ → Option ((ℤ → Mover K) × ℕ)
  | [], pm, nm => some (pm, nm)
  | r :: rs, pm, nm =>
    match moverShare R A P r with
    | none => none
    | some (pb, _) =>
      if (nm : ℤ) ≠ pb then
        match moveMem A.max_nm pm nm pb (seg r).nm with
        | none => none
        | some pm' => compact R A P seg rs pm' (nm + (seg r).nm)
      else compact R A P seg rs pm (nm + (seg r).nm)

/-- `advance_p` with `P` pipelines: any interleaving of the pipelines and the host, then the
compaction.  `m'` is the memory before the compaction, `pm` and `nm` the movers after it.
/repo/src/species_advance/standard/pipeline/advance_p_pipeline.cc:252-340. -/
def Advance (R : Distribute.Rounding) (A : Args K) (P : ℕ) (m m' : Mem K)
    (res : Option ((ℤ → Mover K) × ℕ)) : Prop :=
  ∃ ts, (List.range (P + 1)).mapM (thread R A P) = some ts ∧ Runs ts m m' ∧
    res = compact R A P m'.segm (List.range (P + 1)) m'.mover 0

end Verif.AdvanceP
