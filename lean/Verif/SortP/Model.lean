import Verif.Common.Mem
import Verif.Distribute.Model
import Verif.Grid.Model

/-!
# Particle sort

Model of `sort_p_pipeline` (/repo/src/species_advance/standard/pipeline/sort_p_pipeline.cc) and of
the legacy `sort_p` (/repo/src/species_advance/standard/sort_p.cc).

A particle is an element of an arbitrary type `α`; `key` reads its voxel `p.i`.  Particle arrays
are functions from index to particle.  32-bit overflow is not modelled: particle counts and voxel
numbers are `int` in the code; `V2P`/`P2V` work in `int64_t`, where with `|v| < 2^31` and at most
256 pipelines no overflow can happen.
-/
namespace Verif.SortP
open Verif.Distribute (Rounding distribute)

variable {α : Type}

/-- `V2P( v, P, vl, vh )`, /repo/src/species_advance/standard/pipeline/spa_private.h:199-200.
C integer division truncates. -/
def V2P (v P vl vh : ℤ) : ℤ := ((v - vl) * P).tdiv (vh - vl + 1)

/-- `P2V( p, P, vl, vh )`, /repo/src/species_advance/standard/pipeline/spa_private.h:214-216. -/
def P2V (p P vl vh : ℤ) : ℤ := vl + (p * (vh - vl + 1) + (P - 1)).tdiv P

/-- `POW2_CEIL( n, 4 )`, /repo/src/util/util_base.h:163, for `n ≥ 0`: clearing the two low bits of
`n+3` is rounding it down to a multiple of 4. -/
def cpStride (n : ℕ) : ℕ := (n + 3) / 4 * 4

/-- Counting loop `for( each x ) count[bin(x)]++` on bins `lo ≤ b < hi`; any other bin is outside
the memory this loop owns: `none`.
sort_p_pipeline.cc:66-69 and 179-182, sort_p.cc:69-72. -/
def countLoop (bin : α → ℤ) (lo hi : ℤ) : List α → (ℤ → ℤ) → Option (ℤ → ℤ)
  | [], c => some c
  | x :: l, c =>
    if lo ≤ bin x ∧ bin x < hi then countLoop bin lo hi l (put c (bin x) (c (bin x) + 1)) else none

/-- Scatter loop `for( each x ) dst[ next[bin(x)]++ ] = x`: the list of stores to `dst`.
`none` if a bin outside `lo ≤ b < hi` is touched.
sort_p_pipeline.cc:121-135 and 197-212, sort_p.cc:96-99. -/
def scatterLoop (bin : α → ℤ) (lo hi : ℤ) : List α → (ℤ → ℤ) → Option (List (ℤ × α))
  | [], _ => some []
  | x :: l, next =>
    if lo ≤ bin x ∧ bin x < hi then
      (scatterLoop bin lo hi l (put next (bin x) (next (bin x) + 1))).map ((next (bin x), x) :: ·)
    else none

/-- Prefix loop `for( each a ) { count = m[a]; m[a] = sum; sum += count; }`: final array and sum.
sort_p_pipeline.cc:310-320 and 185-192. -/
def prefixLoop : List ℤ → ℤ → (ℤ → ℤ) → (ℤ → ℤ) × ℤ
  | [], sum, m => (m, sum)
  | a :: as, sum, m => prefixLoop as (sum + m a) (put m a sum)

/-- Arguments shared by the pipelines, spa_private.h:220-233. -/
structure Args where
  n : ℕ
  nPipeline : ℕ
  nSubsort : ℕ
  vl : ℤ
  vh : ℤ
  nVoxel : ℤ

/-- `coarse_count_pipeline_scalar`, sort_p_pipeline.cc:30-75: stores of pipeline `p` to
`coarse_partition`.  `none` for `n_subsort > 256` (`ERROR`).  The stack array `count` is only
cleared on `[0,n_subsort)`; touching it elsewhere is `none`. -/
def coarseCount (R : Rounding) (key : α → ℤ) (a : Args) (src : ℤ → α) (p : ℕ) :
    Option (List (ℤ × ℤ)) := do
  if a.nSubsort > 256 then none else
  let (i, n) ← distribute R a.n 1 p a.nPipeline
  let ps ← readSeg a.n src i (i + n)
  let c ← countLoop (fun x => V2P (key x) a.nSubsort a.vl a.vh) 0 a.nSubsort ps (fun _ => 0)
  some ((seg 0 a.nSubsort).map fun k => ((cpStride a.nSubsort * p : ℕ) + k, c k))

/-- `coarse_sort_pipeline_scalar`, sort_p_pipeline.cc:81-136: stores of pipeline `p` to `aux_p`. -/
def coarseSort (R : Rounding) (key : α → ℤ) (a : Args) (src : ℤ → α) (cp : ℤ → ℤ) (p : ℕ) :
    Option (List (ℤ × α)) := do
  if a.nSubsort > 256 then none else
  let (i, n) ← distribute R a.n 1 p a.nPipeline
  let ps ← readSeg a.n src i (i + n)
  let next : ℤ → ℤ := fun k => cp ((cpStride a.nSubsort * p : ℕ) + k)
  scatterLoop (fun x => V2P (key x) a.nSubsort a.vl a.vh) 0 a.nSubsort ps next

/-- One iteration of the `subsort` loop of `subsort_pipeline_scalar`, sort_p_pipeline.cc:165-213:
stores to the particle array and to `partition`.  The array `next` is shared by the pipelines; each
may only touch `next[v0..v1-1]`, which this iteration cleared, so it is modelled as local with
arbitrary initial contents `next0`, and touching any other element is `none` (data race). -/
def subsortOne (key : α → ℤ) (a : Args) (src : ℤ → α) (cp next0 : ℤ → ℤ) (s : ℕ) :
    Option (List (ℤ × α) × List (ℤ × ℤ)) := do
  let i0 := cp s
  let i1 := cp (s + 1)
  let v0 := P2V s a.nSubsort a.vl a.vh
  let v1 := P2V (s + 1) a.nSubsort a.vl a.vh
  let ps ← readSeg a.n src i0 i1
  let cleared : ℤ → ℤ := fun v => if v0 ≤ v ∧ v < v1 then 0 else next0 v
  let cnt ← countLoop key v0 v1 ps cleared
  let (next, sum) := prefixLoop (seg v0 v1) i0 cnt
  let plog := (seg v0 v1).map (fun v => (v, next v)) ++ [(v1, sum)]
  let dlog ← scatterLoop key v0 v1 ps next
  some (dlog, plog)

/-- `subsort_pipeline_scalar`, sort_p_pipeline.cc:142-214: all iterations of pipeline `p`. -/
def subsort (key : α → ℤ) (a : Args) (src : ℤ → α) (cp next0 : ℤ → ℤ) (p : ℕ) :
    Option (List (ℤ × α) × List (ℤ × ℤ)) := do
  let logs ← (strided p a.nSubsort a.nPipeline).mapM (subsortOne key a src cp next0)
  some ((logs.map Prod.fst).flatten, (logs.map Prod.snd).flatten)

/-- The host's stores to the ghost part of `partition`, sort_p_pipeline.cc:335-340 and 358-363. -/
def ghostLog (a : Args) : List (ℤ × ℤ) :=
  (seg 0 a.vl).map (fun v => (v, 0)) ++ (seg (a.vh + 1) a.nVoxel).map (fun v => (v, (a.n : ℤ)))

/-- The interleavings of the parallel phases. -/
structure Schedules (α : Type) where
  count : Sched (ℤ × ℤ)
  coarse : Sched (ℤ × α)
  sub : Sched (ℤ × α)
  part : Sched (ℤ × ℤ)

/-- Scratch memory with arbitrary contents: `aux_p`, `coarse_partition`, `next`. -/
structure Scratch (α : Type) where
  aux : ℤ → α
  cp : ℤ → ℤ
  next : ℤ → ℤ

/-- The sort on explicit arguments, sort_p_pipeline.cc:286-370.
`partition` has `nVoxel+1` elements, `p` and `aux_p` have `n`, `coarse_partition` has
`cp_stride*n_pipeline+1`.  In the last phase the host runs concurrently with the pipelines. -/
def sortArgs (R : Rounding) (key : α → ℤ) (S : Schedules α) (g : Scratch α) (a : Args)
    (p : ℤ → α) (partition : ℤ → ℤ) : Option ((ℤ → α) × (ℤ → ℤ)) := do
  let P := a.nPipeline
  let cpSize : ℤ := (cpStride a.nSubsort * P + 1 : ℕ)
  if a.nSubsort ≠ 1 then
    let clogs ← (List.range P).mapM (coarseCount R key a p)
    let cp ← applyLog cpSize (S.count.run clogs) g.cp
    let addrs := (List.range a.nSubsort).flatMap fun s =>
      (List.range P).map fun r => ((s + cpStride a.nSubsort * r : ℕ) : ℤ)
    let (cp, _) := prefixLoop addrs 0 cp
    let slogs ← (List.range P).mapM (coarseSort R key a p cp)
    let aux ← applyLog a.n (S.coarse.run slogs) g.aux
    let cp := put cp a.nSubsort a.n
    let flogs ← (List.range P).mapM (subsort key a aux cp g.next)
    let p' ← applyLog a.n (S.sub.run (flogs.map Prod.fst)) p
    let partition' ← applyLog (a.nVoxel + 1)
      (S.part.run (flogs.map Prod.snd ++ [ghostLog a])) partition
    some (p', partition')
  else
    let cp := put (put g.cp 0 0) 1 a.n
    let (dlog, plog) ← subsort key { a with nPipeline := 1 } p cp g.next 0
    let aux ← applyLog a.n dlog g.aux
    let partition' ← applyLog (a.nVoxel + 1) (plog ++ ghostLog a) partition
    some ((fun i => if 0 ≤ i ∧ i < a.n then aux i else p i), partition')

/-- `sort_p_pipeline`, sort_p_pipeline.cc:220-371, on a mesh of `nx×ny×nz` cells with `np`
particles and `P` pipelines (`N_PIPELINE`). -/
def sortP (R : Rounding) (key : α → ℤ) (S : Schedules α) (g : Scratch α) (P : ℕ)
    (nx ny nz : ℤ) (np : ℕ) (p : ℤ → α) (partition : ℤ → ℤ) : Option ((ℤ → α) × (ℤ → ℤ)) :=
  sortArgs R key S g
    { n := np, nPipeline := P, nSubsort := P
      vl := Grid.VOXEL nx ny 1 1 1, vh := Grid.VOXEL nx ny nx ny nz
      nVoxel := (nx + 2) * (ny + 2) * (nz + 2) } p partition

/-! ## Legacy serial sort -/

/-- Counting and partitioning of the legacy sort, sort_p.cc:66-81: `(partition, next)`; the static
array `next` has `nc+1` elements. -/
def legacyPartition (key : α → ℤ) (nc : ℤ) (ps : List α) : Option (ℤ → ℤ) := do
  let cnt ← countLoop key 0 (nc + 1) ps (fun _ => 0)
  some (prefixLoop (seg 0 (nc + 1)) 0 cnt).1

/-- Legacy out-of-place sort, sort_p.cc:24-104: new particle array (freshly allocated, contents
`fresh`) and partition.  Returns unchanged data for `np = 0`. -/
def legacyOut (key : α → ℤ) (nc : ℤ) (fresh : ℤ → α) (np : ℕ) (p : ℤ → α) (partition : ℤ → ℤ) :
    Option ((ℤ → α) × (ℤ → ℤ)) := do
  if np = 0 then some (p, partition) else
  let ps := (seg 0 np).map p
  let part ← legacyPartition key nc ps
  let log ← scatterLoop key 0 (nc + 1) ps part
  let p' ← applyLog np log fresh
  some (p', fun i => if 0 ≤ i ∧ i < nc + 1 then part i else partition i)

/-- State of the in-place cycle sort, sort_p.cc:108-137: current bin `i`, the pointer `src` while in
the inner loop, the `next` array, the particles. -/
structure Cyc (α : Type) where
  i : ℤ
  src : Option ℤ
  next : ℤ → ℤ
  p : ℤ → α

/-- Outcome of one step of the cycle sort. -/
inductive CycRes (α : Type) where
  | more (s : Cyc α)
  | done (s : Cyc α)
  | oob

/-- One step of the in-place cycle sort, sort_p.cc:115-137.  `oob` if an access leaves
`p[0..np-1]` or `next[0..nc]`. -/
def cycStep (key : α → ℤ) (nc np : ℤ) (part : ℤ → ℤ) (s : Cyc α) : CycRes α :=
  match s.src with
  | none =>
    if s.i < nc then
      if s.next s.i ≥ part (s.i + 1) then .more { s with i := s.i + 1 }
      else .more { s with src := some (s.next s.i) }
    else .done s
  | some c =>
    if 0 ≤ c ∧ c < np then
      let k := key (s.p c)
      if 0 ≤ k ∧ k < nc + 1 then
        let d := s.next k
        let s := { s with next := put s.next k (d + 1) }
        if c = d then .more { s with src := none }
        else if 0 ≤ d ∧ d < np then
          .more { s with p := put (put s.p d (s.p c)) c (s.p d) }
        else .oob
      else .oob
    else .oob

/-- Run at most `fuel` steps; `none` if not finished or out of bounds. -/
def cycRun (key : α → ℤ) (nc np : ℤ) (part : ℤ → ℤ) : ℕ → Cyc α → Option (Cyc α)
  | 0, _ => none
  | f + 1, s =>
    match cycStep key nc np part s with
    | .more s' => cycRun key nc np part f s'
    | .done s' => some s'
    | .oob => none

/-- Legacy in-place sort, sort_p.cc:24-81, 106-138, run for at most `fuel` loop iterations. -/
def legacyIn (key : α → ℤ) (nc : ℤ) (np : ℕ) (p : ℤ → α) (partition : ℤ → ℤ) (fuel : ℕ) :
    Option ((ℤ → α) × (ℤ → ℤ)) := do
  if np = 0 then some (p, partition) else
  let part ← legacyPartition key nc ((seg 0 np).map p)
  let s ← cycRun key nc np part fuel { i := 0, src := none, next := part, p := p }
  some (s.p, fun i => if 0 ≤ i ∧ i < nc + 1 then part i else partition i)

end Verif.SortP
