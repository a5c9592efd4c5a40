import Verif.Deposit.Model
import Verif.Grid.Lemmas2
import Verif.Distribute.Model

/-!
# Boundary processing and exchange of particles between ranks

Model of /repo/src/boundary/boundary_p.cc (scalar version, dynamic resizing enabled, which is the default) and of the
removal of unfinished particles at the end of a step (/repo/src/vpic/advance.cc:78-101).  Exact arithmetic.  `none` is
a failed `ERROR(( ))`, an `int` overflow or an access outside of the storage.
-/
namespace Verif.Boundary

open Grid (LGrid BOUNDARY portOf)
open MoveP (Part Mover Accum MState moveP nvox)
open Deposit (accumulateRhob)

/-- `particle_injector_t`, /repo/src/species_advance/species_advance_aos.h:45-52. -/
structure Injector (K : Type*) where
  d : Fin 3 → K
  i : ℤ
  u : Fin 3 → K
  w : K
  disp : Fin 3 → K
  sp_id : ℕ

/-- The part of `species_t` used here, /repo/src/species_advance/species_advance_aos.h:54-93.  `p` and `pm` are the
storage of `max_np` particles and `max_nm` movers. -/
structure Species (K : Type*) where
  q : K
  p : ℤ → Part K
  np : ℕ
  max_np : ℕ
  pm : ℤ → Mover K
  nm : ℕ
  max_nm : ℕ

/-- What one call of a custom boundary handler does: its new private state (`b->params`), the particles it deposits in
`rhob` with `accumulate_rhob` (species charge and particle), and the injectors it fills in
(/repo/src/boundary/boundary_private.h:20-36).  The handler gets its state, the species id and charge, the particle, the
remaining displacement and the face. -/
abbrev Handler (K S : Type*) :=
  S → ℕ → K → Part K → (Fin 3 → K) → ℤ → S × List (K × Part K) × List (Injector K)

/-- What does not change during boundary processing on a rank: the grid (`range[ws]` is the total number of voxels),
`world_size`, `world_rank`, the number of species, `nb` custom boundary conditions, the handler of boundary `-3-k`,
the cell volume factor `r8V`, the contents of freshly allocated memory, and the number of passes allowed to `move_p`. -/
structure Env (K S : Type*) where
  g : LGrid
  ws : ℕ
  rank : ℕ
  nsp : ℕ
  nb : ℕ
  interact : ℕ → Handler K S
  r8V : K
  freshP : ℤ → Part K
  freshM : ℤ → Mover K
  fuel : ℕ

/-- What changes on a rank: the species by id, the accumulators, `rhob`, the state of the custom handlers, the static
`max_ci` and the number of warnings printed. -/
structure Rank (K S : Type*) where
  sp : ℕ → Species K
  a : Accum K
  rhob : ℤ → K
  st : S
  maxCi : ℕ
  warn : ℕ

variable {K S : Type*} [Field K] [LinearOrder K]

/-- `absorb_particles`, /repo/src/grid/grid.h:30. -/
def absorbParticles : ℤ := -2

/-- `shared[ face ]`, /repo/src/boundary/boundary_p.cc:133-148. -/
def Env.shared (E : Env K S) (face : ℤ) : Prop :=
  0 ≤ E.g.bc (portOf face) ∧ E.g.bc (portOf face) < E.ws ∧ E.g.bc (portOf face) ≠ E.rank

instance (E : Env K S) (face : ℤ) : Decidable (E.shared face) := by unfold Env.shared; infer_instance

/-- `axis[ face ]` and `dir[ face ]`, lines 64-67. -/
def axisOf (face : ℤ) : Fin 3 := if face = 0 ∨ face = 3 then 0 else if face = 1 ∨ face = 4 then 1 else 2
@[inherit_doc axisOf] def dirOf (face : ℤ) : K := if face < 3 then 1 else -1

/-- The state of the loop over the movers: `rhob`, the handlers' state, the send buffers (`pi_send[face]`, the first
`n_send[face]` entries), the local injection buffer (`ci`, the first `n_ci` entries) and the warnings. -/
structure Load (K S : Type*) where
  rhob : ℤ → K
  st : S
  send : ℤ → List (Injector K)
  ci : List (Injector K)
  warn : ℕ

/-- What becomes of a particle at a face whose neighbour entry is `nn`, lines 264-352. -/
inductive Fate | absorb | send | custom (k : ℕ) | drop
deriving DecidableEq

/-- The tests of lines 268, 279-280 and 332-335. -/
def fate (E : Env K S) (nn : ℤ) : Fate :=
  if nn = absorbParticles then .absorb
  else if (0 ≤ nn ∧ nn < E.g.rangel) ∨ (E.g.rangeh < nn ∧ nn ≤ E.g.range E.ws) then .send
  else if 0 ≤ -nn - 3 ∧ -nn - 3 < E.nb then .custom (-nn - 3).toNat
  else .drop

/-- The deposits of a handler. -/
def deposits (E : Env K S) : List (K × Part K) → (ℤ → K) → Option (ℤ → K)
  | [], rhob => some rhob
  | (q, p) :: l, rhob => (accumulateRhob E.g E.r8V q p rhob).bind (deposits E l)

/-- The injector sent to the neighbour, lines 282-309. -/
def sendInjector (E : Env K S) (id : ℕ) (p : Part K) (disp : Fin 3 → K) (face nn : ℤ) : Injector K where
  d := Function.update p.d (axisOf face) (dirOf face)
  i := nn - E.g.range (E.g.bc (portOf face))
  u := p.u
  w := p.w
  disp := disp
  sp_id := id

/-- The body of the loop over the movers up to `backfill`, lines 257-352, for species `id` of charge `q`.  `cap` is the
number of injectors each send buffer has room for, `capCi` that of `ci`. -/
def process (E : Env K S) (cap capCi : ℕ) (id : ℕ) (q : K) (p : Part K) (disp : Fin 3 → K) (L : Load K S) :
    Option (Load K S) :=
  let face := p.i % 8
  let voxel := p.i / 8
  if voxel < 0 ∨ nvox E.g ≤ voxel ∨ 5 < face then none else
    let p := { p with i := voxel }
    let nn := E.g.neighbor (6 * voxel + face)
    match fate E nn with
    | .absorb => (accumulateRhob E.g E.r8V q p L.rhob).map fun rhob => { L with rhob := rhob }
    | .send =>
      if ¬ E.shared face ∨ cap ≤ (L.send face).length then none else
        some { L with send := Function.update L.send face (L.send face ++ [sendInjector E id p disp face nn]) }
    | .custom k =>
      let r := E.interact k L.st id q p disp face
      if capCi < L.ci.length + r.2.2.length then none else
        (deposits E r.2.1 L.rhob).map fun rhob => { L with rhob := rhob, st := r.1, ci := L.ci ++ r.2.2 }
    | .drop => some { L with warn := L.warn + 1 }

/-- A loop over the movers `k-1, …, 0` that handles each particle with `act` and backfills,
/repo/src/boundary/boundary_p.cc:257-372; also /repo/src/vpic/advance.cc:92-99.  `p0[i].i` is set to the decoded voxel
before the particle is handled. -/
def dropMovers {σ : Type*} (act : Part K → (Fin 3 → K) → σ → Option σ) (max_np : ℕ) (pm : ℤ → Mover K) :
    ℕ → (ℤ → Part K) → ℕ → σ → Option ((ℤ → Part K) × ℕ × σ)
  | 0, p, np, s => some (p, np, s)
  | k + 1, p, np, s =>
    let i := (pm k).i
    if i < 0 ∨ (max_np : ℤ) ≤ i ∨ np = 0 then none else
      (act (p i) (pm k).disp s).bind fun s =>
        let p := put p i { p i with i := (p i).i / 8 }
        dropMovers act max_np pm k (put p i (p (np - 1 : ℕ))) (np - 1) s

/-- One species, lines 235-375. -/
def loadSpecies (E : Env K S) (cap capCi : ℕ) (id : ℕ) (sp : Species K) (L : Load K S) :
    Option (Species K × Load K S) :=
  (dropMovers (process E cap capCi id sp.q) sp.max_np sp.pm sp.nm sp.p sp.np L).map fun (p, np, L) =>
    ({ sp with p := p, np := np, nm := 0 }, L)

/-- `LIST_FOR_EACH( sp, sp_list )`: the list starts with the species defined last, whose id is the highest
(/repo/src/species_advance/species_advance.cc:94-108). -/
def ids (nsp : ℕ) : List ℕ := (List.range nsp).reverse

/-- All species, line 233. -/
def loadAll (E : Env K S) (cap capCi : ℕ) : List ℕ → (ℕ → Species K) → Load K S →
    Option ((ℕ → Species K) × Load K S)
  | [], sp, L => some (sp, L)
  | id :: l, sp, L => (loadSpecies E cap capCi id (sp id) L).bind fun (s, L) =>
      loadAll E cap capCi l (Function.update sp id s) L

/-- `sizeof( particle_injector_t )`. -/
def injectorSize : ℕ := 48

/-- A message of `n` injectors has a size that fits an `int`, lines 205-207, 417-425 and 440-444. -/
def fitsMsg (n : ℕ) : Prop := 16 + n * injectorSize < 2 ^ 31

instance (n : ℕ) : Decidable (fitsMsg n) := by unfold fitsMsg; infer_instance

/-- The faces with a neighbour on another rank, in the order of the loops. -/
def Env.sharedFaces (E : Env K S) : List ℤ := [0, 1, 2, 3, 4, 5].filter fun f => E.shared f

/-- `nm`, lines 197-199. -/
def totalMovers (nsp : ℕ) (sp : ℕ → Species K) : ℕ := ((ids nsp).map fun id => (sp id).nm).sum

/-- The first part of `boundary_p`: sizing of the buffers and the loop over the movers, lines 100-378.  With no species
`boundary_p` returns at once (line 83); all ranks have the same species, so there are no messages then, as here. -/
def loadRank (E : Env K S) (R : Rank K S) : Option (Rank K S × Load K S) :=
  if 32 < E.nb then none else
    let nm := totalMovers E.nsp R.sp
    if E.sharedFaces ≠ [] ∧ ¬ fitsMsg nm then none else
      let maxCi := if R.maxCi < nm then nm else R.maxCi
      (loadAll E nm maxCi (ids E.nsp) R.sp ⟨R.rhob, R.st, fun _ => [], [], R.warn⟩).map fun (sp, L) =>
        ({ R with sp := sp, rhob := L.rhob, st := L.st, maxCi := maxCi, warn := L.warn }, L)

/-- `MALLOC_ALIGNED( new, n, 128 ); COPY( new, old, np )`: a new array with the first `np` elements of the old one. -/
def copyTo {α : Type*} (fresh : ℤ → α) (old : ℤ → α) (np : ℕ) : ℤ → α := fun j => if 0 ≤ j ∧ j < np then old j else fresh j

/-- `n += 0.3125 * n` on an `int`: the sum is computed exactly in double precision and truncated. -/
def grow (n : ℕ) : ℕ := n + 5 * n / 16

/-- `n += 0.125 * n; if( n<MIN_NP ) n = MIN_NP`. -/
def shrink (n : ℕ) : ℕ := if n + n / 8 < 128 then 128 else n + n / 8

/-- Resizing of the particle and mover storage of a species, lines 475-549. -/
def resize (E : Env K S) (maxInj : ℕ) (sp : Species K) : Option (Species K) :=
  let n := sp.np + maxInj
  let nm := sp.nm + maxInj
  if 2 ^ 31 ≤ n ∨ 2 ^ 31 ≤ nm ∨ (sp.max_np < n ∧ 2 ^ 31 ≤ grow n) ∨ (sp.max_nm < nm ∧ 2 ^ 31 ≤ grow nm) then none else
    let sp := if sp.max_np < n then { sp with p := copyTo E.freshP sp.p sp.np, max_np := grow n }
      else if 128 < sp.max_np ∧ n < sp.max_np / 2 then
        { sp with p := copyTo E.freshP sp.p sp.np, max_np := shrink n }
      else sp
    some (if sp.max_nm < nm then { sp with pm := copyTo E.freshM sp.pm sp.nm, max_nm := grow nm } else sp)

/-- Injection of one particle, lines 645-710. -/
def injectOne (E : Env K S) (pi : Injector K) (sp : ℕ → Species K) (a : Accum K) :
    Option ((ℕ → Species K) × Accum K) :=
  if E.nsp ≤ pi.sp_id then none else
    let s := sp pi.sp_id
    if s.max_np ≤ s.np ∨ s.max_nm ≤ s.nm then none else
      match moveP E.g s.q E.fuel ⟨⟨pi.d, pi.i, pi.u, pi.w⟩, pi.disp, a⟩ with
      | none => none
      | some (b, m) =>
        some (Function.update sp pi.sp_id { s with
          p := put s.p s.np m.p
          np := s.np + 1
          pm := put s.pm s.nm ⟨m.disp, s.np⟩
          nm := s.nm + if b then 1 else 0 }, m.a)

/-- Injection of a list of particles, in order. -/
def injectAll (E : Env K S) : List (Injector K) → (ℕ → Species K) → Accum K → Option ((ℕ → Species K) × Accum K)
  | [], sp, a => some (sp, a)
  | pi :: l, sp, a => (injectOne E pi sp a).bind fun (sp, a) => injectAll E l sp a

/-- Resizing of all species. -/
def resizeAll (E : Env K S) (maxInj : ℕ) : List ℕ → (ℕ → Species K) → Option (ℕ → Species K)
  | [], sp => some sp
  | id :: l, sp => (resize E maxInj (sp id)).bind fun s => resizeAll E maxInj l (Function.update sp id s)

/-- The second part of `boundary_p`, from the messages `recv` and the local injectors `ci`, lines 392-749: sizing,
resizing, and injection of the local injectors and of what came in through the faces 0, …, 5, each buffer in reverse
order. -/
def injectRank (E : Env K S) (R : Rank K S) (ci : List (Injector K)) (recv : ℤ → List (Injector K)) :
    Option (Rank K S) :=
  if 32 < E.nsp ∨ ∃ f ∈ E.sharedFaces, ¬ fitsMsg (recv f).length then none else
    let maxInj := ci.length + (E.sharedFaces.map fun f => (recv f).length).sum
    (resizeAll E maxInj (ids E.nsp) R.sp).bind fun sp =>
      (injectAll E (ci.reverse ++ E.sharedFaces.flatMap fun f => (recv f).reverse) sp R.a).map fun (sp, a) =>
        { R with sp := sp, a := a }

/-- The opposite face: `f2rb[ face ]` is the port of the opposite face, lines 55-61. -/
def oppFace (face : ℤ) : ℤ := if face < 3 then face + 3 else face - 3

/-- One call of `boundary_p` on all ranks.  Rank `r` receives through `face` what rank `bc[face]` has sent with the tag
`f2rb[face]`, that is through its opposite face (lines 156-164, 399-403 and 421-425). -/
def Round {n : ℕ} (W : Fin n → Env K S) (R R' : Fin n → Rank K S) : Prop :=
  ∃ (M : Fin n → Rank K S) (L : Fin n → Load K S), (∀ r, loadRank (W r) (R r) = some (M r, L r)) ∧
    ∀ r, injectRank (W r) (M r) (L r).ci (fun f => if h : (W r).shared f then
      if h' : ((W r).g.bc (portOf f)).toNat < n then (L ⟨_, h'⟩).send (oppFace f) else [] else []) = some (R' r)

/-- The removal of unfinished particles of a species at the end of a step, /repo/src/vpic/advance.cc:78-101. -/
def finishSpecies (g : LGrid) (r8V : K) (sp : Species K) (rhob : ℤ → K) : Option (Species K × (ℤ → K)) :=
  (dropMovers (fun p _ rhob => accumulateRhob g r8V sp.q { p with i := p.i / 8 } rhob) sp.max_np sp.pm sp.nm sp.p sp.np
    rhob).map fun (p, np, rhob) => ({ sp with p := p, np := np, nm := 0 }, rhob)

end Verif.Boundary
