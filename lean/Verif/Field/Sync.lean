import Verif.Field.WorldProps

/-!
# Synchronisation of shared mesh entities

/repo/src/field_advance/standard/remote.cc:298-624 (`synchronize_tang_e_norm_b`, `synchronize_jf`,
`synchronize_rho`) and /repo/src/sf_interface/hydro_array.cc:131-315 (`synchronize_hydro_array` after its
reduction).  The four functions have the same structure: three passes along x, y, z; in each the two outer
planes are packed and sent, then the two messages are combined with the own values.

Simplification: the ranks go through a pass together.  A rank packs in a pass what it has after its own previous
passes and waits for its messages, so when the ranks actually get there makes no difference to the values.
-/
namespace Verif.Field

open Grid

variable {K : Type*} [Field K]

/-- An array of structures with members `C`. -/
abbrev CMem (C K : Type*) := ℤ × C → K

/-- What a loop over the plane `X = w` visits, in order. -/
abbrev SlotsOf (C : Type*) := LGrid → Fin 3 → ℤ → List (Pos × C)

/-- `X##_FACE_LOOP … cb##X`, `Y##Z##_EDGE_LOOP … e##Y, tca##Y`, `Z##Y##_EDGE_LOOP … e##Z, tca##Z`,
remote.cc:327-337. -/
def slotsTangENormB : SlotsOf FC := fun g X w =>
  (facePlane g X w).map (fun c => (c, .cb X)) ++
  (edgePlane g X (X + 1) w).flatMap (fun c => [(c, .e (X + 1)), (c, .tca (X + 1))]) ++
  (edgePlane g X (X + 2) w).flatMap (fun c => [(c, .e (X + 2)), (c, .tca (X + 2))])

/-- `Y##Z##_EDGE_LOOP … jf##Y`, `Z##Y##_EDGE_LOOP … jf##Z`, remote.cc:445-446. -/
def slotsJf : SlotsOf FC := fun g X w =>
  (edgePlane g X (X + 1) w).map (fun c => (c, .jf (X + 1))) ++
  (edgePlane g X (X + 2) w).map (fun c => (c, .jf (X + 2)))

/-- `X##_NODE_LOOP … rhof, rhob`, remote.cc:561-565. -/
def slotsRho : SlotsOf FC := fun g X w => (nodePlane g X w).flatMap fun c => [(c, .rhof), (c, .rhob)]

/-- `X##_NODE_LOOP … jx, …, txy`: the fourteen members in the order of the structure, hydro_array.cc:213-230. -/
def slotsHydro : SlotsOf (Fin 14) := fun g X w =>
  (nodePlane g X w).flatMap fun c => (List.finRange 14).map fun k => (c, k)

/-- `2*n##Y*(n##Z+1) + 2*n##Z*(n##Y+1) + n##Y*n##Z`, remote.cc:318-319 and 322-323. -/
def sizeTangENormB (g : LGrid) (X : Fin 3) : ℤ :=
  2 * dims g (X + 1) * (dims g (X + 2) + 1) + 2 * dims g (X + 2) * (dims g (X + 1) + 1) +
    dims g (X + 1) * dims g (X + 2)

/-- `n##Y*(n##Z+1) + n##Z*(n##Y+1) + 1`, remote.cc:435-436 and 439-440. -/
def sizeJf (g : LGrid) (X : Fin 3) : ℤ :=
  dims g (X + 1) * (dims g (X + 2) + 1) + dims g (X + 2) * (dims g (X + 1) + 1) + 1

/-- `1 + 2*(n##Y+1)*(n##Z+1)`, remote.cc:553 and 556. -/
def sizeRho (g : LGrid) (X : Fin 3) : ℤ := 1 + 2 * (dims g (X + 1) + 1) * (dims g (X + 2) + 1)

/-- `1 + 14 * (n##Y+1) * (n##Z+1)`, hydro_array.cc:202 and 207. -/
def sizeHydro (g : LGrid) (X : Fin 3) : ℤ := 1 + 14 * (dims g (X + 1) + 1) * (dims g (X + 2) + 1)

/-- What distinguishes the four functions: the loops, whether `g->d##X` is sent first, what becomes of a value
(`upd d r k w1 w2`: own cell size, remote cell size, member, received value, own value) and what is added to the
error (`err k w1 w2`). -/
structure SyncOp (C K : Type*) where
  slots : SlotsOf C
  hdr : Bool
  upd : K → K → C → K → K → K
  err : C → K → K → K

/-- `synchronize_tang_e_norm_b`: the mean of both values; the error is measured for cb and e but not for tca,
remote.cc:342-374. -/
def opTangENormB : SyncOp FC K where
  slots := slotsTangENormB
  hdr := false
  upd := fun _ _ _ w1 w2 => 1 / 2 * (w1 + w2)
  err := fun k w1 w2 => match k with
    | .cb _ => (w1 - w2) * (w1 - w2)
    | .e _ => (w1 - w2) * (w1 - w2)
    | _ => 0

/-- `lw*f->jf##Y + rw*(*(p++))`, remote.cc:451-470: `lw` and `rw` are twice the fractions of the cell sizes. -/
def twiceWeighted (d r w1 w2 : K) : K :=
  (d / (r + d) + d / (r + d)) * w2 + (r / (r + d) + r / (r + d)) * w1

/-- `synchronize_jf`, remote.cc:451-470. -/
def opJf : SyncOp FC K where
  slots := slotsJf
  hdr := true
  upd := fun d r _ w1 w2 => twiceWeighted d r w1 w2
  err := fun _ _ _ => 0

/-- `synchronize_rho`, remote.cc:570-586: `rhof` as above, `rhob = hlw*rhob + hrw*(*(p++))`. -/
def opRho : SyncOp FC K where
  slots := slotsRho
  hdr := true
  upd := fun d r k w1 w2 => match k with
    | .rhob => d / (r + d) * w2 + r / (r + d) * w1
    | _ => twiceWeighted d r w1 w2
  err := fun _ _ _ => 0

/-- `synchronize_hydro_array`, hydro_array.cc:235-267. -/
def opHydro : SyncOp (Fin 14) K where
  slots := slotsHydro
  hdr := true
  upd := fun d r _ w1 w2 => twiceWeighted d r w1 w2
  err := fun _ _ _ => 0

variable {C : Type*} [DecidableEq C]

/-- The plane sent: `face = (i+j+k)<0 ? 1 : n##X+1`, remote.cc:326. -/
def syncSend (g : LGrid) (s : Fin 3 × Bool) : ℤ := if s.2 then 1 else dims g s.1 + 1

/-- The plane combined: `face = (i+j+k)<0 ? n##X+1 : 1`, remote.cc:345. -/
def syncFill (g : LGrid) (s : Fin 3 × Bool) : ℤ := if s.2 then dims g s.1 + 1 else 1

/-- `BEGIN_SEND`, remote.cc:321-340. -/
def packSync (E : Env K) (S : SyncOp C K) (s : Fin 3 × Bool) (m : CMem C K) : List K :=
  (if S.hdr then [E.d s.1] else []) ++
    (S.slots E.g s.1 (syncSend E.g s)).map fun q => m (vox E.g q.1, q.2)

/-- The loops of `END_RECV` over the positions and received values; the state is the array and `err`. -/
def combine (E : Env K) (S : SyncOp C K) (X : Fin 3) (r : K) (l : List ((Pos × C) × K))
    (st : CMem C K × K) : CMem C K × K :=
  l.foldl (fun st qv =>
    let a := (vox E.g qv.1.1, qv.1.2)
    (Function.update st.1 a (S.upd (E.d X) r qv.1.2 qv.2 (st.1 a)), st.2 + S.err qv.1.2 qv.2 (st.1 a))) st

/-- `END_RECV` of the message sent in direction `s`, remote.cc:342-374; `none` when the loops would read past the
end of the message.  Without a header the remote cell size is not used. -/
def unpackSync (E : Env K) (S : SyncOp C K) (s : Fin 3 × Bool) (msg : Option (List K))
    (st : CMem C K × K) : Option (CMem C K × K) :=
  match msg with
  | none => some st
  | some l =>
    let slots := S.slots E.g s.1 (syncFill E.g s)
    if S.hdr then
      match l with
      | [] => none
      | r :: vals => if vals.length < slots.length then none else some (combine E S s.1 r (slots.zip vals) st)
    else if l.length < slots.length then none else some (combine E S s.1 (E.d s.1) (slots.zip l) st)

/-- One pass on all ranks: `BEGIN_SEND` of both sides, then `END_RECV` of the message travelling in the negative
direction and of the one travelling in the positive direction, remote.cc:378-386. -/
def SyncPass {n : ℕ} (W : World K n) (S : SyncOp C K) (X : Fin 3) (st st' : Fin n → CMem C K × K) : Prop :=
  ∀ r, (unpackSync (W r) S (X, true) (W.recv (fun r' s => packSync (W r') S s (st r').1) r (X, true)) (st r)).bind
    (unpackSync (W r) S (X, false) (W.recv (fun r' s => packSync (W r') S s (st r').1) r (X, false))) = some (st' r)

/-- The three passes. -/
def SyncPasses {n : ℕ} (W : World K n) (S : SyncOp C K) (st st' : Fin n → CMem C K × K) : Prop :=
  ∃ s1 s2, SyncPass W S 0 st s1 ∧ SyncPass W S 1 s1 s2 ∧ SyncPass W S 2 s2 st'

/-- `synchronize_tang_e_norm_b`, remote.cc:298-415, returning the sum of all ranks' errors. -/
def SynchronizeTangENormB {n : ℕ} (W : World K n) (m m' : Fin n → FMem K) (gerr : K) : Prop :=
  ∃ ae ab : Fin n → List (Step K), (∀ r, localAdjustTangE (W r) = some (ae r) ∧ localAdjustNormB (W r) = some (ab r)) ∧
    ∃ st', SyncPasses W opTangENormB (fun r => (runSeq (ab r) (runSeq (ae r) (m r)), 0)) st' ∧
      (∀ r, m' r = (st' r).1) ∧ gerr = ∑ r, (st' r).2

/-- `synchronize_jf`, remote.cc:417-508. -/
def SynchronizeJf {n : ℕ} (W : World K n) (m m' : Fin n → FMem K) : Prop :=
  ∃ adj : Fin n → List (Step K), (∀ r, localAdjustJf (W r) = some (adj r)) ∧
    ∃ st', SyncPasses W opJf (fun r => (runSeq (adj r) (m r), 0)) st' ∧ ∀ r, m' r = (st' r).1

/-- `synchronize_rho`, remote.cc:534-624. -/
def SynchronizeRho {n : ℕ} (W : World K n) (m m' : Fin n → FMem K) : Prop :=
  ∃ af ab : Fin n → List (Step K), (∀ r, localAdjustRhof (W r) = some (af r) ∧ localAdjustRhob (W r) = some (ab r)) ∧
    ∃ st', SyncPasses W opRho (fun r => (runSeq (ab r) (runSeq (af r) (m r)), 0)) st' ∧ ∀ r, m' r = (st' r).1

/-- `ADJUST_HYDRO` on the six sides: every member on a side that is not shared with a rank is doubled,
hydro_array.cc:164-197. -/
def adjustHydro (E : Env K) (m : CMem (Fin 14) K) : CMem (Fin 14) K :=
  sides.foldl (fun m s =>
    if sideBC E.g s < 0 ∨ E.ws ≤ sideBC E.g s then
      (nodePlane E.g s.1 (wallOf E.g s)).foldl (fun m c x => if x.1 = vox E.g c then m x * 2 else m x) m
    else m) m

/-- `synchronize_hydro_array` after `reduce_hydro_array`, hydro_array.cc:150-315. -/
def SynchronizeHydro {n : ℕ} (W : World K n) (m m' : Fin n → CMem (Fin 14) K) : Prop :=
  ∃ st', SyncPasses W opHydro (fun r => (adjustHydro (W r) (m r), 0)) st' ∧ ∀ r, m' r = (st' r).1

end Verif.Field
