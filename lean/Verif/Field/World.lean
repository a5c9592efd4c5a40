import Verif.Field.Divergence

/-!
# The ranks of a run and their ghost exchange (C32)

All ranks of a run at one exchange: what arrives at a rank is what its neighbour packed.  The delivery rule is
MPI's: a receive posted for source `r'` and tag `t` gets the message `r'` sent to this rank with tag `t`; the tag
is the direction, so at most one message per direction and pair of ranks is on its way.
-/
namespace Verif.Field

open Grid

variable {K : Type*} [Field K]

/-- The opposite side. -/
def opp (s : Fin 3 × Bool) : Fin 3 × Bool := (s.1, !s.2)

@[simp] lemma opp_opp (s : Fin 3 × Bool) : opp (opp s) = s := by simp [opp]

/-- The ranks of a run: one environment each. -/
abbrev World (K : Type*) (n : ℕ) := Fin n → Env K

/-- The rank from which rank `r` receives in the direction `s`: `src = g->bc[BOUNDARY(-i,-j,-k)]` if it is a
rank, /repo/src/grid/grid_comm.cc:20-21 and 29-30. -/
def World.src {n : ℕ} (W : World K n) (r : Fin n) (s : Fin 3 × Bool) : Option (Fin n) :=
  let b := sideBC (W r).g (opp s)
  if h : 0 ≤ b ∧ b < n then some ⟨b.toNat, by omega⟩ else none

/-- The rank to which rank `r` sends in the direction `s`: `dst = g->bc[BOUNDARY(i,j,k)]` if it is a rank,
/repo/src/grid/grid_comm.cc:39-40 and 49-50. -/
def World.dst {n : ℕ} (W : World K n) (r : Fin n) (s : Fin 3 × Bool) : Option (Fin n) :=
  let b := sideBC (W r).g s
  if h : 0 ≤ b ∧ b < n then some ⟨b.toNat, by omega⟩ else none

/-- The ranks fit together: what `partition_periodic_box`, `partition_absorbing_box` and
`partition_metal_box` set up (`periodic_world_linked`, `walled_world_linked`). -/
structure World.Linked {n : ℕ} (W : World K n) : Prop where
  ws : ∀ r, (W r).ws = n
  mesh : ∀ r, Mesh (W r).g
  dims : ∀ r r', dims (W r).g = dims (W r').g
  d : ∀ r r', (W r).d = (W r').d
  d0 : ∀ r a, (W r).d a + (W r).d a ≠ 0
  link : ∀ r r' s, W.dst r s = some r' ↔ W.src r' s = some r

/-- What `end_recv_port` returns on rank `r` for the direction `s` when every rank has packed its messages from
the memories `mem`. -/
def World.recv {n : ℕ} (W : World K n) (pack : Fin n → Fin 3 × Bool → List K) (r : Fin n)
    (s : Fin 3 × Bool) : Option (List K) :=
  (W.src r s).map fun r' => pack r' s

/-- The messages of a ghost exchange. -/
def World.ghostMail {n : ℕ} (W : World K n) (slots : Slots) (mem : Fin n → FMem K) (r : Fin n) :
    Fin 3 × Bool → Option (List K) :=
  W.recv (fun r' s => packGhost (W r') slots s (mem r')) r

/-- The plane a ghost exchange sends: `face = (i+j+k)<0 ? 1 : n##X`, remote.cc:77. -/
def sendPlane (g : LGrid) (s : Fin 3 × Bool) : ℤ := if s.2 then 1 else dims g s.1

/-! ### The loops -/

/-- What is needed of the loops of an exchange. -/
structure SlotsOK (g : LGrid) (slots : Slots) : Prop extends PlaneSlots g slots where
  shift : ∀ X w w', slots g X w = (slots g X w').map fun q => (Function.update q.1 X w, q.2)
  nodup : ∀ X w, (slots g X w).Nodup
  cross : ∀ s s' q, q ∈ slots g s.1 (fillPlane g s) → q ∈ slots g s'.1 (fillPlane g s') → s = s'

lemma dims_eq {g g' : LGrid} (h : dims g = dims g') : g.nx = g'.nx ∧ g.ny = g'.ny ∧ g.nz = g'.nz :=
  ⟨congrFun h 0, congrFun h 1, congrFun h 2⟩

lemma vox_dims {g g' : LGrid} (h : dims g = dims g') : vox g = vox g' := by
  obtain ⟨h1, h2, h3⟩ := dims_eq h
  funext c
  simp only [vox, h1, h2, h3]

lemma fromTo_self (w : ℤ) : fromTo w w = [w] := by
  simp [fromTo]

/-- The planes of a box are visited in the same order. -/
lemma box_shift (X : Fin 3) (lo hi : Pos) (w w' : ℤ) :
    box (Function.update lo X w) (Function.update hi X w) =
      (box (Function.update lo X w') (Function.update hi X w')).map fun c => Function.update c X w := by
  have hv : ∀ (x y z : ℤ), Function.update (![x, y, z] : Pos) 0 w = ![w, y, z] ∧
      Function.update (![x, y, z] : Pos) 1 w = ![x, w, z] ∧
      Function.update (![x, y, z] : Pos) 2 w = ![x, y, w] := by
    intro x y z
    refine ⟨?_, ?_, ?_⟩ <;> apply pos_ext <;> simp [Function.update]
  fin_cases X <;> simp [box, cellsOf, fromTo_self, Function.update, List.map_flatMap, Function.comp_def, hv] <;>
    simp [← Function.update_apply]

lemma fromTo_length (a b : ℤ) : (fromTo a b).length = (b - a + 1).toNat := by simp [fromTo]

lemma box_length (lo hi : Pos) : (box lo hi).length =
    (hi 0 - lo 0 + 1).toNat * (hi 1 - lo 1 + 1).toNat * (hi 2 - lo 2 + 1).toNat := by
  simp only [box, cellsOf, List.length_map, List.length_flatMap, fromTo_length]
  simp only [List.map_const', List.sum_replicate, smul_eq_mul, fromTo_length]
  ring

lemma edgePlane_shift (g : LGrid) (X o : Fin 3) (w w' : ℤ) :
    edgePlane g X o w = (edgePlane g X o w').map fun c => Function.update c X w := by
  have h := box_shift X (fun _ => 1) (fun b => if b = o then dims g b else dims g b + 1) w w'
  have e1 : ∀ w : ℤ, (fun b => if b = X then w else 1) = Function.update (fun _ : Fin 3 => (1 : ℤ)) X w := by
    intro w; funext b; rw [Function.update_apply]
  have e2 : ∀ w : ℤ, (fun b => if b = X then w else if b = o then dims g b else dims g b + 1) =
      Function.update (fun b => if b = o then dims g b else dims g b + 1) X w := by
    intro w; funext b; rw [Function.update_apply]
  simp only [edgePlane, e1, e2, h]

lemma nodePlane_shift (g : LGrid) (X : Fin 3) (w w' : ℤ) :
    nodePlane g X w = (nodePlane g X w').map fun c => Function.update c X w := by
  have h := box_shift X (fun _ => 1) (fun b => dims g b + 1) w w'
  have e1 : ∀ w : ℤ, (fun b => if b = X then w else 1) = Function.update (fun _ : Fin 3 => (1 : ℤ)) X w := by
    intro w; funext b; rw [Function.update_apply]
  have e2 : ∀ w : ℤ, (fun b => if b = X then w else dims g b + 1) =
      Function.update (fun b => dims g b + 1) X w := by
    intro w; funext b; rw [Function.update_apply]
  simp only [nodePlane, e1, e2, h]

lemma facePlane_shift (g : LGrid) (X : Fin 3) (w w' : ℤ) :
    facePlane g X w = (facePlane g X w').map fun c => Function.update c X w := by
  have h := box_shift X (fun _ => 1) (fun b => dims g b) w w'
  have e1 : ∀ w : ℤ, (fun b => if b = X then w else 1) = Function.update (fun _ : Fin 3 => (1 : ℤ)) X w := by
    intro w; funext b; rw [Function.update_apply]
  have e2 : ∀ w : ℤ, (fun b => if b = X then w else dims g b) =
      Function.update (fun b => dims g b) X w := by
    intro w; funext b; rw [Function.update_apply]
  simp only [facePlane, e1, e2, h]

lemma fill_cases (g : LGrid) (s : Fin 3 × Bool) :
    (s.2 = true ∧ fillPlane g s = dims g s.1 + 1) ∨ (s.2 = false ∧ fillPlane g s = 0) := by
  unfold fillPlane
  cases s.2 <;> simp

lemma fill_ne {g : LGrid} (hg : Mesh g) {s s' : Fin 3 × Bool} (h : s.1 = s'.1)
    (h' : fillPlane g s = fillPlane g s') : s = s' := by
  have hp := hg.pos s.1
  have hp' := hg.pos s'.1
  rcases fill_cases g s with ⟨a, b⟩ | ⟨a, b⟩ <;> rcases fill_cases g s' with ⟨a', b'⟩ | ⟨a', b'⟩
  · exact Prod.ext h (a.trans a'.symm)
  · omega
  · omega
  · exact Prod.ext h (a.trans a'.symm)

lemma slotsTangB_ok {g : LGrid} (hg : Mesh g) : SlotsOK g slotsTangB where
  toPlaneSlots := slotsTangB_plane g
  shift := by
    intro X w w'
    simp only [slotsTangB, List.map_append, List.map_map, Function.comp_def]
    rw [edgePlane_shift g X (X + 2) w w', edgePlane_shift g X (X + 1) w w']
    simp [List.map_map, Function.comp_def]
  nodup := by
    intro X w
    obtain ⟨n1, n2, n3⟩ := add_one_ne X
    rw [slotsTangB, List.nodup_append]
    refine ⟨(box_nodup _ _).map fun a b h => (Prod.mk.inj h).1, (box_nodup _ _).map fun a b h => (Prod.mk.inj h).1, ?_⟩
    intro a ha b hb e
    simp only [List.mem_map] at ha hb
    obtain ⟨c, -, rfl⟩ := ha
    obtain ⟨d, -, rfl⟩ := hb
    simp only [Prod.mk.injEq, FC.cb.injEq] at e
    revert e
    omega
  cross := by
    rintro s s' q hq hq'
    have h1 := (slotsTangB_plane g).plane _ _ q hq
    have h1' := (slotsTangB_plane g).plane _ _ q hq'
    by_cases hs : s.1 = s'.1
    · exact fill_ne hg hs (by rw [← h1, ← h1', hs])
    · exfalso
      simp only [slotsTangB, List.mem_append, List.mem_map, mem_edgePlane] at hq hq'
      have hp := hg.pos s.1
      have : ∀ o o' : Fin 3, ∀ b : Fin 3, (∃ c, (∀ x, (if x = s.1 then fillPlane g s else 1) ≤ c x ∧
          c x ≤ if x = s.1 then fillPlane g s else if x = o then dims g x else dims g x + 1) ∧
          (c, FC.cb b) = q) → b ≠ s.1 → ∀ b', (∃ c, (∀ x, (if x = s'.1 then fillPlane g s' else 1) ≤ c x ∧
          c x ≤ if x = s'.1 then fillPlane g s' else if x = o' then dims g x else dims g x + 1) ∧
          (c, FC.cb b') = q) → b' ≠ o' → b' ≠ s'.1 → o' ≠ s'.1 → False := by
        rintro o o' b ⟨c, -, rfl⟩ hb b' ⟨c', h, e⟩ k1 k2 k3
        simp only [Prod.mk.injEq, FC.cb.injEq] at e
        obtain ⟨rfl, rfl⟩ := e
        have h3 := h s.1
        have ho : s.1 = o' := by omega
        rw [if_neg hs, if_neg hs, if_pos ho] at h3
        have : c' s.1 = fillPlane g s := h1
        rcases fill_cases g s with ⟨a, b⟩ | ⟨a, b⟩ <;> omega
      obtain ⟨n1, n2, n3⟩ := add_one_ne s.1
      obtain ⟨n1', n2', n3'⟩ := add_one_ne s'.1
      rcases hq with h | h <;> rcases hq' with h' | h' <;>
        exact this _ _ _ h (by omega) _ h' (by omega) (by omega) (by omega)

lemma slotsNormE_ok {g : LGrid} (hg : Mesh g) : SlotsOK g slotsNormE where
  toPlaneSlots := slotsNormE_plane g
  shift := by
    intro X w w'
    simp only [slotsNormE, List.map_map, Function.comp_def]
    rw [nodePlane_shift g X w w']
    simp [List.map_map, Function.comp_def]
  nodup := fun X w => (box_nodup _ _).map fun a b h => (Prod.mk.inj h).1
  cross := by
    rintro s s' q hq hq'
    have h1 := (slotsNormE_plane g).plane _ _ q hq
    have h1' := (slotsNormE_plane g).plane _ _ q hq'
    simp only [slotsNormE, List.mem_map] at hq hq'
    obtain ⟨c, -, rfl⟩ := hq
    obtain ⟨c', -, e⟩ := hq'
    simp only [Prod.mk.injEq, FC.e.injEq] at e
    exact fill_ne hg e.2.symm (by rw [← h1, ← h1', e.2])

lemma slotsDivB_ok {g : LGrid} (hg : Mesh g) : SlotsOK g slotsDivB where
  toPlaneSlots := slotsDivB_plane g
  shift := by
    intro X w w'
    simp only [slotsDivB, List.map_map, Function.comp_def]
    rw [facePlane_shift g X w w']
    simp [List.map_map, Function.comp_def]
  nodup := fun X w => (box_nodup _ _).map fun a b h => (Prod.mk.inj h).1
  cross := by
    rintro s s' q hq hq'
    have h1 := (slotsDivB_plane g).plane _ _ q hq
    have h1' := (slotsDivB_plane g).plane _ _ q hq'
    by_cases hs : s.1 = s'.1
    · exact fill_ne hg hs (by rw [← h1, ← h1', hs])
    · exfalso
      simp only [slotsDivB, List.mem_map, mem_facePlane] at hq'
      obtain ⟨c, h, rfl⟩ := hq'
      have h3 := h s.1
      rw [if_neg hs, if_neg hs] at h3
      have hp := hg.pos s.1
      have h1 : c s.1 = fillPlane g s := h1
      rcases fill_cases g s with ⟨a, b⟩ | ⟨a, b⟩ <;> omega

/-! ### Messages -/

/-- The messages of a ghost exchange have the size both sides announce, remote.cc:61 and 73, 139 and 150,
212 and 223. -/
theorem message_sizes {E : Env K} (hg : Mesh E.g) (s : Fin 3 × Bool) (m : FMem K) :
    ((packGhost E slotsTangB s m).length : ℤ) = sizeTangB E.g s.1 ∧
    ((packGhost E slotsNormE s m).length : ℤ) = sizeNormE E.g s.1 ∧
    ((packGhost E slotsDivB s m).length : ℤ) = sizeDivB E.g s.1 := by
  have hp := hg.pos
  simp only [forall_axis] at hp
  obtain ⟨p0, p1, p2⟩ := hp
  obtain ⟨X, b⟩ := s
  have t0 : ∀ w : ℤ, (w - w + 1).toNat = 1 := by intro w; omega
  have t1 : ∀ w : ℤ, (w - 1 + 1).toNat = w.toNat := by intro w; omega
  have t2 : ∀ w : ℤ, (w + 1 - 1 + 1).toNat = w.toNat + 1 ∨ w < 0 := by intro w; omega
  have q0 := (t2 (dims E.g 0)).resolve_right (by omega)
  have q1 := (t2 (dims E.g 1)).resolve_right (by omega)
  have q2 := (t2 (dims E.g 2)).resolve_right (by omega)
  simp only [packGhost, slotsTangB, slotsNormE, slotsDivB, sizeTangB, sizeNormE, sizeDivB, List.length_cons,
    List.length_map, List.length_append, edgePlane, nodePlane, facePlane, box_length]
  obtain ⟨n0, h0⟩ : ∃ n : ℕ, dims E.g 0 = n := ⟨_, (Int.toNat_of_nonneg (by omega)).symm⟩
  obtain ⟨n1, h1⟩ : ∃ n : ℕ, dims E.g 1 = n := ⟨_, (Int.toNat_of_nonneg (by omega)).symm⟩
  obtain ⟨n2, h2⟩ : ∃ n : ℕ, dims E.g 2 = n := ⟨_, (Int.toNat_of_nonneg (by omega)).symm⟩
  rw [h0] at q0
  rw [h1] at q1
  rw [h2] at q2
  fin_cases X <;> simp [h0, h1, h2] <;> (refine ⟨?_, ?_, ?_⟩ <;> ring)

/-- The steps of an exchange, when what arrives was packed from values `h s`. -/
lemma endRemote_eq {E : Env K} {slots : Slots} (hs : SlotsOK E.g slots) (hd : ∀ a, E.d a + E.d a ≠ 0)
    (H : Fin 3 × Bool → Option (Pos × FC → K)) (recv : Fin 3 × Bool → Option (List K))
    (hr : ∀ s, recv s = (H s).map fun h => E.d s.1 :: (slots E.g s.1 (sendPlane E.g s)).map h) :
    endRemote E slots recv = some ((sides.flatMap fun s => (H s).elim [] fun h =>
      (slots E.g s.1 (fillPlane E.g s)).map fun q =>
        ((vox E.g q.1, q.2), fun _ : FMem K => h (Function.update q.1 s.1 (sendPlane E.g s), q.2))).map
          fun w => setAt w.1 w.2) := by
  have one : ∀ s, recvSide E slots recv s = some (((H s).elim [] fun h =>
      (slots E.g s.1 (fillPlane E.g s)).map fun q =>
        ((vox E.g q.1, q.2), fun _ : FMem K => h (Function.update q.1 s.1 (sendPlane E.g s), q.2))).map
          fun w => setAt w.1 w.2) := by
    intro s
    unfold recvSide
    rw [hr s]
    cases H s with
    | none => rfl
    | some h =>
      simp only [Option.map_some, unpackGhost, Option.elim]
      have e := hs.shift s.1 (sendPlane E.g s) (fillPlane E.g s)
      rw [e]
      simp only [List.length_map, lt_irrefl, if_false, List.map_map, Option.some.injEq, Function.comp_def]
      rw [List.zipWith_map_right, List.zipWith_self]
      refine List.map_congr_left fun q _ => ?_
      congr 1
      funext m
      have h2 : 2 * E.d s.1 / (E.d s.1 + E.d s.1) = 1 := by
        rw [two_mul, div_self (hd s.1)]
      rw [h2, sub_self, zero_div, zero_mul, add_zero, one_mul]
  unfold endRemote
  generalize sides = S
  have : S.mapM (recvSide E slots recv) = some (S.map fun s => ((H s).elim [] fun h =>
      (slots E.g s.1 (fillPlane E.g s)).map fun q =>
        ((vox E.g q.1, q.2), fun _ : FMem K => h (Function.update q.1 s.1 (sendPlane E.g s), q.2))).map
          fun w => setAt w.1 w.2) := by
    induction S with
    | nil => rfl
    | cons s S ih =>
      rw [List.mapM_cons, one s, ih]
      rfl
  rw [this]
  simp [List.flatMap, List.map_flatten, List.map_map, Function.comp_def]

/-- The ghosts after an exchange. -/
lemma exchange_result {E : Env K} (hg : Mesh E.g) {slots : Slots} (hs : SlotsOK E.g slots)
    (hd : ∀ a, E.d a + E.d a ≠ 0)
    (H : Fin 3 × Bool → Option (Pos × FC → K)) (recv : Fin 3 × Bool → Option (List K))
    (hr : ∀ s, recv s = (H s).map fun h => E.d s.1 :: (slots E.g s.1 (sendPlane E.g s)).map h) :
    ∃ rs, endRemote E slots recv = some rs ∧ ∀ m,
      (∀ s h, H s = some h → ∀ q ∈ slots E.g s.1 (fillPlane E.g s),
        runSeq rs m (vox E.g q.1, q.2) = h (Function.update q.1 s.1 (sendPlane E.g s), q.2)) ∧
      ∀ x, (∀ s h, H s = some h → ∀ q ∈ slots E.g s.1 (fillPlane E.g s), x ≠ (vox E.g q.1, q.2)) →
        runSeq rs m x = m x := by
  have hin : ∀ s, ∀ q ∈ slots E.g s.1 (fillPlane E.g s), InArray E.g q.1 := by
    intro s q hq
    have hp := hg.pos s.1
    exact hs.inArr s.1 _ (by unfold fillPlane; split <;> omega) (by unfold fillPlane; split <;> omega) q hq
  refine ⟨_, endRemote_eq hs hd H recv hr, fun m => ?_⟩
  generalize hL : (sides.flatMap fun s => (H s).elim [] fun h =>
      (slots E.g s.1 (fillPlane E.g s)).map fun q =>
        ((vox E.g q.1, q.2), fun _ : FMem K => h (Function.update q.1 s.1 (sendPlane E.g s), q.2))) = L
  have hmem : ∀ w, w ∈ L ↔ ∃ s h, H s = some h ∧ ∃ q ∈ slots E.g s.1 (fillPlane E.g s),
      ((vox E.g q.1, q.2), fun _ : FMem K => h (Function.update q.1 s.1 (sendPlane E.g s), q.2)) = w := by
    intro w
    rw [← hL]
    simp only [List.mem_flatMap, mem_sides, true_and]
    refine exists_congr fun s => ?_
    cases H s <;> simp
  have hn : (L.map Prod.fst).Nodup := by
    rw [← hL, List.map_flatMap, List.nodup_flatMap]
    constructor
    · intro s _
      cases H s with
      | none => simp
      | some h =>
        simp only [Option.elim, List.map_map, Function.comp_def]
        refine List.Nodup.map_on ?_ (hs.nodup _ _)
        intro q hq q' hq' e
        simp only [Prod.mk.injEq] at e
        exact Prod.ext (vox_inj (hin s q hq) (hin s q' hq') e.1) e.2
    · refine List.Pairwise.imp_of_mem ?_ sides_nodup
      intro s s' _ _ hne x hx hx'
      cases h1 : H s with
      | none => simp [h1] at hx
      | some h =>
        cases h2 : H s' with
        | none => simp [h2] at hx'
        | some h' =>
          simp only [h1, h2, Option.elim, List.map_map, Function.comp_def, List.mem_map] at hx hx'
          obtain ⟨q, hq, rfl⟩ := hx
          obtain ⟨q', hq', e⟩ := hx'
          simp only [Prod.mk.injEq] at e
          have : q' = q := Prod.ext (vox_inj (hin s' q' hq') (hin s q hq) e.1) e.2
          subst this
          exact hne (hs.cross s s' q' hq hq')
  obtain ⟨h1, h2⟩ := runSeq_writes L hn m
  constructor
  · intro s h hH q hq
    exact h1 _ ((hmem _).mpr ⟨s, h, hH, q, hq, rfl⟩) (fun _ => False) (fun _ _ _ => rfl) (fun _ _ _ h => h)
  · intro x hx
    refine h2 x fun w hw => ?_
    obtain ⟨s, h, hH, q, hq, rfl⟩ := (hmem w).mp hw
    exact hx s h hH q hq

/-- The loops depend only on the size of the mesh. -/
structure SlotsDims (slots : Slots) : Prop where
  eq : ∀ g g', dims g = dims g' → slots g = slots g'

lemma slots_dims : SlotsDims slotsTangB ∧ SlotsDims slotsNormE ∧ SlotsDims slotsDivB := by
  refine ⟨⟨?_⟩, ⟨?_⟩, ⟨?_⟩⟩ <;> intro g g' h <;> funext X w <;>
    simp only [slotsTangB, slotsNormE, slotsDivB, edgePlane, nodePlane, facePlane, h]

/-- **C32, ghost exchange.**  On linked ranks every receive gets a message (the exchange cannot read past the end
of one), and afterwards every ghost at a side with a neighbouring rank holds the value the neighbour has at that
place: the neighbour's coordinate along the side's axis is the first or last of its mesh, the others are the
same.  Nothing else changes. -/
theorem ghost_exchange {n : ℕ} {W : World K n} (hW : W.Linked) {slots : Slots}
    (hs : ∀ g, Mesh g → SlotsOK g slots) (hsd : SlotsDims slots) (mem : Fin n → FMem K) (r : Fin n) :
    ∃ rs, endRemote (W r) slots (W.ghostMail slots mem r) = some rs ∧ ∀ m : FMem K,
      (∀ s r', W.src r s = some r' → ∀ q ∈ slots (W r).g s.1 (fillPlane (W r).g s),
        runSeq rs m (vox (W r).g q.1, q.2) =
          mem r' (vox (W r').g (Function.update q.1 s.1 (sendPlane (W r').g s)), q.2)) ∧
      ∀ x, (∀ s r', W.src r s = some r' → ∀ q ∈ slots (W r).g s.1 (fillPlane (W r).g s),
        x ≠ (vox (W r).g q.1, q.2)) → runSeq rs m x = m x := by
  have hdm := hW.dims
  obtain ⟨rs, h1, h2⟩ := exchange_result (hW.mesh r) (hs _ (hW.mesh r)) (hW.d0 r)
    (fun s => (W.src r s).map fun r' q => mem r' (vox (W r').g q.1, q.2)) (W.ghostMail slots mem r) (by
      intro s
      simp only [World.ghostMail, World.recv, Option.map_map, Function.comp_def]
      congr 1
      funext r'
      simp only [packGhost, sendPlane, hsd.eq _ _ (hdm r' r), hW.d r' r, hdm r' r])
  refine ⟨rs, h1, fun m => ⟨?_, ?_⟩⟩
  · intro s r' hr q hq
    rw [(h2 m).1 s _ (by rw [hr]; rfl) q hq]
    simp only [sendPlane, hdm r' r]
  · intro x hx
    refine (h2 m).2 x fun s h hH q hq => ?_
    cases hsrc : W.src r s with
    | none => rw [hsrc] at hH; simp at hH
    | some r' => exact hx s r' hsrc q hq

end Verif.Field
