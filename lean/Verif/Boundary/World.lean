import Verif.Boundary.Inject
import Mathlib.Algebra.Order.Archimedean.Basic

/-!
# The exchange between ranks: specification and lemmas
-/
namespace Verif.Boundary

open Grid (LGrid Cell VOXEL portOf)
open MoveP (Part Mover Accum MState moveP nvox LocalMesh voxel_range loop pass Moved Covers move_p_trajectory faceOf sgn
  wrappedVoxel wrappedCell localMesh_covers wrappedVoxel_self wrappedCell_interior faceOf_range)
open Distribute (upTo)
open AdvanceP (moverList)

section
variable {K : Type} {S : Type*} [Field K] [LinearOrder K] [IsStrictOrderedRing K]

/-! ### Specification -/

/-- Spec: the ranks form one domain: they agree on the number of ranks, the species and the ranges of voxel ids; a
neighbour entry that is the id of a voxel of another rank is that of an interior voxel of the rank the face is joined to;
and faces are joined in pairs. -/
structure Joined {n : ℕ} (W : Fin n → Env K S) : Prop where
  ws : ∀ r, (W r).ws = n
  rank : ∀ r, (W r).rank = r
  nsp : ∀ r s, (W r).nsp = (W s).nsp
  mesh : ∀ r, LocalMesh (W r).g
  range : ∀ r s : Fin n, (W r).g.range (s : ℕ) = (W s).g.rangel
  total : ∀ r : Fin n, (W r).g.rangeh ≤ (W r).g.range n
  order : ∀ r s, r < s → (W r).g.rangeh < (W s).g.rangel
  pairs : ∀ r f, 0 ≤ f → f < 6 → (W r).shared f → ∀ s : Fin n, (W r).g.bc (portOf f) = (s : ℕ) →
    (W s).g.bc (portOf (oppFace f)) = (r : ℕ)
  land : ∀ r, ∀ c : Cell, c.Interior (W r).g.nx (W r).g.ny (W r).g.nz → ∀ f : ℤ, 0 ≤ f → f < 6 → ∀ nn,
    (W r).g.neighbor (6 * VOXEL (W r).g.nx (W r).g.ny c.x c.y c.z + f) = nn → 0 ≤ nn → nn ≤ (W r).g.range n →
    nn < (W r).g.rangel ∨ (W r).g.rangeh < nn →
    (W r).shared f ∧ ∃ (s : Fin n) (c' : Cell), (W r).g.bc (portOf f) = (s : ℕ) ∧
      c'.Interior (W s).g.nx (W s).g.ny (W s).g.nz ∧
      nn = (W s).g.rangel + VOXEL (W s).g.nx (W s).g.ny c'.x c'.y c'.z

/-- Spec: the state of a species before boundary processing: the mover list is strictly increasing and names particles
stopped at a face. -/
structure ReadySp (g : LGrid) (s : Species K) : Prop where
  np : s.np ≤ s.max_np
  nm : s.nm ≤ s.max_nm
  ordered : Ordered s.np (moverList s.pm s.nm)
  stopped : ∀ m ∈ moverList s.pm s.nm, ∃ c f, AtFace g (s.p m.i) c f

@[inherit_doc ReadySp] def Ready (E : Env K S) (R : Rank K S) : Prop := ∀ id < E.nsp, ReadySp E.g (R.sp id)

/-- Spec: all particles waiting at faces of a rank, in processing order. -/
def waiting (E : Env K S) (R : Rank K S) : List (Hit K) := hits R.sp (ids E.nsp)

/-- Spec: a particle waiting on rank `s` has to go to rank `r`: behind its face is a voxel of rank `r`. -/
def goesTo {n : ℕ} (W : Fin n → Env K S) (s r : Fin n) (h : Hit K) : Prop :=
  h.fate (W s) = .send ∧ (W r).g.rangel ≤ h.nn (W s) ∧ h.nn (W s) ≤ (W r).g.rangeh

instance {n : ℕ} (W : Fin n → Env K S) (s r : Fin n) (h : Hit K) : Decidable (goesTo W s r h) := by
  unfold goesTo; infer_instance

/-- Spec: what rank `r` receives from the other ranks. -/
def fromOthers {n : ℕ} (W : Fin n → Env K S) (R : Fin n → Rank K S) (r : Fin n) : List (Injector K) :=
  (List.finRange n).flatMap fun s =>
    ((waiting (W s) (R s)).filter fun h => goesTo W s r h).map fun h => h.arrival (W s) (W r).g.rangel

/-- Spec: everything to be put in on rank `r`: what its handlers injected and what came from other ranks. -/
def arrivals {n : ℕ} (W : Fin n → Env K S) (R : Fin n → Rank K S) (r : Fin n) : List (Injector K) :=
  (customRun (W r) (waiting (W r) (R r)) (R r).st).2.2 ++ fromOthers W R r

/-- Spec: the particle where a move has left it, finished or stopped at a face. -/
def settled (m : Bool × MState K) : Part K := { m.2.p with i := if m.1 then m.2.p.i / 8 else m.2.p.i }

/-- Spec: the particles of a species where they are, those named by a mover with their voxel decoded. -/
def Species.placed (s : Species K) : List (Part K) :=
  (upTo s.np).map fun i =>
    if i ∈ (moverList s.pm s.nm).map Mover.i then { s.p i with i := (s.p i).i / 8 } else s.p i

/-! ### Lemmas -/

omit [IsStrictOrderedRing K] in
lemma loop_mono (g : LGrid) (q : K) (r : Bool × MState K) (k : ℕ) : ∀ (fuel : ℕ) (s : MState K),
    loop g q fuel s = some r → loop g q (fuel + k) s = some r := by
  intro fuel
  induction fuel with
  | zero => intro s h; simp [loop] at h
  | succ fuel ih =>
    intro s h
    rw [show fuel + 1 + k = fuel + k + 1 by omega]
    rw [loop] at h ⊢
    split <;> simp_all

/-- Whatever a completed move does, it is as described by `Moved`. -/
lemma moved_of_some [Archimedean K] (g : LGrid) (hm : LocalMesh g) (q : K) (fuel : ℕ) (s : MState K) (c : Cell)
    (hc : c.Interior g.nx g.ny g.nz) (hi : s.p.i = VOXEL g.nx g.ny c.x c.y c.z) (hd : ∀ k, -1 ≤ s.p.d k ∧ s.p.d k ≤ 1)
    (b : Bool) (s' : MState K) (h : moveP g q fuel s = some (b, s')) :
    ∃ C' walls t, Moved g (fun _ => True) (wrappedVoxel g) s ![c.x - 1, c.y - 1, c.z - 1] b s' C' walls t := by
  choose N hN using fun k => exists_nat_ge |s.disp k|
  obtain ⟨b1, s1, C', walls, t, e, hM⟩ := move_p_trajectory g _ _ (localMesh_covers g hm) q s ![c.x - 1, c.y - 1, c.z - 1]
    trivial (by rw [hi, wrappedVoxel_self hc]) hd N hN (fuel + (N 0 + N 1 + N 2 + 1)) (by omega)
  have e' : moveP g q (fuel + (N 0 + N 1 + N 2 + 1)) s = some (b, s') := loop_mono g _ _ _ fuel s h
  rw [e] at e'
  simp only [Option.some.injEq, Prod.mk.injEq] at e'
  obtain ⟨rfl, rfl⟩ := e'
  exact ⟨C', walls, t, hM⟩

lemma moveP_exists [Archimedean K] (g : LGrid) (hm : LocalMesh g) (s : MState K) (c : Cell)
    (hc : c.Interior g.nx g.ny g.nz) (hi : s.p.i = VOXEL g.nx g.ny c.x c.y c.z)
    (hd : ∀ k, -1 ≤ s.p.d k ∧ s.p.d k ≤ 1) : ∃ N, ∀ q, ∀ fuel, N ≤ fuel → moveP g q fuel s ≠ none := by
  choose N hN using fun k => exists_nat_ge |s.disp k|
  refine ⟨N 0 + N 1 + N 2 + 1, fun q fuel hf => ?_⟩
  obtain ⟨b1, s1, C', walls, t, e, hM⟩ := move_p_trajectory g _ _ (localMesh_covers g hm) q s ![c.x - 1, c.y - 1, c.z - 1]
    trivial (by rw [hi, wrappedVoxel_self hc]) hd N hN fuel (by omega)
  rw [e]; simp

lemma axisOf_faceOf (axis : Fin 3) (up : Bool) : axisOf (faceOf axis up) = axis := by
  unfold axisOf faceOf
  fin_cases axis <;> cases up <;> simp

/-- An unfinished move ends at a face. -/
lemma atFace_of_moved (g : LGrid) (hm : LocalMesh g) {dom : (Fin 3 → ℤ) → Prop} {s s' : MState K} {C C' : Fin 3 → ℤ}
    {walls t} (h : Moved g dom (wrappedVoxel g) s C true s' C' walls t) : ∃ c f, AtFace g s'.p c f := by
  obtain ⟨-, axis, up, e1, e2, -⟩ := h.stopped rfl
  refine ⟨wrappedCell g C', faceOf axis up, wrappedCell_interior hm C', faceOf_range axis up, e1, ?_, h.inCell⟩
  rw [axisOf_faceOf, e2]
  unfold sgn faceOf
  cases up <;> simp

omit [Field K] [LinearOrder K] [IsStrictOrderedRing K] in
lemma mem_newMovers (out : Injector K → Bool × MState K) (ls : List (Injector K)) : ∀ (n : ℕ) (m : Mover K),
    m ∈ newMovers out n ls → ∃ j : ℕ, ∃ hj : j < ls.length, m.i = n + j ∧ (out ls[j]).1 = true ∧
      m.disp = (out ls[j]).2.disp := by
  induction ls with
  | nil => intro n m h; simp [newMovers] at h
  | cons pi l ih =>
    intro n m h
    rw [newMovers, List.mem_append] at h
    rcases h with h | h
    · split_ifs at h with hb
      · simp only [List.mem_singleton] at h
        subst h
        exact ⟨0, by simp, by simp, by simpa using hb, by simp⟩
      · simp at h
    · obtain ⟨j, hj, h1, h2, h3⟩ := ih (n + 1) m h
      exact ⟨j + 1, by simpa using hj, by push_cast at h1 ⊢; omega, by simpa using h2, by simpa using h3⟩

omit [Field K] [LinearOrder K] [IsStrictOrderedRing K] in
lemma newMovers_sorted (out : Injector K → Bool × MState K) (ls : List (Injector K)) : ∀ n : ℕ,
    ((newMovers out n ls).map Mover.i).Pairwise (· < ·) := by
  induction ls with
  | nil => intro n; simp [newMovers]
  | cons pi l ih =>
    intro n
    rw [newMovers, List.map_append, List.pairwise_append]
    refine ⟨by split_ifs <;> simp, ih _, ?_⟩
    intro a ha b hb
    obtain ⟨m, hm, rfl⟩ := List.mem_map.mp hb
    obtain ⟨j, -, h1, -⟩ := mem_newMovers out l _ m hm
    split_ifs at ha with hb
    · simp at ha; omega
    · simp at ha

omit [Field K] [LinearOrder K] [IsStrictOrderedRing K] in
lemma newMovers_length (out : Injector K → Bool × MState K) (ls : List (Injector K)) : ∀ n : ℕ,
    (newMovers out n ls).length ≤ ls.length := by
  induction ls with
  | nil => intro n; simp [newMovers]
  | cons pi l ih =>
    intro n
    rw [newMovers, List.length_append, List.length_cons]
    have := ih (n + 1)
    split_ifs <;> simp <;> omega

omit [Field K] [LinearOrder K] [IsStrictOrderedRing K] in
lemma moverList_length (pm : ℤ → Mover K) (n : ℕ) : (moverList pm n).length = n := by simp [moverList]

omit [Field K] [LinearOrder K] [IsStrictOrderedRing K] in
lemma hits_length (sp : ℕ → Species K) (l : List ℕ) : (hits sp l).length = (l.map fun id => (sp id).nm).sum := by
  induction l with
  | nil => rfl
  | cons id l ih =>
    have : hits sp (id :: l) = hits sp [id] ++ hits sp l := by simp [hits]
    rw [this, List.length_append, ih, List.map_cons, List.sum_cons]
    simp [hits, named, moverList]

omit [Field K] [LinearOrder K] [IsStrictOrderedRing K] in
lemma ids_nodup (n : ℕ) : (ids n).Nodup := List.nodup_reverse.mpr List.nodup_range

omit [Field K] [LinearOrder K] [IsStrictOrderedRing K] in
lemma mem_ids (n i : ℕ) : i ∈ ids n ↔ i < n := by simp [ids]

omit [IsStrictOrderedRing K] in
lemma waiting_mem {E : Env K S} {R : Rank K S} (hR : Ready E R) {h : Hit K} (hh : h ∈ waiting E R) :
    h.id < E.nsp ∧ h.q = (R.sp h.id).q ∧ ∃ c f, AtFace E.g h.p c f := by
  simp only [waiting, hits, named, List.mem_flatMap, List.mem_map, List.mem_reverse, mem_ids] at hh
  obtain ⟨id, hid, x, ⟨m, hm, rfl⟩, rfl⟩ := hh
  exact ⟨hid, rfl, (hR id hid).stopped m hm⟩

omit [Field K] [LinearOrder K] [IsStrictOrderedRing K] in
lemma waiting_length (E : Env K S) (R : Rank K S) : (waiting E R).length = totalMovers E.nsp R.sp :=
  hits_length _ _

omit [IsStrictOrderedRing K] in
lemma Joined.rangeOk {n : ℕ} {W : Fin n → Env K S} (hJ : Joined W) (r : Fin n) : (W r).RangeOk := by
  have hm := hJ.mesh r
  refine ⟨hm.rl, ?_, ?_⟩
  · have := hm.rh
    have h1 := hm.nx
    have h2 := hm.ny
    have h3 := hm.nz
    have : 0 ≤ nvox (W r).g := by unfold nvox; positivity
    omega
  · rw [hJ.ws]; exact hJ.total r

lemma fate_send {E : Env K S} {h : Hit K} (hf : h.fate E = .send) :
    0 ≤ h.nn E ∧ h.nn E ≤ E.g.range E.ws ∧ (h.nn E < E.g.rangel ∨ E.g.rangeh < h.nn E) := by
  unfold Hit.fate at hf
  split_ifs at hf with h1 h2
  exact h2

/-- What a particle that changes rank does. -/
lemma Joined.dest {n : ℕ} {W : Fin n → Env K S} (hJ : Joined W) (s : Fin n) {h : Hit K}
    (ha : ∃ c f, AtFace (W s).g h.p c f) (hf : h.fate (W s) = .send) :
    0 ≤ h.face ∧ h.face < 6 ∧ (W s).shared h.face ∧ ∃ (r : Fin n) (c' : Cell),
      (W s).g.bc (portOf h.face) = (r : ℕ) ∧ c'.Interior (W r).g.nx (W r).g.ny (W r).g.nz ∧
      h.nn (W s) = (W r).g.rangel + VOXEL (W r).g.nx (W r).g.ny c'.x c'.y c'.z ∧
      ∀ r' : Fin n, goesTo W s r' h ↔ r' = r := by
  obtain ⟨c, f, ha⟩ := ha
  obtain ⟨h1, h2, h3⟩ := fate_send hf
  have hv : h.voxel = VOXEL (W s).g.nx (W s).g.ny c.x c.y c.z := ha.decode.1
  have hff : h.face = f := ha.decode.2
  have h6 := ha.face
  rw [hJ.ws] at h2
  obtain ⟨k1, r, c', k2, k3, k4⟩ := hJ.land s c ha.interior f h6.1 h6.2 (h.nn (W s))
    (by unfold Hit.nn; rw [hv, hff]) h1 h2 h3
  refine ⟨by omega, by omega, hff ▸ k1, r, c', hff ▸ k2, k3, k4, ?_⟩
  have hb := voxel_range (hJ.mesh r) k3.inMesh
  have hrh := (hJ.mesh r).rh
  intro r'
  unfold goesTo
  constructor
  · rintro ⟨-, g1, g2⟩
    rcases lt_trichotomy r' r with hlt | heq | hgt
    · have := hJ.order r' r hlt
      omega
    · exact heq
    · have := hJ.order r r' hgt
      omega
  · rintro rfl
    exact ⟨hf, by omega, by omega⟩

end

end Verif.Boundary
