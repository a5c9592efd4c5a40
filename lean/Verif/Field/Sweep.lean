import Verif.Field.Remote
import Mathlib.Data.List.Nodup

/-!
# Sweeps over the mesh

The loop structure shared by the field kernels: the drivers as relations between the memory before and
after a call, for every interleaving of the pipelines, and lemmas about the lists of updates.
-/
namespace Verif.Field

open Grid

variable {K : Type*} [Field K]

/-- `advance_e_pipeline` (pipeline/advance_e_pipeline.cc:50-328) up to the final adjust, for an update `k`
of one component: `advance_e`, `vacuum_advance_e`, `compute_curl_b` and `vacuum_compute_curl_b` have the
same loops.  `recv` are the messages that arrive. -/
def EdgeSweep (E : Env K) (R : Distribute.Rounding) (P : ℕ) (k : Fin 3 × Pos → Step K)
    (recv : Fin 3 × Bool → Option (List K)) (m m' : FMem K) : Prop :=
  ∃ lg rs m1, localGhostTangB E = some lg ∧ endRemote E slotsTangB recv = some rs ∧
    Phase R E.g (fun _ => 2) (dims E.g) P xyz k ((innerEdges E.g).map k) (runSeq lg m) m1 ∧
    m' = runSeq ((outerEdges E.g).map k) (runSeq rs m1)

/-- `compute_div_e_err_pipeline` (pipeline/compute_div_e_err_pipeline.cc:38-170) up to the final adjust,
for an update `k` of one node; `compute_rhob` and the vacuum versions have the same loops. -/
def NodeSweep (E : Env K) (R : Distribute.Rounding) (P : ℕ) (k : Pos → Step K)
    (recv : Fin 3 × Bool → Option (List K)) (m m' : FMem K) : Prop :=
  ∃ lg rs, localGhostNormE E = some lg ∧ endRemote E slotsNormE recv = some rs ∧
    Phase R E.g (fun _ => 2) (dims E.g) P (fun c => [c]) k (rs ++ (outerNodes E.g).map k)
      (runSeq lg m) m'

/-- `clean_div_b_pipeline` (pipeline/clean_div_b_pipeline.cc:143-325) up to the final adjust. -/
def FaceSweep (E : Env K) (R : Distribute.Rounding) (P : ℕ) (k : Fin 3 × Pos → Step K)
    (recv : Fin 3 × Bool → Option (List K)) (m m' : FMem K) : Prop :=
  ∃ lg rs, localGhostDivB E = some lg ∧ endRemote E slotsDivB recv = some rs ∧
    Phase R E.g (fun _ => 2) (dims E.g) P xyz k
      ((innerFaces E.g).map k ++ rs ++ (outerFaces E.g).map k) (runSeq lg m) m'

/-! ### Lists of updates -/

lemma mem_comp {a b : Fin 3} {lo hi c : Pos} :
    (a, c) ∈ comp b lo hi ↔ a = b ∧ ∀ d, lo d ≤ c d ∧ c d ≤ hi d := by
  simp only [comp, List.mem_map, mem_box, Prod.mk.injEq]
  constructor
  · rintro ⟨d, h, rfl, rfl⟩; exact ⟨rfl, h⟩
  · rintro ⟨rfl, h⟩; exact ⟨c, h, rfl, rfl⟩

lemma comp_nodup (a : Fin 3) (lo hi : Pos) : (comp a lo hi).Nodup :=
  List.Nodup.map (fun _ _ h => (Prod.mk.inj h).2) (box_nodup lo hi)

lemma mem_xyz {a : Fin 3} {c d : Pos} : (a, c) ∈ xyz d ↔ c = d := by
  fin_cases a <;> simp [xyz]

lemma xyz_nodup (c : Pos) : (xyz c).Nodup := by simp [xyz]

/-- Two lists of components disagree on a coordinate or the component. -/
lemma comp_disjoint {a b : Fin 3} {lo hi lo' hi' : Pos}
    (h : a = b → ∃ d, hi d < lo' d ∨ hi' d < lo d) : List.Disjoint (comp a lo hi) (comp b lo' hi') := by
  rintro ⟨e, c⟩ h1 h2
  rw [mem_comp] at h1 h2
  obtain ⟨d, hd⟩ := h (h1.1.symm.trans h2.1)
  have := h1.2 d
  have := h2.2 d
  omega

lemma box_disjoint {lo hi lo' hi' : Pos}
    (h : ∃ d, hi d < lo' d ∨ hi' d < lo d) : List.Disjoint (box lo hi) (box lo' hi') := by
  intro c h1 h2
  rw [mem_box] at h1 h2
  obtain ⟨d, hd⟩ := h
  have := h1 d
  have := h2 d
  omega

lemma forall_axis {p : Fin 3 → Prop} : (∀ a, p a) ↔ p 0 ∧ p 1 ∧ p 2 := by
  simp [Fin.forall_fin_succ, Fin.forall_fin_zero]

lemma exists_axis {p : Fin 3 → Prop} : (∃ a, p a) ↔ p 0 ∨ p 1 ∨ p 2 := by
  constructor
  · rintro ⟨a, h⟩; fin_cases a <;> simp_all
  · rintro (h | h | h) <;> exact ⟨_, h⟩

/-- An interior edge: not on the surface of the local mesh. -/
def EdgeIn (g : LGrid) (a : Fin 3) (c : Pos) : Prop :=
  ∀ b, (if b = a then 1 else 2) ≤ c b ∧ c b ≤ dims g b

lemma edges_inner {g : LGrid} (hg : Mesh g) {a : Fin 3} {c : Pos} :
    EdgeIn g a c ↔ (∀ b, 2 ≤ c b ∧ c b ≤ dims g b) ∨ (a, c) ∈ innerEdges g := by
  have hp := hg.pos
  simp only [innerEdges, List.mem_append, mem_comp, EdgeIn, forall_axis, dims] at hp ⊢
  fin_cases a <;> simp at hp ⊢ <;> omega

lemma edges_outer {g : LGrid} (hg : Mesh g) {a : Fin 3} {c : Pos} :
    (a, c) ∈ outerEdges g ↔ EdgeOn g a c ∧ ¬ EdgeIn g a c := by
  have hp := hg.pos
  simp only [outerEdges, List.mem_append, mem_comp, EdgeIn, EdgeOn, forall_axis, dims] at hp ⊢
  fin_cases a <;> simp at hp ⊢ <;> omega

lemma innerEdges_nodup (g : LGrid) : (innerEdges g).Nodup := by
  simp only [innerEdges, List.nodup_append', comp_nodup, List.disjoint_append_left, true_and, and_true]
  refine ⟨?_, ?_, ?_⟩ <;> exact comp_disjoint (by simp)

lemma outerEdges_nodup {g : LGrid} (hg : Mesh g) : (outerEdges g).Nodup := by
  have hp := hg.pos
  simp only [dims, forall_axis] at hp
  simp at hp
  simp only [outerEdges, List.nodup_append', comp_nodup, List.disjoint_append_left, true_and, and_true]
  and_intros <;> refine comp_disjoint ?_ <;>
    first
    | (intro h; exact absurd h (by decide))
    | (intro _; rw [exists_axis]; simp <;> omega)

/-- An interior node. -/
def NodeIn (g : LGrid) (c : Pos) : Prop := ∀ b, 2 ≤ c b ∧ c b ≤ dims g b

lemma nodes_outer {g : LGrid} (hg : Mesh g) {c : Pos} :
    c ∈ outerNodes g ↔ NodeOn g c ∧ ¬ NodeIn g c := by
  have hp := hg.pos
  have e : (∃ d : Pos, (∀ a, (![1, 2, 2] : Pos) a ≤ d a ∧ d a ≤ (![1, g.ny, g.nz] : Pos) a) ∧
      (c = d ∨ c = ![g.nx + 1, d 1, d 2])) ↔
      (c 0 = 1 ∨ c 0 = g.nx + 1) ∧ (2 ≤ c 1 ∧ c 1 ≤ g.ny) ∧ (2 ≤ c 2 ∧ c 2 ≤ g.nz) := by
    simp only [forall_axis]
    constructor
    · rintro ⟨d, h, rfl | rfl⟩
      · simp at h ⊢; omega
      · simp at h ⊢; omega
    · rintro ⟨h | h, h1, h2⟩
      · exact ⟨c, by simp; omega, Or.inl rfl⟩
      · refine ⟨![1, c 1, c 2], by simp; omega, Or.inr (pos_ext ?_ ?_ ?_)⟩ <;> simp [h]
  simp only [outerNodes, List.mem_append, List.mem_flatMap, List.mem_cons, List.not_mem_nil, or_false,
    mem_box, NodeIn, NodeOn, e]
  simp only [forall_axis, dims] at hp ⊢
  simp at hp ⊢
  omega

lemma outerNodes_nodup {g : LGrid} (hg : Mesh g) : (outerNodes g).Nodup := by
  have hp := hg.pos
  simp only [dims, forall_axis] at hp
  simp at hp
  have key : ∀ lo hi : Pos, (∃ d, d ≠ 0 ∧ (hi d < (![1, 2, 2] : Pos) d ∨
      (![1, g.ny, g.nz] : Pos) d < lo d)) → List.Disjoint (box lo hi)
      ((box ![1, 2, 2] ![1, g.ny, g.nz]).flatMap fun c => [c, (![g.nx + 1, c 1, c 2] : Pos)]) := by
    rintro lo hi ⟨d, hd, h⟩ c h1 h2
    simp only [List.mem_flatMap, mem_box, List.mem_cons, List.not_mem_nil, or_false] at h1 h2
    obtain ⟨e, he, h2⟩ := h2
    have a1 := h1 d
    have a2 := he d
    have : c d = e d := by
      rcases h2 with rfl | rfl
      · rfl
      · fin_cases d <;> simp_all
    omega
  simp only [outerNodes, List.nodup_append', box_nodup, List.disjoint_append_left, true_and]
  and_intros
  · refine box_disjoint ?_; rw [exists_axis]; simp <;> omega
  · refine box_disjoint ?_; rw [exists_axis]; simp <;> omega
  · refine box_disjoint ?_; rw [exists_axis]; simp <;> omega
  · refine box_disjoint ?_; rw [exists_axis]; simp <;> omega
  · refine box_disjoint ?_; rw [exists_axis]; simp <;> omega
  · refine box_disjoint ?_; rw [exists_axis]; simp <;> omega
  · rw [List.nodup_flatMap]
    constructor
    · intro c hc
      rw [mem_box] at hc
      have := hc 0
      simp at this ⊢
      intro e
      have := congrFun e 0
      simp at this
      omega
    · refine List.Pairwise.imp_of_mem ?_ (box_nodup ![1, 2, 2] ![1, g.ny, g.nz])
      intro c d hc hd hne e he he'
      rw [mem_box] at hc hd
      have c0 := hc 0
      have d0 := hd 0
      simp at c0 d0 he he'
      apply hne
      rcases he with rfl | rfl <;> rcases he' with h | h
      · exact h
      · have := congrFun h 0; simp at this; omega
      · have := congrFun h 0; simp at this; omega
      · have h1 := congrFun h 1
        have h2 := congrFun h 2
        simp at h1 h2
        exact pos_ext (by omega) h1 h2
  · exact key _ _ ⟨2, by simp⟩
  · exact key _ _ ⟨2, by simp⟩
  · exact key _ _ ⟨1, by simp⟩
  · exact key _ _ ⟨1, by simp⟩

/-- An interior face: between two cells of the local mesh. -/
def FaceIn (g : LGrid) (a : Fin 3) (c : Pos) : Prop :=
  ∀ b, (if b = a then 2 else 1) ≤ c b ∧ c b ≤ dims g b

lemma faces_inner {g : LGrid} (hg : Mesh g) {a : Fin 3} {c : Pos} :
    FaceIn g a c ↔ (∀ b, 2 ≤ c b ∧ c b ≤ dims g b) ∨ (a, c) ∈ innerFaces g := by
  have hp := hg.pos
  simp only [innerFaces, List.mem_append, mem_comp, FaceIn, forall_axis, dims] at hp ⊢
  fin_cases a <;> simp at hp ⊢ <;> omega

lemma faces_outer {g : LGrid} (hg : Mesh g) {a : Fin 3} {c : Pos} :
    (a, c) ∈ outerFaces g ↔ FaceOn g a c ∧ ¬ FaceIn g a c := by
  have hp := hg.pos
  simp only [outerFaces, List.mem_append, mem_comp, FaceIn, FaceOn, forall_axis, dims] at hp ⊢
  fin_cases a <;> simp at hp ⊢ <;> omega

lemma innerFaces_nodup (g : LGrid) : (innerFaces g).Nodup := by
  simp only [innerFaces, List.nodup_append', comp_nodup, List.disjoint_append_left, true_and, and_true]
  and_intros <;> refine comp_disjoint ?_ <;>
    first
    | (intro h; exact absurd h (by decide))
    | (intro _; rw [exists_axis]; simp)

lemma outerFaces_nodup {g : LGrid} (hg : Mesh g) : (outerFaces g).Nodup := by
  have hp := hg.pos
  simp only [dims, forall_axis] at hp
  simp at hp
  simp only [outerFaces, List.nodup_append', comp_nodup, List.disjoint_append_left, true_and, and_true]
  and_intros <;> refine comp_disjoint ?_ <;>
    first
    | (intro h; exact absurd h (by decide))
    | (intro _; rw [exists_axis]; simp <;> omega)

lemma faces_host {g : LGrid} (hg : Mesh g) {a : Fin 3} {c : Pos} :
    FaceOn g a c ↔ CellOn g c ∨ (a, c) ∈ hostFaces g := by
  have hp := hg.pos
  simp only [hostFaces, List.mem_append, mem_comp, CellOn, FaceOn, forall_axis, dims] at hp ⊢
  fin_cases a <;> simp at hp ⊢ <;> omega

lemma hostFaces_out {g : LGrid} {a : Fin 3} {c : Pos} (h : (a, c) ∈ hostFaces g) : ¬ CellOn g c := by
  simp only [hostFaces, List.mem_append, mem_comp, CellOn, forall_axis, dims] at h ⊢
  fin_cases a <;> simp at h ⊢ <;> omega

lemma hostFaces_nodup (g : LGrid) : (hostFaces g).Nodup := by
  simp only [hostFaces, List.nodup_append', comp_nodup, List.disjoint_append_left, true_and, and_true]
  and_intros <;> exact comp_disjoint (by simp)

lemma edges_host {g : LGrid} (hg : Mesh g) {a : Fin 3} {c : Pos} :
    EdgeOn g a c ↔ CellOn g c ∨ (a, c) ∈ hostEdges g := by
  have hp := hg.pos
  simp only [hostEdges, List.mem_append, mem_comp, CellOn, EdgeOn, forall_axis, dims] at hp ⊢
  fin_cases a <;> simp at hp ⊢ <;> omega

lemma hostEdges_out {g : LGrid} {a : Fin 3} {c : Pos} (h : (a, c) ∈ hostEdges g) : ¬ CellOn g c := by
  simp only [hostEdges, List.mem_append, mem_comp, CellOn, forall_axis, dims] at h ⊢
  fin_cases a <;> simp at h ⊢ <;> omega

lemma hostEdges_nodup (g : LGrid) : (hostEdges g).Nodup := by
  simp only [hostEdges, List.nodup_append', comp_nodup, List.disjoint_append_left, true_and, and_true]
  and_intros <;> refine comp_disjoint ?_ <;>
    first
    | (intro h; exact absurd h (by decide))
    | (intro _; rw [exists_axis]; simp)

lemma innerEdges_out {g : LGrid} {a : Fin 3} {c : Pos} (h : (a, c) ∈ innerEdges g) : ¬ NodeIn g c := by
  simp only [innerEdges, List.mem_append, mem_comp, NodeIn, forall_axis, dims] at h ⊢
  fin_cases a <;> simp at h ⊢ <;> omega

lemma innerFaces_out {g : LGrid} {a : Fin 3} {c : Pos} (h : (a, c) ∈ innerFaces g) : ¬ NodeIn g c := by
  simp only [innerFaces, List.mem_append, mem_comp, NodeIn, forall_axis, dims] at h ⊢
  fin_cases a <;> simp at h ⊢ <;> omega

end Verif.Field
