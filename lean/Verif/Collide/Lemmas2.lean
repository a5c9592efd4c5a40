import Verif.Collide.Lemmas
import Verif.SortP.Props

/-!
# What a sweep over all voxels does
-/
namespace Verif.Collide
open Verif.Collision Verif.SortP

variable {T K : Type} [Field K] [LinearOrder K] [IsStrictOrderedRing K]

/-- Like `Step`, for each of the first `N` voxels with its own set of locations. -/
structure Sweep (m : ℕ → K) (eps : K) (ft : ℕ → Finset Loc) (N : ℕ) (x y : Mem T K) : Prop where
  frame : ∀ l, (∀ v < N, l ∉ ft v) → y l = x l
  perm : ∃ σ : Equiv.Perm Loc, (∀ l, (σ l).1 = l.1) ∧ (∀ v < N, ∀ l ∈ ft v, σ l ∈ ft v) ∧
    (∀ l, (∀ v < N, l ∉ ft v) → σ l = l) ∧ ∀ l, (y l).tag = (x (σ l)).tag ∧ (y l).w = (x (σ l)).w
  cons : ∀ v < N, ∀ w0, 0 ≤ w0 → (∀ l ∈ ft v, (x l).w = w0) →
    momAt m (ft v) y = momAt m (ft v) x ∧ enAt m (ft v) y ≤ enAt m (ft v) x ∧
      (eps = 0 → enAt m (ft v) y = enAt m (ft v) x)

lemma Sweep.refl (m : ℕ → K) (eps : K) (ft : ℕ → Finset Loc) (N : ℕ) (x : Mem T K) : Sweep m eps ft N x x :=
  ⟨fun _ _ => rfl, ⟨1, fun _ => rfl, fun _ _ _ h => h, fun _ _ => rfl, fun _ => ⟨rfl, rfl⟩⟩,
    fun _ _ _ _ _ => ⟨rfl, le_rfl, fun _ => rfl⟩⟩

lemma Sweep.trans {m : ℕ → K} {eps : K} {ft : ℕ → Finset Loc} {N : ℕ} {x y z : Mem T K} (h : Sweep m eps ft N x y)
    (h' : Sweep m eps ft N y z) : Sweep m eps ft N x z := by
  obtain ⟨σ, h1, h2, h3, h4⟩ := h.perm
  obtain ⟨τ, g1, g2, g3, g4⟩ := h'.perm
  refine ⟨fun l hl => (h'.frame l hl).trans (h.frame l hl), ⟨τ.trans σ, fun l => (h1 _).trans (g1 l), ?_, ?_, ?_⟩, ?_⟩
  · intro v hv l hl
    exact h2 v hv _ (g2 v hv l hl)
  · intro l hl
    show σ (τ l) = l
    rw [g3 l hl, h3 l hl]
  · intro l
    exact ⟨(g4 l).1.trans (h4 _).1, (g4 l).2.trans (h4 _).2⟩
  · intro v hv w0 h0 hw
    obtain ⟨a1, a2, a3⟩ := h.cons v hv w0 h0 hw
    obtain ⟨b1, b2, b3⟩ := h'.cons v hv w0 h0 (fun l hl => by rw [(h4 l).2]; exact hw _ (h2 v hv l hl))
    exact ⟨b1.trans a1, b2.trans a2, fun he => (b3 he).trans (a3 he)⟩

lemma Sweep.of_step {m : ℕ → K} {eps : K} {ft : ℕ → Finset Loc} {N : ℕ} {x y : Mem T K}
    (hd : ∀ v < N, ∀ v' < N, v ≠ v' → ∀ l ∈ ft v, l ∉ ft v') {v : ℕ} (hv : v < N) (h : Step m eps (ft v) x y) :
    Sweep m eps ft N x y := by
  obtain ⟨σ, h1, h2, h3⟩ := h.perm
  refine ⟨fun l hl => h.frame l (hl v hv), ⟨σ, h1, ?_, fun l hl => h2 l (hl v hv), h3⟩, ?_⟩
  · intro v' hv' l hl
    by_cases e : v' = v
    · subst e; exact perm_mem h2 hl
    · rw [h2 l (hd v' hv' v hv e l hl)]; exact hl
  · intro v' hv' w0 h0 hw
    by_cases e : v' = v
    · subst e; exact h.cons w0 h0 hw
    · have same : ∀ l ∈ ft v', y l = x l := fun l hl => h.frame l (hd v' hv' v hv e l hl)
      have e1 : momAt m (ft v') y = momAt m (ft v') x := by
        funext i
        exact Finset.sum_congr rfl fun l hl => by rw [same l hl]
      have e2 : enAt m (ft v') y = enAt m (ft v') x := Finset.sum_congr rfl fun l hl => by rw [same l hl]
      exact ⟨e1, e2.le, fun _ => e2⟩

/-- A body of the voxel loop that does what it should, with an invariant `I` of the generators. -/
def VoxOk {G : Type} (m : ℕ → K) (eps : K) (ft : ℕ → Finset Loc) (N : ℕ) (I : G → Prop)
    (vox : Mem T K → ℕ → G → Option (Mem T K × G)) : Prop :=
  ∀ x v g y g', v < N → I g → vox x v g = some (y, g') → Step m eps (ft v) x y ∧ I g'

lemma runVoxels_sweep {G : Type} {m : ℕ → K} {eps : K} {ft : ℕ → Finset Loc} {N : ℕ} {I : G → Prop}
    {vox : Mem T K → ℕ → G → Option (Mem T K × G)} (hd : ∀ v < N, ∀ v' < N, v ≠ v' → ∀ l ∈ ft v, l ∉ ft v')
    (h : VoxOk m eps ft N I vox) (vs : List ℕ) : ∀ (x y : Mem T K) (g g' : G), (∀ v ∈ vs, v < N) → I g →
    runVoxels vox vs x g = some (y, g') → Sweep m eps ft N x y := by
  induction vs with
  | nil =>
    intro x y g g' _ _ hr
    simp only [runVoxels, Option.some.injEq, Prod.mk.injEq] at hr
    rw [hr.1]
    exact Sweep.refl ..
  | cons v vs ih =>
    intro x y g g' hv hI hr
    rw [runVoxels] at hr
    cases hc : vox x v g with
    | none => rw [hc] at hr; simp at hr
    | some r =>
      obtain ⟨z, g1⟩ := r
      rw [hc] at hr
      obtain ⟨s1, s2⟩ := h x v g z g1 (hv v List.mem_cons_self) hI hc
      exact (Sweep.of_step hd (hv v List.mem_cons_self) s1).trans
        (ih z y g1 g' (fun w hw => hv w (List.mem_cons_of_mem _ hw)) s2 hr)

lemma runPipes_sweep {G : Type} {m : ℕ → K} {eps : K} {ft : ℕ → Finset Loc} {nx ny nz P : ℕ} (hP : 0 < P) {I : G → Prop}
    {vox : Mem T K → ℕ → G → Option (Mem T K × G)}
    (hd : ∀ v < (nx + 2) * (ny + 2) * (nz + 2) - 1, ∀ v' < (nx + 2) * (ny + 2) * (nz + 2) - 1, v ≠ v' → ∀ l ∈ ft v, l ∉ ft v')
    (h : VoxOk m eps ft ((nx + 2) * (ny + 2) * (nz + 2) - 1) I vox) (gens : ℕ → G) (hI : ∀ r, I (gens r)) (rs : List ℕ) :
    ∀ (x y : Mem T K), (∀ r ∈ rs, r < P) → runPipes vox nx ny nz P gens rs x = some y →
      Sweep m eps ft ((nx + 2) * (ny + 2) * (nz + 2) - 1) x y := by
  induction rs with
  | nil =>
    intro x y _ hr
    simp only [runPipes, Option.some.injEq] at hr
    rw [hr]
    exact Sweep.refl ..
  | cons r rs ih =>
    intro x y hrs hr
    obtain ⟨L, h1, -, -, -, h5⟩ := stripes_partition nx ny nz P hP (nx + (nx + 2) * (ny + (ny + 2) * nz) + 2) (by omega)
    have hrP := hrs r List.mem_cons_self
    rw [runPipes, h1 r hrP] at hr
    simp only at hr
    cases hc : runVoxels vox (L r) x (gens r) with
    | none => rw [hc] at hr; simp at hr
    | some q =>
      obtain ⟨z, g'⟩ := q
      rw [hc] at hr
      exact (runVoxels_sweep hd h (L r) x z _ g' (fun v hv => by have := h5 r hrP v hv; omega) (hI r) hc).trans
        (ih z y (fun s hs => hrs s (List.mem_cons_of_mem _ hs)) hr)

/-! ## Sorted species -/

/-- The partition table of a species is right: entries increase within the array, and the particles of voxel `v` are
those between entries `v` and `v+1`. -/
structure Table (key : T → ℤ) (nv : ℤ) (s : Species T K) : Prop where
  range : ∀ v, 0 ≤ v → v + 1 < nv → 0 ≤ s.part v ∧ s.part v ≤ s.part (v + 1) ∧ s.part (v + 1) ≤ s.np
  loc : ∀ v, 0 ≤ v → v + 1 < nv → Locates (fun p : Part T K => key p.tag) s.np s.p s.part v

/-- The particles of a species in the order of its array. -/
def Species.parts (s : Species T K) : List (Part T K) := (List.range s.np).map fun i => s.p (i : ℕ)

lemma contents_eq (p : ℤ → Part T K) (n : ℕ) : contents p n = (List.range n).map fun i => p (i : ℕ) := by
  unfold contents seg
  rw [List.map_map]
  simp [Function.comp_def]

lemma buckets_len {α : Type} (key : α → ℤ) (lo hi : ℤ) (L : List α) (h : ∀ x ∈ L, lo ≤ key x ∧ key x < hi) (v : ℤ) :
    (buckets key lo v L).length ≤ (buckets key lo (v + 1) L).length ∧ (buckets key lo v L).length ≤ L.length := by
  have nil : ∀ w ≤ lo, buckets key lo w L = [] := by
    intro w hw
    unfold buckets
    rw [seg_nil hw]
    rfl
  constructor
  · rcases le_or_gt lo v with h1 | h1
    · rw [buckets_append key h1 (by omega : v ≤ v + 1), List.length_append]
      omega
    · rw [nil v h1.le]; simp
  · rcases le_or_gt lo v with h1 | h1
    · have := (buckets_perm key L (a := lo) (b := max v hi) (fun x hx => ⟨(h x hx).1, lt_of_lt_of_le (h x hx).2 (le_max_right _ _)⟩)).length_eq
      rw [buckets_append key h1 (le_max_left _ _), List.length_append] at this
      omega
    · rw [nil v h1.le]; simp

/-- What is needed of a sort: it succeeds only with a rearrangement and the right table. -/
def SortOk (key : T → ℤ) (nx ny nz : ℤ) (srt : ℕ → (ℤ → Part T K) → (ℤ → ℤ) → Option ((ℤ → Part T K) × (ℤ → ℤ))) (np : ℕ) : Prop :=
  ∀ p part r, InDomain (fun q : Part T K => key q.tag) nx ny nz (contents p np) → srt np p part = some r →
    (contents r.1 np).Perm (contents p np) ∧
      ∀ step, Table key ((nx + 2) * (ny + 2) * (nz + 2)) (⟨np, r.1, r.2, step⟩ : Species T K)

/-- The sort of the pipelines is right. -/
lemma sortP_ok (R : Distribute.Rounding) (hR : R.Accurate) (key : T → ℤ) (S : Schedules (Part T K)) (g : Scratch (Part T K)) (P : ℕ)
    (hP : 0 < P) (hP2 : P ≤ 256) (nx ny nz : ℤ) (hx : 1 ≤ nx) (hy : 1 ≤ ny) (hz : 1 ≤ nz) (np : ℕ) (hn : np < 2 ^ 31) :
    SortOk key nx ny nz (fun n p part => sortP R (fun q : Part T K => key q.tag) S g P nx ny nz n p part) np := by
  intro p part r hL hr
  obtain ⟨q, qart, h1, h2, h3, h4, -⟩ :=
    sortP_spec R hR (fun q : Part T K => key q.tag) S g P hP hP2 nx ny nz hx hy hz np hn p part hL
  obtain ⟨p', part'⟩ := r
  obtain ⟨rfl, rfl⟩ : q = p' ∧ qart = part' := by
    have := h1.symm.trans hr
    rw [Option.some.injEq, Prod.mk.injEq] at this; exact this
  have hLL : ∀ x ∈ contents p np, (1 + (nx + 2) * (1 + (ny + 2) * 1)) ≤ key x.tag ∧
    key x.tag < (nx + (nx + 2) * (ny + (ny + 2) * nz)) + 1 := fun x hx => by have := hL x hx; simp only at this; omega
  have hperm := buckets_perm (fun q : Part T K => key q.tag) (contents p np) hLL
  refine ⟨?_, fun step => ⟨?_, ?_⟩⟩
  · rw [contents_of_holds h2 (by rw [hperm.length_eq, length_contents])]
    exact hperm
  · intro v h0 hv
    have b1 := buckets_len (fun q : Part T K => key q.tag) _ _ (contents p np) hLL v
    have b2 := buckets_len (fun q : Part T K => key q.tag) _ _ (contents p np) hLL (v + 1)
    rw [length_contents] at b1 b2
    simp only
    rw [h4 v h0 (by omega), h4 (v + 1) (by omega) hv]
    exact ⟨by positivity, by exact_mod_cast b1.1, by exact_mod_cast b2.2⟩
  · exact sort_partition R hR _ S g P hP hP2 nx ny nz hx hy hz np hn p part hL q qart h1

/-! ## The operator -/

/-- Voxels before the last. -/
lemma foot_disjoint (st : ℕ → Species T K) (a b : ℕ) (key : T → ℤ) (nv : ℤ) (N : ℕ) (hN : (N : ℤ) + 1 = nv)
    (ha : Table key nv (st a)) (hb : Table key nv (st b)) :
    ∀ v < N, ∀ v' < N, v ≠ v' → ∀ l ∈ foot (partOf st) a b v, l ∉ foot (partOf st) a b v' := by
  have key1 : ∀ c, Table key nv (st c) → ∀ v < N, ∀ v' < N, v ≠ v' → ∀ i : ℕ, partOf st c v ≤ i → i < partOf st c (v + 1) →
      partOf st c v' ≤ i → i < partOf st c (v' + 1) → False := by
    intro c hc v hv v' hv' hne i h1 h2 h3 h4
    obtain ⟨r1, r2, r3⟩ := hc.range v (by omega) (by omega)
    obtain ⟨s1, s2, s3⟩ := hc.range v' (by omega) (by omega)
    have l1 := hc.loc v (by omega) (by omega) i (by omega) (by
      unfold partOf at h2; push_cast at h2; omega)
    have l2 := hc.loc v' (by omega) (by omega) i (by omega) (by
      unfold partOf at h2; push_cast at h2; omega)
    unfold partOf at h1 h2 h3 h4
    push_cast at h1 h2 h3 h4
    have e1 := l1.2 ⟨by omega, by omega⟩
    have e2 := l2.2 ⟨by omega, by omega⟩
    apply hne
    have := e1.symm.trans e2
    exact_mod_cast this
  intro v hv v' hv' hne l hl hl'
  unfold foot at hl hl'
  rw [Finset.mem_union, mem_block, mem_block] at hl hl'
  have aux : ∀ c, Table key nv (st c) → partOf st c v ≤ l.2 → l.2 < partOf st c v + (partOf st c (v + 1) - partOf st c v) →
      partOf st c v' ≤ l.2 → l.2 < partOf st c v' + (partOf st c (v' + 1) - partOf st c v') → False := by
    intro c hc h1 h2 h3 h4
    exact key1 c hc v hv v' hv' hne l.2 h1 (by omega) h3 (by omega)
  rcases hl with ⟨e1, h1, h2⟩ | ⟨e1, h1, h2⟩ <;> rcases hl' with ⟨e2, h3, h4⟩ | ⟨e2, h3, h4⟩
  · exact aux a ha h1 h2 h3 h4
  · have : a = b := e1.symm.trans e2
    subst this
    exact aux a ha h1 h2 h3 h4
  · have : b = a := e1.symm.trans e2
    subst this
    exact aux b hb h1 h2 h3 h4
  · exact aux b hb h1 h2 h3 h4

end Verif.Collide
