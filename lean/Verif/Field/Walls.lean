import Verif.Field.Kernels

/-!
# Wall conditions: lemmas
-/
namespace Verif.Field

open Grid

variable {K : Type*} [Field K]

lemma mem_sides (s : Fin 3 × Bool) : s ∈ sides := by
  obtain ⟨a, b⟩ := s
  fin_cases a <;> cases b <;> simp [sides]

lemma sides_nodup : sides.Nodup := by decide

/-- The side is a wall: its boundary code is not a rank. -/
def IsWall (E : Env K) (s : Fin 3 × Bool) : Prop := sideBC E.g s < 0 ∨ E.ws ≤ sideBC E.g s

instance (E : Env K) (s : Fin 3 × Bool) : Decidable (IsWall E s) := by unfold IsWall; infer_instance

lemma localPass_some {E : Env K} {act : Fin 3 × Bool → ℤ → Option (List (Step K))}
    {l : List (Step K)} (h : localPass E act = some l) :
    ∃ ls : Fin 3 × Bool → List (Step K), l = (sides.map ls).flatten ∧
      ∀ s, (IsWall E s → act s (sideBC E.g s) = some (ls s)) ∧ (¬ IsWall E s → ls s = []) := by
  unfold localPass at h
  cases hv : sides.mapM fun s =>
      if sideBC E.g s < 0 ∨ E.ws ≤ sideBC E.g s then act s (sideBC E.g s) else some [] with
  | none => rw [hv] at h; simp at h
  | some vs =>
    rw [hv] at h
    simp only [Option.map_some, Option.some.injEq] at h
    subst h
    obtain ⟨h1, h2⟩ := mapM_exists _ _ _ hv
    choose! ls hls using h1
    refine ⟨ls, ?_, ?_⟩
    · have : sides.map (fun s => if sideBC E.g s < 0 ∨ E.ws ≤ sideBC E.g s then
          act s (sideBC E.g s) else some []) = (sides.map ls).map some := by
        rw [List.map_map]
        exact List.map_congr_left fun p hp => hls p hp
      rw [this] at h2
      rw [List.map_injective_iff.mpr (Option.some_injective _) h2]
    · intro s
      have := hls s (mem_sides s)
      constructor
      · intro hw
        simpa [show sideBC E.g s < 0 ∨ E.ws ≤ sideBC E.g s from hw] using this
      · intro hw
        simpa [show ¬ (sideBC E.g s < 0 ∨ E.ws ≤ sideBC E.g s) from hw] using this.symm

lemma localPass_none {E : Env K} {act : Fin 3 × Bool → ℤ → Option (List (Step K))} :
    localPass E act = none ↔ ∃ s, IsWall E s ∧ act s (sideBC E.g s) = none := by
  constructor
  · intro h
    by_contra hc
    push Not at hc
    have : ∀ s, ∃ v, (if sideBC E.g s < 0 ∨ E.ws ≤ sideBC E.g s then act s (sideBC E.g s)
        else some []) = some v := by
      intro s
      by_cases hw : IsWall E s
      · obtain ⟨v, hv⟩ := Option.ne_none_iff_exists'.mp (hc s hw)
        exact ⟨v, (if_pos hw).trans hv⟩
      · exact ⟨[], if_neg hw⟩
    choose v hv using this
    have e := Distribute.mapM_some sides (fun s => if sideBC E.g s < 0 ∨ E.ws ≤ sideBC E.g s then
      act s (sideBC E.g s) else some []) v (fun s _ => hv s)
    unfold localPass at h
    rw [e] at h
    simp at h
  · rintro ⟨s, hw, hn⟩
    by_contra hc
    obtain ⟨l, hl⟩ := Option.ne_none_iff_exists'.mp hc
    obtain ⟨ls, -, h2⟩ := localPass_some hl
    rw [(h2 s).1 hw] at hn
    simp at hn

lemma runSeq_flatten {M : Type*} (ts : List (List (M → M))) (m : M) :
    runSeq ts.flatten m = runSeq (ts.map runSeq) m := by
  induction ts generalizing m with
  | nil => rfl
  | cons t ts ih => rw [List.flatten_cons, runSeq_append, ih]; rfl

/-! ### Adjustments: every step changes one value by itself -/

/-- `f->member = φ(f->member)`. -/
def pt (φ : K → K) (x : Addr) : Step K := setAt x fun m => φ (m x)

lemma runSeq_pt (φ : K → K) (L : List Addr) (hn : L.Nodup) (m : FMem K) (x : Addr) :
    runSeq (L.map (pt φ)) m x = if x ∈ L then φ (m x) else m x := by
  induction L generalizing m with
  | nil => simp
  | cons y L ih =>
    rw [List.map_cons, runSeq_cons, ih (List.nodup_cons.mp hn).2]
    have hy := (List.nodup_cons.mp hn).1
    by_cases hx : x = y
    · subst hx
      simp [hy, pt, setAt]
    · simp [hx, pt, setAt, Function.update_of_ne hx]

/-- The result of an adjust function, on each value separately. -/
lemma adjust_result {E : Env K} {act : Fin 3 × Bool → ℤ → Option (List (Step K))}
    (addrs : Fin 3 × Bool → List Addr) (φ : ℤ → K → K)
    (hact : ∀ s bc l, act s bc = some l → ∀ m x, runSeq l m x =
      if x ∈ addrs s then φ bc (m x) else m x)
    {adj : List (Step K)} (h : localPass E act = some adj) (m : FMem K) (x : Addr) :
    runSeq adj m x = (sides.filter fun s => IsWall E s ∧ x ∈ addrs s).foldl
      (fun v s => φ (sideBC E.g s) v) (m x) := by
  obtain ⟨ls, rfl, hls⟩ := localPass_some h
  generalize sides = S
  induction S generalizing m with
  | nil => rfl
  | cons s S ih =>
    rw [List.map_cons, List.flatten_cons, runSeq_append, ih]
    by_cases hw : IsWall E s
    · rw [hact s _ _ ((hls s).1 hw)]
      by_cases hx : x ∈ addrs s
      · rw [List.filter_cons_of_pos (by simp [hw, hx])]
        simp [hx]
      · rw [List.filter_cons_of_neg (by simp [hx])]
        simp [hx]
    · rw [(hls s).2 hw, List.filter_cons_of_neg (by simp [hw])]
      rfl

lemma foldl_absorb {α : Type*} (φ : α → K → K) (L : List α) (h0 : ∀ s, φ s 0 = 0)
    (h : ∃ s ∈ L, ∀ v, φ s v = 0) (v : K) : L.foldl (fun v s => φ s v) v = 0 := by
  have hz : ∀ (L : List α), L.foldl (fun v s => φ s v) 0 = 0 := by
    intro L
    induction L with
    | nil => rfl
    | cons s L ih => simp [h0, ih]
  induction L generalizing v with
  | nil => simp at h
  | cons s L ih =>
    obtain ⟨t, ht, hv⟩ := h
    rcases List.mem_cons.mp ht with rfl | ht
    · simp [hv, hz]
    · exact ih ⟨t, ht, hv⟩ _

lemma foldl_scale {α : Type*} (φ : α → K → K) (L : List α) (k : K) (h : ∀ s ∈ L, ∀ v, φ s v = v * k)
    (v : K) : L.foldl (fun v s => φ s v) v = v * k ^ L.length := by
  induction L generalizing v with
  | nil => simp
  | cons s L ih =>
    rw [List.foldl_cons, ih (fun t ht => h t (by simp [ht])), h s (by simp), List.length_cons, pow_succ]
    ring

lemma foldl_same {α : Type*} (φ : α → K → K) (L : List α) (h : ∀ s ∈ L, ∀ v, φ s v = v)
    (v : K) : L.foldl (fun v s => φ s v) v = v := by
  induction L generalizing v with
  | nil => rfl
  | cons s L ih => rw [List.foldl_cons, ih (fun t ht => h t (by simp [ht])), h s (by simp)]

/-! ### The addresses of a wall -/

lemma wallOf_range {g : LGrid} (hg : Mesh g) (s : Fin 3 × Bool) :
    1 ≤ wallOf g s ∧ wallOf g s ≤ dims g s.1 + 1 := by
  have := hg.pos s.1
  unfold wallOf
  split <;> omega

lemma mem_wall_edge {g : LGrid} (hg : Mesh g) (s : Fin 3 × Bool) (o : Fin 3) (ho : o ≠ s.1) (c : Pos) :
    c ∈ edgePlane g s.1 o (wallOf g s) ↔ EdgeOn g o c ∧ c s.1 = wallOf g s := by
  have hw := wallOf_range hg s
  rw [mem_edgePlane]
  constructor
  · intro h
    have hX := h s.1
    simp at hX
    refine ⟨fun b => ?_, by omega⟩
    have := h b
    by_cases hb : b = s.1
    · subst hb; simp [ho.symm] at this ⊢; omega
    · simp [hb] at this ⊢; split at this <;> simp_all
  · rintro ⟨h, hX⟩ b
    have := h b
    by_cases hb : b = s.1
    · subst hb; simp [hX]
    · simp [hb]; split at this <;> simp_all

lemma mem_wall_node {g : LGrid} (hg : Mesh g) (s : Fin 3 × Bool) (c : Pos) :
    c ∈ nodePlane g s.1 (wallOf g s) ↔ NodeOn g c ∧ c s.1 = wallOf g s := by
  have hw := wallOf_range hg s
  rw [mem_nodePlane]
  constructor
  · intro h
    have hX := h s.1
    simp at hX
    refine ⟨fun b => ?_, by omega⟩
    have := h b
    by_cases hb : b = s.1
    · subst hb; omega
    · simp [hb] at this ⊢; omega
  · rintro ⟨h, hX⟩ b
    have := h b
    by_cases hb : b = s.1
    · subst hb; simp [hX]
    · simp [hb]; omega

lemma mem_wall_face {g : LGrid} (hg : Mesh g) (s : Fin 3 × Bool) (c : Pos) :
    c ∈ facePlane g s.1 (wallOf g s) ↔ FaceOn g s.1 c ∧ c s.1 = wallOf g s := by
  have hw := wallOf_range hg s
  rw [mem_facePlane]
  constructor
  · intro h
    have hX := h s.1
    simp at hX
    refine ⟨fun b => ?_, by omega⟩
    have := h b
    by_cases hb : b = s.1
    · subst hb; simp; omega
    · simp [hb] at this ⊢; omega
  · rintro ⟨h, hX⟩ b
    have := h b
    by_cases hb : b = s.1
    · subst hb; simp [hX]
    · simp [hb] at this ⊢; omega

/-- Addresses of member `k` over positions `L`. -/
def at' (g : LGrid) (k : FC) (L : List Pos) : List Addr := L.map fun c => (vox g c, k)

lemma mem_at' {g : LGrid} {k k' : FC} {L : List Pos} (hL : ∀ c ∈ L, InArray g c) {c : Pos}
    (hc : InArray g c) : (vox g c, k') ∈ at' g k L ↔ k' = k ∧ c ∈ L := by
  simp only [at', List.mem_map, Prod.mk.injEq]
  constructor
  · rintro ⟨d, hd, hv, rfl⟩
    exact ⟨rfl, (vox_inj (hL d hd) hc hv) ▸ hd⟩
  · rintro ⟨rfl, h⟩; exact ⟨c, h, rfl, rfl⟩

lemma at'_nodup {g : LGrid} (k : FC) {L : List Pos} (hn : L.Nodup) (hL : ∀ c ∈ L, InArray g c) :
    (at' g k L).Nodup :=
  List.Nodup.map_on (fun c hc d hd h => vox_inj (hL c hc) (hL d hd) (Prod.mk.inj h).1) hn

lemma at'_kind {g : LGrid} {k : FC} {L : List Pos} {x : Addr} (h : x ∈ at' g k L) : x.2 = k := by
  simp only [at', List.mem_map] at h
  obtain ⟨_, _, rfl⟩ := h
  rfl

lemma wall_edge_inArray {g : LGrid} (hg : Mesh g) (s : Fin 3 × Bool) (o : Fin 3) :
    ∀ c ∈ edgePlane g s.1 o (wallOf g s), InArray g c := by
  intro c hc b
  have hw := wallOf_range hg s
  rw [mem_edgePlane] at hc
  have := hc b
  by_cases hb : b = s.1
  · subst hb; simp at this; omega
  · simp [hb] at this; split at this <;> omega

lemma wall_node_inArray {g : LGrid} (hg : Mesh g) (s : Fin 3 × Bool) :
    ∀ c ∈ nodePlane g s.1 (wallOf g s), InArray g c := by
  intro c hc
  exact ((mem_wall_node hg s c).mp hc).1.inArray

lemma wall_face_inArray {g : LGrid} (hg : Mesh g) (s : Fin 3 × Bool) :
    ∀ c ∈ facePlane g s.1 (wallOf g s), InArray g c := by
  intro c hc
  exact ((mem_wall_face hg s c).mp hc).1.inArray

lemma add_one_ne (X : Fin 3) : X + 1 ≠ X ∧ X + 2 ≠ X ∧ X + 1 ≠ X + 2 := by
  fin_cases X <;> decide

lemma axis_cases (X a : Fin 3) : a = X ∨ a = X + 1 ∨ a = X + 2 := by
  fin_cases X <;> fin_cases a <;> decide

end Verif.Field
