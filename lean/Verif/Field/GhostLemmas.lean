import Verif.Field.Walls

/-!
# Ghosts at walls: lemmas
-/
namespace Verif.Field

open Grid

variable {K : Type*} [Field K]

/-- One assignment of a list of assignments to different places: nothing else of the list writes
the place, and the right hand side does not see the others. -/
lemma runSeq_writes (L : List (Addr × (FMem K → K))) (hn : (L.map Prod.fst).Nodup) (m : FMem K) :
    (∀ w ∈ L, ∀ Rd : Addr → Prop, (∀ m1 m2 : FMem K, (∀ x, Rd x → m1 x = m2 x) → w.2 m1 = w.2 m2) →
      (∀ w' ∈ L, w'.1 ≠ w.1 → ¬ Rd w'.1) →
      runSeq (L.map fun w => setAt w.1 w.2) m w.1 = w.2 m) ∧
    ∀ x, (∀ w ∈ L, x ≠ w.1) → runSeq (L.map fun w => setAt w.1 w.2) m x = m x := by
  have frame : ∀ (L : List (Addr × (FMem K → K))) (m : FMem K) x, (∀ w ∈ L, x ≠ w.1) →
      runSeq (L.map fun w => setAt w.1 w.2) m x = m x := by
    intro L
    induction L with
    | nil => intros; rfl
    | cons w L ih =>
      intro m x h
      rw [List.map_cons, runSeq_cons, ih _ _ fun w' hw' => h w' (by simp [hw'])]
      simp [setAt, Function.update_of_ne (h w (by simp))]
  refine ⟨?_, frame L m⟩
  intro w hw Rd hdep hR
  obtain ⟨L1, L2, rfl⟩ := List.append_of_mem hw
  rw [List.map_append, List.map_cons, List.nodup_append, List.nodup_cons] at hn
  obtain ⟨hn1, ⟨hn2, -⟩, hn3⟩ := hn
  rw [List.map_append, runSeq_append, List.map_cons, runSeq_cons, frame L2 _ _ (by
    intro w' hw' e
    exact hn2 (e ▸ List.mem_map_of_mem hw'))]
  simp only [setAt, Function.update_self]
  apply hdep
  intro x hx
  apply frame L1
  rintro w' hw' rfl
  exact hR w' (by simp [hw']) (hn3 _ (List.mem_map_of_mem hw') w.1 (by simp)) hx

/-- The result of a function that fills ghosts at the walls. -/
lemma ghost_result {E : Env K} {act : Fin 3 × Bool → ℤ → Option (List (Step K))}
    (ops : Fin 3 × Bool → List (FC × Pos)) (val : Fin 3 × Bool → ℤ → FC × Pos → FMem K → K)
    (hact : ∀ s bc l, act s bc = some l →
      l = (ops s).map fun o => setAt (vox E.g o.2, o.1) (val s bc o))
    (hnd : ∀ s, (ops s).Nodup) (hin : ∀ s, ∀ o ∈ ops s, InArray E.g o.2)
    (hdis : ∀ s s' o, o ∈ ops s → o ∈ ops s' → s = s')
    {l : List (Step K)} (h : localPass E act = some l) (m : FMem K) :
    (∀ s, IsWall E s → ∀ o ∈ ops s, ∀ Rd : Addr → Prop,
      (∀ m1 m2 : FMem K, (∀ x, Rd x → m1 x = m2 x) →
        val s (sideBC E.g s) o m1 = val s (sideBC E.g s) o m2) →
      (∀ s', ∀ o' ∈ ops s', o' ≠ o → ¬ Rd (vox E.g o'.2, o'.1)) →
      runSeq l m (vox E.g o.2, o.1) = val s (sideBC E.g s) o m) ∧
    ∀ x, (∀ s, IsWall E s → ∀ o ∈ ops s, x ≠ (vox E.g o.2, o.1)) → runSeq l m x = m x := by
  obtain ⟨ls, rfl, hls⟩ := localPass_some h
  let L : List (Addr × (FMem K → K)) := (sides.filter fun s => IsWall E s).flatMap fun s =>
    (ops s).map fun o => ((vox E.g o.2, o.1), val s (sideBC E.g s) o)
  have hL : (sides.map ls).flatten = L.map fun w => setAt w.1 w.2 := by
    simp only [L]
    generalize sides = S
    induction S with
    | nil => rfl
    | cons s S ih =>
      rw [List.map_cons, List.flatten_cons, ih]
      by_cases hw : IsWall E s
      · rw [List.filter_cons_of_pos (by simpa using hw), List.flatMap_cons, List.map_append,
          hact s _ _ ((hls s).1 hw), List.map_map]
        rfl
      · rw [List.filter_cons_of_neg (by simpa using hw), (hls s).2 hw]
        rfl
  have hmem : ∀ w, w ∈ L ↔ ∃ s, IsWall E s ∧ ∃ o ∈ ops s,
      ((vox E.g o.2, o.1), val s (sideBC E.g s) o) = w := by
    intro w
    simp [L, mem_sides]
  have hn : (L.map Prod.fst).Nodup := by
    simp only [L, List.map_flatMap, List.map_map, Function.comp_def]
    rw [List.nodup_flatMap]
    constructor
    · intro s _
      refine List.Nodup.map_on ?_ (hnd s)
      intro o ho o' ho' e
      simp only [Prod.mk.injEq] at e
      exact Prod.ext e.2 (vox_inj (hin s o ho) (hin s o' ho') e.1)
    · refine List.Pairwise.imp_of_mem ?_ (sides_nodup.filter _)
      intro s s' _ _ hne x hx hx'
      simp only [List.mem_map] at hx hx'
      obtain ⟨o, ho, rfl⟩ := hx
      obtain ⟨o', ho', e⟩ := hx'
      simp only [Prod.mk.injEq] at e
      have : o' = o := Prod.ext e.2 (vox_inj (hin s' o' ho') (hin s o ho) e.1)
      subst this
      exact hne (hdis s s' o' ho ho')
  obtain ⟨h1, h2⟩ := runSeq_writes L hn m
  rw [hL]
  constructor
  · intro s hs o ho Rd hdep hR
    refine h1 _ ((hmem _).mpr ⟨s, hs, o, ho, rfl⟩) Rd hdep ?_
    intro w' hw' hne
    obtain ⟨s', hs', o', ho', rfl⟩ := (hmem _).mp hw'
    refine hR s' o' ho' ?_
    rintro rfl
    exact hne rfl
  · intro x hx
    refine h2 x ?_
    intro w hw
    obtain ⟨s, hs, o, ho, rfl⟩ := (hmem w).mp hw
    exact hx s hs o ho

end Verif.Field
