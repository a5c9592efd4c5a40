import Verif.Common.Interleave

/-!
# Coarse steps refine to fine steps

If every step of a pipeline, in the states in which it can be taken, does what a sequence of smaller
steps does, then every interleaving of the coarse steps is an interleaving of the smaller ones.
-/
namespace Verif.Simd

variable {M S : Type*}

/-- A sequence of small steps of one pipeline, taken without interruption. -/
lemma runs_seq_prefix (l : List (M → M)) (pre post : List (List (M → M))) (t : List (M → M)) :
    ∀ m m' : M, Runs (pre ++ t :: post) (runSeq l m) m' → Runs (pre ++ (l ++ t) :: post) m m' := by
  induction l with
  | nil => intro m m' h; exact h
  | cons f l ih =>
    intro m m' h
    exact Runs.step pre post f (l ++ t) m m' (ih (f m) m' h)

theorem runs_refine (big : S → M → M) (small : S → List (M → M)) (Inv : List (List S) → M → Prop)
    (hstep : ∀ pre post s t m, Inv (pre ++ (s :: t) :: post) m →
      big s m = runSeq (small s) m ∧ Inv (pre ++ t :: post) (big s m)) :
    ∀ (ts : List (List S)) (m m' : M), Runs (ts.map (List.map big)) m m' → Inv ts m →
      Runs (ts.map (List.flatMap small)) m m' := by
  intro ts m m' h
  generalize hts : ts.map (List.map big) = us at h
  induction h generalizing ts with
  | done us m hd =>
    intro _
    subst hts
    refine Runs.done _ _ fun t ht => ?_
    obtain ⟨s, hs, rfl⟩ := List.mem_map.mp ht
    have := hd _ (List.mem_map_of_mem hs)
    rw [List.map_eq_nil_iff] at this
    subst this
    rfl
  | step pre post f t m m' _ ih =>
    intro hI
    obtain ⟨pre', rest, rfl, hp, hr⟩ := List.map_eq_append_iff.mp hts
    obtain ⟨st, post', rfl, hst, hpost⟩ := List.map_eq_cons_iff.mp hr
    obtain ⟨s, t', rfl, hs, ht⟩ := List.map_eq_cons_iff.mp hst
    obtain ⟨e, hI'⟩ := hstep pre' post' s t' m hI
    have := ih (pre' ++ t' :: post') (by simp [hp, hpost, ht]) (by rw [← hs]; exact hI')
    rw [← hs, e] at this
    simp only [List.map_append, List.map_cons, List.flatMap_cons] at this ⊢
    exact runs_seq_prefix (small s) _ _ _ m m' this

end Verif.Simd
