import Verif.Common.Interleave

/-!
# Sweeps

A sweep is a set of elementary updates spread over concurrently running pipelines.  When every update
is performed once and no update reads or writes what another one writes, the result of every
interleaving is known: each address gets the value its update computes from the initial memory.
-/
namespace Verif

/-- Updates `L`, distributed over pipelines as `ls`.  Update `o` writes `W o` and reads `W o` and `R`.
The write sets of different updates are disjoint, and nothing in `R` is written.  Whatever the
interleaving, an address written by `o` ends up as `o` alone would leave it, and the other addresses
are unchanged. -/
theorem runs_sweep {A O : Type*} {V : A → Type*} (step : O → Memory V → Memory V)
    (W : O → A → Prop) (R : A → Prop) (ls : List (List O)) (hn : ls.flatten.Nodup)
    (hl : ∀ o ∈ ls.flatten, Local (W o) R (step o))
    (hd : ∀ o ∈ ls.flatten, ∀ o' ∈ ls.flatten, o ≠ o' → ∀ x, W o x → ¬ W o' x)
    (hR : ∀ o ∈ ls.flatten, ∀ x, R x → ¬ W o x)
    (m m' : Memory V) (h : Runs (ls.map fun l => l.map step) m m') :
    (∀ o ∈ ls.flatten, ∀ x, W o x → m' x = step o m x) ∧
    ∀ x, (∀ o ∈ ls.flatten, ¬ W o x) → m' x = m x := by
  have hi : Independent (ls.map fun l => l.map step) := by
    unfold Independent
    rw [List.pairwise_map]
    have hn' := (List.nodup_flatten.mp hn).2
    refine List.Pairwise.imp_of_mem ?_ hn'
    intro l l' hm hm' hdis f hf g hg
    obtain ⟨o, ho, rfl⟩ := List.mem_map.mp hf
    obtain ⟨o', ho', rfl⟩ := List.mem_map.mp hg
    have h1 := List.mem_flatten.mpr ⟨l, hm, ho⟩
    have h2 := List.mem_flatten.mpr ⟨l', hm', ho'⟩
    have hne : o ≠ o' := fun e => hdis ho (e ▸ ho')
    exact (hl o h1).comm (hl o' h2) (hd o h1 o' h2 hne) (hR o' h2) (hR o h1)
  have e := runs_eq_seq h hi
  have e2 : (ls.map fun l => l.map step).flatten = ls.flatten.map step := by
    rw [List.map_flatten]
  rw [e2] at e
  have e3 : ((ls.flatten.map fun o => [step o])).flatten = ls.flatten.map step := by
    generalize ls.flatten = L
    induction L with
    | nil => rfl
    | cons a L ih => simp only [List.map_cons, List.flatten_cons, ih]; rfl
  have hs := runs_seq (ls.flatten.map fun o => [step o]) m
  rw [e3, ← e] at hs
  have := runs_footprint ls.flatten W R (fun o => [step o])
    (fun o ho f hf => by rw [List.mem_singleton] at hf; subst hf; exact hl o ho)
    (by
      refine List.Pairwise.imp_of_mem ?_ hn
      intro o o' ho ho' hne
      exact hd o ho o' ho' hne) hR m m' hs
  exact this

/-- The same for a single sequence of updates. -/
theorem seq_sweep {A O : Type*} {V : A → Type*} (step : O → Memory V → Memory V)
    (W : O → A → Prop) (R : A → Prop) (L : List O) (hn : L.Nodup)
    (hl : ∀ o ∈ L, Local (W o) R (step o))
    (hd : ∀ o ∈ L, ∀ o' ∈ L, o ≠ o' → ∀ x, W o x → ¬ W o' x)
    (hR : ∀ o ∈ L, ∀ x, R x → ¬ W o x) (m : Memory V) :
    (∀ o ∈ L, ∀ x, W o x → runSeq (L.map step) m x = step o m x) ∧
    ∀ x, (∀ o ∈ L, ¬ W o x) → runSeq (L.map step) m x = m x := by
  have hs := runs_seq [L.map step] m
  have e : ([L] : List (List O)).flatten = L := by simp
  have := runs_sweep step W R [L] (by rwa [e]) (by rwa [e]) (by rwa [e]) (by rwa [e]) m
    (runSeq (L.map step) m) (by simpa using hs)
  rwa [e] at this

end Verif
