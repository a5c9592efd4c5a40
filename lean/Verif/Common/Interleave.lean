import Mathlib.Data.List.Basic
import Mathlib.Data.List.Pairwise
import Mathlib.Logic.Function.Basic
import Mathlib.Data.Int.Basic
import Mathlib.Data.List.Nodup
import Mathlib.Tactic.Common

/-!
# Interleaved execution of pipelines

A memory assigns a value to every address.  A pipeline is a list of atomic steps.  `Runs` is the set
of all interleavings.  When steps of different pipelines commute, in particular when no pipeline
writes what another one reads or writes, every interleaving has the result of running the pipelines
one after the other.
-/
namespace Verif

/-- A memory over addresses `A` with values of type `V x` at `x`. -/
abbrev Memory {A : Type*} (V : A → Type*) := (x : A) → V x

/-- All interleavings of the pipelines `ts`: `Runs ts m m'` when some interleaving takes the memory
from `m` to `m'`.  (`EXEC_PIPELINES`…`WAIT_PIPELINES`, /repo/src/util/pipelines/pipelines_exec_pth.h:
all pipelines and the host run concurrently, and are waited for.) -/
inductive Runs {M : Type*} : List (List (M → M)) → M → M → Prop
  | done (ts : List (List (M → M))) (m : M) (h : ∀ t ∈ ts, t = []) : Runs ts m m
  | step (pre post : List (List (M → M))) (f : M → M) (t : List (M → M)) (m m' : M)
      (h : Runs (pre ++ t :: post) (f m) m') : Runs (pre ++ (f :: t) :: post) m m'

/-- Perform steps one after the other. -/
def runSeq {M : Type*} (t : List (M → M)) (m : M) : M := t.foldl (fun m f => f m) m

@[simp] lemma runSeq_nil {M : Type*} (m : M) : runSeq [] m = m := rfl

@[simp] lemma runSeq_cons {M : Type*} (f : M → M) (t : List (M → M)) (m : M) :
    runSeq (f :: t) m = runSeq t (f m) := rfl

lemma runSeq_append {M : Type*} (t t' : List (M → M)) (m : M) :
    runSeq (t ++ t') m = runSeq t' (runSeq t m) := by
  unfold runSeq; rw [List.foldl_append]

/-- Two steps commute. -/
def Comm {M : Type*} (f g : M → M) : Prop := ∀ m, f (g m) = g (f m)

/-- Steps of different pipelines commute. -/
def Independent {M : Type*} (ts : List (List (M → M))) : Prop :=
  ts.Pairwise fun t t' => ∀ f ∈ t, ∀ g ∈ t', Comm f g

lemma runSeq_comm {M : Type*} (f : M → M) (t : List (M → M)) (h : ∀ g ∈ t, Comm f g) (m : M) :
    runSeq t (f m) = f (runSeq t m) := by
  induction t generalizing m with
  | nil => rfl
  | cons g t ih =>
    have := h g (by simp) m
    rw [runSeq_cons, runSeq_cons, ← this]
    exact ih (fun g hg => h g (by simp [hg])) _

/-- Every interleaving of independent pipelines gives the result of the sequential execution. -/
theorem runs_eq_seq {M : Type*} {ts : List (List (M → M))} {m m' : M} (h : Runs ts m m')
    (hi : Independent ts) : m' = runSeq ts.flatten m := by
  induction h with
  | done ts m h =>
    have : ts.flatten = [] := List.flatten_eq_nil_iff.mpr h
    rw [this]; rfl
  | step pre post f t m m' _ ih =>
    have hi' : Independent (pre ++ t :: post) := by
      unfold Independent at hi ⊢
      rw [List.pairwise_append, List.pairwise_cons] at hi ⊢
      obtain ⟨h1, ⟨h2, h3⟩, h4⟩ := hi
      refine ⟨h1, ⟨fun b hb g hg => h2 b hb g (by simp [hg]), h3⟩, fun a ha b hb => ?_⟩
      rcases List.mem_cons.mp hb with rfl | hb
      · exact fun x hx g hg => h4 a ha (f :: b) (by simp) x hx g (by simp [hg])
      · exact h4 a ha b (by simp [hb])
    rw [ih hi']
    simp only [List.flatten_append, List.flatten_cons, runSeq_append, List.cons_append, runSeq_cons]
    congr 2
    apply runSeq_comm
    intro g hg
    obtain ⟨l, hl, hgl⟩ := List.mem_flatten.mp hg
    unfold Independent at hi
    rw [List.pairwise_append] at hi
    exact fun m => (hi.2.2 l hl (f :: t) (by simp) g hgl f (by simp) m).symm

/-- There is always an interleaving: running the pipelines in order. -/
theorem runs_seq {M : Type*} (ts : List (List (M → M))) (m : M) : Runs ts m (runSeq ts.flatten m) := by
  suffices h : ∀ (n : ℕ) (ts : List (List (M → M))) (m : M), (ts.flatten.length + ts.length = n) →
      ∀ pre : List (List (M → M)), (∀ t ∈ pre, t = []) →
      Runs (pre ++ ts) m (runSeq ts.flatten m) from h _ ts m rfl [] (by simp)
  intro n
  induction n with
  | zero =>
    intro ts m h pre hp
    have : ts = [] := by rw [← List.length_eq_zero_iff]; omega
    subst this
    simp only [List.append_nil, List.flatten_nil, runSeq_nil]
    exact Runs.done _ _ hp
  | succ n ih =>
    intro ts m h pre hp
    cases ts with
    | nil => simp only [List.append_nil, List.flatten_nil, runSeq_nil]; exact Runs.done _ _ hp
    | cons t ts =>
      cases t with
      | nil =>
        have := ih ts m (by simp only [List.flatten_cons, List.nil_append, List.length_cons] at h; omega) (pre ++ [[]]) (by
          intro t ht
          rcases List.mem_append.mp ht with h | h
          · exact hp t h
          · simpa using h)
        simpa using this
      | cons f t =>
        refine Runs.step pre ts f t m _ ?_
        exact ih (t :: ts) (f m) (by
          simp only [List.flatten_cons, List.cons_append, List.length_cons, List.length_append] at h ⊢
          omega) pre hp

/-- A step that writes only addresses in `F` and reads only addresses in `F` and `R`. -/
structure Local {A : Type*} {V : A → Type*} (F R : A → Prop) (f : Memory V → Memory V) : Prop where
  frame : ∀ m x, ¬ F x → f m x = m x
  dep : ∀ m m', (∀ x, F x ∨ R x → m x = m' x) → ∀ x, F x → f m x = f m' x

/-- Steps whose footprints do not interfere commute. -/
lemma Local.comm {A : Type*} {V : A → Type*} {F R F' R' : A → Prop} {f g : Memory V → Memory V}
    (hf : Local F R f) (hg : Local F' R' g) (h1 : ∀ x, F x → ¬ F' x) (h2 : ∀ x, R x → ¬ F' x)
    (h3 : ∀ x, R' x → ¬ F x) : Comm f g := by
  classical
  intro m
  funext x
  by_cases hx : F x
  · rw [hg.frame _ x (h1 x hx)]
    exact hf.dep _ _ (fun y hy => hg.frame _ y (by rcases hy with h | h; exacts [h1 y h, h2 y h]))
      x hx
  · rw [hf.frame _ x hx]
    by_cases hx' : F' x
    · refine (hg.dep _ _ (fun y hy => hf.frame _ y ?_) x hx').symm
      rcases hy with h | h
      · exact fun hF => h1 y hF h
      · exact h3 y h
    · rw [hg.frame _ x hx', hg.frame _ x hx', hf.frame _ x hx]

/-- Pipelines with pairwise disjoint footprints and a common read-only region are independent. -/
lemma independent_of_local {A : Type*} {V : A → Type*} {ι : Type*} (rs : List ι)
    (F : ι → A → Prop) (R : A → Prop) (ts : ι → List (Memory V → Memory V))
    (hl : ∀ r ∈ rs, ∀ f ∈ ts r, Local (F r) R f)
    (hd : rs.Pairwise fun r r' => ∀ x, F r x → ¬ F r' x) (hR : ∀ r ∈ rs, ∀ x, R x → ¬ F r x) :
    Independent (rs.map ts) := by
  unfold Independent
  rw [List.pairwise_map]
  induction rs with
  | nil => exact List.Pairwise.nil
  | cons r rs ih =>
    rw [List.pairwise_cons] at hd ⊢
    refine ⟨fun r' hr' f hf g hg => ?_, ih (fun r hr => hl r (by simp [hr])) hd.2
      (fun r hr => hR r (by simp [hr]))⟩
    exact (hl r (by simp) f hf).comm (hl r' (by simp [hr']) g hg) (hd.1 r' hr')
      (hR r' (by simp [hr'])) (hR r (by simp))

/-- A sequence of local steps is local. -/
lemma Local.runSeq {A : Type*} {V : A → Type*} {F R : A → Prop} (t : List (Memory V → Memory V))
    (ht : ∀ f ∈ t, Local F R f) (hR : ∀ x, R x → ¬ F x) : Local F R (runSeq t) := by
  induction t with
  | nil => exact ⟨fun _ _ _ => rfl, fun m m' h x hx => h x (Or.inl hx)⟩
  | cons f t ih =>
    have hf := ht f (by simp)
    have ht' := ih fun g hg => ht g (by simp [hg])
    constructor
    · intro m x hx
      rw [runSeq_cons, ht'.frame _ x hx, hf.frame _ x hx]
    · intro m m' h x hx
      rw [runSeq_cons, runSeq_cons]
      refine ht'.dep _ _ (fun y hy => ?_) x hx
      rcases hy with hy | hy
      · exact hf.dep _ _ h y hy
      · rw [hf.frame _ y (hR y hy), hf.frame _ y (hR y hy)]; exact h y (Or.inr hy)

/-- Pipelines with disjoint footprints: in every interleaving each footprint ends up as if its
pipeline had run alone, and nothing else changes. -/
theorem runs_footprint {A : Type*} {V : A → Type*} {ι : Type*} (rs : List ι)
    (F : ι → A → Prop) (R : A → Prop) (ts : ι → List (Memory V → Memory V))
    (hl : ∀ r ∈ rs, ∀ f ∈ ts r, Local (F r) R f)
    (hd : rs.Pairwise fun r r' => ∀ x, F r x → ¬ F r' x) (hR : ∀ r ∈ rs, ∀ x, R x → ¬ F r x)
    (m m' : Memory V) (h : Runs (rs.map ts) m m') :
    (∀ r ∈ rs, ∀ x, F r x → m' x = runSeq (ts r) m x) ∧
    ∀ x, (∀ r ∈ rs, ¬ F r x) → m' x = m x := by
  rw [runs_eq_seq h (independent_of_local rs F R ts hl hd hR)]
  clear h
  induction rs generalizing m with
  | nil => simp
  | cons r rs ih =>
    rw [List.pairwise_cons] at hd
    have hr := Local.runSeq (ts r) (hl r (by simp)) (hR r (by simp))
    obtain ⟨i1, i2⟩ := ih (fun r hr => hl r (by simp [hr])) hd.2 (fun r hr => hR r (by simp [hr]))
      (runSeq (ts r) m)
    simp only [List.map_cons, List.flatten_cons, runSeq_append]
    constructor
    · intro r' hr' x hx
      rcases List.mem_cons.mp hr' with rfl | hr'
      · exact i2 x fun r'' hr'' => hd.1 r'' hr'' x hx
      · rw [i1 r' hr' x hx]
        have hloc := Local.runSeq (ts r') (hl r' (by simp [hr'])) (hR r' (by simp [hr']))
        refine hloc.dep _ _ (fun y hy => hr.frame _ y ?_) x hx
        rcases hy with hy | hy
        · exact fun hF => hd.1 r' hr' y hF hy
        · exact hR r (by simp) y hy
    · intro x hx
      rw [i2 x fun r' hr' => hx r' (by simp [hr']), hr.frame _ x (hx r (by simp))]

/-- `for k in l: m[k] = φ k m[k]`, as steps. -/
def mapSteps {β : Type*} (φ : ℤ → β → β) (l : List ℤ) : List ((ℤ → β) → ℤ → β) :=
  l.map fun k m x => if x = k then φ k (m k) else m x

lemma runSeq_mapSteps {β : Type*} (φ : ℤ → β → β) (l : List ℤ) (hl : l.Nodup) (m : ℤ → β) (x : ℤ) :
    runSeq (mapSteps φ l) m x = if x ∈ l then φ x (m x) else m x := by
  induction l generalizing m with
  | nil => simp [mapSteps]
  | cons k l ih =>
    rw [List.nodup_cons] at hl
    have := ih hl.2 (fun x => if x = k then φ k (m k) else m x)
    simp only [mapSteps, List.map_cons, runSeq_cons] at this ⊢
    rw [this]
    by_cases hx : x = k
    · subst hx; simp [hl.1]
    · simp [hx]

/-- Pipelines that update distinct elements of an array: whatever the interleaving, the result is
the elementwise update of the elements visited. -/
theorem runs_map {β : Type*} (φ : ℤ → β → β) (ls : List (List ℤ)) (hn : ls.flatten.Nodup)
    (m m' : ℤ → β) (h : Runs (ls.map (mapSteps φ)) m m') (x : ℤ) :
    m' x = if x ∈ ls.flatten then φ x (m x) else m x := by
  have hi : Independent (ls.map (mapSteps φ)) := by
    refine independent_of_local (V := fun _ : ℤ => β) ls (fun l x => x ∈ l) (fun _ => False) _ ?_ ?_
      (by simp)
    · intro l _ f hf
      obtain ⟨k, hk, rfl⟩ := List.mem_map.mp hf
      constructor
      · intro m x hx
        have : x ≠ k := fun e => hx (e ▸ hk)
        simp [this]
      · intro m m' hm x hx
        by_cases hxk : x = k
        · subst hxk; simp [hm x (Or.inl hx)]
        · simp [hxk, hm x (Or.inl hx)]
    · rw [List.nodup_flatten] at hn
      exact hn.2.imp fun hd x hx hx' => hd hx hx'
  rw [runs_eq_seq h hi]
  have : (ls.map (mapSteps φ)).flatten = mapSteps φ ls.flatten := by
    simp only [mapSteps, List.map_flatten]
    rfl
  rw [this, runSeq_mapSteps φ _ hn]

end Verif
