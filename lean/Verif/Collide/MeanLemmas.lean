import Verif.Collide.Mean

/-!
# Lemmas about averages

The possible results of a run as a tree; the average over the numbers is the average over the tree.
-/
namespace Verif.Collide
open Verif.Collision Verif.SortP MeasureTheory

/-- Results that depend on comparisons of uniform numbers with thresholds. -/
inductive Tree (X : Type) where
  | leaf (x : X)
  | node (ρ : ℝ) (lo hi : Tree X)

namespace Tree
variable {X : Type}

def Perfect : Tree X → ℕ → Prop
  | leaf _, n => n = 0
  | node ρ lo hi, n => ∃ k, n = k + 1 ∧ 0 ≤ ρ ∧ ρ ≤ 1 ∧ lo.Perfect k ∧ hi.Perfect k

noncomputable def eval : Tree X → List ℝ → X
  | leaf x, _ => x
  | node _ lo _, [] => lo.eval []
  | node ρ lo hi, r :: rs => if ρ < r then hi.eval rs else lo.eval rs

def avg (Φ : X → ℝ) : Tree X → ℝ
  | leaf x => Φ x
  | node ρ lo hi => ρ * lo.avg Φ + (1 - ρ) * hi.avg Φ

def bind (f : X → Tree X) : Tree X → Tree X
  | leaf x => f x
  | node ρ lo hi => node ρ (lo.bind f) (hi.bind f)

def All (P : X → Prop) : Tree X → Prop
  | leaf x => P x
  | node _ lo hi => lo.All P ∧ hi.All P

lemma all_of_eval {P : X → Prop} : ∀ (t : Tree X) {n : ℕ}, t.Perfect n → (∀ rs : List ℝ, rs.length = n → P (t.eval rs)) → t.All P
  | leaf _, n, h, hp => hp [] (by simpa [Perfect] using h.symm)
  | node ρ lo hi, n, ⟨k, h1, _, _, h4, h5⟩, hp => by
    subst h1
    refine ⟨all_of_eval lo h4 fun rs hr => ?_, all_of_eval hi h5 fun rs hr => ?_⟩
    · have := hp (ρ :: rs) (by simp [hr])
      simpa [eval] using this
    · have := hp ((ρ + 1) :: rs) (by simp [hr])
      simpa [eval] using this

lemma avg_le {P : X → Prop} {Φ Ψ : X → ℝ} (hle : ∀ x, P x → Φ x ≤ Ψ x) : ∀ (t : Tree X) {n : ℕ}, t.Perfect n → t.All P →
    t.avg Φ ≤ t.avg Ψ
  | leaf x, _, _, hp => hle x hp
  | node ρ lo hi, n, ⟨k, _, h2, h3, h4, h5⟩, hp => by
    have a := avg_le hle lo h4 hp.1
    have b := avg_le hle hi h5 hp.2
    exact add_le_add (mul_le_mul_of_nonneg_left a h2) (mul_le_mul_of_nonneg_left b (by linarith))

lemma avg_const {P : X → Prop} {Φ : X → ℝ} {c : ℝ} (hc : ∀ x, P x → Φ x = c) : ∀ (t : Tree X), t.All P → t.avg Φ = c
  | leaf x, hp => hc x hp
  | node ρ lo hi, hp => by
    rw [avg, avg_const hc lo hp.1, avg_const hc hi hp.2]
    ring

lemma avg_bind (Φ : X → ℝ) (f : X → Tree X) : ∀ (t : Tree X), (t.bind f).avg Φ = t.avg fun x => (f x).avg Φ
  | leaf _ => rfl
  | node ρ lo hi => by rw [bind, avg, avg_bind Φ f lo, avg_bind Φ f hi, avg]

lemma perfect_bind {f : X → Tree X} {m : ℕ} {P : X → Prop} (hf : ∀ x, P x → (f x).Perfect m) : ∀ (t : Tree X) {n : ℕ}, t.Perfect n →
    t.All P → (t.bind f).Perfect (n + m)
  | leaf x, n, h, hp => by
    have : n = 0 := h
    subst this
    rw [Nat.zero_add]
    exact hf x hp
  | node ρ lo hi, n, ⟨k, h1, h2, h3, h4, h5⟩, hp =>
    ⟨k + m, by omega, h2, h3, perfect_bind hf lo h4 hp.1, perfect_bind hf hi h5 hp.2⟩

lemma eval_bind (f : X → Tree X) : ∀ (t : Tree X) {n : ℕ}, t.Perfect n → ∀ rs rs' : List ℝ, rs.length = n →
    (t.bind f).eval (rs ++ rs') = (f (t.eval rs)).eval rs'
  | leaf x, n, h, rs, rs', hr => by
    have h0 : n = 0 := h
    have : rs = [] := List.eq_nil_of_length_eq_zero (by omega)
    subst this
    rfl
  | node ρ lo hi, n, ⟨k, h1, _, _, h4, h5⟩, rs, rs', hr => by
    cases rs with
    | nil => simp at hr; omega
    | cons r rs =>
      simp only [List.length_cons] at hr
      rw [bind, List.cons_append, eval, eval]
      split_ifs
      · exact eval_bind f hi h5 rs rs' (by omega)
      · exact eval_bind f lo h4 rs rs' (by omega)

end Tree

lemma integral_step (ρ X Y : ℝ) (h0 : 0 ≤ ρ) (h1 : ρ ≤ 1) :
    ∫ r in (0 : ℝ)..1, (if ρ < r then X else Y) = ρ * Y + (1 - ρ) * X := by
  have e1 : Set.EqOn (fun _ : ℝ => Y) (fun r : ℝ => if ρ < r then X else Y) (Set.uIoc 0 ρ) := by
    intro r hr
    rw [Set.uIoc_of_le h0] at hr
    exact (if_neg (not_lt.2 hr.2)).symm
  have e2 : Set.EqOn (fun _ : ℝ => X) (fun r : ℝ => if ρ < r then X else Y) (Set.uIoc ρ 1) := by
    intro r hr
    rw [Set.uIoc_of_le h1] at hr
    exact (if_pos hr.1).symm
  have i1 : IntervalIntegrable (fun r : ℝ => if ρ < r then X else Y) volume 0 ρ :=
    (intervalIntegrable_const (c := Y)).congr e1
  have i2 : IntervalIntegrable (fun r : ℝ => if ρ < r then X else Y) volume ρ 1 :=
    (intervalIntegrable_const (c := X)).congr e2
  rw [← intervalIntegral.integral_add_adjacent_intervals i1 i2,
    intervalIntegral.integral_congr_ae (Filter.Eventually.of_forall fun r hr => (e1 hr).symm),
    intervalIntegral.integral_congr_ae (Filter.Eventually.of_forall fun r hr => (e2 hr).symm)]
  simp

lemma mean_congr (n : ℕ) : ∀ {F G : List ℝ → ℝ}, (∀ rs, rs.length = n → F rs = G rs) → mean n F = mean n G := by
  induction n with
  | zero => intro F G h; exact h [] rfl
  | succ n ih =>
    intro F G h
    unfold mean
    congr 1
    funext r
    exact ih fun rs hr => h _ (by simp [hr])

lemma mean_tree {X : Type} (Φ : X → ℝ) : ∀ (t : Tree X) {n : ℕ}, t.Perfect n → mean n (fun rs => Φ (t.eval rs)) = t.avg Φ
  | .leaf x, n, h => by
    have : n = 0 := h
    subst this
    rfl
  | .node ρ lo hi, n, ⟨k, h1, h2, h3, h4, h5⟩ => by
    subst h1
    rw [mean, Tree.avg, ← mean_tree Φ lo h4, ← mean_tree Φ hi h5, ← integral_step _ _ _ h2 h3]
    congr 1
    funext r
    split_ifs with h
    · refine mean_congr k fun rs _ => ?_
      rw [Tree.eval, if_pos h]
    · refine mean_congr k fun rs _ => ?_
      rw [Tree.eval, if_neg h]

end Verif.Collide
