import Verif.Turnstile.Model
import Mathlib.Tactic.Ring
import Mathlib.Algebra.BigOperators.Group.Finset.Basic
import Mathlib.Algebra.Order.BigOperators.Group.Finset
import Mathlib.Data.Finset.Card

/-!
# Properties of the turnstile (C50)
-/
namespace Verif.Turnstile

/-- Invariant of all runs. -/
structure Inv (n N : ℕ) (s : St) : Prop where
  behind : ∀ r, r + n < N → (s.pc (r + n) ≠ .start ∨ 0 < s.mail (r + n)) → s.pc r = .done
  passed : ∀ r, r + n < N → s.pc r = .done → s.pc (r + n) ≠ .start ∨ 0 < s.mail (r + n)
  mail : ∀ r, 0 < s.mail r → s.pc r = .start ∧ s.mail r = 1 ∧ n ≤ r
  sending : ∀ r, s.pc r = .sending → r + n < N

lemma inv_init (n N : ℕ) : Inv n N init := by
  constructor <;> simp [init]

lemma inv_step {n N : ℕ} (hn : 0 < n) {s s' : St} (h : Inv n N s) (hs : Step n N s s') : Inv n N s' := by
  obtain ⟨hb, hp, hm, hse⟩ := h
  cases hs <;> constructor <;> intro q <;> simp only [upd] <;> grind

lemma inv_run {n N : ℕ} (hn : 0 < n) {k : ℕ} {s : St} (h : Run n N k s) : Inv n N s := by
  induction h with
  | zero => exact inv_init n N
  | succ _ hs ih => exact inv_step hn ih hs

lemma all_behind {n N : ℕ} {s : St} (h : Inv n N s) (r : ℕ) : ∀ k, 0 < k → r + k * n < N →
    s.pc (r + k * n) ≠ .start → s.pc r = .done := by
  intro k
  induction k with
  | zero => intro h; omega
  | succ k ih =>
    intro _ hN hs
    have h1 := h.behind (r + k * n) (by rw [add_assoc, ← Nat.succ_mul]; exact hN)
      (Or.inl (by rw [add_assoc, ← Nat.succ_mul]; exact hs))
    rcases Nat.eq_zero_or_pos k with rfl | hk
    · simpa using h1
    · exact ih hk (by rw [Nat.succ_mul] at hN; omega) (by rw [h1]; simp)

/-- **C50**, exclusion: at every moment of every run at most `n` ranks are in the section. -/
theorem at_most_n_inside (n N : ℕ) (hn : 0 < n) (k : ℕ) (s : St) (h : Run n N k s) :
    ((Finset.range N).filter fun r => s.pc r = .inside).card ≤ n := by
  have hi := inv_run hn h
  have hinj : Set.InjOn (fun r => r % n) (((Finset.range N).filter fun r => s.pc r = .inside) : Set ℕ) := by
    have key : ∀ a b, a < b → b < N → s.pc a = .inside → s.pc b = .inside → a % n ≠ b % n := by
      intro a b hab hb h1 h2 h3
      have hd : (b - a) % n = 0 := Nat.sub_mod_eq_zero_of_mod_eq h3.symm
      have hm := Nat.div_add_mod (b - a) n
      rw [hd, Nat.add_zero, Nat.mul_comm] at hm
      have hba : b = a + (b - a) / n * n := by omega
      have hk : 0 < (b - a) / n := by
        rcases Nat.eq_zero_or_pos ((b - a) / n) with h0 | h0
        · rw [h0] at hm; omega
        · exact h0
      have := all_behind hi a ((b - a) / n) hk (by omega) (by rw [← hba, h2]; simp)
      rw [h1] at this; exact absurd this (by simp)
    intro a ha b hb hab
    simp only [Finset.coe_filter, Finset.mem_range, Set.mem_setOf_eq] at ha hb
    rcases lt_trichotomy a b with h1 | h1 | h1
    · exact absurd hab (key a b h1 hb.1 ha.2 hb.2)
    · exact h1
    · exact absurd hab.symm (key b a h1 ha.1 hb.2 ha.2)
  have := Finset.card_le_card_of_injOn (t := Finset.range n) (fun r => r % n)
    (fun r _ => by simpa using Nat.mod_lt r hn) hinj
  simpa using this

/-- Spec: steps that do not need MPI to buffer a message. -/
def Unbuffered (n N : ℕ) (s s' : St) : Prop :=
  Step n N s s' ∧ ∀ r, s'.mail r ≤ s.mail r

/-- **C50**, no deadlock: in every reachable state where some rank has not passed yet, some rank can
make a step, even if MPI does not buffer any further message. -/
theorem no_deadlock (n N : ℕ) (hn : 0 < n) (k : ℕ) (s : St) (h : Run n N k s) :
    (∀ r < N, s.pc r = .done) ∨ ∃ s', Unbuffered n N s s' := by
  classical
  have hi := inv_run hn h
  by_cases hall : ∀ r < N, s.pc r = .done
  · exact Or.inl hall
  · right
    push Not at hall
    have hex : ∃ r, r < N ∧ s.pc r ≠ .done := hall
    obtain ⟨hr, hne⟩ := Nat.find_spec hex
    have hmin : ∀ q < Nat.find hex, s.pc q = .done := by
      intro q hq
      by_contra hq2
      exact Nat.find_min hex hq ⟨by omega, hq2⟩
    set r := Nat.find hex
    cases hpc : s.pc r with
    | done => exact absurd hpc hne
    | inside => exact ⟨_, .leave s r hr hpc, fun _ => le_rfl⟩
    | sending =>
      have h1 := hi.sending r hpc
      have h2 : s.pc (r + n) = .start := by
        by_contra h3
        exact hne (hi.behind r h1 (Or.inl h3))
      have h3 : s.mail (r + n) = 0 := by
        by_contra h4
        exact hne (hi.behind r h1 (Or.inr (by omega)))
      exact ⟨_, .rendezvous s r hr h1 hpc h2 (by omega) (by omega) h3, fun _ => le_rfl⟩
    | start =>
      by_cases hrn : n ≤ r
      · have h1 := hi.passed (r - n) (by omega) (hmin _ (by omega))
        rw [Nat.sub_add_cancel hrn] at h1
        rcases h1 with h1 | h1
        · exact absurd hpc h1
        · refine ⟨_, .recv s r hr hrn hpc h1, fun q => ?_⟩
          simp only [upd]; split
          · subst_vars; omega
          · exact le_rfl
      · exact ⟨_, .enter s r hr hrn hpc, fun _ => le_rfl⟩

/-- Progress of a rank. -/
def rankOf : Pc → ℕ
  | .start => 0
  | .inside => 1
  | .sending => 2
  | .done => 3

lemma rankOf_le (p : Pc) : rankOf p ≤ 3 := by cases p <;> decide

lemma sum_upd (N r : ℕ) (hr : r < N) (f : ℕ → Pc) (p : Pc) :
    ∑ q ∈ Finset.range N, rankOf (upd f r p q) + rankOf (f r) =
      ∑ q ∈ Finset.range N, rankOf (f q) + rankOf p := by
  have hm : r ∈ Finset.range N := Finset.mem_range.mpr hr
  rw [← Finset.add_sum_erase _ _ hm, ← Finset.add_sum_erase (Finset.range N) (fun q => rankOf (f q)) hm]
  have : ∑ q ∈ (Finset.range N).erase r, rankOf (upd f r p q) =
      ∑ q ∈ (Finset.range N).erase r, rankOf (f q) := by
    refine Finset.sum_congr rfl fun q hq => ?_
    rw [upd, if_neg (Finset.ne_of_mem_erase hq)]
  rw [this]
  simp only [upd, if_true]
  omega

lemma step_progress {n N : ℕ} {s s' : St} (h : Step n N s s') :
    ∑ q ∈ Finset.range N, rankOf (s.pc q) < ∑ q ∈ Finset.range N, rankOf (s'.pc q) := by
  cases h with
  | enter r hr _ hst =>
    have := sum_upd N r hr s.pc .inside
    simp only [hst, rankOf] at this ⊢; omega
  | recv r hr _ hst =>
    have := sum_upd N r hr s.pc .inside
    simp only [hst, rankOf] at this ⊢; omega
  | leave r hr hst =>
    have := sum_upd N r hr s.pc (if r + n < N then .sending else .done)
    have h2 : 2 ≤ rankOf (if r + n < N then .sending else .done) := by split <;> decide
    simp only [hst] at this ⊢
    have h3 : rankOf Pc.inside = 1 := rfl
    omega
  | send r hr hst =>
    have := sum_upd N r hr s.pc .done
    simp only [hst, rankOf] at this ⊢; omega
  | rendezvous r hr hrn h1 h2 _ hne =>
    have e1 := sum_upd N r hr s.pc .done
    have e2 := sum_upd N (r + n) hrn (upd s.pc r .done) .inside
    have h3 : upd s.pc r .done (r + n) = .start := by rw [upd, if_neg (by omega)]; exact h2
    rw [h3] at e2
    simp only [h1, rankOf] at e1 e2 ⊢; omega

/-- **C50**, termination: no run has more than `3 N` steps, so together with `no_deadlock` every run
that is continued as long as possible ends with all ranks behind the section. -/
theorem runs_are_finite (n N k : ℕ) (s : St) (h : Run n N k s) : k ≤ 3 * N := by
  have h1 : k ≤ ∑ q ∈ Finset.range N, rankOf (s.pc q) := by
    induction h with
    | zero => simp
    | succ _ hs ih => have := step_progress hs; omega
  have h2 : ∑ q ∈ Finset.range N, rankOf (s.pc q) ≤ ∑ _q ∈ Finset.range N, 3 :=
    Finset.sum_le_sum fun q _ => rankOf_le _
  simp at h2; omega

/-- A run that cannot be continued is complete. -/
theorem every_rank_passes (n N : ℕ) (hn : 0 < n) (k : ℕ) (s : St) (h : Run n N k s)
    (hstop : ∀ s', ¬ Unbuffered n N s s') : ∀ r < N, s.pc r = .done :=
  (no_deadlock n N hn k s h).resolve_right fun ⟨s', h'⟩ => hstop s' h'

/-- Messages match: a complete run leaves no message behind. -/
theorem no_message_left (n N : ℕ) (hn : 0 < n) (k : ℕ) (s : St) (h : Run n N k s)
    (hd : ∀ r < N, s.pc r = .done) : ∀ r < N, s.mail r = 0 := by
  intro r hr
  by_contra hm
  have := (inv_run hn h).mail r (by omega)
  rw [hd r hr] at this
  exact absurd this.1 (by simp)

/-- The restriction to `n > 0` is needed: with zero turnstiles every rank waits for itself. -/
theorem zero_turnstiles_hang (N : ℕ) : ∀ s', ¬ Step 0 N init s' := by
  intro s' h
  cases h <;> simp_all [init]

/-- Three ranks, two turnstiles: ranks 0 and 1 inside, rank 2 waiting, is reachable. -/
example : ∃ s, Run 2 3 2 s ∧ s.pc 0 = .inside ∧ s.pc 1 = .inside ∧ s.pc 2 = .start :=
  ⟨_, (Run.zero.succ (.enter _ 0 (by decide) (by decide) rfl)).succ
    (.enter _ 1 (by decide) (by decide) rfl), rfl, rfl, rfl⟩

end Verif.Turnstile
