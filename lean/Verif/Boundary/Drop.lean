import Verif.Boundary.Model
import Verif.AdvanceP.Props
import Verif.Deposit.Props

/-!
# C11 and C14: removal of the particles of the mover list with backfill
-/
namespace Verif.Boundary

open Grid (LGrid Cell VOXEL)
open MoveP (Part Mover Accum MState moveP nvox LocalMesh)
open Deposit (accumulateRhob InCell nodeAmount share)
open Distribute (upTo)
open AdvanceP (moverList)

section
variable {K : Type}

/-! ### Specification -/

/-- Spec: the particles of the list, in the order of the array. -/
def live (p : ℤ → Part K) (np : ℕ) : List (Part K) := (upTo np).map p

/-- Spec: the particles not named by a mover, in the order of the array. -/
def unnamed (p : ℤ → Part K) (np : ℕ) (ms : List (Mover K)) : List (Part K) :=
  ((upTo np).filter fun i => i ∉ ms.map Mover.i).map p

/-- Spec: the mover list is strictly increasing and names particles of the list. -/
def Ordered (np : ℕ) (ms : List (Mover K)) : Prop :=
  (ms.map Mover.i).Pairwise (· < ·) ∧ ∀ m ∈ ms, 0 ≤ m.i ∧ m.i < np

/-- Spec: the particles named by the movers, in processing order (from the last mover), with what remains of their
displacement. -/
def named (p : ℤ → Part K) (ms : List (Mover K)) : List (Part K × (Fin 3 → K)) :=
  ms.reverse.map fun m => (p m.i, m.disp)

/-! ### Backfill -/

lemma upTo_succ (n : ℕ) : upTo (n + 1) = upTo n ++ [(n : ℤ)] := by
  simp [upTo, List.range_succ]

lemma mem_upTo {n : ℕ} {i : ℤ} : i ∈ upTo n ↔ 0 ≤ i ∧ i < n := by
  simp only [upTo, List.mem_map, List.mem_range]
  constructor
  · rintro ⟨k, hk, rfl⟩; omega
  · rintro ⟨h0, h1⟩; exact ⟨i.toNat, by omega, by omega⟩

lemma upTo_nodup (n : ℕ) : (upTo n).Nodup :=
  List.Nodup.map (fun a b h => by simpa using h) List.nodup_range

lemma map_put_perm {α : Type*} (p : ℤ → α) (x : α) (i : ℤ) (l : List ℤ) (hn : l.Nodup) (hi : i ∈ l) :
    (p i :: l.map (put p i x)).Perm (x :: l.map p) := by
  induction l with
  | nil => simp at hi
  | cons a l ih =>
    rw [List.nodup_cons] at hn
    rw [List.map_cons, List.map_cons]
    by_cases h : i = a
    · subst h
      have e : l.map (put p i x) = l.map p := by
        apply List.map_congr_left
        intro b hb
        have : b ≠ i := fun e => hn.1 (e ▸ hb)
        simp [put, this]
      rw [e]
      simp only [put, if_true]
      exact List.Perm.swap _ _ _
    · have h1 := ih hn.2 (by simpa [h] using hi)
      have e : put p i x a = p a := by simp [put, Ne.symm h]
      rw [e]
      exact (List.Perm.swap _ _ _).trans ((h1.cons (p a)).trans (List.Perm.swap _ _ _))

/-- One removal. -/
lemma live_backfill (p : ℤ → Part K) (np : ℕ) (i : ℤ) (h0 : 0 ≤ i) (h1 : i < np) (y : Part K) :
    (live p np).Perm (p i :: live (put (put p i y) i ((put p i y) (np - 1 : ℕ))) (np - 1)) := by
  obtain ⟨n, rfl⟩ : ∃ n, np = n + 1 := ⟨np - 1, by omega⟩
  rw [Nat.add_sub_cancel]
  unfold live
  rw [upTo_succ, List.map_append]
  have pp : ∀ x, put (put p i y) i x = put p i x := by
    intro x; funext j; unfold put; split <;> rfl
  rw [pp]
  by_cases h : i = n
  · subst h
    have e : (upTo n).map (put p n (put p n y n)) = (upTo n).map p := by
      apply List.map_congr_left
      intro j hj
      have := mem_upTo.mp hj
      have : j ≠ n := by omega
      simp [put, this]
    rw [e]
    exact List.perm_append_comm
  · have e : put p i y n = p n := by simp [put, show ((n : ℕ) : ℤ) ≠ i from fun e => h e.symm]
    rw [e]
    refine List.Perm.trans ?_ (map_put_perm p (p n) i (upTo n) (upTo_nodup n)
      (mem_upTo.mpr (by omega))).symm
    exact List.perm_append_comm

lemma perm_named_unnamed (p : ℤ → Part K) (np : ℕ) (ms : List (Mover K)) (h : Ordered np ms) :
    (live p np).Perm ((named p ms).map Prod.fst ++ unnamed p np ms) := by
  unfold live named unnamed
  have h1 : (upTo np).Perm (ms.reverse.map Mover.i ++ (upTo np).filter fun i => i ∉ ms.map Mover.i) := by
    apply (List.perm_ext_iff_of_nodup (upTo_nodup np) _).mpr
    · intro i
      simp only [List.mem_append, List.mem_map, List.mem_reverse, List.mem_filter]
      constructor
      · intro hi
        by_cases hm : ∃ m ∈ ms, m.i = i
        · exact Or.inl hm
        · exact Or.inr ⟨hi, by simpa using hm⟩
      · rintro (⟨m, hm, rfl⟩ | hh)
        · exact mem_upTo.mpr (h.2 m hm)
        · exact hh.1
    · rw [List.nodup_append]
      refine ⟨?_, (upTo_nodup np).filter _, ?_⟩
      · rw [List.map_reverse, List.nodup_reverse]
        exact h.1.imp fun h => ne_of_lt h
      · intro a ha b hb e
        subst e
        simp only [List.map_reverse, List.mem_reverse] at ha
        have := (List.mem_filter.mp hb).2
        simp only [decide_not, Bool.not_eq_true', decide_eq_false_iff_not] at this
        exact this ha
  have h2 := h1.map p
  rw [List.map_append] at h2
  simpa [List.map_map, Function.comp_def] using h2

variable [Field K] [LinearOrder K]

/-- The loop over the movers, by cases of what the handling of the particles does: it handles the particles as they were
before the loop, from the last mover to the first, and what is left is, up to order, the particles not named. -/
theorem dropMovers_spec {σ : Type*} (act : Part K → (Fin 3 → K) → σ → Option σ) (max_np : ℕ) (pm : ℤ → Mover K)
    (nm : ℕ) (p : ℤ → Part K) (np : ℕ) (hnp : np ≤ max_np) (h : Ordered np (moverList pm nm)) :
    nm ≤ np ∧ ∃ p', (live p' (np - nm)).Perm (unnamed p np (moverList pm nm)) ∧ ∀ s,
      dropMovers act max_np pm nm p np s =
        ((named p (moverList pm nm)).foldlM (fun s x => act x.1 x.2 s) s).map fun s' => (p', np - nm, s') := by
  suffices H : nm ≤ np ∧ ∃ p', (live p np).Perm ((named p (moverList pm nm)).map Prod.fst ++ live p' (np - nm)) ∧ ∀ s,
      dropMovers act max_np pm nm p np s =
        ((named p (moverList pm nm)).foldlM (fun s x => act x.1 x.2 s) s).map fun s' => (p', np - nm, s') by
    obtain ⟨h1, p', h2, h3⟩ := H
    refine ⟨h1, p', ?_, h3⟩
    exact (List.perm_append_left_iff _).mp (h2.symm.trans (perm_named_unnamed p np _ h))
  induction nm generalizing p np with
  | zero => exact ⟨by omega, p, by simp [named, moverList], fun _ => rfl⟩
  | succ k ih =>
    have ml : moverList pm (k + 1) = moverList pm k ++ [pm k] := by simp [moverList, List.range_succ]
    obtain ⟨h1, h2⟩ := h
    rw [ml] at h1 h2
    rw [List.map_append, List.pairwise_append] at h1
    obtain ⟨hi0, hi1⟩ := h2 (pm k) (by simp)
    have hlt : ∀ m ∈ moverList pm k, m.i < (pm k).i := fun m hm =>
      h1.2.2 m.i (List.mem_map_of_mem hm) (pm k).i (by simp)
    set i := (pm k).i with hi
    set y : Part K := { p i with i := (p i).i / 8 } with hy
    have hO : Ordered (np - 1) (moverList pm k) := ⟨h1.1, fun m hm => by
      have := hlt m hm
      have := h2 m (by simp [hm])
      omega⟩
    have nd : named (put (put p i y) i ((put p i y) (np - 1 : ℕ))) (moverList pm k) = named p (moverList pm k) := by
      unfold named
      apply List.map_congr_left
      intro m hm
      have := hlt m (by simpa using hm)
      have : m.i ≠ i := by omega
      simp [put, this]
    have nd' : named p (moverList pm (k + 1)) = (p i, (pm k).disp) :: named p (moverList pm k) := by
      rw [ml]; simp [named, hi]
    have hc : ¬ (i < 0 ∨ (max_np : ℤ) ≤ i ∨ np = 0) := by omega
    have e1 : np - (k + 1) = np - 1 - k := by omega
    rw [e1, nd']
    obtain ⟨a0, p', k1, k2⟩ := ih (put (put p i y) i ((put p i y) (np - 1 : ℕ))) (np - 1) (by omega) hO
    rw [nd] at k1 k2
    refine ⟨by omega, p', ?_, ?_⟩
    · refine (live_backfill p np i hi0 hi1 y).trans ?_
      rw [List.map_cons, List.cons_append]
      exact k1.cons _
    · intro s
      rw [dropMovers]
      simp only [← hi]
      rw [if_neg hc, List.foldlM_cons]
      show (act (p i) (pm k).disp s).bind _ = Option.map _ ((act (p i) (pm k).disp s).bind _)
      cases act (p i) (pm k).disp s with
      | none => rfl
      | some s1 => exact k2 s1

end
end Verif.Boundary
