import Mathlib.Data.List.Basic
import Mathlib.Data.List.Perm.Basic
import Mathlib.Data.List.Nodup
import Mathlib.Tactic.Cases
import Mathlib.Tactic.Linarith
import Mathlib.Tactic.Ring

/-!
# Memory, loops and parallel phases

Shared vocabulary of the models.  An array is a function from indices to values; its allocated size
is passed to every access, and an access outside of it yields `none`.
-/
namespace Verif

/-- Store `b` at index `a`. -/
def put {β : Type*} (m : ℤ → β) (a : ℤ) (b : β) : ℤ → β := fun x => if x = a then b else m x

/-- Indices visited by `for( k=i; k<i1; k++ )`. -/
def seg (i i1 : ℤ) : List ℤ := (List.range (i1 - i).toNat).map fun (k : ℕ) => i + (k : ℤ)

/-- Indices visited by `for( s=a; s<n; s+=P )`; empty when `P = 0` (C would loop forever; every
user has `P ≥ 1`). -/
def strided (a n P : ℕ) : List ℕ :=
  if _h : a < n ∧ 0 < P then a :: strided (a + P) n P else []
termination_by n - a

/-- Read `m[i..i1-1]` of an array of `size` elements; `none` if out of bounds. -/
def readSeg {β : Type*} (size : ℤ) (m : ℤ → β) (i i1 : ℤ) : Option (List β) :=
  if i < i1 ∧ (i < 0 ∨ size < i1) then none else some ((seg i i1).map m)

/-- Perform a list of stores, in order, on an array of `size` elements; `none` if out of bounds. -/
def applyLog {β : Type*} (size : ℤ) : List (ℤ × β) → (ℤ → β) → Option (ℤ → β)
  | [], m => some m
  | (a, b) :: w, m => if 0 ≤ a ∧ a < size then applyLog size w (put m a b) else none

/-- An order in which the stores of concurrently running pipelines reach memory.  Each pipeline
contributes its list of stores; the schedule merges them.  Every interleaving is a permutation of
all the stores, so quantifying over `Sched` covers every interleaving (and more). -/
structure Sched (β : Type*) where
  run : List (List β) → List β
  perm : ∀ l, (run l).Perm l.flatten

/-- The sequential schedule. -/
def Sched.seq (β : Type*) : Sched β := ⟨List.flatten, fun _ => List.Perm.refl _⟩

/-- The schedule in which pipelines run one after the other in reverse order. -/
def Sched.rev (β : Type*) : Sched β :=
  ⟨fun l => l.reverse.flatten, fun l => (List.reverse_perm l).flatten⟩

lemma Sched.mem {β : Type*} (s : Sched β) (l : List (List β)) (x : β) :
    x ∈ s.run l ↔ ∃ w ∈ l, x ∈ w := by
  rw [(s.perm l).mem_iff, List.mem_flatten]

@[simp] lemma put_self {β : Type*} (m : ℤ → β) (a : ℤ) (b : β) : put m a b a = b := by simp [put]

lemma put_ne {β : Type*} (m : ℤ → β) {a x : ℤ} (b : β) (h : x ≠ a) : put m a b x = m x := by
  simp [put, h]

lemma mem_seg {i i1 x : ℤ} : x ∈ seg i i1 ↔ i ≤ x ∧ x < i1 := by
  simp only [seg, List.mem_map, List.mem_range]
  constructor
  · rintro ⟨k, hk, rfl⟩; omega
  · rintro ⟨h1, h2⟩; exact ⟨(x - i).toNat, by omega, by omega⟩

lemma seg_nil {i i1 : ℤ} (h : i1 ≤ i) : seg i i1 = [] := by
  simp [seg, Int.toNat_of_nonpos (by omega : i1 - i ≤ 0)]

lemma seg_nodup (i i1 : ℤ) : (seg i i1).Nodup := by
  refine List.Nodup.map ?_ List.nodup_range
  intro a b h
  simpa using h

lemma length_seg (i i1 : ℤ) : (seg i i1).length = (i1 - i).toNat := by simp [seg]

lemma seg_append {a b c : ℤ} (h1 : a ≤ b) (h2 : b ≤ c) : seg a b ++ seg b c = seg a c := by
  unfold seg
  have : (c - a).toNat = (b - a).toNat + (c - b).toNat := by omega
  rw [this, List.range_add, List.map_append, List.map_map]
  congr 1
  apply List.map_congr_left
  intro k _
  simp only [Function.comp, Nat.cast_add]
  omega

lemma seg_cons {a c : ℤ} (h : a < c) : seg a c = a :: seg (a + 1) c := by
  rw [← seg_append (show a ≤ a + 1 by omega) (by omega : a + 1 ≤ c)]
  have : seg a (a + 1) = [a] := by simp [seg]
  rw [this]; rfl

lemma seg_snoc {a c : ℤ} (h : a ≤ c) : seg a (c + 1) = seg a c ++ [c] := by
  rw [← seg_append h (by omega : c ≤ c + 1)]
  simp [seg]

lemma seg_getElem? {a c : ℤ} (j : ℕ) (h : a + j < c) : (seg a c)[j]? = some (a + j) := by
  have : j < (c - a).toNat := by omega
  simp [seg, this]

lemma mem_strided {a n P x : ℕ} (hP : 0 < P) :
    x ∈ strided a n P ↔ a ≤ x ∧ x < n ∧ (x - a) % P = 0 := by
  induction' hk : n - a using Nat.strong_induction_on with k ih generalizing a
  rw [strided]
  split
  · rename_i h
    rw [List.mem_cons, ih (n - (a + P)) (by omega) rfl]
    constructor
    · rintro (rfl | ⟨h1, h2, h3⟩)
      · simp; omega
      · refine ⟨by omega, h2, ?_⟩
        have : x - a = (x - (a + P)) + P := by omega
        rw [this, Nat.add_mod_right]; exact h3
    · rintro ⟨h1, h2, h3⟩
      by_cases hx : x = a
      · exact Or.inl hx
      · right
        have hle : P ≤ x - a := by
          by_contra hc
          rw [Nat.mod_eq_of_lt (by omega)] at h3; omega
        refine ⟨by omega, h2, ?_⟩
        have : x - a = (x - (a + P)) + P := by omega
        rw [this, Nat.add_mod_right] at h3; exact h3
  · rename_i h
    simp only [List.not_mem_nil, false_iff]
    omega

lemma strided_nodup {a n P : ℕ} : (strided a n P).Nodup := by
  induction' hk : n - a using Nat.strong_induction_on with k ih generalizing a
  rw [strided]
  split
  · rename_i h
    rw [List.nodup_cons]
    refine ⟨?_, ih (n - (a + P)) (by omega) rfl⟩
    rw [mem_strided h.2]; omega
  · exact List.nodup_nil

/-- Stores that all agree with a function `f` (so that their order does not matter). -/
lemma applyLog_agree {β : Type*} (size : ℤ) (f : ℤ → β) (W : List (ℤ × β)) (m : ℤ → β)
    (h : ∀ w ∈ W, 0 ≤ w.1 ∧ w.1 < size ∧ w.2 = f w.1) :
    ∃ m', applyLog size W m = some m' ∧
      (∀ a, (∃ b, (a, b) ∈ W) → m' a = f a) ∧ (∀ a, (¬ ∃ b, (a, b) ∈ W) → m' a = m a) := by
  induction W generalizing m with
  | nil => exact ⟨m, rfl, by simp, by simp⟩
  | cons w W ih =>
    obtain ⟨a, b⟩ := w
    obtain ⟨h1, h2, h3⟩ := h (a, b) (by simp)
    obtain ⟨m', e, p1, p2⟩ := ih (put m a b) (fun w hw => h w (by simp [hw]))
    refine ⟨m', by simp only [applyLog]; rw [if_pos ⟨h1, h2⟩]; exact e, ?_, ?_⟩
    · rintro x ⟨y, hy⟩
      by_cases hx : ∃ b, (x, b) ∈ W
      · exact p1 x hx
      · rw [p2 x hx]
        rw [List.mem_cons] at hy
        rcases hy with hy | hy
        · rw [Prod.mk.injEq] at hy
          obtain ⟨rfl, rfl⟩ := hy
          rw [put_self]; exact h3
        · exact absurd ⟨y, hy⟩ hx
    · intro x hx
      have hx' : ¬ ∃ b, (x, b) ∈ W := fun ⟨b, hb⟩ => hx ⟨b, by simp [hb]⟩
      rw [p2 x hx']
      apply put_ne
      rintro rfl
      exact hx ⟨b, by simp⟩

end Verif
