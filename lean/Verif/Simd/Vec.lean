import Verif.Simd.Model
import Verif.AdvanceP.Lemmas
import Mathlib.Data.Fintype.BigOperators
import Mathlib.Tactic.FinCases
import Mathlib.Tactic.IntervalCases

/-!
# Lemmas about short vectors and increments of accumulators
-/
namespace Verif.Simd

open MoveP Boris Grid AdvanceP

section
variable {w : ℕ} {α : Type*}

lemma foldl_swapAt (l : List (Fin w × Fin w)) (hn : l.Nodup) (hlt : ∀ x ∈ l, x.1 < x.2) :
    ∀ (M : Fin w → Vec w α) (i j : Fin w),
      l.foldl swapAt M i j = if (i, j) ∈ l ∨ (j, i) ∈ l then M j i else M i j := by
  induction l with
  | nil => intro M i j; simp
  | cons x l ih =>
    intro M i j
    rw [List.nodup_cons] at hn
    rw [List.foldl_cons, ih hn.2 (fun y hy => hlt y (List.mem_cons_of_mem _ hy))]
    have hx := hlt x List.mem_cons_self
    simp only [List.mem_cons]
    by_cases h1 : (i, j) = x
    · subst h1
      have h2 : (j, i) ∉ l := fun h => by
        have := hlt _ (List.mem_cons_of_mem _ h)
        simp only at this hx; exact absurd this (not_lt.mpr hx.le)
      rw [if_neg (by rintro (h | h); exacts [hn.1 h, h2 h]), if_pos (Or.inl (Or.inl rfl))]
      simp [swapAt]
    · by_cases h2 : (j, i) = x
      · subst h2
        have h3 : (i, j) ∉ l := fun h => by
          have := hlt _ (List.mem_cons_of_mem _ h)
          simp only at this hx; exact absurd this (not_lt.mpr hx.le)
        rw [if_neg (by rintro (h | h); exacts [h3 h, hn.1 h]), if_pos (Or.inr (Or.inl rfl))]
        simp only [swapAt, if_neg h1, if_true]
      · have e1 : swapAt M x i j = M i j := by simp only [swapAt, if_neg h1, if_neg h2]
        have e2 : swapAt M x j i = M j i := by simp only [swapAt, if_neg h1, if_neg h2]
        rw [e1, e2]
        have : ((i, j) ∈ l ∨ (j, i) ∈ l) ↔ (((i, j) = x ∨ (i, j) ∈ l) ∨ ((j, i) = x ∨ (j, i) ∈ l)) := by
          tauto
        simp only [this]

lemma swPairs_mem (i j : Fin w) : (i, j) ∈ swPairs w ↔ i < j := by
  simp [swPairs]

lemma swPairs_nodup : (swPairs w).Nodup := by
  unfold swPairs
  rw [List.nodup_flatMap]
  constructor
  · intro i _
    exact ((List.nodup_finRange w).filter _).map (fun a b h => by simpa using h)
  · refine (List.nodup_finRange w).imp ?_
    intro a b hab
    simp only [Function.onFun, List.disjoint_left]
    intro x hx hx'
    simp only [List.mem_map, List.mem_filter, List.mem_finRange] at hx hx'
    obtain ⟨_, _, rfl⟩ := hx
    obtain ⟨_, _, h⟩ := hx'
    exact hab (by simpa using (Prod.mk.inj h).1.symm)

/-- The exchanges of `transpose` do transpose. -/
theorem transpose_apply (M : Fin w → Vec w α) (i j : Fin w) : transpose M i j = M j i := by
  unfold transpose
  rw [foldl_swapAt _ swPairs_nodup (fun x hx => (swPairs_mem x.1 x.2).mp hx)]
  rcases lt_trichotomy i j with h | h | h
  · rw [if_pos (Or.inl ((swPairs_mem i j).mpr h))]
  · subst h; simp
  · rw [if_pos (Or.inr ((swPairs_mem j i).mpr h))]

end

section
variable {K : Type*} [Field K]

/-- What one increment adds to float `k` of its accumulator. -/
def contrib (x : Incr K) (k : ℕ) : K :=
  if x.off ≤ k then (match x.vals[k - x.off]? with | some y => y | none => 0) else 0

lemma doIncrs_eq (S : ℕ) (l : List (Incr K)) (hl : ∀ x ∈ l, x.off + x.vals.length ≤ S) :
    ∀ a : Accum K, doIncrs S l a =
      some fun v k => a v k + (l.map fun x => if v = x.v then contrib x (k : ℕ) else 0).sum := by
  induction l with
  | nil => intro a; simp [doIncrs]
  | cons x l ih =>
    intro a
    have ih' := ih (fun y hy => hl y (List.mem_cons_of_mem _ hy))
    unfold doIncrs at ih' ⊢
    rw [List.foldlM_cons]
    simp only [doIncr, if_pos (hl x List.mem_cons_self), Option.bind_eq_bind, Option.bind_some]
    refine (ih' (fun v k => if v = x.v then a v k + contrib x (k : ℕ) else a v k)).trans ?_
    congr 1
    funext v k
    simp only [List.map_cons, List.sum_cons, contrib]
    by_cases h : v = x.v
    · simp only [if_pos h]; ring
    · simp only [if_neg h]; ring

lemma contrib_ofFn (v : ℤ) (o n : ℕ) (f : Fin n → K) (k : ℕ) :
    contrib ⟨v, o, List.ofFn f⟩ k = if h : o ≤ k ∧ k - o < n then f ⟨k - o, h.2⟩ else 0 := by
  unfold contrib
  simp only
  by_cases h1 : o ≤ k
  · rw [if_pos h1]
    by_cases h2 : k - o < n
    · rw [dif_pos ⟨h1, h2⟩]; simp [h2]
    · rw [dif_neg (fun h => h2 h.2)]
      have : (List.ofFn f)[k - o]? = none := by simp; omega
      rw [this]
  · rw [if_neg h1, dif_neg (fun h => h1 h.1)]

/-- The twelve amounts of a lane. -/
def laneJ {w : ℕ} (jx jy jz : Fin 4 → Vec w K) (l : Fin w) : Fin 12 → K :=
  ![jx 0 l, jx 1 l, jx 2 l, jx 3 l, jy 0 l, jy 1 l, jy 2 l, jy 3 l, jz 0 l, jz 1 l, jz 2 l, jz 3 l]

lemma map_sum_finRange {w : ℕ} (f : Fin w → K) : ((List.finRange w).map f).sum = ∑ i, f i := by
  rw [← List.ofFn_eq_map, List.sum_ofFn]

lemma increments4_eq (ii : Vec 4 ℤ) (jx jy jz : Fin 4 → Vec 4 K) (a : Accum K) :
    doIncrs 12 (increments4 ii jx jy jz) a =
      some fun v k => a v k + ∑ l, if v = ii l then laneJ jx jy jz l k else 0 := by
  rw [doIncrs_eq]
  · congr 1
    funext v k
    congr 1
    simp only [increments4, List.map_append, List.map_map, List.sum_append, Function.comp_def,
      contrib_ofFn, map_sum_finRange, ← Finset.sum_add_distrib]
    refine Finset.sum_congr rfl fun l _ => ?_
    by_cases h : v = ii l
    · simp only [if_pos h, transpose_apply]
      fin_cases k <;> simp [laneJ]
    · simp only [if_neg h]; ring
  · intro x hx
    simp only [increments4, List.mem_append, List.mem_map] at hx
    rcases hx with ⟨l, _, rfl⟩ | ⟨l, _, rfl⟩ | ⟨l, _, rfl⟩ <;> simp

lemma pick8 (jx jy jz : Fin 4 → Vec 8 K) (l : Fin 8) (k : Fin 12) (h : (k : ℕ) < 8) :
    (![jx 0, jx 1, jx 2, jx 3, jy 0, jy 1, jy 2, jy 3] : Fin 8 → Vec 8 K) ⟨(k : ℕ) - 0, h⟩ l = laneJ jx jy jz l k := by
  obtain ⟨k, hk⟩ := k
  interval_cases k <;> first | rfl | exact absurd h (by decide)

lemma pick8' (jx jy jz : Fin 4 → Vec 8 K) (l : Fin 8) (k : Fin 12) (h : 8 ≤ (k : ℕ)) :
    (![jz 0, jz 1, jz 2, jz 3, splat 0, splat 0, splat 0, splat 0] : Fin 8 → Vec 8 K) ⟨(k : ℕ) - 8, by omega⟩ l =
      laneJ jx jy jz l k := by
  obtain ⟨k, hk⟩ := k
  interval_cases k <;> first | rfl | exact absurd h (by decide)

lemma pick16 (jx jy jz : Fin 4 → Vec 16 K) (l : Fin 16) (k : Fin 12) (h : (k : ℕ) < 16) :
    (![jx 0, jx 1, jx 2, jx 3, jy 0, jy 1, jy 2, jy 3, jz 0, jz 1, jz 2, jz 3,
      splat 0, splat 0, splat 0, splat 0] : Fin 16 → Vec 16 K) ⟨(k : ℕ) - 0, h⟩ l = laneJ jx jy jz l k := by
  obtain ⟨k, hk⟩ := k
  interval_cases k <;> rfl

lemma increments8_eq (ii : Vec 8 ℤ) (jx jy jz : Fin 4 → Vec 8 K) (a : Accum K) :
    doIncrs 16 (increments8 ii jx jy jz) a =
      some fun v k => a v k + ∑ l, if v = ii l then laneJ jx jy jz l k else 0 := by
  rw [doIncrs_eq]
  · congr 1
    funext v k
    congr 1
    rw [increments8, List.map_append, List.map_map, List.map_map, List.sum_append, map_sum_finRange, map_sum_finRange,
      ← Finset.sum_add_distrib]
    refine Finset.sum_congr rfl fun l _ => ?_
    dsimp only [Function.comp_apply]
    rw [contrib_ofFn, contrib_ofFn]
    by_cases h : v = ii l
    · rw [if_pos h, if_pos h, if_pos h]
      simp only [transpose_apply]
      by_cases hk : (k : ℕ) < 8
      · rw [dif_pos ⟨Nat.zero_le _, hk⟩, dif_neg (fun h => absurd h.1 (by omega)), add_zero]
        exact pick8 _ _ _ _ _ hk
      · rw [dif_neg (fun h => hk h.2), dif_pos ⟨by omega, by omega⟩, zero_add]
        exact pick8' _ _ _ _ _ (by omega)
    · rw [if_neg h, if_neg h, if_neg h, add_zero]
  · intro x hx
    simp only [increments8, List.mem_append, List.mem_map] at hx
    rcases hx with ⟨l, _, rfl⟩ | ⟨l, _, rfl⟩ <;> rw [List.length_ofFn]
    show 0 + 8 ≤ 16
    omega

lemma increments16_eq (ii : Vec 16 ℤ) (jx jy jz : Fin 4 → Vec 16 K) (a : Accum K) :
    doIncrs 16 (increments16 ii jx jy jz) a =
      some fun v k => a v k + ∑ l, if v = ii l then laneJ jx jy jz l k else 0 := by
  rw [doIncrs_eq]
  · congr 1
    funext v k
    congr 1
    rw [increments16, List.map_map, map_sum_finRange]
    refine Finset.sum_congr rfl fun l _ => ?_
    dsimp only [Function.comp_apply]
    rw [contrib_ofFn]
    by_cases h : v = ii l
    · rw [if_pos h, if_pos h, dif_pos ⟨Nat.zero_le _, by omega⟩]
      simp only [transpose_apply]
      exact pick16 _ _ _ _ _ (by omega)
    · rw [if_neg h, if_neg h]
  · intro x hx
    simp only [increments16, List.mem_map] at hx
    rcases hx with ⟨l, _, rfl⟩
    rw [List.length_ofFn]

/-- All increments of a block together add, lane by lane, the twelve amounts of the lane to the
accumulator of its cell, and stay inside of the accumulators. -/
theorem increments_eq (W : Width) (ii : Vec W.lanes ℤ) (jx jy jz : Fin 4 → Vec W.lanes K)
    (a : Accum K) :
    doIncrs W.accFloats (increments W ii jx jy jz) a =
      some fun v k => a v k + ∑ l, if v = ii l then laneJ jx jy jz l k else 0 := by
  cases W
  exacts [increments4_eq ii jx jy jz a, increments8_eq ii jx jy jz a, increments16_eq ii jx jy jz a]

end

end Verif.Simd
