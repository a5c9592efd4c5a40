import Verif.SfInterface.Reduce
import Verif.Distribute.Props
import Verif.Boris.Props
import Mathlib.Algebra.BigOperators.Intervals
import Mathlib.Algebra.BigOperators.Fin
import Mathlib.Tactic.Ring
import Mathlib.Tactic.Linarith
import Mathlib.Tactic.IntervalCases

/-!
# C34, C35: reducing and clearing the private arrays
-/
namespace Verif.SfInterface

open Distribute (Rounding distribute items allItems)
open Grid (VOXEL)

variable {K : Type*} [Field K]

lemma opSum_eq (c : ℕ) (hc : c ≤ 9) (v : ℕ → K) :
    opSum c v = v 0 + ∑ r ∈ Finset.range c, v (r + 1) := by
  interval_cases c <;> simp [opSum, Finset.sum_range_succ] <;> ring

/-- One pass over the elements of a pipeline. -/
lemma pass_run (a sr r0 : ℤ) (n : ℤ) (c : ℕ) (hc : c ≤ 9) (hsr : n ≤ sr) (hr0 : -1 ≤ r0)
    (js : List ℤ) (hnd : js.Nodup) (hjs : ∀ j ∈ js, 0 ≤ j ∧ j < n) (m : ℤ → K) (x : ℤ) :
    runSeq (js.map fun j => redOp a sr r0 c j) m x =
      if x - a ∈ js then m x + ∑ q ∈ Finset.range c, m (x + (r0 + 2 + q) * sr) else m x := by
  induction js generalizing m with
  | nil => simp
  | cons j js ih =>
    rw [List.nodup_cons] at hnd
    have hj := hjs j (by simp)
    rw [List.map_cons, runSeq_cons, ih hnd.2 fun j hj => hjs j (by simp [hj])]
    have hread : ∀ (j' : ℤ) (q : ℕ), 0 ≤ j' → a + j' + (r0 + 2 + q) * sr ≠ a + j := by
      intro j' q h'
      have : 1 * sr ≤ (r0 + 2 + q) * sr := mul_le_mul_of_nonneg_right (by omega) (by omega)
      omega
    have hop : ∀ y, redOp a sr r0 c j m y = if y = a + j then m (a + j) +
        ∑ q ∈ Finset.range c, m (a + j + (r0 + 2 + q) * sr) else m y := by
      intro y
      unfold redOp put
      split_ifs
      · rw [opSum_eq c hc]
        simp only [if_true]
        congr 1
        refine Finset.sum_congr rfl fun q _ => ?_
        rw [if_neg (by omega)]
        congr 1
        unfold bIndex
        push_cast
        ring
      · rfl
    by_cases hx : x - a ∈ js
    · have hxj : x ≠ a + j := by rintro rfl; exact hnd.1 (by simpa using hx)
      rw [if_pos hx, if_pos (by simp [hx]), hop x, if_neg hxj]
      congr 1
      refine Finset.sum_congr rfl fun q _ => ?_
      rw [hop, if_neg]
      have := hread (x - a) q (hjs _ (by simp [hx])).1
      rwa [show a + (x - a) = x by ring] at this
    · rw [if_neg hx, hop]
      by_cases hxj : x = a + j
      · subst hxj; simp
      · rw [if_neg hxj, if_neg]
        simp only [List.mem_cons, not_or]
        exact ⟨by omega, hx⟩

lemma mem_passes (nr : ℕ) : ∀ (r0 : ℤ), -1 ≤ r0 → ∀ rc ∈ passes nr r0,
    rc.2 ≤ 9 ∧ -1 ≤ rc.1 ∧ rc.1 + rc.2 ≤ r0 + nr := by
  induction' nr using Nat.strong_induction_on with nr ih
  intro r0 h0 rc hrc
  rw [passes] at hrc
  split at hrc
  · simp at hrc
  · rename_i hn
    simp only [List.mem_cons] at hrc
    rcases hrc with rfl | hrc
    · simp only; split <;> omega
    · have := ih _ (by split <;> omega) _ (by omega) rc hrc
      split at this <;> omega

/-- All passes over the elements of a pipeline. -/
lemma passes_run (a sr : ℤ) (n : ℤ) (hsr : n ≤ sr) (js : List ℤ) (hnd : js.Nodup)
    (hjs : ∀ j ∈ js, 0 ≤ j ∧ j < n) (nr : ℕ) : ∀ (r0 : ℤ), -1 ≤ r0 → ∀ (m : ℤ → K) (x : ℤ),
    runSeq (((passes nr r0).flatMap fun rc => js.map fun j => (rc.1, rc.2, j)).map
        fun x => redOp a sr x.1 x.2.1 x.2.2) m x =
      if x - a ∈ js then m x + ∑ q ∈ Finset.range nr, m (x + (r0 + 2 + q) * sr) else m x := by
  induction' nr using Nat.strong_induction_on with nr ih
  intro r0 h0 m x
  rw [passes]
  split
  · rename_i h; subst h; simp
  · rename_i hn
    simp only [List.flatMap_cons, List.map_append, List.map_map, runSeq_append]
    set c := if nr ≤ 8 then nr else 9 with hc
    have hc9 : c ≤ 9 ∧ 0 < c ∧ c ≤ nr := by rw [hc]; split <;> omega
    have hp := pass_run a sr r0 n c hc9.1 hsr h0 js hnd hjs m
    have e : (js.map ((fun x : ℤ × ℕ × ℤ => redOp (K := K) a sr x.1 x.2.1 x.2.2) ∘ fun j => (r0, c, j))) =
        js.map fun j => redOp a sr r0 c j := rfl
    rw [e, ih (nr - c) (by omega) (r0 + c) (by omega)]
    by_cases hx : x - a ∈ js
    · rw [if_pos hx, if_pos hx, hp x, if_pos hx]
      have hrest : ∀ q : ℕ, runSeq (js.map fun j => redOp a sr r0 c j) m (x + (r0 + c + 2 + q) * sr) =
          m (x + (r0 + c + 2 + q) * sr) := by
        intro q
        rw [hp, if_neg]
        intro hmem
        have h1 := hjs _ hmem
        have h2 := hjs _ hx
        have : 1 * sr ≤ (r0 + c + 2 + q) * sr := mul_le_mul_of_nonneg_right (by omega) (by omega)
        omega
      simp only [hrest]
      rw [add_assoc]
      congr 1
      obtain ⟨d, hd⟩ : ∃ d, nr = c + d := ⟨nr - c, by omega⟩
      rw [show nr - c = d by omega, show Finset.range nr = Finset.range (c + d) by rw [hd],
        Finset.sum_range_add]
      congr 1
      refine Finset.sum_congr rfl fun q _ => ?_
      congr 1
      push_cast
      ring
    · rw [if_neg hx, if_neg hx, hp x, if_neg hx]

/-- The elements of the pipelines and the host: all elements below `n`, each in exactly one list. -/
lemma items_split (R : Rounding) (hR : R.Accurate) (n b P : ℕ) (hn : n < 2 ^ 31) (hb : 0 < b)
    (hP : 0 < P) (hP2 : P ≤ 2 ^ 16) : ∃ js : ℕ → List ℤ,
    (∀ p, items (distribute R n b p P) = some (js p)) ∧
    ((List.range (P + 1)).map js).flatten = Distribute.upTo n := by
  have h := Distribute.distribute_exact R hR n b P hn hb hP hP2
  have hs : ∀ p, ∃ l, items (distribute R n b p P) = some l := by
    intro p
    unfold distribute
    rw [if_neg (by omega)]
    exact ⟨_, rfl⟩
  choose js hjs using hs
  refine ⟨js, hjs, ?_⟩
  unfold allItems at h
  simp only [hjs] at h
  rw [Distribute.mapM_some _ _ js (fun _ _ => rfl)] at h
  simpa using h

/-- Storage that is large enough and private copies that do not overlap. -/
structure RedArgs.Ok (A : RedArgs) : Prop where
  arr : 1 ≤ A.nArray
  base : 0 ≤ A.a
  disj : (A.n : ℤ) ≤ A.sArray
  fits : A.a + ((A.nArray : ℤ) - 1) * A.sArray + A.n ≤ A.size

/-- The index arithmetic of the reduction fits an `int`. -/
def RedArgs.Fits (A : RedArgs) : Prop := ((A.nArray : ℤ) - 2) * A.sArray + A.n ≤ 2 ^ 31

lemma upTo_mem {n : ℕ} {j : ℤ} : j ∈ Distribute.upTo n ↔ 0 ≤ j ∧ j < n := by
  simp only [Distribute.upTo, Distribute.iota, List.mem_map, List.mem_range]
  constructor
  · rintro ⟨k, hk, rfl⟩; omega
  · rintro ⟨h1, h2⟩; exact ⟨j.toNat, by omega, by omega⟩

lemma upTo_nodup (n : ℕ) : (Distribute.upTo n).Nodup := by
  refine List.Nodup.map ?_ List.nodup_range
  intro a b h
  simpa using h

/-- Reducing adds up all private copies, whatever the block size of the distribution. -/
lemma reduceB_sums (b : ℕ) (hb : 0 < b) (R : Rounding) (hR : R.Accurate) (A : RedArgs) (hA : A.Ok)
    (hF : A.Fits) (P : ℕ) (hn : A.n < 2 ^ 31) (hP : 0 < P) (hP2 : P ≤ 2 ^ 16) (m : ℤ → K) :
    (∃ m', ReduceB b R A P m m') ∧ ∀ m', ReduceB b R A P m m' → ∀ x,
      m' x = if A.a ≤ x ∧ x < A.a + A.n then ∑ r ∈ Finset.range A.nArray, m (x + r * A.sArray)
        else m x := by
  obtain ⟨js, hjs, hfl⟩ := items_split R hR A.n b P hn hb hP hP2
  have hmem : ∀ p < P + 1, ∀ j ∈ js p, 0 ≤ j ∧ j < A.n := by
    intro p hp j hj
    rw [← upTo_mem, ← hfl]
    exact List.mem_flatten.mpr ⟨_, List.mem_map.mpr ⟨p, List.mem_range.mpr hp, rfl⟩, hj⟩
  have hnd := upTo_nodup A.n
  rw [← hfl, List.nodup_flatten] at hnd
  obtain ⟨hnd1, hnd2⟩ := hnd
  rw [List.pairwise_map] at hnd2
  have hndp : ∀ p < P + 1, (js p).Nodup := fun p hp =>
    hnd1 _ (List.mem_map.mpr ⟨p, List.mem_range.mpr hp, rfl⟩)
  set prog : ℕ → List (ℤ × ℕ × ℤ) := fun p =>
    (passes (A.nArray - 1) (-1)).flatMap fun rc => (js p).map fun j => (rc.1, rc.2, j) with hprog
  have h1 := hA.arr
  have h2 := hA.base
  have h3 := hA.disj
  have h4 := hA.fits
  have h5 := hF
  unfold RedArgs.Fits at h5
  have hs0 : 0 ≤ A.sArray := by omega
  have hok : ∀ p < P + 1, ((prog p).all fun x => redOk A.size A.a A.sArray x.1 x.2.1 x.2.2) = true := by
    intro p hp
    rw [List.all_eq_true]
    rintro ⟨r0, c, j⟩ hx
    obtain ⟨rc, hrc, hx⟩ := List.mem_flatMap.mp hx
    obtain ⟨j', hj', hx⟩ := List.mem_map.mp hx
    obtain ⟨rfl, rfl, rfl⟩ : rc.1 = r0 ∧ rc.2 = c ∧ j' = j := by simpa using hx
    have hb := mem_passes _ _ (by omega) rc hrc
    have hj := hmem p hp j' hj'
    unfold redOk
    simp only [Bool.and_eq_true, List.all_eq_true, List.mem_range, decide_eq_true_eq]
    have hN : 0 ≤ ((A.nArray : ℤ) - 1) * A.sArray := mul_nonneg (by omega) hs0
    refine ⟨by omega, fun r hr => ?_⟩
    unfold bIndex
    have l1 : 0 ≤ ((↑(r + 1) : ℤ) + rc.1) * A.sArray := mul_nonneg (by push_cast; omega) hs0
    have l2 : A.sArray + ((↑(r + 1) : ℤ) + rc.1) * A.sArray ≤ ((A.nArray : ℤ) - 1) * A.sArray := by
      have : (1 + ((↑(r + 1) : ℤ) + rc.1)) * A.sArray ≤ ((A.nArray : ℤ) - 1) * A.sArray :=
        mul_le_mul_of_nonneg_right (by push_cast; omega) hs0
      linarith
    have l3 : ((A.nArray : ℤ) - 2) * A.sArray = ((A.nArray : ℤ) - 1) * A.sArray - A.sArray := by ring
    rw [l3] at h5
    generalize ((↑(r + 1) : ℤ) + rc.1) * A.sArray = y at *
    generalize ((A.nArray : ℤ) - 1) * A.sArray = z at *
    refine ⟨by omega, by omega, by omega, by omega⟩
  have hrank : ∀ p < P + 1, reduceRankB (K := K) b R A p P =
      some ((prog p).map fun x => redOp A.a A.sArray x.1 x.2.1 x.2.2) := by
    intro p hp
    unfold reduceRankB
    rw [hjs, Option.bind_some]
    exact if_pos (hok p hp)
  have hts : (List.range (P + 1)).mapM (fun p => reduceRankB (K := K) b R A p P) =
      some ((List.range (P + 1)).map fun p => (prog p).map fun x => redOp A.a A.sArray x.1 x.2.1 x.2.2) := by
    exact Distribute.mapM_some _ _ _ fun p hp => hrank p (List.mem_range.mp hp)
  refine ⟨⟨_, _, hts, runs_seq _ _⟩, ?_⟩
  rintro m' ⟨ts, e, hrun⟩ x
  obtain rfl := Option.some.inj (hts.symm.trans e)
  have hfoot := runs_footprint (V := fun _ : ℤ => K) (List.range (P + 1)) (fun p x => x - A.a ∈ js p)
    (fun x => ¬ (A.a ≤ x ∧ x < A.a + A.n))
    (fun p => (prog p).map fun x => redOp A.a A.sArray x.1 x.2.1 x.2.2) ?_ ?_ ?_ m m' hrun
  · obtain ⟨f1, f2⟩ := hfoot
    split
    · rename_i hx
      have : x - A.a ∈ Distribute.upTo A.n := upTo_mem.mpr (by omega)
      rw [← hfl] at this
      obtain ⟨l, hl, hxl⟩ := List.mem_flatten.mp this
      obtain ⟨p, hp, rfl⟩ := List.mem_map.mp hl
      rw [f1 p hp x hxl]
      have hp' := List.mem_range.mp hp
      rw [passes_run A.a A.sArray A.n h3 (js p) (hndp p hp') (hmem p hp') _ _ (by omega), if_pos hxl]
      obtain ⟨N, hN⟩ : ∃ N, A.nArray = N + 1 := ⟨A.nArray - 1, by omega⟩
      rw [hN, Finset.sum_range_succ', Nat.add_sub_cancel, add_comm]
      simp only [Nat.cast_zero, zero_mul, add_zero]
      congr 1
      refine Finset.sum_congr rfl fun q _ => ?_
      congr 1
      push_cast
      ring
    · rename_i hx
      exact f2 x fun p hp hxp => hx (by
        have := hmem p (List.mem_range.mp hp) _ hxp
        omega)
  · intro p hp f hf
    obtain ⟨⟨r0, c, j⟩, hx, rfl⟩ := List.mem_map.mp hf
    obtain ⟨rc, hrc, hx⟩ := List.mem_flatMap.mp hx
    obtain ⟨j', hj', hx⟩ := List.mem_map.mp hx
    obtain ⟨rfl, rfl, rfl⟩ : rc.1 = r0 ∧ rc.2 = c ∧ j' = j := by simpa using hx
    have hb := mem_passes _ _ (by omega) rc hrc
    have hj := hmem p (List.mem_range.mp hp) j' hj'
    constructor
    · intro m x hx
      have : x ≠ A.a + j' := by rintro rfl; exact hx (by simpa using hj')
      exact put_ne _ _ this
    · intro m m' hmm x hx
      unfold redOp put
      split
      · have e0 : m (A.a + j') = m' (A.a + j') := hmm _ (Or.inl (by simpa using hj'))
        have : (fun r : ℕ => if r = 0 then m (A.a + j') else m (A.a + A.sArray + bIndex A.sArray rc.1 j' r)) =
            fun r : ℕ => if r = 0 then m' (A.a + j') else m' (A.a + A.sArray + bIndex A.sArray rc.1 j' r) := by
          funext r
          split
          · exact e0
          · refine hmm _ (Or.inr ?_)
            unfold bIndex
            have l1 : 0 ≤ ((r : ℤ) + rc.1) * A.sArray := mul_nonneg (by omega) hs0
            omega
        simp only [this]
      · exact hmm _ (Or.inl hx)
  · refine hnd2.imp ?_
    intro p p' hd x hx hx'
    exact hd hx hx'
  · intro p hp x hx hxp
    have := hmem p (List.mem_range.mp hp) _ hxp
    exact hx (by omega)

/-- C34: reducing adds up all private copies.  Whatever the number of pipelines, of private arrays and
the interleaving, the reduction is well defined (no access outside of the storage) and afterwards each of
the `n` elements of the first array is the sum of the corresponding elements of all arrays, every other
element of the storage being unchanged. -/
theorem reduce_sums (R : Rounding) (hR : R.Accurate) (A : RedArgs) (hA : A.Ok) (hF : A.Fits) (P : ℕ)
    (hn : A.n < 2 ^ 31) (hP : 0 < P) (hP2 : P ≤ 2 ^ 16) (m : ℤ → K) :
    (∃ m', Reduce R A P m m') ∧ ∀ m', Reduce R A P m m' → ∀ x,
      m' x = if A.a ≤ x ∧ x < A.a + A.n then ∑ r ∈ Finset.range A.nArray, m (x + r * A.sArray)
        else m x :=
  reduceB_sums 1 (by omega) R hR A hA hF P hn hP hP2 m

/-- Steps that store zeros. -/
lemma runs_zero (ts : List (List ((ℤ → K) → ℤ → K))) (as : List (List ℤ))
    (h : ts = as.map fun l => l.map fun x m => put m x 0) (m m' : ℤ → K) (hr : Runs ts m m') (x : ℤ) :
    m' x = if x ∈ as.flatten then 0 else m x := by
  induction hr generalizing as with
  | done ts m hd =>
    subst h
    rw [if_neg]
    intro hx
    obtain ⟨l, hl, hxl⟩ := List.mem_flatten.mp hx
    have := hd _ (List.mem_map.mpr ⟨l, hl, rfl⟩)
    rw [List.map_eq_nil_iff] at this
    simp [this] at hxl
  | step pre post f t m m' hrun ih =>
    obtain ⟨as1, as2, rfl, e1, e2⟩ := List.map_eq_append_iff.mp h.symm
    obtain ⟨l, as3, rfl, e3, e4⟩ := List.map_eq_cons_iff.mp e2
    obtain ⟨y, l', rfl, e5, e6⟩ := List.map_eq_cons_iff.mp e3
    rw [ih (as1 ++ l' :: as3) (by rw [List.map_append, List.map_cons, e1, e6, e4])]
    subst e5
    simp only [List.flatten_append, List.flatten_cons, List.mem_append, List.cons_append, List.mem_cons, put]
    by_cases hx : x = y
    · simp [hx]
    · simp [hx]

/-- C35: clearing.  Whatever the number of pipelines and the interleaving, the clearing is well defined
and afterwards the `n` elements of every private array are zero, every other element of the storage
being unchanged. -/
theorem clear_zeroes (R : Rounding) (hR : R.Accurate) (A : RedArgs) (hA : A.Ok) (P : ℕ)
    (hb : 0 < A.nBlock) (hn : A.n < 2 ^ 31) (hP : 0 < P) (hP2 : P ≤ 2 ^ 16) (m : ℤ → K) :
    (∃ m', Clear R A P m m') ∧ ∀ m', Clear R A P m m' → ∀ x,
      ((∃ k : ℕ, k < A.nArray ∧ A.a + k * A.sArray ≤ x ∧ x < A.a + k * A.sArray + A.n) → m' x = 0) ∧
      ((¬ ∃ k : ℕ, k < A.nArray ∧ A.a + k * A.sArray ≤ x ∧ x < A.a + k * A.sArray + A.n) → m' x = m x) := by
  obtain ⟨js, hjs, hfl⟩ := items_split R hR A.n A.nBlock P hn hb hP hP2
  have hmem : ∀ p < P + 1, ∀ j ∈ js p, 0 ≤ j ∧ j < A.n := by
    intro p hp j hj
    rw [← upTo_mem, ← hfl]
    exact List.mem_flatten.mpr ⟨_, List.mem_map.mpr ⟨p, List.mem_range.mpr hp, rfl⟩, hj⟩
  have h2 := hA.base
  have h3 := hA.disj
  have h4 := hA.fits
  have hs0 : 0 ≤ A.sArray := by omega
  set prog : ℕ → List ℤ := fun p =>
    (List.range A.nArray).flatMap fun (k : ℕ) => (js p).map fun j => A.a + k * A.sArray + j with hprog
  have hrank : ∀ p < P + 1, clearRank (K := K) R A p P = some ((prog p).map fun x m => put m x 0) := by
    intro p hp
    unfold clearRank
    rw [hjs, Option.bind_some]
    refine if_pos ?_
    rw [List.all_eq_true]
    intro x hx
    obtain ⟨k, hk, hx⟩ := List.mem_flatMap.mp hx
    obtain ⟨j, hj, rfl⟩ := List.mem_map.mp hx
    have hj := hmem p hp j hj
    rw [List.mem_range] at hk
    have l1 : 0 ≤ (k : ℤ) * A.sArray := mul_nonneg (by omega) hs0
    have l2 : (k : ℤ) * A.sArray ≤ ((A.nArray : ℤ) - 1) * A.sArray := mul_le_mul_of_nonneg_right (by omega) hs0
    simp only [decide_eq_true_eq]
    omega
  have hts : (List.range (P + 1)).mapM (fun p => clearRank (K := K) R A p P) =
      some ((List.range (P + 1)).map fun p => (prog p).map fun x m => put m x 0) := by
    exact Distribute.mapM_some _ _ _ fun p hp => hrank p (List.mem_range.mp hp)
  refine ⟨⟨_, _, hts, runs_seq _ _⟩, ?_⟩
  rintro m' ⟨ts, e, hrun⟩ x
  obtain rfl := Option.some.inj (hts.symm.trans e)
  have hz := runs_zero _ ((List.range (P + 1)).map prog) (by rw [List.map_map]; rfl) m m' hrun x
  have hiff : x ∈ ((List.range (P + 1)).map prog).flatten ↔
      ∃ k : ℕ, k < A.nArray ∧ A.a + k * A.sArray ≤ x ∧ x < A.a + k * A.sArray + A.n := by
    constructor
    · intro hx
      obtain ⟨l, hl, hx⟩ := List.mem_flatten.mp hx
      obtain ⟨p, hp, rfl⟩ := List.mem_map.mp hl
      obtain ⟨k, hk, hx⟩ := List.mem_flatMap.mp hx
      obtain ⟨j, hj, rfl⟩ := List.mem_map.mp hx
      have hj := hmem p (List.mem_range.mp hp) j hj
      exact ⟨k, List.mem_range.mp hk, by omega, by omega⟩
    · rintro ⟨k, hk, h5, h6⟩
      have : x - (A.a + k * A.sArray) ∈ Distribute.upTo A.n := upTo_mem.mpr (by omega)
      rw [← hfl] at this
      obtain ⟨l, hl, hxl⟩ := List.mem_flatten.mp this
      obtain ⟨p, hp, rfl⟩ := List.mem_map.mp hl
      refine List.mem_flatten.mpr ⟨_, List.mem_map.mpr ⟨p, hp, rfl⟩, List.mem_flatMap.mpr ⟨k, List.mem_range.mpr hk,
        List.mem_map.mpr ⟨_, hxl, by ring⟩⟩⟩
  constructor
  · intro h; rw [hz, if_pos (hiff.mpr h)]
  · intro h; rw [hz, if_neg (fun hx => h (hiff.mp hx))]

/-! ## The arrays of the code -/

/-- Spec: position in the storage of number `k` of voxel `v` in the private copy `r`. -/
def slot (nx ny nz : ℤ) (nf : ℕ) (r : ℕ) (v : ℤ) (k : ℕ) : ℤ := (r * pow2Ceil2 (nvOf nx ny nz) + v) * nf + k

section arrays

variable {nx ny nz : ℤ} (hx : 1 ≤ nx) (hy : 1 ≤ ny) (hz : 1 ≤ nz)
include hx hy hz

lemma voxel_last : VOXEL nx ny nx ny nz + 2 ≤ nvOf nx ny nz ∧ 0 ≤ VOXEL nx ny 1 1 1 ∧
    VOXEL nx ny 1 1 1 ≤ VOXEL nx ny nx ny nz := by
  unfold VOXEL nvOf
  refine ⟨?_, ?_, ?_⟩
  · nlinarith [mul_pos (by omega : 0 < nx + 2) (by omega : 0 < ny + 2)]
  · have := mul_nonneg (by omega : 0 ≤ nx + 2) (by omega : 0 ≤ 1 + (ny + 2) * 1)
    omega
  · have h1 : (ny + 2) * 1 ≤ (ny + 2) * nz := mul_le_mul_of_nonneg_left hz (by omega)
    have h2 : (nx + 2) * (1 + (ny + 2) * 1) ≤ (nx + 2) * (ny + (ny + 2) * nz) :=
      mul_le_mul_of_nonneg_left (by omega) (by omega)
    omega

lemma voxel_between {x y z : ℤ} (h : 1 ≤ x ∧ x ≤ nx) (h' : 1 ≤ y ∧ y ≤ ny) (h'' : 1 ≤ z ∧ z ≤ nz) :
    VOXEL nx ny 1 1 1 ≤ VOXEL nx ny x y z ∧ VOXEL nx ny x y z ≤ VOXEL nx ny nx ny nz := by
  unfold VOXEL
  have h1 : (ny + 2) * 1 ≤ (ny + 2) * z := mul_le_mul_of_nonneg_left h''.1 (by omega)
  have h2 : (ny + 2) * z ≤ (ny + 2) * nz := mul_le_mul_of_nonneg_left h''.2 (by omega)
  have h3 : (nx + 2) * (1 + (ny + 2) * 1) ≤ (nx + 2) * (y + (ny + 2) * z) :=
    mul_le_mul_of_nonneg_left (by omega) (by omega)
  have h4 : (nx + 2) * (y + (ny + 2) * z) ≤ (nx + 2) * (ny + (ny + 2) * nz) :=
    mul_le_mul_of_nonneg_left (by omega) (by omega)
  omega

lemma accArgs_ok (nf np : ℕ) : (accArgs nx ny nz nf np).Ok := by
  obtain ⟨h1, h2, h3⟩ := voxel_last hx hy hz
  have hst : nvOf nx ny nz ≤ pow2Ceil2 (nvOf nx ny nz) := by unfold pow2Ceil2; omega
  set i0 := VOXEL nx ny 1 1 1 / 2 * 2 with hi0
  set na := (VOXEL nx ny nx ny nz - i0 + 1 + 1) / 2 * 2 with hna
  have hn : i0 + na ≤ pow2Ceil2 (nvOf nx ny nz) ∧ 0 ≤ na ∧ 0 ≤ i0 := by omega
  have hn' : (i0 + na) * nf ≤ pow2Ceil2 (nvOf nx ny nz) * nf := mul_le_mul_of_nonneg_right hn.1 (by omega)
  have hi' : 0 ≤ i0 * nf := mul_nonneg hn.2.2 (by omega)
  have hcast : ((na.toNat * nf : ℕ) : ℤ) = na * nf := by push_cast; rw [Int.toNat_of_nonneg hn.2.1]
  rw [add_mul] at hn'
  constructor
  · show 1 ≤ np + 1; omega
  · exact hi'
  · show ((na.toNat * nf : ℕ) : ℤ) ≤ _
    rw [hcast]
    show na * nf ≤ pow2Ceil2 (nvOf nx ny nz) * nf
    omega
  · show i0 * nf + (((np + 1 : ℕ) : ℤ) - 1) * (pow2Ceil2 (nvOf nx ny nz) * nf) + ((na.toNat * nf : ℕ) : ℤ) ≤
      (np + 1) * pow2Ceil2 (nvOf nx ny nz) * nf
    rw [hcast]
    push_cast
    nlinarith

lemma accArgs_fits (nf np : ℕ)
    (hint : (np : ℤ) * (pow2Ceil2 (nvOf nx ny nz) * nf) < 2 ^ 31) : (accArgs nx ny nz nf np).Fits := by
  obtain ⟨h1, h2, h3⟩ := voxel_last hx hy hz
  have hst : nvOf nx ny nz ≤ pow2Ceil2 (nvOf nx ny nz) := by unfold pow2Ceil2; omega
  set i0 := VOXEL nx ny 1 1 1 / 2 * 2 with hi0
  set na := (VOXEL nx ny nx ny nz - i0 + 1 + 1) / 2 * 2 with hna
  have hn : i0 + na ≤ pow2Ceil2 (nvOf nx ny nz) ∧ 0 ≤ na ∧ 0 ≤ i0 := by omega
  have hn' : (i0 + na) * nf ≤ pow2Ceil2 (nvOf nx ny nz) * nf := mul_le_mul_of_nonneg_right hn.1 (by omega)
  have hi' : 0 ≤ i0 * nf := mul_nonneg hn.2.2 (by omega)
  have hcast : ((na.toNat * nf : ℕ) : ℤ) = na * nf := by push_cast; rw [Int.toNat_of_nonneg hn.2.1]
  rw [add_mul] at hn'
  show (((np + 1 : ℕ) : ℤ) - 2) * (pow2Ceil2 (nvOf nx ny nz) * nf) + ((na.toNat * nf : ℕ) : ℤ) ≤ 2 ^ 31
  rw [hcast]
  push_cast
  nlinarith

lemma accArgs_covers (nf np : ℕ) {x y z : ℤ} (h : 1 ≤ x ∧ x ≤ nx) (h' : 1 ≤ y ∧ y ≤ ny)
    (h'' : 1 ≤ z ∧ z ≤ nz) (k : ℕ) (hk : k < nf) :
    (accArgs nx ny nz nf np).a ≤ slot nx ny nz nf 0 (VOXEL nx ny x y z) k ∧
    slot nx ny nz nf 0 (VOXEL nx ny x y z) k < (accArgs nx ny nz nf np).a + (accArgs nx ny nz nf np).n := by
  obtain ⟨h1, h2⟩ := voxel_between hx hy hz h h' h''
  obtain ⟨h3, h4, h5⟩ := voxel_last hx hy hz
  set i0 := VOXEL nx ny 1 1 1 / 2 * 2 with hi0
  set na := (VOXEL nx ny nx ny nz - i0 + 1 + 1) / 2 * 2 with hna
  have hcast : ((na.toNat * nf : ℕ) : ℤ) = na * nf := by
    push_cast; rw [Int.toNat_of_nonneg (by omega)]
  have e1 : (accArgs nx ny nz nf np).a = i0 * nf := rfl
  have e2 : ((accArgs nx ny nz nf np).n : ℤ) = na * nf := hcast
  rw [e1, e2]
  unfold slot
  simp only [Nat.cast_zero, zero_mul, zero_add]
  have a1 : i0 * nf ≤ VOXEL nx ny x y z * nf := mul_le_mul_of_nonneg_right (by omega) (by omega)
  have a2 : (VOXEL nx ny x y z + 1) * nf ≤ (i0 + na) * nf := mul_le_mul_of_nonneg_right (by omega) (by omega)
  rw [add_mul, add_mul, one_mul] at a2
  omega

/-- C34 for the accumulators: after `reduce_accumulator_array`, each of the `nf` numbers of every voxel
of the local mesh is, in the first copy, the sum over all private copies (one per pipeline and one for
the host).  Partial: for sizes whose index arithmetic fits an `int` (see `reduce_overflow`). -/
theorem reduce_accumulators_partial (R : Rounding) (hR : R.Accurate) (nf np P : ℕ) (hP : 0 < P)
    (hP2 : P ≤ 2 ^ 16) (hint : (np : ℤ) * (pow2Ceil2 (nvOf nx ny nz) * nf) < 2 ^ 31)
    (hint' : (accArgs nx ny nz nf np).n < 2 ^ 31) (m : ℤ → K) :
    (∃ m', Reduce R (accArgs nx ny nz nf np) P m m') ∧ ∀ m', Reduce R (accArgs nx ny nz nf np) P m m' →
      ∀ x y z, (1 ≤ x ∧ x ≤ nx) → (1 ≤ y ∧ y ≤ ny) → (1 ≤ z ∧ z ≤ nz) → ∀ k < nf,
        m' (slot nx ny nz nf 0 (VOXEL nx ny x y z) k) =
          ∑ r ∈ Finset.range (np + 1), m (slot nx ny nz nf r (VOXEL nx ny x y z) k) := by
  obtain ⟨h1, h2⟩ := reduce_sums R hR _ (accArgs_ok hx hy hz nf np) (accArgs_fits hx hy hz nf np hint) P hint' hP hP2 m
  refine ⟨h1, fun m' hm' x y z h h' h'' k hk => ?_⟩
  rw [h2 m' hm', if_pos (accArgs_covers hx hy hz nf np h h' h'' k hk)]
  show ∑ r ∈ Finset.range (np + 1), _ = _
  refine Finset.sum_congr rfl fun r _ => ?_
  congr 1
  show slot nx ny nz nf 0 (VOXEL nx ny x y z) k + r * (pow2Ceil2 (nvOf nx ny nz) * nf) = _
  unfold slot
  push_cast
  ring

/-- C35 for the accumulators: after `clear_accumulator_array`, every number of every voxel of the local
mesh is zero in all private copies. -/
theorem clear_accumulators (R : Rounding) (hR : R.Accurate) (nf np P : ℕ) (hP : 0 < P)
    (hP2 : P ≤ 2 ^ 16)
    (hint' : (accArgs nx ny nz nf np).n < 2 ^ 31) (m : ℤ → K) :
    (∃ m', Clear R (accArgs nx ny nz nf np) P m m') ∧ ∀ m', Clear R (accArgs nx ny nz nf np) P m m' →
      ∀ x y z, (1 ≤ x ∧ x ≤ nx) → (1 ≤ y ∧ y ≤ ny) → (1 ≤ z ∧ z ≤ nz) → ∀ k < nf, ∀ r ≤ np,
        m' (slot nx ny nz nf r (VOXEL nx ny x y z) k) = 0 := by
  obtain ⟨h1, h2⟩ := clear_zeroes R hR _ (accArgs_ok hx hy hz nf np) P (by decide : 0 < 256) hint' hP hP2 m
  refine ⟨h1, fun m' hm' x y z h h' h'' k hk r hr => ?_⟩
  have hc := accArgs_covers hx hy hz nf np h h' h'' k hk
  have e : slot nx ny nz nf r (VOXEL nx ny x y z) k =
      slot nx ny nz nf 0 (VOXEL nx ny x y z) k + r * (pow2Ceil2 (nvOf nx ny nz) * nf) := by
    unfold slot; push_cast; ring
  refine (h2 m' hm' _).1 ⟨r, (by show r < np + 1; omega), ?_, ?_⟩
  · show (accArgs nx ny nz nf np).a + r * (pow2Ceil2 (nvOf nx ny nz) * nf) ≤ _
    rw [e]; linarith [hc.1]
  · show _ < (accArgs nx ny nz nf np).a + r * (pow2Ceil2 (nvOf nx ny nz) * nf) + _
    rw [e]; linarith [hc.2]

lemma hydroArgs_ok (nf np : ℕ) : (hydroArgs nx ny nz nf np).Ok := by
  obtain ⟨h1, h2, h3⟩ := voxel_last hx hy hz
  have hst : nvOf nx ny nz ≤ pow2Ceil2 (nvOf nx ny nz) := by unfold pow2Ceil2; omega
  have hcast : (((nvOf nx ny nz).toNat * nf : ℕ) : ℤ) = nvOf nx ny nz * nf := by
    push_cast; rw [Int.toNat_of_nonneg (by omega)]
  have hn' : nvOf nx ny nz * nf ≤ pow2Ceil2 (nvOf nx ny nz) * nf := mul_le_mul_of_nonneg_right hst (by omega)
  constructor
  · show 1 ≤ np + 1; omega
  · exact le_refl _
  · show (((nvOf nx ny nz).toNat * nf : ℕ) : ℤ) ≤ _
    rw [hcast]
    exact hn'
  · show 0 + (((np + 1 : ℕ) : ℤ) - 1) * (pow2Ceil2 (nvOf nx ny nz) * nf) + (((nvOf nx ny nz).toNat * nf : ℕ) : ℤ) ≤
      (np + 1) * pow2Ceil2 (nvOf nx ny nz) * nf
    rw [hcast]
    push_cast
    nlinarith

lemma hydroArgs_fits (nf np : ℕ)
    (hint : (np : ℤ) * (pow2Ceil2 (nvOf nx ny nz) * nf) < 2 ^ 31) : (hydroArgs nx ny nz nf np).Fits := by
  obtain ⟨h1, h2, h3⟩ := voxel_last hx hy hz
  have hst : nvOf nx ny nz ≤ pow2Ceil2 (nvOf nx ny nz) := by unfold pow2Ceil2; omega
  have hcast : (((nvOf nx ny nz).toNat * nf : ℕ) : ℤ) = nvOf nx ny nz * nf := by
    push_cast; rw [Int.toNat_of_nonneg (by omega)]
  have hn' : nvOf nx ny nz * nf ≤ pow2Ceil2 (nvOf nx ny nz) * nf := mul_le_mul_of_nonneg_right hst (by omega)
  show (((np + 1 : ℕ) : ℤ) - 2) * (pow2Ceil2 (nvOf nx ny nz) * nf) + (((nvOf nx ny nz).toNat * nf : ℕ) : ℤ) ≤ 2 ^ 31
  rw [hcast]
  push_cast
  nlinarith

lemma hydroArgs_covers (nf np : ℕ) {v : ℤ} (hv : 0 ≤ v ∧ v < nvOf nx ny nz) (k : ℕ) (hk : k < nf) :
    (hydroArgs nx ny nz nf np).a ≤ slot nx ny nz nf 0 v k ∧
    slot nx ny nz nf 0 v k < (hydroArgs nx ny nz nf np).a + (hydroArgs nx ny nz nf np).n := by
  have hcast : (((nvOf nx ny nz).toNat * nf : ℕ) : ℤ) = nvOf nx ny nz * nf := by
    push_cast; rw [Int.toNat_of_nonneg (by omega)]
  show 0 ≤ _ ∧ _ < 0 + (((nvOf nx ny nz).toNat * nf : ℕ) : ℤ)
  rw [hcast]
  unfold slot
  simp only [Nat.cast_zero, zero_mul, zero_add]
  have a1 : 0 ≤ v * nf := mul_nonneg hv.1 (by omega)
  have a2 : (v + 1) * nf ≤ nvOf nx ny nz * nf := mul_le_mul_of_nonneg_right (by omega) (by omega)
  rw [add_mul, one_mul] at a2
  omega

/-- C34 for the moments: after `reduce_hydro_array`, each number of every voxel (ghosts included) is, in
the first copy, the sum over all private copies.  Partial: as above. -/
theorem reduce_hydro_partial (R : Rounding) (hR : R.Accurate) (nf np P : ℕ) (hP : 0 < P)
    (hP2 : P ≤ 2 ^ 16) (hint : (np : ℤ) * (pow2Ceil2 (nvOf nx ny nz) * nf) < 2 ^ 31)
    (hint' : (hydroArgs nx ny nz nf np).n < 2 ^ 31) (m : ℤ → K) :
    (∃ m', Reduce R (hydroArgs nx ny nz nf np) P m m') ∧ ∀ m', Reduce R (hydroArgs nx ny nz nf np) P m m' →
      ∀ v, 0 ≤ v ∧ v < nvOf nx ny nz → ∀ k < nf,
        m' (slot nx ny nz nf 0 v k) = ∑ r ∈ Finset.range (np + 1), m (slot nx ny nz nf r v k) := by
  obtain ⟨h1, h2⟩ := reduce_sums R hR _ (hydroArgs_ok hx hy hz nf np) (hydroArgs_fits hx hy hz nf np hint) P hint' hP hP2 m
  refine ⟨h1, fun m' hm' v hv k hk => ?_⟩
  rw [h2 m' hm', if_pos (hydroArgs_covers hx hy hz nf np hv k hk)]
  show ∑ r ∈ Finset.range (np + 1), _ = _
  refine Finset.sum_congr rfl fun r _ => ?_
  congr 1
  show slot nx ny nz nf 0 v k + r * (pow2Ceil2 (nvOf nx ny nz) * nf) = _
  unfold slot
  push_cast
  ring

/-- C35 for the moments. -/
theorem clear_hydro (R : Rounding) (hR : R.Accurate) (nf np P : ℕ) (hP : 0 < P)
    (hP2 : P ≤ 2 ^ 16)
    (hint' : (hydroArgs nx ny nz nf np).n < 2 ^ 31) (m : ℤ → K) :
    (∃ m', Clear R (hydroArgs nx ny nz nf np) P m m') ∧ ∀ m', Clear R (hydroArgs nx ny nz nf np) P m m' →
      ∀ v, 0 ≤ v ∧ v < nvOf nx ny nz → ∀ k < nf, ∀ r ≤ np, m' (slot nx ny nz nf r v k) = 0 := by
  obtain ⟨h1, h2⟩ := clear_zeroes R hR _ (hydroArgs_ok hx hy hz nf np) P (by decide : 0 < 1) hint' hP hP2 m
  refine ⟨h1, fun m' hm' v hv k hk r hr => ?_⟩
  have hc := hydroArgs_covers hx hy hz nf np hv k hk
  have e : slot nx ny nz nf r v k = slot nx ny nz nf 0 v k + r * (pow2Ceil2 (nvOf nx ny nz) * nf) := by
    unfold slot; push_cast; ring
  refine (h2 m' hm' _).1 ⟨r, (by show r < np + 1; omega), ?_, ?_⟩
  · show (hydroArgs nx ny nz nf np).a + r * (pow2Ceil2 (nvOf nx ny nz) * nf) ≤ _
    rw [e]; linarith [hc.1]
  · show _ < (hydroArgs nx ny nz nf np).a + r * (pow2Ceil2 (nvOf nx ny nz) * nf) + _
    rw [e]; linarith [hc.2]

end arrays

/-! ## When the index arithmetic overflows -/

lemma last_pass (nr : ℕ) : ∀ (r0 : ℤ), 0 < nr → ∃ rc ∈ passes nr r0, 0 < rc.2 ∧ rc.1 + rc.2 = r0 + nr := by
  induction' nr using Nat.strong_induction_on with nr ih
  intro r0 h0
  rw [passes]
  rw [dif_neg (by omega)]
  by_cases h8 : nr ≤ 8
  · exact ⟨(r0, nr), by simp [h8], h0, rfl⟩
  · by_cases h9 : nr = 9
    · subst h9; exact ⟨(r0, 9), by simp, by simp, by simp⟩
    · obtain ⟨rc, h1, h2, h3⟩ := ih (nr - 9) (by omega) (r0 + 9) (by omega)
      refine ⟨rc, ?_, h2, by push_cast at h3; omega⟩
      simp only [if_neg h8, List.mem_cons]
      exact Or.inr h1

/-- Finding: the index `k + (r+r0)*sr` is an `int`.  With at least one element and so many private
copies that the last but one starts at `2^31` or later, the reduction is undefined behaviour. -/
theorem reduce_overflow (R : Rounding) (hR : R.Accurate) (A : RedArgs) (P : ℕ) (hn : A.n < 2 ^ 31)
    (hn0 : 0 < A.n) (hP : 0 < P) (hP2 : P ≤ 2 ^ 16) (h2 : 2 ≤ A.nArray)
    (hov : 2 ^ 31 ≤ ((A.nArray : ℤ) - 2) * A.sArray) (m m' : ℤ → K) : ¬ Reduce R A P m m' := by
  rintro ⟨ts, e, -⟩
  obtain ⟨js, hjs, hfl⟩ := items_split R hR A.n 1 P hn (by omega) hP hP2
  have h0 : (0 : ℤ) ∈ Distribute.upTo A.n := upTo_mem.mpr (by omega)
  rw [← hfl] at h0
  obtain ⟨l, hl, h0⟩ := List.mem_flatten.mp h0
  obtain ⟨p, hp, rfl⟩ := List.mem_map.mp hl
  have hnone : reduceRank (K := K) R A p P = none := by
    unfold reduceRank reduceRankB
    rw [hjs, Option.bind_some]
    refine if_neg ?_
    rw [List.all_eq_true]
    intro hall
    obtain ⟨rc, h1, h3, h4⟩ := last_pass (A.nArray - 1) (-1) (by omega)
    have := hall (rc.1, rc.2, 0) (List.mem_flatMap.mpr ⟨rc, h1, List.mem_map.mpr ⟨0, h0, rfl⟩⟩)
    unfold redOk at this
    simp only [Bool.and_eq_true, List.all_eq_true, List.mem_range, decide_eq_true_eq] at this
    have := (this.2 (rc.2 - 1) (by omega)).2.1
    unfold bIndex at this
    rw [show rc.2 - 1 + 1 = rc.2 by omega, show ((rc.2 : ℤ) + rc.1) = (A.nArray : ℤ) - 2 by omega] at this
    omega
  have hsome : ∀ (l : List ℕ) (ts : List (List ((ℤ → K) → ℤ → K))),
      l.mapM (fun p => reduceRank (K := K) R A p P) = some ts → p ∉ l := by
    intro l
    induction l with
    | nil => simp
    | cons q l ih =>
      intro ts ht hm
      rw [List.mapM_cons] at ht
      rcases List.mem_cons.mp hm with rfl | hm
      · rw [hnone] at ht; simp at ht
      · cases hq : reduceRank (K := K) R A q P with
        | none => rw [hq] at ht; simp at ht
        | some f =>
          rw [hq] at ht
          cases hl : l.mapM (fun p => reduceRank (K := K) R A p P) with
          | none => rw [hl] at ht; simp at ht
          | some ts' => exact ih ts' hl hm
  exact hsome _ _ e hp

/-- A local mesh of 254³ cells with the 16 floats of a `hydro_t`: with 9 pipelines the reduction of the
moments is undefined; with 7 all the hypotheses of `reduce_hydro_partial` hold. -/
theorem reduce_hydro_overflow (m m' : ℤ → K) :
    ¬ Reduce Distribute.doubleRounding (hydroArgs 254 254 254 16 9) 9 m m' :=
  reduce_overflow _ Distribute.doubleRounding_accurate _ 9 (by decide) (by decide) (by decide) (by decide)
    (by decide) (by decide) m m'

example : (7 : ℤ) * (pow2Ceil2 (nvOf 254 254 254) * 16) < 2 ^ 31 ∧ (hydroArgs 254 254 254 16 7).n < 2 ^ 31 := by
  decide

example : (16 : ℤ) * (pow2Ceil2 (nvOf 64 32 1) * 12) < 2 ^ 31 ∧ (accArgs 64 32 1 12 16).n < 2 ^ 31 := by
  decide

end Verif.SfInterface
