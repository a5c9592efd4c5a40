import Verif.Flow.SumModel
import Mathlib.Algebra.BigOperators.Fin

/-!
# Property C132: the current on an edge from the deposits of all particles with all roundings
-/
namespace Verif.Flow
open Verif.Place Verif.Streak

/-- What `n` roundings one after the other can do to a sum of numbers with sum `a` of absolute values. -/
def Acc (n : ℕ) (s a z : ℚ) : Prop := |z - s| ≤ ((1 + 1 / 2 ^ 24) ^ n - 1) * a ∧ |s| ≤ a

lemma pow_ge (n : ℕ) : (1 : ℚ) ≤ (1 + 1 / 2 ^ 24) ^ n := one_le_pow₀ (by norm_num)

lemma Acc.leaf (x : ℚ) : Acc 0 x |x| x := by simp [Acc]

lemma Acc.nonneg {n : ℕ} {s a z : ℚ} (h : Acc n s a z) : 0 ≤ a := (abs_nonneg _).trans h.2

lemma Acc.mono {n m : ℕ} {s a z : ℚ} (h : Acc n s a z) (hm : n ≤ m) : Acc m s a z := by
  refine ⟨h.1.trans (mul_le_mul_of_nonneg_right ?_ h.nonneg), h.2⟩
  have := pow_le_pow_right₀ (show (1 : ℚ) ≤ 1 + 1 / 2 ^ 24 by norm_num) hm
  linarith

lemma Acc.rnd {n : ℕ} {s a z : ℚ} (h : Acc n s a z) : Acc (n + 1) s a (rnd32 z) := by
  refine ⟨?_, h.2⟩
  have hz := abs_of_near h.1 h.2
  refine (rnd_near h.1 hz).trans (le_of_eq ?_)
  rw [pow_succ _ n]
  ring

lemma Acc.plus {n : ℕ} {s a z s' a' z' : ℚ} (h : Acc n s a z) (h' : Acc n s' a' z') : Acc n (s + s') (a + a') (z + z') := by
  refine ⟨?_, (abs_add_le _ _).trans (add_le_add h.2 h'.2)⟩
  have e : z + z' - (s + s') = (z - s) + (z' - s') := by ring
  rw [e, mul_add]
  exact (abs_add_le _ _).trans (add_le_add h.1 h'.1)

lemma Acc.add {n : ℕ} {s a z s' a' z' : ℚ} (h : Acc n s a z) (h' : Acc n s' a' z') : Acc (n + 1) (s + s') (a + a') (radd z z') :=
  (h.plus h').rnd

lemma Acc.scale {n : ℕ} {s a z : ℚ} (h : Acc n s a z) (c : ℚ) : Acc n (c * s) (|c| * a) (c * z) := by
  constructor
  · rw [← mul_sub, abs_mul]
    calc |c| * |z - s| ≤ |c| * (((1 + 1 / 2 ^ 24) ^ n - 1) * a) := mul_le_mul_of_nonneg_left h.1 (abs_nonneg _)
      _ = _ := by ring
  · rw [abs_mul]
    exact mul_le_mul_of_nonneg_left h.2 (abs_nonneg _)

/-- The sum of the absolute values. -/
def absSum (l : List ℚ) : ℚ := (l.map fun x => |x|).sum

lemma fold_acc (xs : List ℚ) : ∀ {n : ℕ} {s a z : ℚ}, Acc n s a z → Acc (n + xs.length) (s + xs.sum) (a + absSum xs) (xs.foldl radd z) := by
  induction xs with
  | nil => intro n s a z h; simpa [absSum] using h
  | cons x xs ih =>
    intro n s a z h
    have := ih (h.add ((Acc.leaf x).mono (Nat.zero_le n)))
    rw [List.foldl_cons, List.sum_cons, List.length_cons]
    have e1 : n + 1 + xs.length = n + (xs.length + 1) := by omega
    have e2 : a + |x| + absSum xs = a + absSum (x :: xs) := by simp [absSum, add_assoc]
    rw [e1, e2, add_assoc] at this
    exact this

lemma accum_acc {xs : List ℚ} {n : ℕ} (h : xs.length ≤ n) : Acc n xs.sum (absSum xs) (accum xs) := by
  have h0 : Acc 0 0 0 0 := by simp [Acc]
  have := fold_acc xs h0
  rw [zero_add, zero_add, zero_add] at this
  exact this.mono h

lemma reduce_acc {n : ℕ} : ∀ (ls : List (List ℚ)) {m : ℕ} {s a z : ℚ}, (∀ l ∈ ls, l.length ≤ n) → n ≤ m → Acc m s a z →
    Acc (m + 4 * (ls.length / 9 + 1)) (s + ls.flatten.sum) (a + absSum ls.flatten) (reduceAll z (ls.map accum)) := by
  intro ls
  induction hk : ls.length using Nat.strong_induction_on generalizing ls with
  | _ k ih =>
  intro m s a z hl hm h
  subst hk
  have A : ∀ l : List ℚ, l ∈ ls → Acc m l.sum (absSum l) (accum l) := fun l hx => (accum_acc (hl l hx)).mono hm
  have fin : ∀ {n' N : ℕ} {s1 a1 s2 a2 z : ℚ}, Acc n' s1 a1 z → n' ≤ N → s1 = s2 → a1 = a2 → Acc N s2 a2 z := by
    intro n' N s1 a1 s2 a2 z h hN h1 h2
    subst h1 h2
    exact h.mono hN
  match ls, hl, A, ih with
  | [], _, _, _ => exact fin h (by omega) (by simp) (by simp [absSum])
  | [l1], _, A, _ => exact fin (h.add (A l1 (by simp))) (by omega) (by simp) (by simp [absSum])
  | [l1, l2], _, A, _ =>
    exact fin ((h.add (A l1 (by simp))).add ((A l2 (by simp)).mono (by omega))) (by omega) (by simp; ring) (by simp [absSum]; ring)
  | [l1, l2, l3], _, A, _ =>
    exact fin ((h.add (A l1 (by simp))).add ((A l2 (by simp)).add (A l3 (by simp)))) (by omega) (by simp; ring)
      (by simp [absSum]; ring)
  | [l1, l2, l3, l4], _, A, _ =>
    exact fin (((h.add (A l1 (by simp))).add ((A l2 (by simp)).add (A l3 (by simp)))).add ((A l4 (by simp)).mono (by omega)))
      (by omega) (by simp; ring) (by simp [absSum]; ring)
  | [l1, l2, l3, l4, l5], _, A, _ =>
    exact fin (((h.add (A l1 (by simp))).add ((A l2 (by simp)).add (A l3 (by simp)))).add
      (((A l4 (by simp)).add (A l5 (by simp))).mono (by omega))) (by omega) (by simp; ring) (by simp [absSum]; ring)
  | [l1, l2, l3, l4, l5, l6], _, A, _ =>
    exact fin (((h.add (A l1 (by simp))).add ((A l2 (by simp)).add (A l3 (by simp)))).add
      (((A l4 (by simp)).add (A l5 (by simp))).add ((A l6 (by simp)).mono (by omega)))) (by omega) (by simp; ring)
      (by simp [absSum]; ring)
  | [l1, l2, l3, l4, l5, l6, l7], _, A, _ =>
    exact fin (((h.add (A l1 (by simp))).add ((A l2 (by simp)).add (A l3 (by simp)))).add
      (((A l4 (by simp)).add (A l5 (by simp))).add ((A l6 (by simp)).add (A l7 (by simp))))) (by omega)
      (by simp; ring) (by simp [absSum]; ring)
  | [l1, l2, l3, l4, l5, l6, l7, l8], _, A, _ =>
    exact fin ((((h.add (A l1 (by simp))).add ((A l2 (by simp)).add (A l3 (by simp)))).add
      (((A l4 (by simp)).add (A l5 (by simp))).add ((A l6 (by simp)).add (A l7 (by simp))))).add
      ((A l8 (by simp)).mono (by omega))) (by omega) (by simp; ring) (by simp [absSum]; ring)
  | l1 :: l2 :: l3 :: l4 :: l5 :: l6 :: l7 :: l8 :: l9 :: rest, hl, A, ih =>
    have step := ((((h.add (A l1 (by simp))).add ((A l2 (by simp)).add (A l3 (by simp)))).add
      (((A l4 (by simp)).add (A l5 (by simp))).add ((A l6 (by simp)).add (A l7 (by simp))))).add
      (((A l8 (by simp)).add (A l9 (by simp))).mono (by omega)))
    have := ih rest.length (by simp only [List.length_cons]; omega) rest rfl (fun l hx => hl l (by simp [hx])) (by omega) step
    refine fin this ?_ (by simp; ring) (by simp [absSum]; ring)
    simp only [List.length_cons]
    omega

/-- The four slots that are added on an edge: of each the first array and the others. -/
structure Slots where
  own : Fin 4 → List ℚ
  rest : Fin 4 → List (List ℚ)

/-- All numbers that particles have added to them. -/
def Slots.all (t : Slots) : List ℚ := (List.finRange 4).flatMap fun i => t.own i ++ (t.rest i).flatten

/-- The current of the edge after unloading. -/
def Slots.current (t : Slots) (jf c : ℚ) : ℚ :=
  unload jf c (slotSum (t.own 0) (t.rest 0)) (slotSum (t.own 1) (t.rest 1)) (slotSum (t.own 2) (t.rest 2)) (slotSum (t.own 3) (t.rest 3))

/-- At most `n` numbers in each slot of each array, and at most `p` arrays besides the first. -/
def Slots.Most (t : Slots) (n p : ℕ) : Prop := ∀ i, (t.own i).length ≤ n ∧ (t.rest i).length ≤ p ∧ ∀ l ∈ t.rest i, l.length ≤ n

/-- **C132.** The current on an edge is the old one plus `c` times the sum of all deposits of all particles on it, whatever the order and the
arrays they went to, up to `n + 4 (p/9 + 1) + 5` roundings of the sum of the absolute values. -/
theorem edge_near {t : Slots} {n p : ℕ} (h : t.Most n p) (jf c : ℚ) :
    |t.current jf c - (jf + c * t.all.sum)| ≤ ((1 + 1 / 2 ^ 24) ^ (n + 4 * (p / 9 + 1) + 5) - 1) * (|jf| + |c| * absSum t.all) := by
  have slot : ∀ i, Acc (n + 4 * (p / 9 + 1)) ((t.own i).sum + (t.rest i).flatten.sum) (absSum (t.own i) + absSum (t.rest i).flatten)
      (slotSum (t.own i) (t.rest i)) := by
    intro i
    obtain ⟨h1, h2, h3⟩ := h i
    refine (reduce_acc (t.rest i) h3 le_rfl (accum_acc h1)).mono ?_
    have := Nat.div_le_div_right (c := 9) h2
    omega
  have s3 := ((((slot 0).add (slot 1)).add ((slot 2).mono (Nat.le_succ _))).add ((slot 3).mono (Nat.le_add_right _ 2)))
  have s4 := (s3.scale c).rnd
  have s5 := (((Acc.leaf jf).mono (Nat.zero_le _)).plus s4).rnd
  unfold Slots.current unload
  have e1 : t.all.sum = (t.own 0).sum + (t.rest 0).flatten.sum + ((t.own 1).sum + (t.rest 1).flatten.sum) +
      ((t.own 2).sum + (t.rest 2).flatten.sum) + ((t.own 3).sum + (t.rest 3).flatten.sum) := by
    simp [Slots.all, List.finRange_succ, add_assoc]
  have e2 : absSum t.all = absSum (t.own 0) + absSum (t.rest 0).flatten + (absSum (t.own 1) + absSum (t.rest 1).flatten) +
      (absSum (t.own 2) + absSum (t.rest 2).flatten) + (absSum (t.own 3) + absSum (t.rest 3).flatten) := by
    simp [absSum, Slots.all, List.finRange_succ, add_assoc]
  rw [e1, e2]
  exact s5.1

lemma perm_abs {l l' : List ℚ} (h : l.Perm l') : absSum l = absSum l' := (h.map _).sum_eq

/-- **C132 (two runs).** Two runs that deposit the same numbers on an edge in any orders and with any numbers of pipelines differ by at most
twice that. -/
theorem two_runs {t t' : Slots} {n p : ℕ} (h : t.Most n p) (h' : t'.Most n p) (hp : t.all.Perm t'.all) (jf c : ℚ) :
    |t.current jf c - t'.current jf c| ≤ 2 * (((1 + 1 / 2 ^ 24) ^ (n + 4 * (p / 9 + 1) + 5) - 1) * (|jf| + |c| * absSum t.all)) := by
  have a := edge_near h jf c
  have b := edge_near h' jf c
  rw [← hp.sum_eq, ← perm_abs hp, abs_sub_comm] at b
  refine (abs_sub_le _ (jf + c * t.all.sum) _).trans ?_
  linarith

/-- Three arrays with several particles each meet the hypotheses, and the order makes a difference in the last bits. -/
def runA : Slots := ⟨fun i => if i = 0 then [2 ^ 24, 1, 1] else [], fun _ => [[], []]⟩

/-- The same numbers on two arrays. -/
def runB : Slots := ⟨fun i => if i = 0 then [2 ^ 24] else [], fun i => if i = 0 then [[1, 1], []] else [[], []]⟩

example : runA.Most 3 2 ∧ runB.Most 3 2 ∧ runA.all.Perm runB.all ∧ runA.current 0 1 ≠ runB.current 0 1 := by
  refine ⟨?_, ?_, ?_, by decide +kernel⟩
  · intro i
    fin_cases i <;> simp [runA]
  · intro i
    fin_cases i <;> simp [runB]
  · have : runA.all = runB.all := by decide +kernel
    rw [this]

end Verif.Flow
