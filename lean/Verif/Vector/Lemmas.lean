import Verif.Vector.Spec
import Mathlib.Tactic.Common

/-! Lemmas for the functions that move data. -/
namespace Verif.Vector

variable {α : Type}

/-! ### Cases -/

theorem all1 {P : Fin 1 → Prop} (h0 : P 0) : ∀ l, P l
  | 0 => h0

theorem all2 {P : Fin 2 → Prop} (h0 : P 0) (h1 : P 1) : ∀ l, P l
  | 0 => h0
  | 1 => h1

theorem all3 {P : Fin 3 → Prop} (h0 : P 0) (h1 : P 1) (h2 : P 2) : ∀ l, P l
  | 0 => h0
  | 1 => h1
  | 2 => h2

theorem all4 {P : Fin 4 → Prop} (h0 : P 0) (h1 : P 1) (h2 : P 2) (h3 : P 3) : ∀ l, P l
  | 0 => h0
  | 1 => h1
  | 2 => h2
  | 3 => h3

theorem all8 {P : Fin 8 → Prop} (h0 : P 0) (h1 : P 1) (h2 : P 2) (h3 : P 3) (h4 : P 4) (h5 : P 5) (h6 : P 6) (h7 : P 7) : ∀ l, P l
  | ⟨0, _⟩ => h0
  | ⟨1, _⟩ => h1
  | ⟨2, _⟩ => h2
  | ⟨3, _⟩ => h3
  | ⟨4, _⟩ => h4
  | ⟨5, _⟩ => h5
  | ⟨6, _⟩ => h6
  | ⟨7, _⟩ => h7
  | ⟨_ + 8, h⟩ => absurd h (by omega)

theorem all16 {P : Fin 16 → Prop} (h0 : P 0) (h1 : P 1) (h2 : P 2) (h3 : P 3) (h4 : P 4) (h5 : P 5) (h6 : P 6) (h7 : P 7) (h8 : P 8) (h9 : P 9)
    (h10 : P 10) (h11 : P 11) (h12 : P 12) (h13 : P 13) (h14 : P 14) (h15 : P 15) : ∀ l, P l
  | ⟨0, _⟩ => h0
  | ⟨1, _⟩ => h1
  | ⟨2, _⟩ => h2
  | ⟨3, _⟩ => h3
  | ⟨4, _⟩ => h4
  | ⟨5, _⟩ => h5
  | ⟨6, _⟩ => h6
  | ⟨7, _⟩ => h7
  | ⟨8, _⟩ => h8
  | ⟨9, _⟩ => h9
  | ⟨10, _⟩ => h10
  | ⟨11, _⟩ => h11
  | ⟨12, _⟩ => h12
  | ⟨13, _⟩ => h13
  | ⟨14, _⟩ => h14
  | ⟨15, _⟩ => h15
  | ⟨_ + 16, h⟩ => absurd h (by omega)

open Lean Elab Tactic Meta in
/-- An equation whose sides have the same value: leaves the evaluation to the kernel. -/
elab "kernel_rfl" : tactic => do
  let g ← getMainGoal
  let some (_, l, _) := (← instantiateMVars (← g.getType)).eq? | throwError "not an equation"
  g.assign (← mkEqRefl l)

/-- Case by case, each by evaluation. -/
macro "cases_rfl" : tactic => `(tactic|
  repeat first
    | refine all1 ?_
    | refine all2 ?_ ?_
    | refine all3 ?_ ?_ ?_
    | refine all4 ?_ ?_ ?_ ?_
    | refine all8 ?_ ?_ ?_ ?_ ?_ ?_ ?_ ?_
    | refine all16 ?_ ?_ ?_ ?_ ?_ ?_ ?_ ?_ ?_ ?_ ?_ ?_ ?_ ?_ ?_ ?_
    | kernel_rfl)

/-- Equality of registers, word by word, each by evaluation. -/
macro "cells_rfl" : tactic => `(tactic| (refine funext fun q => funext fun l => ?_; revert q l; cases_rfl))

/-! ### Alignment -/

theorem load1_ok {m : Memory α} {p : ℕ} (h : p % 4 = 0) : load1 m p = some (one (quad (m p) (m (p + 1)) (m (p + 2)) (m (p + 3)))) := if_pos h

theorem load2_ok {m : Memory α} {p : ℕ} (h : p % 8 = 0) : load2 m p =
    some (two (quad (m p) (m (p + 1)) (m (p + 2)) (m (p + 3))) (quad (m (p + 4)) (m (p + 5)) (m (p + 6)) (m (p + 7)))) := if_pos h

theorem load4_ok {m : Memory α} {p : ℕ} (h : p % 16 = 0) : load4 m p =
    some (four (quad (m p) (m (p + 1)) (m (p + 2)) (m (p + 3))) (quad (m (p + 4)) (m (p + 5)) (m (p + 6)) (m (p + 7)))
      (quad (m (p + 8)) (m (p + 9)) (m (p + 10)) (m (p + 11))) (quad (m (p + 12)) (m (p + 13)) (m (p + 14)) (m (p + 15)))) := if_pos h

theorem load1_bad {m : Memory α} {p : ℕ} (h : p % 4 ≠ 0) : load1 m p = none := if_neg h
theorem load2_bad {m : Memory α} {p : ℕ} (h : p % 8 ≠ 0) : load2 m p = none := if_neg h
theorem load4_bad {m : Memory α} {p : ℕ} (h : p % 16 ≠ 0) : load4 m p = none := if_neg h

theorem store1_ok {m : Memory α} {p : ℕ} {a : Reg 1 α} (h : p % 4 = 0) : store1 m p a = some (puts m (words p (a 0))) := if_pos h
theorem store2_ok {m : Memory α} {p : ℕ} {a : Reg 2 α} (h : p % 8 = 0) :
    store2 m p a = some (puts m (words p (a 0) ++ words (p + 4) (a 1))) := if_pos h
theorem store4_ok {m : Memory α} {p : ℕ} {a : Reg 4 α} (h : p % 16 = 0) :
    store4 m p a = some (puts m (words p (a 0) ++ words (p + 4) (a 1) ++ words (p + 8) (a 2) ++ words (p + 12) (a 3))) := if_pos h

theorem store1_bad {m : Memory α} {p : ℕ} {a : Reg 1 α} (h : p % 4 ≠ 0) : store1 m p a = none := if_neg h
theorem store2_bad {m : Memory α} {p : ℕ} {a : Reg 2 α} (h : p % 8 ≠ 0) : store2 m p a = none := if_neg h
theorem store4_bad {m : Memory α} {p : ℕ} {a : Reg 4 α} (h : p % 16 ≠ 0) : store4 m p a = none := if_neg h

theorem bind_bad {β γ : Type} {o : Option β} {f : β → Option γ} (h : o = none) : (o >>= f) = none := by rw [h]; rfl

theorem bind_rest {β γ : Type} {o : Option β} {f : β → Option γ} (h : ∀ x, f x = none) : (o >>= f) = none := by cases o with
  | none => rfl
  | some x => exact h x

/-- For each pointer: skip the accesses before the one with that pointer, which is undefined. -/
macro "skip_bind" f:ident b:ident : tactic => `(tactic|
  (intro h; unfold $f; repeat first | exact bind_bad ($b h) | exact $b h | refine bind_rest fun _ => ?_))

/-- For each pointer. -/
macro "refine_rows" t:tactic : tactic => `(tactic|
  ((first | refine all1 ?_ | refine all2 ?_ ?_ | refine all4 ?_ ?_ ?_ ?_) <;> refine all4 ?_ ?_ ?_ ?_ <;> $t))

theorem store1_bind {β : Type} {m : Memory α} {p : ℕ} {a : Reg 1 α} {f : Memory α → Option β} (h : p % 4 = 0) :
    (store1 m p a >>= f) = f (puts m (words p (a 0))) := by rw [store1_ok h]; rfl
theorem store2_bind {β : Type} {m : Memory α} {p : ℕ} {a : Reg 2 α} {f : Memory α → Option β} (h : p % 8 = 0) :
    (store2 m p a >>= f) = f (puts m (words p (a 0) ++ words (p + 4) (a 1))) := by rw [store2_ok h]; rfl
theorem store4_bind {β : Type} {m : Memory α} {p : ℕ} {a : Reg 4 α} {f : Memory α → Option β} (h : p % 16 = 0) :
    (store4 m p a >>= f) = f (puts m (words p (a 0) ++ words (p + 4) (a 1) ++ words (p + 8) (a 2) ++ words (p + 12) (a 3))) := by
  rw [store4_ok h]; rfl

/-! ### Writing -/

theorem puts_append (m : Memory α) (l l' : List (ℕ × α)) : puts (puts m l) l' = puts m (l ++ l') := List.foldl_append.symm

/-- If the list does not contradict itself, every word it names has its value, the others stay. -/
theorem puts_spec (l : List (ℕ × α)) : ∀ m : Memory α, (∀ e ∈ l, ∀ e' ∈ l, e.1 = e'.1 → e.2 = e'.2) →
    (∀ e ∈ l, puts m l e.1 = e.2) ∧ ∀ x, (∀ e ∈ l, x ≠ e.1) → puts m l x = m x := by
  induction l using List.reverseRecOn with
  | nil => exact fun m _ => ⟨by simp, fun x _ => rfl⟩
  | append_singleton l a ih =>
    intro m hc
    have hp : ∀ x, puts m (l ++ [a]) x = if x = a.1 then a.2 else puts m l x := fun x => by
      rw [← puts_append]; rfl
    obtain ⟨h1, h2⟩ := ih m fun e he e' he' => hc e (List.mem_append_left _ he) e' (List.mem_append_left _ he')
    refine ⟨fun e he => ?_, fun x hx => ?_⟩
    · rw [hp]
      by_cases h : e.1 = a.1
      · rw [if_pos h]
        exact (hc e he a (by simp) h).symm
      · rw [if_neg h]
        rcases List.mem_append.1 he with he | he
        · exact h1 e he
        · exact absurd (by rw [List.mem_singleton.1 he]) h
    · rw [hp, if_neg (hx a (by simp))]
      exact h2 x fun e he => hx e (List.mem_append_left _ he)

/-- Writing all words of the rows, in any order. -/
theorem puts_rows {ι : Type} (L : List ι) (adr : ι → ℕ) (val : ι → α) (hL : ∀ i, i ∈ L) (hi : ∀ i i', adr i = adr i' → i = i') (m : Memory α) :
    (∀ i, puts m (L.map fun i => (adr i, val i)) (adr i) = val i) ∧ ∀ x, (∀ i, x ≠ adr i) → puts m (L.map fun i => (adr i, val i)) x = m x := by
  obtain ⟨h1, h2⟩ := puts_spec (L.map fun i => (adr i, val i)) m (by
    intro e he e' he' h
    obtain ⟨i, -, rfl⟩ := List.mem_map.1 he
    obtain ⟨i', -, rfl⟩ := List.mem_map.1 he'
    rw [hi i i' h])
  refine ⟨fun i => h1 _ (List.mem_map.2 ⟨i, hL i, rfl⟩), fun x hx => h2 x fun e he => ?_⟩
  obtain ⟨i, -, rfl⟩ := List.mem_map.1 he
  exact hx i

/-- Row, word of the row, in the order of the rows. -/
def order (n k : ℕ) : List (Fin n × Fin 4 × Fin k) :=
  (List.finRange n).flatMap fun q => (List.finRange 4).flatMap fun l => (List.finRange k).map fun j => (q, l, j)

theorem mem_order {n k : ℕ} (i : Fin n × Fin 4 × Fin k) : i ∈ order n k := by
  obtain ⟨q, l, j⟩ := i
  simp [order]

/-- The first two words of all rows, then the third one. -/
def order3 (n : ℕ) : List (Fin n × Fin 4 × Fin 3) :=
  ((List.finRange n).flatMap fun q => (List.finRange 4).flatMap fun l => [(q, l, 0), (q, l, 1)]) ++
  (List.finRange n).flatMap fun q => (List.finRange 4).map fun l => (q, l, 2)

theorem mem_order3 {n : ℕ} (i : Fin n × Fin 4 × Fin 3) : i ∈ order3 n := by
  obtain ⟨q, l, j⟩ := i
  revert j
  exact all3 (by simp [order3]) (by simp [order3]) (by simp [order3])

/-- What `StoresTr` says, for a function that writes the words of the rows in any order. -/
theorem storesTr_of {n k w : ℕ} {f : Memory α → (Fin k → Reg n α) → (Fin n → Fin 4 → ℕ) → Option (Memory α)} (L : List (Fin n × Fin 4 × Fin k))
    (hL : ∀ i, i ∈ L)
    (h : ∀ m v p, (∀ q l, p q l % w = 0) → f m v p = some (puts m (L.map fun i => (p i.1 i.2.1 + i.2.2, v i.2.2 i.1 i.2.1))))
    (hb : ∀ m v p q l, p q l % w ≠ 0 → f m v p = none) : StoresTr w f := by
  intro m v p
  refine ⟨fun hw ha => ?_, fun ⟨q, l, hq⟩ => hb m v p q l hq⟩
  obtain ⟨h1, h2⟩ := puts_rows L (fun i => p i.1 i.2.1 + i.2.2) (fun i => v i.2.2 i.1 i.2.1) hL (by
    rintro ⟨q, l, j⟩ ⟨q', l', j'⟩ e
    obtain ⟨rfl, rfl, rfl⟩ := ha q l q' l' j j' e
    rfl) m
  exact ⟨_, h m v p hw, fun q l j => h1 (q, l, j), fun x hx => h2 x fun i => hx i.1 i.2.1 i.2.2⟩

@[inherit_doc storesTr_of]
theorem storesPairs_of {w : ℕ} {f : Memory α → (Fin 8 → Reg 4 α) → (Fin 2 → Fin 4 → ℕ) → Option (Memory α)}
    (h : ∀ m v p, (∀ q l, p q l % w = 0) → f m v p = some (puts m ((order 4 8).map fun i => (pairs p i.1 i.2.1 + i.2.2, v i.2.2 i.1 i.2.1))))
    (hb : ∀ m v p q l, p q l % w ≠ 0 → f m v p = none) : StoresPairs w f := by
  intro m v p
  refine ⟨fun hw ha => ?_, fun ⟨q, l, hq⟩ => hb m v p q l hq⟩
  obtain ⟨h1, h2⟩ := puts_rows (order 4 8) (fun i => pairs p i.1 i.2.1 + i.2.2) (fun i => v i.2.2 i.1 i.2.1) mem_order (by
    rintro ⟨q, l, j⟩ ⟨q', l', j'⟩ e
    obtain ⟨rfl, rfl, rfl⟩ := ha q l q' l' j j' e
    rfl) m
  exact ⟨_, h m v p hw, fun q l j => h1 (q, l, j), fun x hx => h2 x fun i => hx i.1 i.2.1 i.2.2⟩

/-- Which half of the pointers, row, word of the row. -/
def order2 : List (Fin 2 × Fin 4 × Fin 4 × Fin 8) := (order 4 8).map (fun i => (0, i)) ++ (order 4 8).map fun i => (1, i)

/-- Address and value of a word for `store_16x16_tr_p`. -/
def cell2 (v : Fin 16 → Reg 4 α) (p : Fin 4 → Fin 4 → ℕ) (i : Fin 2 × Fin 4 × Fin 4 × Fin 8) : ℕ × α :=
  match i.1 with
  | 0 => (pairs (lower p) i.2.1 i.2.2.1 + i.2.2.2, v ⟨i.2.2.2, by omega⟩ i.2.1 i.2.2.1)
  | 1 => (pairs (upper p) i.2.1 i.2.2.1 + i.2.2.2, v ⟨8 + i.2.2.2, by omega⟩ i.2.1 i.2.2.1)

theorem cell2_adr (v : Fin 16 → Reg 4 α) (p : Fin 4 → Fin 4 → ℕ) (i : Fin 2 × Fin 4 × Fin 4 × Fin 8) :
    (cell2 v p i).1 = p ⟨2 * i.1 + i.2.1 / 2, by omega⟩ ⟨2 * (i.2.1 % 2) + i.2.2.1 / 2, by omega⟩ + (⟨8 * (i.2.2.1 % 2) + i.2.2.2, by omega⟩ : Fin 16) := by
  obtain ⟨h, q, l, j⟩ := i
  revert h
  refine all2 ?_ ?_
  · simp only [cell2, pairs, lower]
    rw [Nat.add_assoc]
    congr 2
    exact Fin.ext (by simp)
  · simp only [cell2, pairs, upper]
    rw [Nat.add_assoc]
    congr 2

@[inherit_doc storesTr_of]
theorem storesPairs2_of {w : ℕ} {f : Memory α → (Fin 16 → Reg 4 α) → (Fin 4 → Fin 4 → ℕ) → Option (Memory α)}
    (h : ∀ m v p, (∀ q l, p q l % w = 0) → f m v p = some (puts m (order2.map (cell2 v p))))
    (hb : ∀ m v p q l, p q l % w ≠ 0 → f m v p = none) : StoresPairs2 w f := by
  intro m v p
  refine ⟨fun hw ha => ?_, fun ⟨q, l, hq⟩ => hb m v p q l hq⟩
  obtain ⟨h1, h2⟩ := puts_rows order2 (fun i => (cell2 v p i).1) (fun i => (cell2 v p i).2) (by
    rintro ⟨h, i⟩
    revert h
    exact all2 (by simp [order2, mem_order]) (by simp [order2, mem_order])) (by
    intro i i' e
    replace e : (cell2 v p i).1 = (cell2 v p i').1 := e
    rw [cell2_adr, cell2_adr] at e
    obtain ⟨e1, e2, e3⟩ := ha _ _ _ _ _ _ e
    obtain ⟨h, q, l, j⟩ := i
    obtain ⟨h', q', l', j'⟩ := i'
    simp only [Fin.mk.injEq] at e1 e2 e3
    simp only [Prod.mk.injEq]
    exact ⟨Fin.ext (by omega), Fin.ext (by omega), Fin.ext (by omega), Fin.ext (by omega)⟩) m
  refine ⟨_, h m v p hw, fun q l j => h1 (0, q, l, j), fun q l j => h1 (1, q, l, j), fun x hx => h2 x fun i => ?_⟩
  rw [cell2_adr]
  exact hx _ _ _

/-! ### One vector -/

theorem stores_of {n w : ℕ} {f : Memory α → (Fin 1 → Reg n α) → ℕ → Option (Memory α)}
    (h : ∀ m v p, p % w = 0 → f m v p = some (puts m ((order n 1).map fun i => (p + 4 * i.1 + i.2.1, v 0 i.1 i.2.1))))
    (hb : ∀ m v p, p % w ≠ 0 → f m v p = none) : Stores w f := by
  intro m v p
  refine ⟨fun hw => ?_, hb m v p⟩
  obtain ⟨h1, h2⟩ := puts_rows (order n 1) (fun i => p + 4 * i.1 + i.2.1) (fun i => v 0 i.1 i.2.1) mem_order (by
    rintro ⟨q, l, j⟩ ⟨q', l', j'⟩ e
    simp only [Prod.mk.injEq]
    simp only at e
    exact ⟨Fin.ext (by omega), Fin.ext (by omega), Subsingleton.elim _ _⟩) m
  refine ⟨_, h m v p hw, fun q l => h1 (q, l, 0), fun x hx => h2 x fun i => ?_⟩
  have := hx (4 * i.1 + i.2.1) (by omega)
  omega

theorem clears_of [Zero α] {n w : ℕ} {f : Memory α → ℕ → Option (Memory α)}
    (h : ∀ m p, p % w = 0 → f m p = some (puts m ((order n 1).map fun i => (p + 4 * i.1 + i.2.1, 0))))
    (hb : ∀ m p, p % w ≠ 0 → f m p = none) : Clears n w f := by
  intro m p
  refine ⟨fun hw => ?_, hb m p⟩
  obtain ⟨h1, h2⟩ := puts_rows (order n 1) (fun i => p + 4 * i.1 + i.2.1) (fun _ => (0 : α)) mem_order (by
    rintro ⟨q, l, j⟩ ⟨q', l', j'⟩ e
    simp only [Prod.mk.injEq]
    simp only at e
    exact ⟨Fin.ext (by omega), Fin.ext (by omega), Subsingleton.elim _ _⟩) m
  refine ⟨_, h m p hw, fun i hi => ?_, fun x hx => h2 x fun i => ?_⟩
  · have := h1 (⟨i / 4, by omega⟩, ⟨i % 4, by omega⟩, 0)
    simp only at this
    rwa [show p + 4 * (i / 4) + i % 4 = p + i by omega] at this
  · have := hx (4 * i.1 + i.2.1) (by omega)
    omega

/-- Words copied one after the other. -/
def copyWords (m : Memory α) (a b : ℕ) : ℕ → Memory α
  | 0 => m
  | k + 1 => let m' := copyWords m a b k; put m' (a + k) (m' (b + k))

theorem copyWords_spec (m : Memory α) (a b N : ℕ) (h : SameOrApart N a b) : ∀ k, k ≤ N →
    (∀ i < k, copyWords m a b k (a + i) = m (b + i)) ∧ ∀ x, (∀ i < k, x ≠ a + i) → copyWords m a b k x = m x := by
  intro k
  induction k with
  | zero => exact fun _ => ⟨fun i hi => absurd hi (by omega), fun x _ => rfl⟩
  | succ k ih =>
    intro hk
    obtain ⟨h1, h2⟩ := ih (by omega)
    have hb : copyWords m a b k (b + k) = m (b + k) := h2 _ fun i hi => by
      rcases h with h | h | h <;> omega
    refine ⟨fun i hi => ?_, fun x hx => ?_⟩
    · simp only [copyWords, put]
      split
      · rename_i e
        rw [hb, show i = k by omega]
      · exact h1 i (by omega)
    · simp only [copyWords, put]
      rw [if_neg (hx k (by omega))]
      exact h2 x fun i hi => hx i (by omega)

/-- Words exchanged one after the other. -/
def swapWords (m : Memory α) (a b : ℕ) : ℕ → Memory α
  | 0 => m
  | k + 1 => let m' := swapWords m a b k; put (put m' (a + k) (m' (b + k))) (b + k) (m' (a + k))

theorem swapWords_spec (m : Memory α) (a b N : ℕ) (h : SameOrApart N a b) : ∀ k, k ≤ N →
    (∀ i < k, swapWords m a b k (a + i) = m (b + i)) ∧ (∀ i < k, swapWords m a b k (b + i) = m (a + i)) ∧
    ∀ x, (∀ i < k, x ≠ a + i ∧ x ≠ b + i) → swapWords m a b k x = m x := by
  intro k
  induction k with
  | zero => exact fun _ => ⟨fun i hi => absurd hi (by omega), fun i hi => absurd hi (by omega), fun x _ => rfl⟩
  | succ k ih =>
    intro hk
    obtain ⟨h1, h2, h3⟩ := ih (by omega)
    have hb : swapWords m a b k (b + k) = m (b + k) := h3 _ fun i hi => by rcases h with h | h | h <;> omega
    have ha : swapWords m a b k (a + k) = m (a + k) := h3 _ fun i hi => by rcases h with h | h | h <;> omega
    have key : ∀ x, swapWords m a b (k + 1) x = if x = b + k then m (a + k) else if x = a + k then m (b + k) else swapWords m a b k x := fun x => by
      simp only [swapWords, put, ha, hb]
    refine ⟨fun i hi => ?_, fun i hi => ?_, fun x hx => ?_⟩
    · rw [key]
      split
      · rename_i e
        rcases h with h | h | h
        · subst h; rw [show i = k by omega]
        · omega
        · omega
      · split
        · rename_i e
          rw [show i = k by omega]
        · exact h1 i (by omega)
    · rw [key]
      split
      · rename_i e
        rw [show i = k by omega]
      · split
        · rename_i e
          rcases h with h | h | h
          · subst h; omega
          · omega
          · omega
        · exact h2 i (by omega)
    · have := hx k (by omega)
      rw [key, if_neg this.2, if_neg this.1]
      exact h3 x fun i hi => hx i (by omega)

theorem copies_of_words {n : ℕ} {f : Memory α → ℕ → ℕ → Memory α} (h : ∀ m a b, f m a b = copyWords m a b (4 * n)) :
    Copies n 1 (fun m a b => some (f m a b)) := by
  intro m a b
  refine ⟨fun _ _ hs => ?_, fun hh => by omega⟩
  obtain ⟨h1, h2⟩ := copyWords_spec m a b (4 * n) hs (4 * n) le_rfl
  exact ⟨_, congrArg some (h m a b), h1, h2⟩

theorem swaps_of_words {n : ℕ} {f : Memory α → ℕ → ℕ → Memory α} (h : ∀ m a b, f m a b = swapWords m a b (4 * n)) :
    Swaps n 1 (fun m a b => some (f m a b)) := by
  intro m a b
  refine ⟨fun _ _ hs => ?_, fun hh => by omega⟩
  obtain ⟨h1, h2, h3⟩ := swapWords_spec m a b (4 * n) hs (4 * n) le_rfl
  exact ⟨_, congrArg some (h m a b), h1, h2, h3⟩

/-- A register read at one place and written at another. -/
theorem copy_quad (m : Memory α) (a b : ℕ) :
    (∀ i < 4, puts m (words a (quad (m b) (m (b + 1)) (m (b + 2)) (m (b + 3)))) (a + i) = m (b + i)) ∧
    ∀ x, (∀ i < 4, x ≠ a + i) → puts m (words a (quad (m b) (m (b + 1)) (m (b + 2)) (m (b + 3)))) x = m x := by
  refine ⟨fun i hi => ?_, fun x hx => ?_⟩
  · obtain rfl | rfl | rfl | rfl : i = 0 ∨ i = 1 ∨ i = 2 ∨ i = 3 := by omega
    all_goals simp [puts, words, put, quad]
  · have h0 := hx 0 (by omega)
    have h1 := hx 1 (by omega)
    have h2 := hx 2 (by omega)
    have h3 := hx 3 (by omega)
    simp only [Nat.add_zero] at h0
    simp [puts, words, put, h0, h1, h2, h3]

/-- Two registers read, each written at the place of the other. -/
theorem swap_quad (m : Memory α) (a b : ℕ) (hs : SameOrApart 4 a b) (m' : Memory α)
    (hm : m' = puts (puts m (words a (quad (m b) (m (b + 1)) (m (b + 2)) (m (b + 3))))) (words b (quad (m a) (m (a + 1)) (m (a + 2)) (m (a + 3))))) :
    (∀ i < 4, m' (a + i) = m (b + i)) ∧ (∀ i < 4, m' (b + i) = m (a + i)) ∧ ∀ x, (∀ i < 4, x ≠ a + i ∧ x ≠ b + i) → m' x = m x := by
  subst hm
  refine ⟨fun i hi => ?_, fun i hi => ?_, fun x hx => ?_⟩
  · obtain rfl | rfl | rfl | rfl : i = 0 ∨ i = 1 ∨ i = 2 ∨ i = 3 := by omega
    all_goals
      rcases hs with hs | hs | hs
      · subst hs; simp [puts, words, put, quad]
      · simp only [puts, words, put, quad, List.foldl]
        repeat (first | rw [if_neg (by omega)] | rw [if_pos (by omega)])
        try rfl
      · simp only [puts, words, put, quad, List.foldl]
        repeat (first | rw [if_neg (by omega)] | rw [if_pos (by omega)])
        try rfl
  · obtain rfl | rfl | rfl | rfl : i = 0 ∨ i = 1 ∨ i = 2 ∨ i = 3 := by omega
    all_goals simp [puts, words, put, quad]
  · have h0 := hx 0 (by omega)
    have h1 := hx 1 (by omega)
    have h2 := hx 2 (by omega)
    have h3 := hx 3 (by omega)
    simp only [Nat.add_zero] at h0
    simp [puts, words, put, h0, h1, h2, h3]

theorem copies_of_1 {f : Memory α → ℕ → ℕ → Option (Memory α)}
    (h : ∀ m a b, f m a b = (load1 m b >>= fun x => store1 m a x)) : Copies 1 4 f := by
  intro m a b
  refine ⟨fun ha hb hs => ?_, fun hh => ?_⟩
  · rw [h, load1_ok hb]
    obtain ⟨h1, h2⟩ := copy_quad m a b
    exact ⟨_, store1_ok ha, h1, h2⟩
  · rw [h]
    rcases hh with hh | hh
    · exact bind_rest fun _ => store1_bad hh
    · exact bind_bad (load1_bad hh)

theorem copies_of_quad {f : Memory α → ℕ → ℕ → Memory α} (h : ∀ m a b, f m a b = stq m a (ldq m b)) : Copies 1 1 fun m a b => some (f m a b) := by
  intro m a b
  refine ⟨fun _ _ hs => ?_, fun hh => by omega⟩
  obtain ⟨h1, h2⟩ := copy_quad m a b
  exact ⟨_, congrArg some (h m a b), h1, h2⟩

theorem swaps_of_1 {f : Memory α → ℕ → ℕ → Option (Memory α)}
    (h : ∀ m a b, f m a b = (load1 m a >>= fun t => load1 m b >>= fun x => store1 m a x >>= fun m => store1 m b t)) :
    Swaps 1 4 f := by
  intro m a b
  refine ⟨fun ha hb hs => ?_, fun hh => ?_⟩
  · rw [h, load1_ok ha, load1_ok hb]
    exact ⟨_, (store1_bind ha).trans (store1_ok hb), swap_quad m a b hs _ rfl⟩
  · rw [h]
    rcases hh with hh | hh
    · exact bind_bad (load1_bad hh)
    · exact bind_rest fun _ => bind_bad (load1_bad hh)

theorem swaps_of_quad {f : Memory α → ℕ → ℕ → Memory α} (h : ∀ m a b, f m a b = stq (stq m a (ldq m b)) b (ldq m a)) :
    Swaps 1 1 fun m a b => some (f m a b) := by
  intro m a b
  refine ⟨fun _ _ hs => ?_, fun hh => by omega⟩
  exact ⟨_, congrArg some (h m a b), swap_quad m a b hs _ rfl⟩

end Verif.Vector
