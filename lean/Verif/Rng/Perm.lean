import Verif.Rng.Model
import Mathlib.Data.List.Perm.Basic
import Mathlib.Data.List.Nodup
import Mathlib.Data.List.FinRange
import Mathlib.Data.Fintype.Pi
import Mathlib.Data.Fintype.BigOperators
import Mathlib.Data.Nat.Factorial.Basic
import Mathlib.Order.Interval.Finset.Nat
import Mathlib.Tactic.Ring
import Mathlib.Tactic.Tauto
import Mathlib.Tactic.Linarith
import Mathlib.Tactic.NormNum
import Mathlib.Tactic.IntervalCases

/-!
# C43: random permutations and shuffling
-/
namespace Verif.Rng

/-! ## Specification -/

/-- A rearrangement of the positions `0..n-1`: one to one there, the identity outside. -/
structure Rearr (n : ℕ) (σ : ℕ → ℕ) : Prop where
  /-- stays inside -/
  lt : ∀ i, i < n → σ i < n
  /-- identity outside -/
  out : ∀ i, n ≤ i → σ i = i
  /-- one to one -/
  inj : ∀ i j, σ i = σ j → i = j

/-! ## Lemmas -/

variable {α : Type*}

/-- Swaps `i ↔ j` for the choices `j` from position `i` on. -/
def applyChoices : List ℕ → ℕ → (ℕ → α) → (ℕ → α)
  | [], _, x => x
  | j :: js, i, x => applyChoices js (i + 1) (swap x i j)

/-- Admissible choices: position `i` is exchanged with a position in `[i, n)`. -/
def Admissible (n : ℕ) : List ℕ → ℕ → Prop
  | [], _ => True
  | j :: js, i => i ≤ j ∧ j < n ∧ Admissible n js (i + 1)

lemma swap_injective {x : ℕ → α} (i j : ℕ) (h : ∀ a b, x a = x b → a = b) : ∀ a b, swap x i j a = swap x i j b → a = b := by
  intro a b hab
  unfold swap at hab
  split_ifs at hab <;> have := h _ _ hab <;> omega

lemma applyChoices_below (js : List ℕ) (n i : ℕ) (x : ℕ → α) (ha : Admissible n js i) (k : ℕ) (hk : k < i) :
    applyChoices js i x k = x k := by
  induction js generalizing i x with
  | nil => rfl
  | cons j js ih =>
    obtain ⟨h1, h2, h3⟩ := ha
    rw [applyChoices, ih (i + 1) _ h3 (by omega)]
    unfold swap
    rw [if_neg (by omega), if_neg (by omega)]

lemma applyChoices_rearr (js : List ℕ) (n i : ℕ) (x : ℕ → ℕ) (ha : Admissible n js i) (hin : i ≤ n)
    (hx : Rearr n x) (hl : js.length + i ≤ n) : Rearr n (applyChoices js i x) := by
  induction js generalizing i x with
  | nil => exact hx
  | cons j js ih =>
    obtain ⟨h1, h2, h3⟩ := ha
    simp only [List.length_cons] at hl
    apply ih (i + 1) _ h3 (by omega) _ (by omega)
    refine ⟨?_, ?_, swap_injective i j hx.inj⟩
    · intro k hk
      unfold swap
      split_ifs
      · exact hx.lt _ h2
      · exact hx.lt _ (by omega)
      · exact hx.lt _ hk
    · intro k hk
      unfold swap
      rw [if_neg (by omega), if_neg (by omega)]
      exact hx.out k hk

/-- Every rearrangement of `[i, n)` comes from exactly one sequence of choices. -/
lemma choices_unique (m : ℕ) : ∀ (n i : ℕ) (x y : ℕ → α), i + m + 1 = n → (∀ a b, x a = x b → a = b) →
    (∀ a b, y a = y b → a = b) → (∀ k, k < i → y k = x k) → (∀ k, n ≤ k → y k = x k) →
    (∀ k, i ≤ k → k < n → ∃ k', i ≤ k' ∧ k' < n ∧ y k = x k') →
    ∃! js : List ℕ, js.length = m ∧ Admissible n js i ∧ applyChoices js i x = y := by
  induction m with
  | zero =>
    intro n i x y hn hx hy hlo hhi hr
    refine ⟨[], ⟨rfl, trivial, ?_⟩, ?_⟩
    · funext k
      rw [applyChoices]
      rcases Nat.lt_or_ge k i with h | h
      · exact (hlo k h).symm
      · rcases Nat.lt_or_ge k n with h2 | h2
        · obtain ⟨k', h3, h4, h5⟩ := hr k h h2
          have : k' = k := by omega
          rw [this] at h5; exact h5.symm
        · exact (hhi k h2).symm
    · rintro js ⟨h1, -, -⟩
      exact List.length_eq_zero_iff.mp h1
  | succ m ih =>
    intro n i x y hn hx hy hlo hhi hr
    obtain ⟨j, hj1, hj2, hj3⟩ := hr i (le_refl i) (by omega)
    have key : ∃! js : List ℕ, js.length = m ∧ Admissible n js (i + 1) ∧ applyChoices js (i + 1) (swap x i j) = y := by
      apply ih n (i + 1) (swap x i j) y (by omega) (swap_injective i j hx) hy
      · intro k hk
        unfold swap
        rcases Nat.lt_or_ge k i with h | h
        · rw [if_neg (by omega), if_neg (by omega)]; exact hlo k h
        · have : k = i := by omega
          subst this; rw [if_pos rfl]; exact hj3
      · intro k hk
        unfold swap
        rw [if_neg (by omega), if_neg (by omega)]; exact hhi k hk
      · intro k hk1 hk2
        obtain ⟨k', h3, h4, h5⟩ := hr k (by omega) hk2
        have hkj : k' ≠ j := by
          intro e
          subst e
          have := hy _ _ (h5.trans hj3.symm)
          omega
        by_cases hki : k' = i
        · refine ⟨j, ?_, hj2, ?_⟩
          · subst hki
            omega
          · unfold swap
            rw [if_neg (by omega), if_pos rfl, ← hki]; exact h5
        · refine ⟨k', by omega, h4, ?_⟩
          unfold swap
          rw [if_neg hki, if_neg hkj]; exact h5
    obtain ⟨js, ⟨hl, hadm, heq⟩, huniq⟩ := key
    refine ⟨j :: js, ⟨by simp [hl], ⟨hj1, hj2, hadm⟩, heq⟩, ?_⟩
    rintro js' ⟨hl', hadm', heq'⟩
    cases js' with
    | nil => simp at hl'
    | cons j' js' =>
      obtain ⟨g1, g2, g3⟩ := hadm'
      rw [applyChoices] at heq'
      have hb := applyChoices_below js' n (i + 1) (swap x i j') g3 i (by omega)
      rw [heq'] at hb
      have : swap x i j' i = x j' := by unfold swap; rw [if_pos rfl]
      rw [this, hj3] at hb
      have hjj := hx _ _ hb
      subst hjj
      rw [huniq js' ⟨by simpa using hl', g3, heq'⟩]

/-- The outcome of the rejection loop: some number of rejected raw numbers, then an accepted one. -/
lemma pick_some {d i n j : ℕ} {as bs : List ℕ} (h : pick d i n as = some (j, bs)) :
    0 < d ∧ i ≤ j ∧ j < n ∧ ∃ rej a, as = rej ++ a :: bs ∧ j = i + a / d ∧ ∀ r ∈ rej, n ≤ i + r / d := by
  induction as with
  | nil => simp [pick] at h
  | cons a as ih =>
    unfold pick at h
    split_ifs at h with h1 h2
    · obtain ⟨g1, g2, g3, rej, a', g4, g5, g6⟩ := ih h
      refine ⟨g1, g2, g3, a :: rej, a', by rw [g4]; rfl, g5, ?_⟩
      intro r hr
      rcases List.mem_cons.mp hr with rfl | hr
      · exact h2
      · exact g6 r hr
    · simp only [Option.some.injEq, Prod.mk.injEq] at h
      obtain ⟨rfl, rfl⟩ := h
      exact ⟨by omega, Nat.le_add_right _ _, by omega, [], a, rfl, rfl, by simp⟩

lemma permLoop_choices {dOf : ℕ → ℕ} {n : ℕ} (m : ℕ) : ∀ (i : ℕ) (x y : ℕ → α) (as bs : List ℕ),
    permLoop dOf n m i x as = some (y, bs) →
    ∃ js : List ℕ, js.length = m ∧ Admissible n js i ∧ y = applyChoices js i x := by
  induction m with
  | zero =>
    intro i x y as bs h
    simp only [permLoop, Option.some.injEq, Prod.mk.injEq] at h
    exact ⟨[], rfl, trivial, h.1.symm⟩
  | succ m ih =>
    intro i x y as bs h
    unfold permLoop at h
    split at h
    · cases h
    · rename_i j as' hp
      obtain ⟨-, h1, h2, -⟩ := pick_some hp
      obtain ⟨js, g1, g2, g3⟩ := ih _ _ _ _ _ h
      exact ⟨j :: js, by simp [g1], ⟨h1, h2, g2⟩, g3⟩

/-! ## Permutations -/

/-- C43: whatever the raw numbers, the result of `randperm` is a rearrangement of `0..n-1`. -/
theorem randperm_is_permutation (n : ℕ) (as bs : List ℕ) (x : ℕ → ℕ) (h : randperm n as = some (x, bs)) :
    Rearr n x ∧ ((List.range n).map x).Perm (List.range n) := by
  obtain ⟨js, h1, h2, h3⟩ := permLoop_choices (n - 1) 0 _ _ _ _ h
  have hr : Rearr n x := by
    rw [h3]
    exact applyChoices_rearr js n 0 _ h2 (Nat.zero_le _) ⟨fun i h => h, fun _ _ => rfl, fun _ _ h => h⟩ (by omega)
  refine ⟨hr, ?_⟩
  have hnd : ((List.range n).map x).Nodup := List.Nodup.map (fun a b h => hr.inj a b h) List.nodup_range
  have hsub : (List.range n).map x ⊆ List.range n := by
    intro a ha
    obtain ⟨k, hk, rfl⟩ := List.mem_map.mp ha
    exact List.mem_range.mpr (hr.lt k (List.mem_range.mp hk))
  exact (List.subperm_of_subset hnd hsub).perm_of_length_le (by simp)

lemma div_eq_iff {a d k : ℕ} (hd : 0 < d) : a / d = k ↔ k * d ≤ a ∧ a < (k + 1) * d := by
  constructor
  · rintro rfl
    exact ⟨Nat.div_mul_le_self a d, by rw [Nat.add_mul, Nat.one_mul]; exact Nat.lt_div_mul_add hd⟩
  · rintro ⟨h1, h2⟩
    exact Nat.div_eq_of_lt_le h1 h2

/-- C43: each of the `t` admissible values of a draw has exactly the same number of raw 32-bit numbers. -/
theorem draw_preimages (t k : ℕ) (hk : k < t) (ht : t ≤ 2 ^ 32 - 1) :
    (Finset.univ.filter (fun a : Fin (2 ^ 32) => a.val / ((2 ^ 32 - 1) / t) = k)).card = (2 ^ 32 - 1) / t := by
  generalize hd : (2 ^ 32 - 1) / t = d
  have hdpos : 0 < d := hd ▸ Nat.div_pos ht (by omega)
  have hdt : d * t ≤ 2 ^ 32 - 1 := hd ▸ Nat.div_mul_le_self _ _
  have hle : (k + 1) * d ≤ 2 ^ 32 - 1 := le_trans (by rw [Nat.mul_comm]; exact Nat.mul_le_mul_left d hk) hdt
  have himg : (Finset.univ.filter (fun a : Fin (2 ^ 32) => a.val / d = k)).map Fin.valEmbedding =
      Finset.Ico (k * d) ((k + 1) * d) := by
    ext a
    simp only [Finset.mem_map, Finset.mem_filter, Finset.mem_univ, true_and, Finset.mem_Ico, Fin.valEmbedding_apply]
    constructor
    · rintro ⟨b, hb, rfl⟩
      exact (div_eq_iff hdpos).mp hb
    · rintro ⟨h1, h2⟩
      have : a < 2 ^ 32 := lt_of_lt_of_le h2 (le_trans hle (by norm_num))
      exact ⟨⟨a, this⟩, (div_eq_iff hdpos).mpr ⟨h1, h2⟩, rfl⟩
  rw [← Finset.card_map Fin.valEmbedding, himg, Nat.card_Ico, Nat.add_mul, Nat.one_mul]
  omega

/-- The choices made by raw numbers none of which is rejected. -/
def choicesOf (dOf : ℕ → ℕ) (n : ℕ) : List ℕ → ℕ → List ℕ
  | [], _ => []
  | a :: as, i => (i + a / dOf (n - i)) :: choicesOf dOf n as (i + 1)

lemma choicesOf_length (dOf : ℕ → ℕ) (n : ℕ) (as : List ℕ) (i : ℕ) : (choicesOf dOf n as i).length = as.length := by
  induction as generalizing i with
  | nil => rfl
  | cons a as ih => simp [choicesOf, ih]

lemma choicesOf_get (dOf : ℕ → ℕ) (n : ℕ) (as : List ℕ) (i k : ℕ) (hk : k < as.length) :
    (choicesOf dOf n as i)[k]'(by rw [choicesOf_length]; exact hk) = i + k + as[k] / dOf (n - (i + k)) := by
  induction as generalizing i k with
  | nil => simp at hk
  | cons a as ih =>
    cases k with
    | zero => simp [choicesOf]
    | succ k =>
      simp only [choicesOf, List.getElem_cons_succ]
      rw [ih (i + 1) k (by simpa using hk)]
      have : i + 1 + k = i + (k + 1) := by omega
      rw [this]

lemma permLoop_consumes {dOf : ℕ → ℕ} {n : ℕ} (m : ℕ) : ∀ (i : ℕ) (x y : ℕ → α) (as bs : List ℕ),
    permLoop dOf n m i x as = some (y, bs) → m + bs.length ≤ as.length := by
  induction m with
  | zero =>
    intro i x y as bs h
    simp only [permLoop, Option.some.injEq, Prod.mk.injEq] at h
    rw [h.2]; omega
  | succ m ih =>
    intro i x y as bs h
    unfold permLoop at h
    split at h
    · cases h
    · rename_i j as' hp
      obtain ⟨-, -, -, rej, a, e, -⟩ := pick_some hp
      have := ih _ _ _ _ _ h
      rw [e]; simp only [List.length_append, List.length_cons]; omega

/-- With exactly as many raw numbers as draws, the loop succeeds iff no number is rejected. -/
lemma permLoop_exact {dOf : ℕ → ℕ} {n : ℕ} (hd : ∀ t, 1 ≤ t → t ≤ n → 0 < dOf t) (as : List ℕ) :
    ∀ (i : ℕ) (x y : ℕ → α), i + as.length ≤ n →
    (permLoop dOf n as.length i x as = some (y, []) ↔
      Admissible n (choicesOf dOf n as i) i ∧ applyChoices (choicesOf dOf n as i) i x = y) := by
  induction as with
  | nil => intro i x y _; simp [permLoop, choicesOf, Admissible, applyChoices]
  | cons a as ih =>
    intro i x y hl
    simp only [List.length_cons] at hl ⊢
    have hdi := hd (n - i) (by omega) (by omega)
    rw [permLoop, choicesOf, Admissible, applyChoices]
    by_cases hrej : i + a / dOf (n - i) ≥ n
    · constructor
      · intro h
        exfalso
        have hp : pick (dOf (n - i)) i n (a :: as) = pick (dOf (n - i)) i n as := by
          rw [pick, if_neg (by omega), if_pos hrej]
        rw [hp] at h
        split at h
        · cases h
        · rename_i j as' hp'
          obtain ⟨-, -, -, rej, a', e, -⟩ := pick_some hp'
          have := permLoop_consumes _ _ _ _ _ _ h
          rw [e] at this
          simp only [List.length_append, List.length_cons, List.length_nil] at this
          omega
      · rintro ⟨⟨-, h, -⟩, -⟩; omega
    · have hp : pick (dOf (n - i)) i n (a :: as) = some (i + a / dOf (n - i), as) := by
        rw [pick, if_neg (by omega), if_neg hrej]
      rw [hp]
      simp only
      rw [ih (i + 1) _ _ (by omega)]
      have h1 : i ≤ i + a / dOf (n - i) := Nat.le_add_right _ _
      have h2 : i + a / dOf (n - i) < n := by omega
      tauto

lemma admissible_get {n : ℕ} (js : List ℕ) (i k : ℕ) (h : Admissible n js i) (hk : k < js.length) :
    i + k ≤ js[k] ∧ js[k] < n := by
  induction js generalizing i k with
  | nil => simp at hk
  | cons j js ih =>
    obtain ⟨h1, h2, h3⟩ := h
    cases k with
    | zero => simp; omega
    | succ k =>
      have := ih (i + 1) k h3 (by simpa using hk)
      simp only [List.getElem_cons_succ]
      omega

open Classical in
/-- C43: exact uniformity.  Of the raw sequences which are used without rejection, every one of the `n!`
permutations is produced by exactly the same number, the product of the bucket sizes. -/
theorem randperm_uniform (n : ℕ) (hn : 1 ≤ n) (hn2 : n < 2 ^ 31) (σ : ℕ → ℕ) (hσ : Rearr n σ) :
    (Finset.univ.filter (fun f : Fin (n - 1) → Fin (2 ^ 32) =>
      ∃ y, randperm n (List.ofFn (fun i => (f i).val)) = some (y, []) ∧ y = σ)).card =
      ∏ i : Fin (n - 1), (2 ^ 32 - 1) / (n - i.val) := by
  obtain ⟨js, ⟨hl, hadm, happ⟩, huniq⟩ := choices_unique (n - 1) n 0 (fun k => k) σ (by omega) (fun _ _ h => h)
    hσ.inj (by omega) hσ.out (fun k _ hk => ⟨σ k, Nat.zero_le _, hσ.lt k hk, rfl⟩)
  have hfilter : (Finset.univ.filter (fun f : Fin (n - 1) → Fin (2 ^ 32) =>
      ∃ y, randperm n (List.ofFn (fun i => (f i).val)) = some (y, []) ∧ y = σ)) =
      Fintype.piFinset (fun i : Fin (n - 1) => Finset.univ.filter (fun a : Fin (2 ^ 32) =>
        a.val / ((2 ^ 32 - 1) / (n - i.val)) = js[i.val]'(by rw [hl]; exact i.isLt) - i.val)) := by
    ext f
    simp only [Finset.mem_filter, Finset.mem_univ, true_and, Fintype.mem_piFinset]
    have hlen : (List.ofFn (fun i => (f i).val)).length = n - 1 := by simp
    have hex := permLoop_exact (dOf := fun t => (2 ^ 32 - 1) / t) (n := n)
      (fun t h1 h2 => Nat.div_pos (by omega) (by omega)) (List.ofFn (fun i => (f i).val)) 0 (fun k : ℕ => k) σ
      (by rw [hlen]; omega)
    rw [hlen] at hex
    have hrp : (∃ y, randperm n (List.ofFn (fun i => (f i).val)) = some (y, []) ∧ y = σ) ↔
        permLoop (fun t => (2 ^ 32 - 1) / t) n (n - 1) 0 (fun k : ℕ => k) (List.ofFn (fun i => (f i).val)) = some (σ, []) := by
      constructor
      · rintro ⟨y, h, rfl⟩; exact h
      · intro h; exact ⟨σ, h, rfl⟩
    rw [hrp, hex]
    set c := choicesOf (fun t => (2 ^ 32 - 1) / t) n (List.ofFn (fun i => (f i).val)) 0 with hc
    have hcl : c.length = n - 1 := by rw [hc, choicesOf_length, hlen]
    have hget : ∀ (k : ℕ) (hk : k < n - 1), c[k]'(by omega) = k + (f ⟨k, hk⟩).val / ((2 ^ 32 - 1) / (n - k)) := by
      intro k hk
      have := choicesOf_get (fun t => (2 ^ 32 - 1) / t) n (List.ofFn (fun i => (f i).val)) 0 k (by omega)
      rw [this]
      simp
    constructor
    · rintro ⟨h1, h2⟩ i
      have := huniq c ⟨hcl, h1, h2⟩
      have h3 := hget i.val i.isLt
      have h4 : js[i.val]'(by rw [hl]; exact i.isLt) = c[i.val]'(by omega) := by simp only [this]
      rw [h4, h3]
      exact (Nat.add_sub_cancel_left i.val _).symm
    · intro h
      have : c = js := by
        apply List.ext_getElem (by omega)
        intro k hk1 hk2
        have hk : k < n - 1 := by omega
        rw [hget k hk]
        have h1 := h ⟨k, hk⟩
        have h2 := (admissible_get js 0 k hadm hk2).1
        simp only at h1
        rw [h1]; omega
      rw [this]; exact ⟨hadm, happ⟩
  rw [hfilter, Fintype.card_piFinset]
  apply Finset.prod_congr rfl
  intro i _
  have hi := i.isLt
  have h2 := admissible_get js 0 i.val hadm (by omega)
  exact draw_preimages (n - i.val) _ (by omega) (by omega)

/-- A rejected raw number is dropped and the draw is repeated with the rest of the stream. -/
theorem rejected_draw_is_repeated (d i n a : ℕ) (as : List ℕ) (hd : 0 < d) (h : n ≤ i + a / d) :
    pick d i n (a :: as) = pick d i n as := by
  rw [pick, if_neg (by omega), if_pos h]

/-- A draw cannot be rejected for ever: raw numbers below `d` times the number of values are accepted. -/
theorem draw_accepted (d i n a : ℕ) (as : List ℕ) (hd : 0 < d) (h : a < d * (n - i)) :
    pick d i n (a :: as) = some (i + a / d, as) := by
  have : a / d < n - i := by
    rw [Nat.div_lt_iff_lt_mul hd, Nat.mul_comm]; exact h
  have h0 : ¬ d = 0 := Nat.pos_iff_ne_zero.mp hd
  have h1 : ¬ i + a / d ≥ n := by
    generalize a / d = q at this ⊢
    omega
  rw [pick, if_neg h0, if_neg h1]

/-- No overflow of `int j = i + (int)(a/d)` for up to `2^30` elements, also for rejected draws. -/
theorem randperm_no_overflow (n i a : ℕ) (hn : n ≤ 2 ^ 30) (hi : i + 1 < n) (ha : a < 2 ^ 32) :
    i + a / ((2 ^ 32 - 1) / (n - i)) < 2 ^ 31 := by
  generalize ht : n - i = t
  have ht1 : 2 ≤ t := by omega
  have ht2 : t ≤ 2 ^ 30 := by omega
  generalize hd : (2 ^ 32 - 1) / t = d
  have hmod := Nat.div_add_mod (2 ^ 32 - 1) t
  have hlt := Nat.mod_lt (2 ^ 32 - 1) (show t > 0 by omega)
  rw [hd] at hmod
  have hd3 : 3 ≤ d := by
    rw [← hd, Nat.le_div_iff_mul_le (by omega)]
    omega
  have hq : a / d ≤ t + t / 3 := by
    have h1 : a / d < t + t / 3 + 1 := by
      rw [Nat.div_lt_iff_lt_mul (by omega)]
      have h3 : t < (t / 3 + 1) * 3 := by omega
      have h4 : (t / 3 + 1) * 3 ≤ (t / 3 + 1) * d := Nat.mul_le_mul_left _ hd3
      have h5 : (t + t / 3 + 1) * d = t * d + (t / 3 + 1) * d := by ring
      omega
    omega
  omega

/-- At `2^31 - 1` elements a rejected draw does overflow. -/
theorem randperm_overflow_example : ∃ n i a : ℕ, n < 2 ^ 31 ∧ i + 1 < n ∧ a < 2 ^ 32 ∧
    ¬ i + a / ((2 ^ 32 - 1) / (n - i)) < 2 ^ 31 := ⟨2 ^ 31 - 1, 1, 2 ^ 32 - 1, by norm_num⟩

-- Three elements: the raw numbers choose positions 2 and 2.
example : ∃ x, randperm 3 [4000000000, 4294967295, 4000000000] = some (x, []) ∧ x 0 = 2 ∧ x 1 = 0 ∧ x 2 = 1 :=
  ⟨_, rfl, by decide, by decide, by decide⟩

/-! ## Shuffling -/

lemma swapEle_other {B : Type*} (sz str : ℕ) (x : ℕ → B) (i j b : ℕ)
    (h1 : ∀ k < sz, b ≠ i * str + k) (h2 : ∀ k < sz, b ≠ j * str + k) : swapEle sz str x i j b = x b := by
  unfold swapEle
  induction sz with
  | zero => rfl
  | succ sz ih =>
    rw [List.range_succ, List.foldl_append, List.foldl_cons, List.foldl_nil, swap,
      if_neg (h1 sz (by omega)), if_neg (h2 sz (by omega))]
    exact ih (fun k hk => h1 k (by omega)) (fun k hk => h2 k (by omega))

lemma ele_disjoint {str i j k l : ℕ} (hk : k < str) (hl : l < str) (h : i * str + k = j * str + l) : i = j ∧ k = l := by
  have hi : (i * str + k) / str = i := by
    rw [Nat.add_comm, Nat.add_mul_div_right _ _ (by omega), Nat.div_eq_of_lt hk, Nat.zero_add]
  have hj : (j * str + l) / str = j := by
    rw [Nat.add_comm, Nat.add_mul_div_right _ _ (by omega), Nat.div_eq_of_lt hl, Nat.zero_add]
  have : i = j := by rw [← hi, ← hj, h]
  subst this
  exact ⟨rfl, by omega⟩

/-- The exchange of two elements acts on whole elements. -/
lemma swapEle_ele {B : Type*} (sz str : ℕ) (hs : sz ≤ str) (x : ℕ → B) (i j e k : ℕ) (hk : k < sz) :
    swapEle sz str x i j (e * str + k) = x ((if e = i then j else if e = j then i else e) * str + k) := by
  unfold swapEle
  -- the first m bytes have been exchanged
  have key : ∀ m, m ≤ sz → ∀ e k, k < sz →
      (List.range m).foldl (fun x k => swap x (i * str + k) (j * str + k)) x (e * str + k) =
      x ((if k < m then (if e = i then j else if e = j then i else e) else e) * str + k) := by
    intro m
    induction m with
    | zero => intro _ e k _; simp
    | succ m ih =>
      intro hm e k hk
      rw [List.range_succ, List.foldl_append, List.foldl_cons, List.foldl_nil, swap]
      by_cases hkm : k = m
      · subst hkm
        rw [if_pos (show k < k + 1 by omega)]
        by_cases hei : e = i
        · subst hei
          rw [if_pos rfl, if_pos rfl, ih (by omega) j k hk, if_neg (by omega)]
        · have h1 : ¬ e * str + k = i * str + k := fun h => hei (ele_disjoint (by omega) (by omega) h).1
          rw [if_neg h1, if_neg hei]
          by_cases hej : e = j
          · subst hej
            rw [if_pos rfl, if_pos rfl, ih (by omega) i k hk, if_neg (by omega)]
          · have h2 : ¬ e * str + k = j * str + k := fun h => hej (ele_disjoint (by omega) (by omega) h).1
            rw [if_neg h2, if_neg hej, ih (by omega) e k hk, if_neg (by omega)]
      · have h1 : ¬ e * str + k = i * str + m := fun h => hkm (ele_disjoint (by omega) (by omega) h).2
        have h2 : ¬ e * str + k = j * str + m := fun h => hkm (ele_disjoint (by omega) (by omega) h).2
        rw [if_neg h1, if_neg h2, ih (by omega) e k hk]
        by_cases hlt : k < m
        · rw [if_pos hlt, if_pos (show k < m + 1 by omega)]
        · rw [if_neg hlt, if_neg (show ¬ k < m + 1 by omega)]
  rw [key sz (le_refl _) e k hk, if_pos hk]

lemma shuffleLoop_spec {B : Type*} (sz str n : ℕ) (hs : sz ≤ str) (m : ℕ) : ∀ (i : ℕ) (x y : ℕ → B) (as bs : List ℕ)
    (σ : ℕ → ℕ) (x0 : ℕ → B), i + m ≤ n → Rearr n σ → (∀ e k, k < sz → x (e * str + k) = x0 (σ e * str + k)) →
    (∀ b, (∀ e < n, ∀ k < sz, b ≠ e * str + k) → x b = x0 b) →
    shuffleLoop sz str n m i x as = some (y, bs) →
    ∃ σ', Rearr n σ' ∧ (∀ e k, k < sz → y (e * str + k) = x0 (σ' e * str + k)) ∧
      (∀ b, (∀ e < n, ∀ k < sz, b ≠ e * str + k) → y b = x0 b) := by
  induction m with
  | zero =>
    intro i x y as bs σ x0 _ hσ hx ho h
    simp only [shuffleLoop, Option.some.injEq, Prod.mk.injEq] at h
    obtain ⟨rfl, -⟩ := h
    exact ⟨σ, hσ, hx, ho⟩
  | succ m ih =>
    intro i x y as bs σ x0 him hσ hx ho h
    unfold shuffleLoop at h
    split at h
    · cases h
    · rename_i j as' hp
      obtain ⟨-, h1, h2, -⟩ := pick_some hp
      have hin : i < n := by omega
      apply ih (i + 1) _ y as' bs (swap σ i j) x0 (by omega) _ _ _ h
      · refine ⟨?_, ?_, swap_injective i j hσ.inj⟩
        · intro k hk
          unfold swap
          split_ifs
          · exact hσ.lt _ h2
          · exact hσ.lt _ hin
          · exact hσ.lt _ hk
        · intro k hk
          unfold swap
          rw [if_neg (by omega), if_neg (by omega)]
          exact hσ.out k hk
      · intro e k hk
        rw [swapEle_ele sz str hs x i j e k hk, hx _ k hk]
        unfold swap
        split_ifs <;> rfl
      · intro b hb
        rw [swapEle_other sz str x i j b (hb i hin) (hb j h2)]
        exact ho b hb

/-- C43: `shuffle` rearranges whole elements, all bytes of an element together, and touches no other byte,
whatever the raw numbers. -/
theorem shuffle_is_rearrangement {B : Type*} (sz str n : ℕ) (x y : ℕ → B) (as bs : List ℕ)
    (h : shuffle sz str n x as = some (y, bs)) :
    ∃ σ, Rearr n σ ∧ (∀ e k, e < n → k < sz → y (e * str + k) = x (σ e * str + k)) ∧
      (∀ b, (∀ e < n, ∀ k < sz, b ≠ e * str + k) → y b = x b) := by
  unfold shuffle at h
  split_ifs at h with h1 h2
  · simp only [Option.some.injEq, Prod.mk.injEq] at h
    obtain ⟨rfl, -⟩ := h
    exact ⟨fun k => k, ⟨fun _ h => h, fun _ _ => rfl, fun _ _ h => h⟩, fun _ _ _ _ => rfl, fun _ _ => rfl⟩
  · obtain ⟨σ, g1, g2, g3⟩ := shuffleLoop_spec sz str n (by omega) (n - 1) 0 x y _ bs (fun k => k) x (by omega)
      ⟨fun _ h => h, fun _ _ => rfl, fun _ _ h => h⟩ (fun _ _ _ => rfl) (fun _ _ => rfl) h
    exact ⟨σ, g1, fun e k _ hk => g2 e k hk, g3⟩

/-- The truncated divisor is never zero, so there is no division by zero. -/
theorem shuffle_no_div_zero (t : ℕ) (h1 : 1 ≤ t) (h2 : t ≤ 2 ^ 64 - 1) : shuffleD t ≠ 0 := by
  unfold shuffleD
  intro h
  generalize hq : (2 ^ 64 - 1) / t = q at h
  have hqt := Nat.div_add_mod (2 ^ 64 - 1) t
  have hlt := Nat.mod_lt (2 ^ 64 - 1) (show t > 0 by omega)
  rw [hq] at hqt
  have hqpos : 1 ≤ q := by rw [← hq]; exact Nat.div_pos h2 (by omega)
  obtain ⟨m, hm⟩ : ∃ m, q = 2 ^ 32 * m := Nat.dvd_of_mod_eq_zero h
  have hm1 : 1 ≤ m := by
    rcases Nat.eq_zero_or_pos m with h0 | h0
    · rw [h0] at hm; omega
    · exact h0
  have e : t * q = 2 ^ 32 * (t * m) := by rw [hm]; ring
  rw [e] at hqt
  have htm : t ≤ t * m := Nat.le_mul_of_pos_right t hm1
  generalize t * m = p at *
  norm_num at hqt hlt
  omega

/-- Negative result: `shuffle` is far from uniform.  Of two one-byte elements, the exchange happens for
only one of the 2^32 values of the (truncated) raw number. -/
theorem shuffle_two_biased {B : Type*} (x : ℕ → B) (a : ℕ) (ha : a < 2 ^ 64) :
    ∃ y, shuffle 1 1 2 x [a] = some (y, []) ∧
      (∀ b, y b = if a % 2 ^ 32 = 2 ^ 32 - 1 then swap x 0 1 b else x b) := by
  have hd : shuffleD 2 = 2 ^ 32 - 1 := by norm_num [shuffleD]
  have hlt : a % 2 ^ 32 < 2 ^ 32 := Nat.mod_lt _ (by norm_num)
  unfold shuffle
  rw [if_neg (by omega), if_neg (by omega)]
  simp only [List.map_cons, List.map_nil, Nat.add_one_sub_one]
  rw [shuffleLoop]
  simp only [Nat.sub_zero, hd, pick]
  by_cases he : a % 2 ^ 32 = 2 ^ 32 - 1
  · simp only [he]
    refine ⟨_, rfl, ?_⟩
    intro b
    simp [swapEle, List.range_succ]
  · have h0 : a % 2 ^ 32 / (2 ^ 32 - 1) = 0 := Nat.div_eq_of_lt (by omega)
    rw [h0]
    refine ⟨_, rfl, ?_⟩
    intro b
    simp only [he, if_false]
    simp only [swapEle, List.range_succ, List.range_zero, List.nil_append, List.foldl_cons, List.foldl_nil, swap]
    split_ifs <;> simp_all

/-! ## Ziggurat -/

/-- The table indices `i` and `i + 1` used by `frandn` are inside its tables of 65 entries, those of `drandn` inside
its tables of 257 entries, and the sign selects one of two entries, for every raw number. -/
theorem ziggurat_indices (a : ℕ) :
    (frandnParts a).1 < 2 ∧ (frandnParts a).2.1 + 1 < 65 ∧ (frandnParts a).2.2 < 2 ^ 32 ∧
    (drandnParts a).1 < 2 ∧ (drandnParts a).2.1 + 1 < 257 ∧ (drandnParts a).2.2 < 2 ^ 64 := by
  have h1 : a &&& 0x7e ≤ 0x7e := Nat.and_le_right
  have h2 : a &&& 0x01 ≤ 0x01 := Nat.and_le_right
  have h3 : a &&& 0x1fe ≤ 0x1fe := Nat.and_le_right
  unfold frandnParts drandnParts
  simp only [Nat.shiftRight_eq_div_pow]
  refine ⟨by omega, by omega, Nat.mod_lt _ (by norm_num), by omega, by omega, Nat.mod_lt _ (by norm_num)⟩

/-- Negative results: the largest raw numbers wrap the magnitude of `frandn` round to zero instead of 2^32, and the
mask of `drandn` leaves bit 10 in place besides adding it twice, so that `j` is not a multiple of 2^11. -/
theorem ziggurat_wraps : (frandnParts 0xffffff80).2.2 = 0 ∧ (drandnParts 0x400).2.2 = 0xc00 ∧
    (drandnParts 0x400).2.2 % 2 ^ 11 ≠ 0 := by decide

end Verif.Rng
