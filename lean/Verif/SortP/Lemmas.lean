import Verif.SortP.Model
import Verif.Distribute.Props
import Mathlib.Data.List.Flatten

/-! # Helper facts for the sort: logs of consecutive stores, counting, prefix sums. -/
namespace Verif.SortP
open Verif

variable {α : Type}

/-- Consecutive stores of a list starting at index `a`. -/
def blockLog (a : ℤ) : List α → List (ℤ × α)
  | [] => []
  | x :: l => (a, x) :: blockLog (a + 1) l

lemma blockLog_append (a : ℤ) (l l' : List α) :
    blockLog a (l ++ l') = blockLog a l ++ blockLog (a + l.length) l' := by
  induction l generalizing a with
  | nil => simp [blockLog]
  | cons x l ih =>
    simp only [List.cons_append, blockLog, ih, List.length_cons]
    congr 3
    push_cast; ring

lemma mem_blockLog {a j : ℤ} {l : List α} {x : α} :
    (j, x) ∈ blockLog a l ↔ ∃ k : ℕ, j = a + k ∧ l[k]? = some x := by
  induction l generalizing a with
  | nil => simp [blockLog]
  | cons y l ih =>
    rw [blockLog, List.mem_cons, ih, Prod.mk.injEq]
    constructor
    · rintro (⟨rfl, rfl⟩ | ⟨k, rfl, h⟩)
      · exact ⟨0, by simp, rfl⟩
      · exact ⟨k + 1, by push_cast; ring, by simpa using h⟩
    · rintro ⟨k, rfl, h⟩
      cases k with
      | zero => left; simp at h; exact ⟨by simp, h.symm⟩
      | succ k => right; exact ⟨k, by push_cast; ring, by simpa using h⟩

lemma countLoop_spec (bin : α → ℤ) (lo hi : ℤ) (l : List α) (c : ℤ → ℤ)
    (h : ∀ x ∈ l, lo ≤ bin x ∧ bin x < hi) :
    ∃ c', countLoop bin lo hi l c = some c' ∧
      ∀ k, c' k = c k + (l.filter (fun x => bin x = k)).length := by
  induction l generalizing c with
  | nil => exact ⟨c, rfl, by simp⟩
  | cons x l ih =>
    obtain ⟨c', e, hc⟩ := ih (put c (bin x) (c (bin x) + 1)) (fun y hy => h y (by simp [hy]))
    refine ⟨c', by rw [countLoop, if_pos (h x (by simp))]; exact e, fun k => ?_⟩
    rw [hc, put]
    by_cases hk : k = bin x
    · subst hk
      simp; ring
    · have : ¬ bin x = k := fun h => hk h.symm
      simp [hk, this]

lemma scatterLoop_spec (bin : α → ℤ) (lo hi : ℤ) (l : List α) (next : ℤ → ℤ)
    (h : ∀ x ∈ l, lo ≤ bin x ∧ bin x < hi) :
    ∃ log, scatterLoop bin lo hi l next = some log ∧
      ∀ j x, (j, x) ∈ log ↔ ∃ k, (j, x) ∈ blockLog (next k) (l.filter (fun x => bin x = k)) := by
  induction l generalizing next with
  | nil => exact ⟨[], rfl, by simp [blockLog]⟩
  | cons y l ih =>
    obtain ⟨log, e, hl⟩ := ih (put next (bin y) (next (bin y) + 1)) (fun x hx => h x (by simp [hx]))
    refine ⟨(next (bin y), y) :: log, by rw [scatterLoop, if_pos (h y (by simp)), e]; rfl, ?_⟩
    intro j x
    rw [List.mem_cons, hl]
    constructor
    · rintro (hx | ⟨k, hk⟩)
      · refine ⟨bin y, ?_⟩
        simp only [List.filter_cons, decide_true, if_true, blockLog]
        rw [hx]; simp
      · refine ⟨k, ?_⟩
        by_cases hky : k = bin y
        · subst hky
          simp only [List.filter_cons, decide_true, if_true, blockLog]
          rw [put_self] at hk
          exact List.mem_cons_of_mem _ hk
        · rw [put_ne _ _ hky] at hk
          have : ¬ bin y = k := fun h => hky h.symm
          simpa [List.filter_cons, this] using hk
    · rintro ⟨k, hk⟩
      by_cases hky : k = bin y
      · subst hky
        simp only [List.filter_cons, decide_true, if_true, blockLog, List.mem_cons] at hk
        rcases hk with hk | hk
        · exact Or.inl hk
        · exact Or.inr ⟨bin y, by rw [put_self]; exact hk⟩
      · right
        refine ⟨k, ?_⟩
        rw [put_ne _ _ hky]
        have : ¬ bin y = k := fun h => hky h.symm
        simpa [List.filter_cons, this] using hk

lemma prefixLoop_spec {β : Type} (prs : List β) (addr : β → ℤ) (f : β → List α) (s : ℤ)
    (m : ℤ → ℤ) (hn : (prs.map addr).Nodup) (hm : ∀ b ∈ prs, m (addr b) = (f b).length) :
    (prefixLoop (prs.map addr) s m).2 = s + (prs.flatMap f).length ∧
    (∀ a, a ∉ prs.map addr → (prefixLoop (prs.map addr) s m).1 a = m a) ∧
    (∀ j x, (j, x) ∈ blockLog s (prs.flatMap f) ↔
      ∃ b ∈ prs, (j, x) ∈ blockLog ((prefixLoop (prs.map addr) s m).1 (addr b)) (f b)) ∧
    (∀ l1 b l2, prs = l1 ++ b :: l2 →
      (prefixLoop (prs.map addr) s m).1 (addr b) = s + (l1.flatMap f).length) := by
  induction prs generalizing s m with
  | nil => simp [prefixLoop, blockLog]
  | cons c prs ih =>
    rw [List.map_cons, List.nodup_cons] at hn
    obtain ⟨hc, hn⟩ := hn
    have hm' : ∀ b ∈ prs, put m (addr c) s (addr b) = (f b).length := by
      intro b hb
      rw [put_ne]
      · exact hm b (by simp [hb])
      · intro h; exact hc (h ▸ List.mem_map_of_mem hb)
    obtain ⟨i1, i2, i3, i4⟩ := ih (s + m (addr c)) (put m (addr c) s) hn hm'
    have hmc : m (addr c) = (f c).length := hm c (by simp)
    have hac : (prefixLoop (prs.map addr) (s + m (addr c)) (put m (addr c) s)).1 (addr c) = s := by
      rw [i2 _ hc, put_self]
    simp only [List.map_cons, prefixLoop, List.flatMap_cons]
    refine ⟨?_, ?_, ?_, ?_⟩
    · rw [i1, hmc, List.length_append]; push_cast; ring
    · intro a ha
      rw [List.mem_cons, not_or] at ha
      rw [i2 a ha.2, put_ne _ _ ha.1]
    · intro j x
      rw [blockLog_append, List.mem_append, ← hmc, i3]
      constructor
      · rintro (h | ⟨b, hb, h⟩)
        · exact ⟨c, by simp, by rw [hac]; exact h⟩
        · exact ⟨b, by simp [hb], h⟩
      · rintro ⟨b, hb, h⟩
        rw [List.mem_cons] at hb
        rcases hb with rfl | hb
        · left; rw [hac] at h; exact h
        · exact Or.inr ⟨b, hb, h⟩
    · intro l1 b l2 h
      cases l1 with
      | nil =>
        simp only [List.nil_append, List.cons.injEq] at h
        obtain ⟨rfl, rfl⟩ := h
        rw [hac]; simp
      | cons d l1 =>
        simp only [List.cons_append, List.cons.injEq] at h
        obtain ⟨rfl, h⟩ := h
        rw [i4 l1 b l2 h, hmc, List.flatMap_cons, List.length_append]
        push_cast; ring

/-- Distributing a list over a duplicate-free list of bins that covers it is a permutation. -/
lemma bucket_perm {κ : Type} [DecidableEq κ] (bin : α → κ) (ks : List κ) (hn : ks.Nodup) (l : List α)
    (h : ∀ x ∈ l, bin x ∈ ks) :
    (ks.flatMap fun k => l.filter (fun x => bin x = k)).Perm l := by
  induction ks generalizing l with
  | nil =>
    have : l = [] := by
      cases l with
      | nil => rfl
      | cons x l => exact absurd (h x (by simp)) (by simp)
    simp [this]
  | cons k ks ih =>
    rw [List.nodup_cons] at hn
    rw [List.flatMap_cons]
    have e : (ks.flatMap fun k' => l.filter (fun x => bin x = k'))
        = ks.flatMap fun k' => (l.filter (fun x => ¬ bin x = k)).filter (fun x => bin x = k') := by
      apply List.flatMap_congr
      intro k' hk'
      rw [List.filter_filter]
      apply List.filter_congr
      intro x _
      by_cases hx : bin x = k'
      · have : k' ≠ k := fun h => hn.1 (h ▸ hk')
        simp [hx, this]
      · simp [hx]
    rw [e]
    have p1 := ih hn.2 (l.filter (fun x => ¬ bin x = k)) (by
      intro x hx
      rw [List.mem_filter] at hx
      have := h x hx.1
      rw [List.mem_cons] at this
      rcases this with h' | h'
      · simp [h'] at hx
      · exact h')
    refine (List.Perm.append_left _ p1).trans ?_
    have := List.filter_append_perm (fun x => decide (bin x = k)) l
    refine List.Perm.trans ?_ this
    apply List.Perm.append_left
    apply List.Perm.of_eq
    apply List.filter_congr
    intro x _
    simp

/-- Consecutive blocks, by position. -/
lemma mem_blockLog_range (F : ℕ → List α) (n : ℕ) (s : ℤ) (j : ℤ) (x : α) :
    (j, x) ∈ blockLog s ((List.range n).flatMap F) ↔
      ∃ k < n, (j, x) ∈ blockLog (s + ((List.range k).flatMap F).length) (F k) := by
  induction n with
  | zero => simp [blockLog]
  | succ n ih =>
    rw [List.range_succ, List.flatMap_append, blockLog_append, List.mem_append, ih]
    simp only [List.flatMap_cons, List.flatMap_nil, List.append_nil]
    constructor
    · rintro (⟨k, hk, h⟩ | h)
      · exact ⟨k, by omega, h⟩
      · exact ⟨n, by omega, h⟩
    · rintro ⟨k, hk, h⟩
      by_cases hkn : k = n
      · subst hkn; exact Or.inr h
      · exact Or.inl ⟨k, by omega, h⟩

/-- An array holds list `C` from index 0. -/
def Holds (m : ℤ → α) (C : List α) : Prop := ∀ j : ℕ, ∀ x, C[j]? = some x → m j = x

lemma Holds.read {m : ℤ → α} {A B D : List α} (h : Holds m (A ++ B ++ D)) {i0 i1 : ℤ}
    (h0 : i0 = A.length) (h1 : i1 = A.length + B.length) : (seg i0 i1).map m = B := by
  subst h0 h1
  apply List.ext_getElem?
  intro k
  rw [List.getElem?_map]
  by_cases hk : k < B.length
  · rw [seg_getElem? k (by omega)]
    simp only [Option.map_some]
    have hb : B[k]? = some B[k] := List.getElem?_eq_getElem hk
    rw [hb, ← h (A.length + k) B[k] ?_]
    · norm_cast
    · rw [List.append_assoc, List.getElem?_append_right (by omega),
        Nat.add_sub_cancel_left, List.getElem?_append_left hk, hb]
  · rw [List.getElem?_eq_none (l := B) (by omega), List.getElem?_eq_none]
    · rfl
    · rw [length_seg]; omega

/-- Any order of the stores of one block at the start of an array leaves that list there and the
rest unchanged. -/
lemma applyLog_block (size : ℤ) (C : List α) (hs : (C.length : ℤ) ≤ size) (W : List (ℤ × α))
    (hW : ∀ j x, (j, x) ∈ W ↔ (j, x) ∈ blockLog 0 C) (m : ℤ → α) :
    ∃ m', applyLog size W m = some m' ∧ Holds m' C ∧
      ∀ j : ℤ, (j < 0 ∨ C.length ≤ j) → m' j = m j := by
  set f : ℤ → α := fun j => if h : j.toNat < C.length then C[j.toNat] else m j with hf
  have hfC : ∀ (k : ℕ) x, C[k]? = some x → f k = x := by
    intro k x hk
    obtain ⟨h1, h2⟩ := List.getElem?_eq_some_iff.mp hk
    simp only [hf, Int.toNat_natCast, h1, dif_pos, h2]
  obtain ⟨m', e, p1, p2⟩ := applyLog_agree size f W m (by
    rintro ⟨j, x⟩ hw
    rw [hW, mem_blockLog] at hw
    obtain ⟨k, rfl, hk⟩ := hw
    obtain ⟨h1, h2⟩ := List.getElem?_eq_some_iff.mp hk
    refine ⟨by simp, by simp; omega, ?_⟩
    simp only [zero_add]
    exact (hfC k x hk).symm)
  refine ⟨m', e, ?_, ?_⟩
  · intro k x hk
    rw [p1 k ⟨x, by rw [hW, mem_blockLog]; exact ⟨k, by simp, hk⟩⟩, hfC k x hk]
  · intro j hj
    apply p2
    rintro ⟨x, hx⟩
    rw [hW, mem_blockLog] at hx
    obtain ⟨k, rfl, hk⟩ := hx
    obtain ⟨h1, h2⟩ := List.getElem?_eq_some_iff.mp hk
    omega

/-! ## `V2P` and `P2V` -/

lemma V2P_eq {v P vl vh : ℤ} (hP : 0 < P) (h1 : vl ≤ v) :
    V2P v P vl vh = (v - vl) * P / (vh - vl + 1) := by
  rw [V2P, Int.tdiv_eq_ediv_of_nonneg]
  exact mul_nonneg (by omega) hP.le

lemma P2V_eq {p P vl vh : ℤ} (hp : 0 ≤ p) (hP : 0 < P) (h : vl ≤ vh) :
    P2V p P vl vh = vl + (p * (vh - vl + 1) + (P - 1)) / P := by
  rw [P2V, Int.tdiv_eq_ediv_of_nonneg]
  have : 0 ≤ p * (vh - vl + 1) := mul_nonneg hp (by omega)
  omega

lemma V2P_iff {v P vl vh s : ℤ} (hs : 0 ≤ s) (hP : 0 < P) (h1 : vl ≤ v) (h2 : v ≤ vh) :
    V2P v P vl vh = s ↔ P2V s P vl vh ≤ v ∧ v < P2V (s + 1) P vl vh := by
  have hV : 0 < vh - vl + 1 := by omega
  have key : ∀ t : ℤ, 0 ≤ t → (P2V t P vl vh ≤ v ↔ t ≤ V2P v P vl vh) := by
    intro t ht
    rw [P2V_eq ht hP (by omega), V2P_eq hP h1, Int.le_ediv_iff_mul_le hV]
    rw [show vl + (t * (vh - vl + 1) + (P - 1)) / P ≤ v ↔
      (t * (vh - vl + 1) + (P - 1)) / P < v - vl + 1 by omega, Int.ediv_lt_iff_lt_mul hP]
    have : (v - vl + 1) * P = (v - vl) * P + P := by ring
    omega
  rw [← not_le, key s hs, key (s + 1) (by omega)]
  omega

lemma V2P_range {v P vl vh : ℤ} (hP : 0 < P) (h1 : vl ≤ v) (h2 : v ≤ vh) :
    0 ≤ V2P v P vl vh ∧ V2P v P vl vh < P := by
  have hV : 0 < vh - vl + 1 := by omega
  rw [V2P_eq hP h1]
  refine ⟨Int.ediv_nonneg (mul_nonneg (by omega) hP.le) hV.le, ?_⟩
  rw [Int.ediv_lt_iff_lt_mul hV, mul_comm P]
  exact mul_lt_mul_of_pos_right (by omega) hP

lemma P2V_zero {P vl vh : ℤ} (hP : 0 < P) (h : vl ≤ vh) : P2V 0 P vl vh = vl := by
  rw [P2V_eq le_rfl hP h, zero_mul, zero_add, Int.ediv_eq_zero_of_lt (by omega) (by omega)]; ring

lemma P2V_last {P vl vh : ℤ} (hP : 0 < P) (h : vl ≤ vh) : P2V P P vl vh = vh + 1 := by
  rw [P2V_eq hP.le hP h, add_comm (P * _), Int.add_mul_ediv_left _ _ hP.ne',
    Int.ediv_eq_zero_of_lt (by omega) (by omega)]; ring

lemma P2V_mono {P vl vh s t : ℤ} (hs : 0 ≤ s) (hst : s ≤ t) (hP : 0 < P) (h : vl ≤ vh) :
    P2V s P vl vh ≤ P2V t P vl vh := by
  rw [P2V_eq hs hP h, P2V_eq (by omega) hP h]
  have : (s * (vh - vl + 1) + (P - 1)) / P ≤ (t * (vh - vl + 1) + (P - 1)) / P := by
    apply Int.ediv_le_ediv hP
    have := mul_le_mul_of_nonneg_right hst (by omega : (0:ℤ) ≤ vh - vl + 1)
    omega
  omega

end Verif.SortP
