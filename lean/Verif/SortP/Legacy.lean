import Verif.SortP.Lemmas3
import Mathlib.Logic.Equiv.Basic
import Mathlib.Algebra.BigOperators.Group.Finset.Basic
import Mathlib.Algebra.Order.BigOperators.Group.Finset
import Mathlib.Order.Interval.Finset.Basic
import Mathlib.Data.Int.Interval

/-! # Legacy sort: helper facts. -/
namespace Verif.SortP
open Verif

variable {α : Type}

/-- The first `n` particles of an array. -/
def contents (p : ℤ → α) (n : ℕ) : List α := (seg 0 n).map p

lemma length_contents (p : ℤ → α) (n : ℕ) : (contents p n).length = n := by
  simp [contents, length_seg]

lemma holds_contents (p : ℤ → α) (n : ℕ) : Holds p (contents p n) := by
  intro j x hj
  rw [contents, List.getElem?_map] at hj
  by_cases hjn : j < n
  · rw [seg_getElem? j (by omega)] at hj
    simpa using hj
  · rw [List.getElem?_eq_none (by rw [length_seg]; omega)] at hj
    simp at hj

lemma contents_of_holds {p : ℤ → α} {C : List α} {n : ℕ} (h : Holds p C) (hn : C.length = n) :
    contents p n = C := by
  have h' : Holds p ([] ++ C ++ []) := by simpa using h
  exact h'.read (by simp) (by simp [hn])

lemma buckets_eq_of_range (key : α → ℤ) {a b c d : ℤ} (L : List α) (hac : a ≤ c) (hdb : d ≤ b)
    (hcd : c ≤ d) (h : ∀ x ∈ L, c ≤ key x ∧ key x < d) : buckets key a b L = buckets key c d L := by
  have nil : ∀ u v, (∀ w, u ≤ w → w < v → w < c ∨ d ≤ w) → buckets key u v L = [] := by
    intro u v hw
    unfold buckets
    rw [List.flatMap_eq_nil_iff]
    intro w hwm
    rw [mem_seg] at hwm
    rw [List.filter_eq_nil_iff]
    intro x hx
    have := h x hx
    have := hw w hwm.1 hwm.2
    simp; omega
  rw [buckets_append key hac (by omega : c ≤ b), buckets_append key hcd hdb, nil a c (by omega),
    nil d b (by omega)]
  simp

lemma legacyPartition_spec (key : α → ℤ) (nc : ℤ) (hnc : 0 ≤ nc) (L : List α)
    (h : ∀ x ∈ L, 0 ≤ key x ∧ key x < nc) :
    ∃ part, legacyPartition key nc L = some part ∧
      ∀ v, 0 ≤ v → v ≤ nc → part v = (buckets key 0 v L).length := by
  obtain ⟨c, e, hc⟩ := countLoop_spec key 0 (nc + 1) L (fun _ => 0)
    (fun x hx => by have := h x hx; omega)
  have hp := prefixLoop_spec (seg 0 (nc + 1)) id (fun v => L.filter (fun x => key x = v)) 0 c
    (by rw [List.map_id]; exact seg_nodup _ _) (by intro v hv; rw [id, hc]; simp)
  rw [List.map_id] at hp
  refine ⟨_, by rw [legacyPartition, e]; rfl, ?_⟩
  intro v h0 h1
  have := hp.2.2.2 (seg 0 v) v (seg (v + 1) (nc + 1)) (by
    rw [← seg_append h0 (by omega : v ≤ nc + 1), seg_cons (a := v) (by omega)])
  simpa [buckets] using this

lemma legacyOut_spec (key : α → ℤ) (nc : ℤ) (hnc : 0 ≤ nc) (fresh : ℤ → α) (np : ℕ) (hnp : np ≠ 0)
    (p : ℤ → α) (partition : ℤ → ℤ) (h : ∀ x ∈ contents p np, 0 ≤ key x ∧ key x < nc) :
    ∃ p' part', legacyOut key nc fresh np p partition = some (p', part') ∧
      contents p' np = buckets key 0 nc (contents p np) ∧
      ∀ v, 0 ≤ v → v ≤ nc → part' v = (buckets key 0 v (contents p np)).length := by
  set L := contents p np with hL
  obtain ⟨part, e, hp⟩ := legacyPartition_spec key nc hnc L h
  obtain ⟨log, e2, hlog⟩ := scatterLoop_spec key 0 (nc + 1) L part
    (fun x hx => by have := h x hx; omega)
  have hlen : (buckets key 0 nc L).length = np := by
    rw [(buckets_perm key L h).length_eq, hL, length_contents]
  have hblk : ∀ j x, (j, x) ∈ log ↔ (j, x) ∈ blockLog 0 (buckets key 0 nc L) := by
    intro j x
    rw [hlog]
    have split : ∀ v, 0 ≤ v → v < nc → buckets key 0 nc L
        = buckets key 0 v L ++ L.filter (fun x => key x = v) ++ buckets key (v + 1) nc L := by
      intro v h0 h1
      rw [buckets_append key h0 h1.le, buckets_append key (a := v) (b := v + 1) (c := nc) (by omega)
        (by omega)]
      rw [show buckets key v (v + 1) L = L.filter (fun x => key x = v) by
        simp [buckets, seg]]
      rw [List.append_assoc]
    constructor
    · rintro ⟨k, hk⟩
      have hk' := hk
      rw [mem_blockLog] at hk'
      obtain ⟨i, -, hi⟩ := hk'
      have hx := List.mem_of_getElem? hi
      rw [List.mem_filter] at hx
      have hb := h x hx.1
      have ek : key x = k := by simpa using hx.2
      rw [split k (by omega) (by omega), blockLog_append, blockLog_append, List.mem_append,
        List.mem_append, zero_add, ← hp k (by omega) (by omega)]
      exact Or.inl (Or.inr hk)
    · intro hx
      have hx' := hx
      rw [mem_blockLog] at hx'
      obtain ⟨i, rfl, hi⟩ := hx'
      have hmem : x ∈ L := (buckets_perm key L h).mem_iff.mp (List.mem_of_getElem? hi)
      have hb := h x hmem
      refine ⟨key x, ?_⟩
      rw [split (key x) hb.1 hb.2, blockLog_append, blockLog_append, List.mem_append,
        List.mem_append] at hx
      simp only [zero_add, ← hp _ hb.1 hb.2.le] at hx ⊢
      rcases hx with (hx | hx) | hx
      · exfalso
        rw [mem_blockLog] at hx
        obtain ⟨_, -, hi⟩ := hx
        have := List.mem_of_getElem? hi
        simp only [buckets, List.mem_flatMap, mem_seg, List.mem_filter] at this
        obtain ⟨u, hu, -, hu2⟩ := this
        simp at hu2; omega
      · exact hx
      · exfalso
        rw [mem_blockLog] at hx
        obtain ⟨_, -, hi⟩ := hx
        have := List.mem_of_getElem? hi
        simp only [buckets, List.mem_flatMap, mem_seg, List.mem_filter] at this
        obtain ⟨u, hu, -, hu2⟩ := this
        simp at hu2; omega
  obtain ⟨p', ep, h1, h2⟩ := applyLog_block np _ (by rw [hlen]) log hblk fresh
  refine ⟨p', fun i => if 0 ≤ i ∧ i < nc + 1 then part i else partition i, ?_,
    contents_of_holds h1 hlen, ?_⟩
  · rw [legacyOut]
    rw [if_neg hnp]
    simp only
    rw [show (seg 0 (np : ℤ)).map p = L from rfl, e]
    simp only [Option.bind_eq_bind, Option.bind_some]
    rw [e2]
    simp only [Option.bind_some]
    rw [ep]
    rfl
  · intro v h0 h1
    simp only
    rw [if_pos ⟨h0, by omega⟩, hp v h0 h1]

/-! ## In-place cycle sort -/

lemma contents_swap (p : ℤ → α) (n : ℕ) (c d : ℤ) (hc : 0 ≤ c ∧ c < n) (hd : 0 ≤ d ∧ d < n) :
    (contents (put (put p d (p c)) c (p d)) n).Perm (contents p n) := by
  have e : put (put p d (p c)) c (p d) = p ∘ Equiv.swap c d := by
    funext x
    simp only [put, Function.comp, Equiv.swap_apply_def]
    split_ifs <;> simp_all
  unfold contents
  rw [e, ← List.map_map]
  apply List.Perm.map
  rw [List.perm_ext_iff_of_nodup]
  · intro x
    rw [List.mem_map, mem_seg]
    constructor
    · rintro ⟨y, hy, rfl⟩
      rw [mem_seg] at hy
      rw [Equiv.swap_apply_def]
      split_ifs <;> omega
    · intro hx
      refine ⟨Equiv.swap c d x, ?_, by simp⟩
      rw [mem_seg, Equiv.swap_apply_def]
      split_ifs <;> omega
  · exact (seg_nodup _ _).map (Equiv.injective _)
  · exact seg_nodup _ _

/-- Invariant of the cycle sort. -/
structure CycInv (key : α → ℤ) (nc : ℤ) (np : ℕ) (part : ℤ → ℤ) (p0 : ℤ → α) (s : Cyc α) :
    Prop where
  i0 : 0 ≤ s.i
  i1 : s.i ≤ nc
  lo : ∀ k, 0 ≤ k → k < nc → part k ≤ s.next k
  hi : ∀ k, 0 ≤ k → k < nc → s.next k ≤ part (k + 1)
  fin : ∀ k, 0 ≤ k → k < s.i → s.next k = part (k + 1)
  placed : ∀ k, 0 ≤ k → k < nc → ∀ j, part k ≤ j → j < s.next k → key (s.p j) = k
  perm : (contents s.p np).Perm (contents p0 np)
  out : ∀ j, j < 0 ∨ (np : ℤ) ≤ j → s.p j = p0 j
  src : ∀ c, s.src = some c → s.i < nc ∧ c = s.next s.i ∧ s.next s.i < part (s.i + 1)

/-- Remaining work. -/
def cycRem (nc : ℤ) (part next : ℤ → ℤ) : ℕ :=
  ∑ k ∈ Finset.Ico 0 nc, (part (k + 1) - next k).toNat

/-- Termination measure. -/
def cycMeas (nc : ℤ) (part : ℤ → ℤ) (s : Cyc α) : ℕ :=
  2 * cycRem nc part s.next + (nc - s.i).toNat + (if s.src = none then 1 else 0)

lemma cycRem_put (nc : ℤ) (part next : ℤ → ℤ) (k : ℤ) (h0 : 0 ≤ k) (h1 : k < nc)
    (h : next k < part (k + 1)) :
    cycRem nc part (put next k (next k + 1)) < cycRem nc part next := by
  unfold cycRem
  apply Finset.sum_lt_sum
  · intro i _
    by_cases hi : i = k
    · subst hi; rw [put_self]; omega
    · rw [put_ne _ _ hi]
  · exact ⟨k, Finset.mem_Ico.mpr ⟨h0, h1⟩, by rw [put_self]; omega⟩

section
variable (key : α → ℤ) (nc : ℤ) (np : ℕ) (part : ℤ → ℤ) (p0 : ℤ → α)
  (hkeys : ∀ x ∈ contents p0 np, 0 ≤ key x ∧ key x < nc)
  (hpart : ∀ v, 0 ≤ v → v ≤ nc → part v = (buckets key 0 v (contents p0 np)).length)
include hkeys hpart

lemma part_succ (k : ℤ) (h0 : 0 ≤ k) (h1 : k < nc) :
    part (k + 1) = part k + ((contents p0 np).filter (fun x => key x = k)).length := by
  rw [hpart k h0 h1.le, hpart (k + 1) (by omega) (by omega),
    buckets_append key h0 (by omega : k ≤ k + 1), List.length_append]
  simp [buckets, seg]

lemma part_mono (k l : ℤ) (h0 : 0 ≤ k) (hkl : k ≤ l) (h1 : l ≤ nc) : part k ≤ part l := by
  rw [hpart k h0 (by omega), hpart l (by omega) h1,
    buckets_append key h0 hkl, List.length_append]
  omega

lemma part_zero (hnc : 0 ≤ nc) : part 0 = 0 := by
  rw [hpart 0 le_rfl hnc]; simp [buckets, seg_nil]

lemma part_last (hnc : 0 ≤ nc) : part nc = np := by
  rw [hpart nc hnc le_rfl, (buckets_perm key _ hkeys).length_eq, length_contents]

lemma cycStep_inv (hnc : 0 ≤ nc) (s : Cyc α) (hs : CycInv key nc np part p0 s) :
    (cycStep key nc np part s = .done s ∧ s.src = none ∧ s.i = nc) ∨
    ∃ s', cycStep key nc np part s = .more s' ∧ CycInv key nc np part p0 s' ∧
      cycMeas nc part s' < cycMeas nc part s := by
  have pz := part_zero key nc np part p0 hkeys hpart hnc
  have pl := part_last key nc np part p0 hkeys hpart hnc
  have pm := part_mono key nc np part p0 hkeys hpart
  have ps := part_succ key nc np part p0 hkeys hpart
  obtain ⟨i, src, next, p⟩ := s
  obtain ⟨hi0, hi1, hlo, hhi, hfin, hpl, hperm, hout, hsrc⟩ := hs
  simp only at hi0 hi1 hlo hhi hfin hpl hperm hout hsrc
  cases src with
  | none =>
    by_cases hi : i < nc
    · right
      by_cases hn : next i ≥ part (i + 1)
      · refine ⟨⟨i + 1, none, next, p⟩, by simp [cycStep, hi, hn], ?_, ?_⟩
        · refine ⟨by simp only; omega, by simp only; omega, hlo, hhi, ?_, hpl, hperm, hout, by simp⟩
          intro k h0 h1
          simp only at h1 ⊢
          by_cases hk : k = i
          · subst hk; have := hhi k h0 hi; omega
          · exact hfin k h0 (by omega)
        · simp only [cycMeas]; omega
      · refine ⟨⟨i, some (next i), next, p⟩, by simp [cycStep, hi]; omega, ?_, ?_⟩
        · refine ⟨hi0, hi1, hlo, hhi, hfin, hpl, hperm, hout, ?_⟩
          intro c hc
          simp only [Option.some.injEq] at hc
          exact ⟨hi, hc.symm, by simp only; omega⟩
        · simp [cycMeas]
    · left
      exact ⟨by simp [cycStep, hi], rfl, by simp only; omega⟩
  | some c =>
    right
    obtain ⟨hi, hc, hroom⟩ := hsrc c rfl
    subst hc
    have hci : part i ≤ next i := hlo i hi0 hi
    have hc0 : 0 ≤ next i := by have := pm 0 i le_rfl hi0 hi.le; omega
    have hcn : next i < np := by have := pm (i + 1) nc (by omega) (by omega) le_rfl; omega
    set k := key (p (next i)) with hk
    have hmemp : ∀ j : ℤ, 0 ≤ j → j < np → p j ∈ contents p np := fun j h0 h1 =>
      List.mem_map_of_mem (mem_seg.mpr ⟨h0, h1⟩)
    obtain ⟨hk0, hk1⟩ : 0 ≤ k ∧ k < nc := hkeys _ (hperm.mem_iff.mp (hmemp _ hc0 hcn))
    have hroomk : next k < part (k + 1) := by
      by_cases hki : k = i
      · rw [hki]; exact hroom
      · by_contra hfull
        have hnk : next k = part (k + 1) := le_antisymm (hhi k hk0 hk1) (by omega)
        have hnot : next i ∉ seg (part k) (part (k + 1)) := by
          rw [mem_seg]
          rcases lt_or_gt_of_ne hki with h | h
          · have := pm (k + 1) i (by omega) (by omega) hi.le; omega
          · have := pm (i + 1) k (by omega) (by omega) hk1.le; omega
        have hsub : (next i :: seg (part k) (part (k + 1))) ⊆
            (seg 0 np).filter (fun j => key (p j) = k) := by
          intro j hj
          rw [List.mem_cons] at hj
          rw [List.mem_filter, mem_seg]
          rcases hj with rfl | hj
          · exact ⟨⟨hc0, hcn⟩, by simp [hk]⟩
          · rw [mem_seg] at hj
            have h1 := pm 0 k le_rfl hk0 hk1.le
            have h2 := pm (k + 1) nc (by omega) (by omega) le_rfl
            refine ⟨by omega, ?_⟩
            have := hpl k hk0 hk1 j hj.1 (by omega)
            simp [this]
        have hnd : (next i :: seg (part k) (part (k + 1))).Nodup :=
          List.nodup_cons.mpr ⟨hnot, seg_nodup _ _⟩
        have hle := (hnd.subperm hsub).length_le
        have hcount : ((seg 0 np).filter (fun j => key (p j) = k)).length
            = ((contents p0 np).filter (fun x => key x = k)).length := by
          have h1 := (hperm.filter (fun x => key x = k)).length_eq
          rw [← h1, contents, List.filter_map, List.length_map]
          rfl
        rw [hcount, List.length_cons, length_seg] at hle
        have := ps k hk0 hk1
        omega
    have hnk0 : 0 ≤ next k := by
      have := pm 0 k le_rfl hk0 hk1.le; have := hlo k hk0 hk1; omega
    have hnkn : next k < np := by
      have := pm (k + 1) nc (by omega) (by omega) le_rfl; omega
    by_cases hdc : next i = next k
    · -- closes the cycle: then k = i
      have hki : k = i := by
        by_contra hki
        have := hlo k hk0 hk1
        rcases lt_or_gt_of_ne hki with h | h
        · have := pm (k + 1) i (by omega) (by omega) hi.le; omega
        · have := pm (i + 1) k (by omega) (by omega) hk1.le; omega
      refine ⟨⟨i, none, put next k (next k + 1), p⟩, ?_, ?_, ?_⟩
      · simp only [cycStep]
        rw [if_pos ⟨hc0, hcn⟩, if_pos ⟨hk0, by omega⟩, if_pos hdc]
      · refine ⟨hi0, hi1, ?_, ?_, ?_, ?_, hperm, hout, by simp⟩
        · intro l h0 h1
          simp only [put]
          have := hlo l h0 h1
          split_ifs with h <;> [(subst h; omega); exact this]
        · intro l h0 h1
          simp only [put]
          split_ifs with h
          · subst h; omega
          · exact hhi l h0 h1
        · intro l h0 h1
          simp only at h1
          simp only
          rw [put_ne _ _ (by omega)]
          exact hfin l h0 h1
        · intro l h0 h1 j hj1 hj2
          simp only at hj2 ⊢
          by_cases hl : l = k
          · rw [hl, put_self] at hj2
            by_cases hj : j = next k
            · rw [hj, ← hdc, hl]
            · exact hpl l h0 h1 j hj1 (by rw [hl]; omega)
          · rw [put_ne _ _ hl] at hj2
            exact hpl l h0 h1 j hj1 hj2
      · have := cycRem_put nc part next k hk0 hk1 hroomk
        simp [cycMeas]; omega
    · have hki : k ≠ i := fun h => hdc (by rw [h])
      refine ⟨⟨i, some (next i), put next k (next k + 1),
        put (put p (next k) (p (next i))) (next i) (p (next k))⟩, ?_, ?_, ?_⟩
      · simp only [cycStep]
        rw [if_pos ⟨hc0, hcn⟩, if_pos ⟨hk0, by omega⟩, if_neg hdc, if_pos ⟨hnk0, hnkn⟩]
      · refine ⟨hi0, hi1, ?_, ?_, ?_, ?_, ?_, ?_, ?_⟩
        · intro l h0 h1
          simp only [put]
          have := hlo l h0 h1
          split_ifs with h <;> [(subst h; omega); exact this]
        · intro l h0 h1
          simp only [put]
          split_ifs with h
          · subst h; omega
          · exact hhi l h0 h1
        · intro l h0 h1
          simp only at h1
          simp only
          by_cases hl : l = k
          · have := hfin l h0 h1
            rw [hl] at this
            omega
          · rw [put_ne _ _ hl]
            exact hfin l h0 h1
        · intro l h0 h1 j hj1 hj2
          simp only at hj2 ⊢
          have hjc : j ≠ next i := by
            rintro rfl
            by_cases hli : l = i
            · subst hli
              rw [put_ne _ _ (Ne.symm hki)] at hj2
              omega
            · have hup : put next k (next k + 1) l ≤ part (l + 1) := by
                simp only [put]
                split_ifs with h
                · subst h; omega
                · exact hhi l h0 h1
              rcases lt_or_gt_of_ne hli with h | h
              · have := pm (l + 1) i (by omega) (by omega) hi.le; omega
              · have := pm (i + 1) l (by omega) (by omega) h1.le; omega
          rw [put_ne _ _ hjc]
          by_cases hl : l = k
          · rw [hl, put_self] at hj2
            by_cases hj : j = next k
            · rw [hj, put_self, hl]
            · rw [put_ne _ _ hj]
              exact hpl l h0 h1 j hj1 (by rw [hl]; omega)
          · rw [put_ne _ _ hl] at hj2
            have hjk : j ≠ next k := by
              rintro rfl
              have a1 := hlo k hk0 hk1
              have a2 := hhi l h0 h1
              rcases lt_or_gt_of_ne hl with h | h
              · have := pm (l + 1) k (by omega) (by omega) hk1.le; omega
              · have := pm (k + 1) l (by omega) (by omega) h1.le; omega
            rw [put_ne _ _ hjk]
            exact hpl l h0 h1 j hj1 hj2
        · exact (contents_swap p np (next i) (next k) ⟨hc0, hcn⟩ ⟨hnk0, hnkn⟩).trans hperm
        · intro j hj
          simp only
          rw [put_ne _ _ (by omega), put_ne _ _ (by omega)]
          exact hout j hj
        · intro c hc
          simp only [Option.some.injEq] at hc
          simp only
          rw [put_ne _ _ (Ne.symm hki)]
          exact ⟨hi, hc.symm, hroom⟩
      · have := cycRem_put nc part next k hk0 hk1 hroomk
        simp [cycMeas]; omega

lemma cycRun_spec (hnc : 0 ≤ nc) (fuel : ℕ) (s : Cyc α) (hs : CycInv key nc np part p0 s)
    (hf : cycMeas nc part s < fuel) :
    ∃ s', cycRun key nc np part fuel s = some s' ∧ CycInv key nc np part p0 s' ∧ s'.i = nc := by
  induction fuel generalizing s with
  | zero => omega
  | succ f ih =>
    rcases cycStep_inv key nc np part p0 hkeys hpart hnc s hs with ⟨e, -, hi⟩ | ⟨s', e, h', hm⟩
    · exact ⟨s, by rw [cycRun, e], hs, hi⟩
    · obtain ⟨t, e2, ht⟩ := ih s' h' (by omega)
      exact ⟨t, by rw [cycRun, e]; exact e2, ht⟩

lemma cycMeas_init (hnc : 0 ≤ nc) :
    cycMeas nc part (⟨0, none, part, p0⟩ : Cyc α) = 2 * np + nc.toNat + 1 := by
  have pz := part_zero key nc np part p0 hkeys hpart hnc
  have pl := part_last key nc np part p0 hkeys hpart hnc
  have pm := part_mono key nc np part p0 hkeys hpart
  have : ∀ m : ℕ, (m : ℤ) ≤ nc →
      ((∑ k ∈ Finset.Ico (0 : ℤ) m, (part (k + 1) - part k).toNat : ℕ) : ℤ) = part m := by
    intro m
    induction m with
    | zero => intro _; simp [pz]
    | succ m ih =>
      intro hm
      have e : Finset.Ico (0 : ℤ) ((m + 1 : ℕ) : ℤ) = insert (m : ℤ) (Finset.Ico 0 (m : ℤ)) := by
        ext x; simp only [Finset.mem_Ico, Finset.mem_insert]; push_cast; omega
      have h1 := pm m (m + 1) (by omega) (by omega) (by push_cast at hm; exact hm)
      rw [e, Finset.sum_insert (by simp)]
      push_cast at hm ⊢
      have := ih (by omega)
      push_cast at this
      rw [this]
      omega
  have h2 := this nc.toNat (by omega)
  have h3 : ((nc.toNat : ℕ) : ℤ) = nc := by omega
  rw [h3, pl] at h2
  simp only [cycMeas, cycRem, sub_zero, if_true]
  have h4 : (∑ k ∈ Finset.Ico (0 : ℤ) nc, (part (k + 1) - part k).toNat) = np := by
    exact_mod_cast h2
  rw [h4]

end

end Verif.SortP
