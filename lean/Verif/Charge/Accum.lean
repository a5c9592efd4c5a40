import Verif.Charge.Chain
import Verif.SfInterface.ReduceProps

/-!
# The storage of the accumulators

The push works on accumulators, clearing and reducing on the storage as an array of numbers.
-/
namespace Verif.Charge

open Grid Deposit SfInterface MoveP
open AdvanceP (accBase accStride)
open Distribute (Rounding)

section
variable {K : Type} [Field K] [LinearOrder K] [IsStrictOrderedRing K]

/-- The storage of an array of accumulators of `nf` numbers each (12 and padding) as accumulators,
/repo/src/sf_interface/accumulator_array.cc:62-95, /repo/src/sf_interface/sf_interface.h (`accumulator_t`). -/
def accOf (nf : ℕ) (m : ℤ → K) : ℤ → Fin 12 → K := fun j k => m (j * nf + (k : ℕ))

/-- The first copy: the accumulators of the host, which `boundary_p` and `unload_accumulator_array` use
(`aa->a`, /repo/src/boundary/boundary_p.cc and /repo/src/sf_interface/pipeline/unload_accumulator_pipeline.cc). -/
def hostAcc (g : LGrid) (nf : ℕ) (m : ℤ → K) : Accum K := fun v k => if 0 ≤ v ∧ v < nvox g then accOf nf m v k else 0

omit [LinearOrder K] [IsStrictOrderedRing K] in
lemma accOf_slot (g : LGrid) (nf P r : ℕ) (m : ℤ → K) (v : ℤ) (k : Fin 12) :
    accOf nf m (accBase g P r + v) k = m (slot g.nx g.ny g.nz nf (if r ≠ P then r + 1 else 0) v k) := by
  unfold accOf slot accBase accStride
  have e : nvox g = nvOf g.nx g.ny g.nz := by unfold nvox nvOf; ring
  rw [e]
  congr 1
  unfold pow2Ceil2
  split
  · push_cast; ring
  · push_cast; ring

omit [LinearOrder K] [IsStrictOrderedRing K] in
lemma sum_blocks (g : LGrid) (nf P : ℕ) (m : ℤ → K) (v : ℤ) (k : Fin 12) :
    ((List.range (P + 1)).map fun r => accOf nf m (accBase g P r + v) k).sum =
      ∑ b ∈ Finset.range (P + 1), m (slot g.nx g.ny g.nz nf b v k) := by
  rw [List.range_succ, List.map_append, List.sum_append, Finset.sum_range_succ']
  simp only [List.map_cons, List.map_nil, List.sum_cons, List.sum_nil, add_zero]
  rw [accOf_slot]
  simp only [ne_eq, not_true_eq_false, if_false]
  congr 1
  rw [Finset.sum_range]
  rw [← List.sum_ofFn, ← List.map_coe_finRange_eq_range, List.map_map, List.ofFn_eq_map]
  congr 1
  refine List.map_congr_left fun i _ => ?_
  simp only [Function.comp_apply]
  rw [accOf_slot, if_pos (by have := i.2; omega)]

variable {g : LGrid} (h : LocalMesh g) (Rd : Rounding) (hRd : Rd.Accurate) (nf P : ℕ) (hnf : 12 ≤ nf) (hP : 0 < P)
  (hP2 : P ≤ 2 ^ 16) (hint' : (accArgs g.nx g.ny g.nz nf P).n < 2 ^ 31)
include h hRd hnf hP hP2 hint'

/-- After clearing all accumulators are zero, when they were zero outside of the interior. -/
lemma clear_blocks (m m' : ℤ → K) (ht : TidyAll g P (accOf nf m)) (hc : Clear Rd (accArgs g.nx g.ny g.nz nf P) P m m') :
    ∀ r ≤ P, ∀ v, 0 ≤ v → v < nvox g → ∀ k, accOf nf m' (accBase g P r + v) k = 0 := by
  intro r hr v h0 h1 k
  by_cases hv : ∃ c : Cell, c.Interior g.nx g.ny g.nz ∧ v = VOXEL g.nx g.ny c.x c.y c.z
  · obtain ⟨c, hi, rfl⟩ := hv
    rw [accOf_slot]
    exact (clear_accumulators h.nx h.ny h.nz Rd hRd nf P P hP hP2 hint' m).2 m' hc c.x c.y c.z ⟨hi.1, hi.2.1⟩
      ⟨hi.2.2.1, hi.2.2.2.1⟩ ⟨hi.2.2.2.2.1, hi.2.2.2.2.2⟩ k (by have := k.2; omega) _ (by split <;> omega)
  · have hz : accOf nf m (accBase g P r + v) k = 0 := by
      by_contra hne
      exact hv (ht r hr v h0 h1 k hne)
    have := (clear_zeroes Rd hRd _ (accArgs_ok h.nx h.ny h.nz nf P) P (by decide : 0 < 256) hint' hP hP2 m).2 m' hc
      ((accBase g P r + v) * nf + (k : ℕ))
    unfold accOf at hz ⊢
    by_cases hx : ∃ k' : ℕ, k' < (accArgs g.nx g.ny g.nz nf P).nArray ∧
        (accArgs g.nx g.ny g.nz nf P).a + k' * (accArgs g.nx g.ny g.nz nf P).sArray ≤
          (accBase g P r + v) * nf + (k : ℕ) ∧
        (accBase g P r + v) * nf + (k : ℕ) < (accArgs g.nx g.ny g.nz nf P).a +
          k' * (accArgs g.nx g.ny g.nz nf P).sArray + (accArgs g.nx g.ny g.nz nf P).n
    · exact this.1 hx
    · rw [this.2 hx, hz]

/-- After reducing the first copy is the sum of all copies. -/
lemma reduce_host (hint : (P : ℤ) * (pow2Ceil2 (nvOf g.nx g.ny g.nz) * nf) < 2 ^ 31) (m m' : ℤ → K)
    (ht : TidyAll g P (accOf nf m)) (hc : Reduce Rd (accArgs g.nx g.ny g.nz nf P) P m m') :
    hostAcc g nf m' = totalOf g P (accOf nf m) := by
  funext v k
  unfold hostAcc totalOf
  split
  swap
  · rfl
  rename_i hv
  rw [sum_blocks]
  have e0 : accOf nf m' v k = m' (slot g.nx g.ny g.nz nf 0 v k) := by
    unfold accOf slot; simp
  rw [e0]
  by_cases hi : ∃ c : Cell, c.Interior g.nx g.ny g.nz ∧ v = VOXEL g.nx g.ny c.x c.y c.z
  · obtain ⟨c, hi, rfl⟩ := hi
    exact (reduce_accumulators_partial h.nx h.ny h.nz Rd hRd nf P P hP hP2 hint hint' m).2 m' hc c.x c.y c.z ⟨hi.1, hi.2.1⟩
      ⟨hi.2.2.1, hi.2.2.2.1⟩ ⟨hi.2.2.2.2.1, hi.2.2.2.2.2⟩ k (by have := k.2; omega)
  · have hz : ∀ b ∈ Finset.range (P + 1), m (slot g.nx g.ny g.nz nf b v k) = 0 := by
      intro b hb
      have hb := Finset.mem_range.mp hb
      by_contra hne
      by_cases hb0 : b = 0
      · subst hb0
        refine hi (ht P le_rfl v hv.1 hv.2 k ?_)
        rwa [accOf_slot, if_neg (by simp)]
      · refine hi (ht (b - 1) (by omega) v hv.1 hv.2 k ?_)
        rwa [accOf_slot, if_pos (by omega), Nat.sub_add_cancel (by omega)]
    rw [Finset.sum_eq_zero hz]
    rw [(reduce_sums Rd hRd _ (accArgs_ok h.nx h.ny h.nz nf P) (accArgs_fits h.nx h.ny h.nz nf P hint) P hint' hP hP2 m).2
      m' hc]
    split
    · refine Finset.sum_eq_zero fun b hb => ?_
      rw [← hz b hb]
      congr 1
      show slot g.nx g.ny g.nz nf 0 v k + b * (pow2Ceil2 (nvOf g.nx g.ny g.nz) * nf) = _
      unfold slot
      push_cast
      ring
    · exact hz 0 (by simp)

omit hRd hnf hP hP2 hint' in
/-- The copies of the pipelines come after the first one. -/
lemma base_above {r : ℕ} (hr : r < P) {v : ℤ} (h0 : 0 ≤ v) : nvox g ≤ accBase g P r + v ∧ accStride g ≤ accBase g P r + v := by
  unfold accBase
  rw [if_pos (by omega)]
  have hv : 0 ≤ nvox g := by
    have := h.nx; have := h.ny; have := h.nz
    unfold nvox; positivity
  have h1 : nvox g ≤ accStride g := by unfold accStride; omega
  have h2 : 0 ≤ (r : ℤ) * accStride g := mul_nonneg (by omega) (by omega)
  have e : (1 + (r : ℤ)) * accStride g = accStride g + r * accStride g := by ring
  omega

/-- Reducing leaves the accumulators zero outside of the interior. -/
lemma reduce_tidy (hint : (P : ℤ) * (pow2Ceil2 (nvOf g.nx g.ny g.nz) * nf) < 2 ^ 31) (m m' : ℤ → K)
    (ht : TidyAll g P (accOf nf m)) (hc : Reduce Rd (accArgs g.nx g.ny g.nz nf P) P m m') :
    TidyAll g P (accOf nf m') := by
  intro r hr v h0 h1 k hne
  rcases Nat.lt_or_ge r P with hlt | hge
  · refine ht r hr v h0 h1 k ?_
    have ok := accArgs_ok h.nx h.ny h.nz nf P
    have := (reduce_sums Rd hRd _ ok (accArgs_fits h.nx h.ny h.nz nf P hint) P hint' hP hP2 m).2 m' hc
      ((accBase g P r + v) * nf + (k : ℕ))
    rw [if_neg] at this
    · unfold accOf at hne ⊢
      rwa [← this]
    · have hf := ok.fits
      have e1 : (accArgs g.nx g.ny g.nz nf P).size = (P + 1) * pow2Ceil2 (nvOf g.nx g.ny g.nz) * nf := rfl
      have e2 : (accArgs g.nx g.ny g.nz nf P).sArray = pow2Ceil2 (nvOf g.nx g.ny g.nz) * nf := rfl
      have e3 : (accArgs g.nx g.ny g.nz nf P).nArray = P + 1 := rfl
      rw [e1, e2, e3] at hf
      have e4 : accStride g = pow2Ceil2 (nvOf g.nx g.ny g.nz) := by
        unfold accStride pow2Ceil2
        rw [show nvox g = nvOf g.nx g.ny g.nz by unfold nvox nvOf; ring]
        ring
      have hb := (base_above h P hlt h0).2
      rw [e4] at hb
      have := mul_le_mul_of_nonneg_right hb (by omega : 0 ≤ (nf : ℤ))
      push_cast at hf
      intro hx
      nlinarith [hx.2]
  · have hrP : r = P := by omega
    subst hrP
    have e : accOf nf m' (accBase g r r + v) k = hostAcc g nf m' v k := by
      unfold hostAcc
      rw [if_pos ⟨h0, h1⟩]
      unfold accBase
      simp
    rw [e, reduce_host h Rd hRd nf r hnf hP hP2 hint' hint m m' ht hc] at hne
    unfold totalOf at hne
    rw [if_pos ⟨h0, h1⟩] at hne
    by_contra hcon
    apply hne
    apply List.sum_eq_zero
    intro y hy
    obtain ⟨b, hb, rfl⟩ := List.mem_map.mp hy
    by_contra hy
    exact hcon (ht b (by have := List.mem_range.mp hb; omega) v h0 h1 k hy)

end

end Verif.Charge
