import Verif.Grid.Props
import Mathlib.Algebra.BigOperators.Intervals
import Mathlib.Algebra.Order.BigOperators.Group.Finset

/-!
# Global voxel ids for ranks of different sizes

`size_grid` is public: ranks may have meshes of different sizes.
-/
namespace Verif.Grid

lemma rangeOf_sum (nvs : ℕ → ℤ) (r : ℕ) : rangeOf nvs r = ∑ i ∈ Finset.range r, nvs i := by
  induction r with
  | zero => rfl
  | succ r ih => rw [rangeOf, ih, Finset.sum_range_succ]

/-- The ids `range[r] + v`, `v < nvs r`, of all ranks number the voxels of the whole machine from 0 without
gap or overlap: every id below the total belongs to exactly one voxel of exactly one rank. -/
theorem ranges_tile (nvs : ℕ → ℤ) (h : ∀ i, 0 ≤ nvs i) (ws : ℕ) (id : ℤ)
    (hid : 0 ≤ id ∧ id < ∑ i ∈ Finset.range ws, nvs i) :
    ∃! rv : ℕ × ℤ, rv.1 < ws ∧ 0 ≤ rv.2 ∧ rv.2 < nvs rv.1 ∧ rangeOf nvs rv.1 + rv.2 = id := by
  have hmono : ∀ a b, a ≤ b → rangeOf nvs a ≤ rangeOf nvs b := by
    intro a b hab
    induction hab with
    | refl => exact le_refl _
    | step _ ih => rw [rangeOf]; linarith [h ‹_›]
  have hex : ∃ r, r < ws ∧ rangeOf nvs r ≤ id ∧ id < rangeOf nvs r + nvs r := by
    rw [← rangeOf_sum] at hid
    induction ws with
    | zero => simp [rangeOf] at hid; omega
    | succ n ih =>
      by_cases hn : id < rangeOf nvs n
      · obtain ⟨r, h1, h2⟩ := ih ⟨hid.1, hn⟩
        exact ⟨r, by omega, h2⟩
      · exact ⟨n, by omega, by omega, by rw [rangeOf] at hid; omega⟩
  obtain ⟨r, h1, h2, h3⟩ := hex
  refine ⟨(r, id - rangeOf nvs r), ⟨h1, by simp only; omega, by simp only; omega, by simp only; omega⟩, ?_⟩
  rintro ⟨r', v'⟩ ⟨g1, g2, g3, g4⟩
  simp only at g1 g2 g3 g4
  have : r' = r := by
    rcases lt_trichotomy r' r with hlt | heq | hlt
    · have := hmono (r' + 1) r hlt
      rw [rangeOf] at this; omega
    · exact heq
    · have := hmono (r + 1) r' hlt
      rw [rangeOf] at this; omega
  subst this
  simp only [Prod.mk.injEq, true_and]
  omega

/-- **C05** for ranks of different sizes: `size_grid` gives rank `r` the range `rangel … rangeh` of exactly
its number of voxels, and the ranges of all ranks tile `0 … total-1`. -/
theorem size_grid_ids (nvs : ℕ → ℤ) (h : ∀ i, 0 ≤ nvs i) (ws : ℕ) (t0 : ℕ → ℤ → ℤ)
    (lx ly lz : ℕ → ℤ) (G : ℕ → LGrid)
    (hG : ∀ r < ws, sizeGrid nvs r (t0 r) (lx r) (ly r) (lz r) = some (G r)) :
    (∀ r < ws, (G r).rangeh - (G r).rangel + 1 = nvs r) ∧
    ∀ id, 0 ≤ id ∧ id < ∑ i ∈ Finset.range ws, nvs i →
      ∃! r : ℕ, r < ws ∧ (G r).rangel ≤ id ∧ id ≤ (G r).rangeh := by
  have hr : ∀ r < ws, (G r).rangel = rangeOf nvs r ∧ (G r).rangeh = rangeOf nvs r + nvs r - 1 := by
    intro r hr
    obtain ⟨-, -, -, h4, h5, -⟩ := sizeGrid_T (hG r hr)
    exact ⟨h4, by rw [h5, rangeOf]⟩
  refine ⟨fun r hlt => by have := hr r hlt; omega, fun id hid => ?_⟩
  obtain ⟨⟨r, v⟩, ⟨h1, h2, h3, h4⟩, huniq⟩ := ranges_tile nvs h ws id hid
  simp only at h1 h2 h3 h4
  refine ⟨r, ⟨h1, by have := hr r h1; omega, by have := hr r h1; omega⟩, ?_⟩
  rintro r' ⟨g1, g2, g3⟩
  have := hr r' g1
  have := huniq (r', id - rangeOf nvs r') ⟨g1, by simp only; omega, by simp only; omega, by simp only; omega⟩
  exact congrArg Prod.fst this

/-- Three ranks with 64, 27 and 64 voxels. -/
example : ∃! rv : ℕ × ℤ, rv.1 < 3 ∧ 0 ≤ rv.2 ∧ rv.2 < (fun i => if i = 1 then 27 else (64 : ℤ)) rv.1 ∧
    rangeOf (fun i => if i = 1 then 27 else (64 : ℤ)) rv.1 + rv.2 = 100 :=
  ranges_tile (fun i => if i = 1 then 27 else (64 : ℤ)) (fun i => by split <;> decide) 3 100 (by decide)

end Verif.Grid
