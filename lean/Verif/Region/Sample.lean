import Verif.Region.Joins
import Verif.Region.Emitters
import Verif.Inject.Sample

/-!
# Regions: concrete cases
-/
namespace Verif.Region.Sample

open Grid (LGrid Decomp Cell gridOf)
open Field (Pos FC vox dims InArray)
open Inject (geomOf)
open Inject.Sample (D D_ok B)

/-- Example: a slab of one unit at each second place along x, in a box two units long. -/
def rgn : (Fin 3 → ℚ) → Bool := fun x => decide (⌊x 0⌋ % 2 = 0)

lemma rgn_periodic : Periodic B rgn := by
  intro x a
  unfold rgn
  congr 1
  fin_cases a
  · have : ⌊x 0 + (B.hi 0 - B.lo 0)⌋ = ⌊x 0⌋ + 2 := by
      have : B.hi 0 - B.lo 0 = ((2 : ℤ) : ℚ) := by norm_num [B]
      rw [this, Int.floor_add_intCast]
    simp only [Fin.zero_eta, Function.update_self, this, eq_iff_iff]
    omega
  · simp
  · simp

/-- Example: the mesh of a rank, with 2x2x4 cells. -/
def g : LGrid := { nx := 2, ny := 2, nz := 4, bc := fun _ => 0, range := fun _ => 0, rangel := 0, rangeh := 95, neighbor := fun _ => -1 }

lemma g_pos : ∀ a, 0 ≤ dims g a := by decide

lemma g_sized : SizedBy D g := by funext a; fin_cases a <;> rfl

/-- Rank 1 begins in the middle of the box, where the slab begins: its first cell is inside. -/
lemma first_inside : Inside (geomOf B D 1 1) rgn ![1, 1, 1] := by
  norm_num [Inside, spot, rgn, geomOf, B, D, Grid.rankToIndex]

/-- The ghost before it is outside, and so is the ghost after the last cell, in which the box begins again. -/
lemma ghost_outside : ¬ Inside (geomOf B D 1 1) rgn ![0, 1, 1] ∧ ¬ Inside (geomOf B D 1 1) rgn ![3, 1, 1] := by
  constructor
  · norm_num [Inside, spot, rgn, geomOf, B, D, Grid.rankToIndex]
  · norm_num [Inside, spot, rgn, geomOf, B, D, Grid.rankToIndex]

/-- The first cell and its lowest node are in the arrays. -/
lemma first_in : InArray g ![1, 1, 1] := by unfold InArray; decide

/-- Example: `set_region_material` gives the first cell the material of the interior, its lowest node that of the surface. -/
example (m : MMem) : setRegionMaterial g (geomOf B D 1 1) rgn (some 5) (some 7) m (vox g ![1, 1, 1], .c) = 5 ∧
    setRegionMaterial g (geomOf B D 1 1) rgn (some 5) (some 7) m (vox g ![1, 1, 1], .n) = 7 := by
  obtain ⟨h, -⟩ := region_material_set g_pos (geomOf B D 1 1) rgn 5 7 m
  refine ⟨(h _ first_in .c).1 fun c' hc' => ?_, (h _ first_in .n).2.1 ⟨_, fun a => .inl rfl, first_inside⟩ fun hi => ?_⟩
  · have : c' = ![1, 1, 1] := by
      funext a
      rcases hc' a with h | ⟨h, -⟩
      · exact h
      · simp [matMid] at h
    rw [this]
    exact first_inside
  · refine ghost_outside.1 (hi _ fun a => ?_)
    fin_cases a
    · exact .inr ⟨rfl, rfl⟩
    · exact .inl rfl
    · exact .inl rfl

/-- Example: with `leave_unchanged` for the interior, a node in the interior is changed nevertheless. -/
example (m : MMem) : setRegionMaterial g (geomOf B D 1 1) rgn none (some 7) m (vox g ![2, 1, 1], .n) = 7 := by
  refine region_interior_not_left g_pos _ rgn 7 m _ (by unfold InArray; decide) .n (by simp) fun c' hc' => ?_
  have h0 : c' 0 = 2 ∨ c' 0 = 1 := by
    rcases hc' 0 with h | ⟨-, h⟩
    · exact .inl h
    · exact .inr h
  rcases h0 with h0 | h0 <;> norm_num [Inside, spot, rgn, geomOf, B, D, Grid.rankToIndex, h0]

/-- Example: the lowest node of the first cell of rank 1 is the ghost at the end of rank 0, and a node in the middle of the box on one
rank; all three get the same material. -/
example (m : MMem) (hm : ∀ x k, m (x, k) = 0) :
    setRegionMaterial g (geomOf B D (1 : Fin 6) 1) rgn (some 5) (some 7) m (vox g ![1, 1, 1], .n) =
      setRegionMaterial g (geomOf B D (0 : Fin 6) 1) rgn (some 5) (some 7) m (vox g ![3, 1, 1], .n) ∧
    ∀ g' : LGrid, SizedBy ⟨4, 6, 4, 1, 1, 1⟩ g' →
      setRegionMaterial g (geomOf B D (1 : Fin 6) 1) rgn (some 5) (some 7) m (vox g ![1, 1, 1], .n) =
        setRegionMaterial g' (geomOf B ⟨4, 6, 4, 1, 1, 1⟩ (0 : Fin 1) 1) rgn (some 5) (some 7) m (vox g' ![3, 1, 1], .n) := by
  refine ⟨(materials_any_decomposition D_ok D_ok rfl 1 1 1 0 ![1, 1, 1] ![3, 1, 1] (by decide) g_sized g_sized first_in (by unfold InArray; decide)
    rgn_periodic .n m m (by rw [hm, hm]) _ _).2, fun g' hg' => ?_⟩
  refine (materials_any_decomposition D_ok (D' := ⟨4, 6, 4, 1, 1, 1⟩) (by decide) (by decide) 1 1 1 0 ![1, 1, 1] ![3, 1, 1] (by decide)
    g_sized hg' first_in (fun a => ?_) rgn_periodic .n m m (by rw [hm, hm]) _ _).2
  rw [hg']
  fin_cases a <;> decide

/-- Example: the magnetic field set on the mesh has divergence. -/
example (m : Field.FMem ℚ) (eqE : Fin 3 → (Fin 3 → ℚ) → ℚ) :=
  region_field_divergence g_pos (geomOf B D 1 1) 1 (by intro a; fin_cases a <;> norm_num [geomOf, B, D]) eqE m ![1, 1, 1] first_in
    (by unfold InArray; decide)

/-- Example: with boundary conditions on both sides, the face between the ghost and the first cell reflects the particles of the
slab. -/
example (t : ℤ → ℤ) : setRegionBc g (geomOf B D 1 1) rgn .unchanged .reflect .absorb t (6 * 21) = -1 := by
  obtain ⟨h, -⟩ := region_bc_set g_pos (geomOf B D 1 1) rgn .unchanged .reflect .absorb trivial trivial trivial t
  exact (h ⟨1, 1, 1⟩ (by unfold Cell.Interior; decide) 0).2.1 first_inside ghost_outside.1

/-- Example: on all six ranks of the box, no particle crosses the surface of the slabs. -/
example (r : Fin 6) : ∃ g, gridOf D 6 (fun _ _ => 0) r = some g ∧ ∀ (q : ℚ) (fuel : ℕ) (s s' : MoveP.MState ℚ) (stopped : Bool) (c : Cell),
    c.Interior g.nx g.ny g.nz → s.p.i = Grid.VOXEL g.nx g.ny c.x c.y c.z → (∀ k, -1 ≤ s.p.d k ∧ s.p.d k ≤ 1) →
    MoveP.moveP { g with neighbor := setRegionBc g (geomOf B D r 1) rgn .unchanged .reflect .absorb g.neighbor } q fuel s =
      some (stopped, s') → ∃ c' : Cell, (CellIn (geomOf B D r 1) rgn c' ↔ CellIn (geomOf B D r 1) rgn c) ∧
        (s'.p.i = Grid.VOXEL g.nx g.ny c'.x c'.y c'.z ∨ s'.p.i / 8 = Grid.VOXEL g.nx g.ny c'.x c'.y c'.z) := by
  obtain ⟨g, hg, -⟩ := Grid.neighbor_is_adjacent D 6 D_ok (fun _ _ => 0) r r.2
  obtain ⟨hm, hj⟩ := periodic_joins D_ok (fun _ _ => 0) 1 rgn_periodic r g hg
  refine ⟨g, hg, fun q fuel s s' stopped c hc hs hd h => ?_⟩
  obtain ⟨c', -, hin, hi⟩ := region_surface_not_crossed hm _ rgn hj .unchanged .reflect .absorb trivial trivial trivial (by simp) (by simp)
    q fuel s s' stopped c hc hs hd h
  refine ⟨c', hin, ?_⟩
  cases stopped with
  | true =>
    obtain ⟨f, f0, f6, e⟩ := hi
    exact .inr (by rw [e]; omega)
  | false => exact .inl hi

/-- Example: the emitters of the slab: the first cell for one in the volume, no cell inside for one at the surface. -/
example : (∃ e, defineVolumeEmitter g (geomOf B D 1 1) rgn = some e ∧ componentId 21 13 ∈ e.component) ∧
    ∃ e, defineSurfaceEmitter g (geomOf B D 1 1) rgn = some e ∧ e.nComponent = e.component.length := by
  obtain ⟨e, he, -, -, h⟩ := volume_emitter_lists g_pos (geomOf B D 1 1) rgn
  obtain ⟨e', he', hn, -⟩ := surface_emitter_lists g_pos (geomOf B D 1 1) rgn
  exact ⟨⟨e, he, (h _).2 ⟨⟨1, 1, 1⟩, by unfold Cell.Interior; decide, first_inside, rfl⟩⟩, e', he', hn⟩

end Verif.Region.Sample
