import Verif.MoveP.Trajectory
import Verif.Grid.Walled

/-!
# Local meshes

The facts about a local mesh that the particle algorithms rely on, shown for every grid built by
the partition functions.
-/
namespace Verif.MoveP

open Grid

/-- The cell on the other side of face `f`, wrapping around the local mesh. -/
def localNext (g : LGrid) (c : Cell) (f : ℤ) : Cell :=
  if atWall g.nx g.ny g.nz c f then wrapCell g.nx g.ny g.nz c f else stepCell c f

/-- Spec: a local mesh whose neighbour table leads, where it leads to a local voxel, to the cell
next door (wrapping around if the mesh is joined to itself). -/
structure LocalMesh (g : LGrid) : Prop where
  nx : 1 ≤ g.nx
  ny : 1 ≤ g.ny
  nz : 1 ≤ g.nz
  rl : 0 ≤ g.rangel
  rh : g.rangeh = g.rangel + nvox g - 1
  adj : ∀ c : Cell, c.Interior g.nx g.ny g.nz → ∀ f : ℤ, 0 ≤ f ∧ f < 6 →
    g.rangel ≤ g.neighbor (6 * VOXEL g.nx g.ny c.x c.y c.z + f) →
    g.neighbor (6 * VOXEL g.nx g.ny c.x c.y c.z + f) ≤ g.rangeh →
    g.neighbor (6 * VOXEL g.nx g.ny c.x c.y c.z + f) - g.rangel =
      VOXEL g.nx g.ny (localNext g c f).x (localNext g c f).y (localNext g c f).z

lemma localNext_interior {g : LGrid} (h : LocalMesh g) {c : Cell} (hc : c.Interior g.nx g.ny g.nz)
    {f : ℤ} (hf : 0 ≤ f ∧ f < 6) : (localNext g c f).Interior g.nx g.ny g.nz := by
  have := h.nx
  have := h.ny
  have := h.nz
  obtain ⟨a1, a2, a3, a4, a5, a6⟩ := hc
  unfold localNext atWall wrapCell stepCell Cell.Interior
  rcases face_cases hf with rfl | rfl | rfl | rfl | rfl | rfl <;> simp <;> split_ifs <;>
    simp only <;> omega

lemma voxel_range {g : LGrid} (h : LocalMesh g) {c : Cell} (hc : c.InMesh g.nx g.ny g.nz) :
    0 ≤ VOXEL g.nx g.ny c.x c.y c.z ∧ VOXEL g.nx g.ny c.x c.y c.z < nvox g := by
  have h1 := h.nx
  have h2 := h.ny
  obtain ⟨a1, a2, a3, a4, a5, a6⟩ := hc
  refine ⟨VOXEL_nonneg (by omega) (by omega) a1 a3 a5, ?_⟩
  have := VOXEL_lt (nz := g.nz) (by omega : 0 ≤ g.nx) (by omega : 0 ≤ g.ny) a2 a4 a6
  unfold nvox
  linarith [mul_comm (g.nz + 2) ((g.ny + 2) * (g.nx + 2)), mul_comm (g.ny + 2) (g.nx + 2)]

/-- The mover's mesh hypothesis holds for every periodic box. -/
theorem periodic_localMesh (D : Decomp) (ws : ℕ) (hD : D.ok ws = true) (t0 : ℕ → ℤ → ℤ)
    (r : ℕ) (hr : r < ws) (g : LGrid) (hg : gridOf D ws t0 r = some g) : LocalMesh g := by
  have h := (D.ok_iff ws).mp hD
  obtain ⟨g1, e, gx, gy, gz, -, gl, gh, -, -, gT⟩ :=
    partitionPeriodic_T h (fun _ => localNv D) (fun _ => rfl) (t0 r) r hr
  obtain rfl : g1 = g := by rw [gridOf] at hg; rw [e] at hg; exact Option.some.inj hg
  have hro : ∀ i, rangeOf (fun _ => localNv D) i = i * localNv D :=
    rangeOf_const _ _ (fun _ => rfl)
  have hlx := h.lx_pos
  have hly := h.ly_pos
  have hlz := h.lz_pos
  have hnv : nvox g1 = localNv D := by
    unfold nvox localNv
    rw [gx, gy, gz]
    unfold Decomp.lx Decomp.ly Decomp.lz
    ring
  have hpos : 0 ≤ localNv D := by
    have : 0 ≤ (D.lx + 2) * (D.ly + 2) * (D.lz + 2) := by positivity
    exact this
  have hm : LocalMesh { g1 with neighbor := fun _ => -1 } :=
    { nx := by simp only; omega, ny := by simp only; omega, nz := by simp only; omega
      rl := by simp only [gl, hro]; positivity
      rh := by
        have : nvox { g1 with neighbor := fun _ => -1 } = nvox g1 := rfl
        rw [this, hnv]; simp only [gl, gh, hro]; push_cast; ring
      adj := by
        intro c _ f _ h1
        simp only [gl, hro] at h1
        have : 0 ≤ (r : ℤ) * localNv D := by positivity
        omega }
  refine ⟨hm.nx, hm.ny, hm.nz, hm.rl, hm.rh, ?_⟩
  intro c hc f hf h1 h2
  have hc' : c.Interior D.lx D.ly D.lz := by rw [← gx, ← gy, ← gz]; exact hc
  have hT : g1.neighbor (6 * VOXEL g1.nx g1.ny c.x c.y c.z + f) = g1.T c f := rfl
  rw [hT] at h1 h2 ⊢
  rw [gT c hc' f hf] at h1 h2 ⊢
  have hni := localNext_interior hm hc hf
  have hvr := voxel_range hm hni.inMesh
  simp only [localNext] at hvr ⊢
  have hv' : nvox { g1 with neighbor := fun _ => -1 } = nvox g1 := rfl
  rw [hv', hnv] at hvr
  rw [gx, gy, gz] at hvr ⊢
  by_cases hw : atWall D.lx D.ly D.lz c f
  · rw [if_pos hw] at h1 h2 hvr ⊢
    simp only [gl, gh, hro] at h1 h2 ⊢
    set s := (D.nbrRank (r : ℤ) f).toNat with hs
    have h2' : (s : ℤ) * localNv D ≤ (r : ℤ) * localNv D + localNv D - 1 := by
      push_cast at h2
      linarith [add_mul (r : ℤ) 1 (localNv D)]
    have hnp : 0 < localNv D := by omega
    have e1 : (s : ℤ) = r := by
      have a1 : (s : ℤ) < r + 1 := by
        by_contra hc
        have : ((r : ℤ) + 1) * localNv D ≤ s * localNv D :=
          mul_le_mul_of_nonneg_right (by omega) hpos
        linarith [add_mul (r : ℤ) 1 (localNv D)]
      have a2 : (r : ℤ) < s + 1 := by
        by_contra hc
        have : ((s : ℤ) + 1) * localNv D ≤ r * localNv D :=
          mul_le_mul_of_nonneg_right (by omega) hpos
        linarith [add_mul (s : ℤ) 1 (localNv D)]
      omega
    rw [e1, if_pos hw]; ring
  · rw [if_neg hw, if_neg hw, gl]; ring

/-- The mover's mesh hypothesis holds for every absorbing or metal box. -/
theorem walled_localMesh (D : Decomp) (ws : ℕ) (hD : D.ok ws = true) (t0 : ℕ → ℤ → ℤ)
    (fbc pbc : ℤ) (hp : pbc < 0) (hfb : fbc = -1 ∨ fbc = -2 ∨ fbc = -3 ∨ fbc = -4)
    (r : ℕ) (hr : r < ws) (g : LGrid)
    (hg : partitionWalled fbc pbc ws (fun _ => localNv D) (t0 r) D r = some g) : LocalMesh g := by
  have h := (D.ok_iff ws).mp hD
  obtain ⟨g1, e, gx, gy, gz, -, -⟩ :=
    partitionPeriodic_T h (fun _ => localNv D) (fun _ => rfl) (t0 r) r hr
  have hm := periodic_localMesh D ws hD t0 r hr g1 e
  obtain ⟨g2, a1, ⟨s1, s2, s3, s4, s5, s6⟩, a3, a4⟩ :=
    partitionWalled_T h fbc pbc hp hfb _ (t0 r) r g1 e gx gy gz
  obtain rfl : g2 = g := by rw [a1] at hg; exact Option.some.inj hg
  have hnv : nvox g2 = nvox g1 := by unfold nvox; rw [s1, s2, s3]
  refine ⟨s1 ▸ hm.nx, s2 ▸ hm.ny, s3 ▸ hm.nz, s5 ▸ hm.rl, by rw [hnv, s5, s6]; exact hm.rh, ?_⟩
  intro c hc f hf h1 h2
  have hc' : c.Interior D.lx D.ly D.lz := by
    rw [← gx, ← gy, ← gz, ← s1, ← s2, ← s3]; exact hc
  have hT : g2.neighbor (6 * VOXEL g2.nx g2.ny c.x c.y c.z + f) = g2.T c f := rfl
  have hT' : g1.neighbor (6 * VOXEL g1.nx g1.ny c.x c.y c.z + f) = g1.T c f := rfl
  have hl : localNext g2 c f = localNext g1 c f := by unfold localNext; rw [s1, s2, s3]
  rw [hT] at h1 h2 ⊢
  rw [a4 c hc' f hf, s5] at h1
  rw [a4 c hc' f hf, s6] at h2
  rw [a4 c hc' f hf, s5, hl, s1, s2]
  split_ifs at h1 h2 ⊢ with hw
  · have := hm.rl; omega
  · rw [← hT'] at h1 h2 ⊢
    exact hm.adj c (by rw [← s1, ← s2, ← s3]; exact hc) f hf h1 h2

/-! ## Placement of the unwrapped cells -/

/-- Spec: the interior cell of the local mesh with (0-based) coordinates `C` modulo the mesh
size. -/
def wrappedCell (g : LGrid) (C : Fin 3 → ℤ) : Cell :=
  ⟨C 0 % g.nx + 1, C 1 % g.ny + 1, C 2 % g.nz + 1⟩

/-- Spec: its voxel. -/
def wrappedVoxel (g : LGrid) (C : Fin 3 → ℤ) : ℤ :=
  VOXEL g.nx g.ny (wrappedCell g C).x (wrappedCell g C).y (wrappedCell g C).z

lemma wrappedCell_interior {g : LGrid} (h : LocalMesh g) (C : Fin 3 → ℤ) :
    (wrappedCell g C).Interior g.nx g.ny g.nz := by
  have h1 := h.nx
  have h2 := h.ny
  have h3 := h.nz
  have := Int.emod_nonneg (C 0) (show g.nx ≠ 0 by omega)
  have := Int.emod_nonneg (C 1) (show g.ny ≠ 0 by omega)
  have := Int.emod_nonneg (C 2) (show g.nz ≠ 0 by omega)
  have := Int.emod_lt_of_pos (C 0) (show 0 < g.nx by omega)
  have := Int.emod_lt_of_pos (C 1) (show 0 < g.ny by omega)
  have := Int.emod_lt_of_pos (C 2) (show 0 < g.nz by omega)
  unfold wrappedCell Cell.Interior
  refine ⟨?_, ?_, ?_, ?_, ?_, ?_⟩ <;> simp only <;> omega

lemma emod_up {a n : ℤ} (hn : 1 ≤ n) : (a + 1) % n = if a % n + 1 = n then 0 else a % n + 1 := by
  have h1 := Int.emod_nonneg a (show n ≠ 0 by omega)
  have h2 := Int.emod_lt_of_pos a (show 0 < n by omega)
  rw [← Int.emod_add_emod]
  split_ifs with h
  · rw [h, Int.emod_self]
  · exact Int.emod_eq_of_lt (by omega) (by omega)

lemma emod_down {a n : ℤ} (hn : 1 ≤ n) :
    (a + -1) % n = if a % n + 1 = 1 then n - 1 else a % n - 1 := by
  have h1 := Int.emod_nonneg a (show n ≠ 0 by omega)
  have h2 := Int.emod_lt_of_pos a (show 0 < n by omega)
  rw [← Int.emod_add_emod]
  split_ifs with h
  · rw [show a % n = 0 by omega, show (0 : ℤ) + -1 = (n - 1) + n * (-1) by ring,
      Int.add_mul_emod_self_left]
    exact Int.emod_eq_of_lt (by omega) (by omega)
  · rw [← sub_eq_add_neg]
    exact Int.emod_eq_of_lt (by omega) (by omega)

lemma wrappedCell_next {g : LGrid} (h : LocalMesh g) (C : Fin 3 → ℤ) (axis : Fin 3) (up : Bool) :
    wrappedCell g (nextCell C axis up) = localNext g (wrappedCell g C) (faceOf axis up) := by
  have h1 := h.nx
  have h2 := h.ny
  have h3 := h.nz
  fin_cases axis <;> cases up <;>
    simp [wrappedCell, nextCell, localNext, faceOf, atWall, wrapCell, stepCell,
      Function.update_apply, emod_up, emod_down, h1, h2, h3] <;> split_ifs <;> simp <;> omega

lemma faceOf_range (axis : Fin 3) (up : Bool) : 0 ≤ faceOf axis up ∧ faceOf axis up < 6 := by
  unfold faceOf; split_ifs <;> omega

/-- Every local mesh satisfies the hypothesis of the trajectory theorem. -/
theorem localMesh_covers (g : LGrid) (h : LocalMesh g) :
    Covers g (fun _ => True) (wrappedVoxel g) where
  range := fun C _ => voxel_range h (wrappedCell_interior h C).inMesh
  step := by
    intro C axis up _ _ h1 h2
    refine ⟨trivial, ?_⟩
    have := h.adj (wrappedCell g C) (wrappedCell_interior h C) (faceOf axis up)
      (faceOf_range axis up) h1 h2
    unfold wrappedVoxel at this ⊢
    rw [wrappedCell_next h, this]

/-- Every interior voxel is the place of the cell with its own coordinates. -/
lemma wrappedVoxel_self {g : LGrid} {c : Cell} (hc : c.Interior g.nx g.ny g.nz) :
    wrappedVoxel g ![c.x - 1, c.y - 1, c.z - 1] = VOXEL g.nx g.ny c.x c.y c.z := by
  obtain ⟨a1, a2, a3, a4, a5, a6⟩ := hc
  simp only [wrappedVoxel, wrappedCell, Matrix.cons_val_zero, Matrix.cons_val_one,
    Matrix.cons_val]
  rw [Int.emod_eq_of_lt (by omega) (by omega), Int.emod_eq_of_lt (by omega) (by omega),
    Int.emod_eq_of_lt (by omega) (by omega)]
  simp

/-- C15 on the grids the code builds: any particle inside any interior cell of any rank of a
periodic box, any displacement. -/
theorem move_p_periodic_box {K : Type*} [Field K] [LinearOrder K] [IsStrictOrderedRing K]
    (D : Decomp) (ws : ℕ) (hD : D.ok ws = true) (t0 : ℕ → ℤ → ℤ) (r : ℕ) (hr : r < ws) :
    ∃ g, gridOf D ws t0 r = some g ∧ ∀ (qsp : K) (s : MState K) (c : Cell), IsInterior D c →
      s.p.i = VOXEL g.nx g.ny c.x c.y c.z → (∀ k, -1 ≤ s.p.d k ∧ s.p.d k ≤ 1) →
      ∀ n : Fin 3 → ℕ, (∀ k, |s.disp k| ≤ n k) → ∀ fuel, n 0 + n 1 + n 2 < fuel →
      ∃ m s' C' walls t, moveP g qsp fuel s = some (m, s') ∧
        Moved g (fun _ => True) (wrappedVoxel g) s ![c.x - 1, c.y - 1, c.z - 1] m s' C' walls t := by
  obtain ⟨g, hg, -⟩ := neighbor_is_adjacent D ws hD t0 r hr
  have h := (D.ok_iff ws).mp hD
  obtain ⟨g1, e, gx, gy, gz, -⟩ :=
    partitionPeriodic_T h (fun _ => localNv D) (fun _ => rfl) (t0 r) r hr
  obtain rfl : g1 = g := by rw [gridOf] at hg; rw [e] at hg; exact Option.some.inj hg
  have hm := periodic_localMesh D ws hD t0 r hr g1 hg
  refine ⟨g1, hg, ?_⟩
  intro qsp s c hc hi hd n hn fuel hf
  have hc' : c.Interior g1.nx g1.ny g1.nz := by rw [gx, gy, gz]; exact hc
  exact move_p_trajectory g1 _ _ (localMesh_covers g1 hm) qsp s _ trivial
    (by rw [hi, wrappedVoxel_self hc']) hd n hn fuel hf

/-- A particle near the upper x-face, moving by more than one cell in x, in a 2×3×1 periodic box
split over two ranks. -/
example : ∃ g, gridOf ⟨2, 3, 1, 2, 1, 1⟩ 2 (fun _ _ => 77) 1 = some g ∧
    ∃ m s' C' walls t,
      moveP g (1 : ℚ) 4 ⟨⟨![9/10, -1/2, 1], VOXEL 1 3 1 2 1, ![1, 2, 3], 5⟩, ![3/2, -1/4, 0],
        fun _ _ => 0⟩ = some (m, s') ∧
      Moved g (fun _ => True) (wrappedVoxel g) ⟨⟨![9/10, -1/2, 1], VOXEL 1 3 1 2 1, ![1, 2, 3], 5⟩,
        ![3/2, -1/4, 0], fun _ _ => 0⟩ ![0, 1, 0] m s' C' walls t := by
  obtain ⟨g, hg, h⟩ := move_p_periodic_box (K := ℚ) ⟨2, 3, 1, 2, 1, 1⟩ 2 (by decide)
    (fun _ _ => 77) 1 (by decide)
  obtain ⟨g1, e, gx, gy, -⟩ := partitionPeriodic_T ((Decomp.ok_iff _ _).mp (by decide))
    (fun _ => localNv ⟨2, 3, 1, 2, 1, 1⟩) (fun _ => rfl) (fun _ => 77) 1 (show 1 < 2 by decide)
  obtain rfl : g1 = g := by rw [gridOf] at hg; rw [e] at hg; exact Option.some.inj hg
  refine ⟨g1, hg, ?_⟩
  refine h 1 _ ⟨1, 2, 1⟩ (by unfold IsInterior; decide) (by rw [gx, gy]; rfl) ?_ ![2, 1, 0] ?_ 4
    (by decide)
  · intro k; fin_cases k <;> norm_num
  · intro k; fin_cases k <;> norm_num [abs_of_nonneg, abs_of_neg]

end Verif.MoveP
