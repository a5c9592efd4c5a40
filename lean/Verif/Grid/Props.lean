import Verif.Grid.Lemmas3

/-!
# C03, C04, C05: voxel numbering, neighbour tables, decomposition

Specification: every rank runs the same partition call; rank `r` sits at domain coordinates
`(r mod gpx, r/gpx mod gpy, r/gpx/gpy)` and its interior cell `(x,y,z)` is the global cell
`globalPos`.  The id of cell `c` on rank `r` is `range[r] + VOXEL(c)`.
-/
namespace Verif.Grid

/-! ## C03 -/

/-- **C03.** The voxel number is a bijection from the mesh cells (ghosts included) onto
`0 … (nx+2)(ny+2)(nz+2)-1`. -/
theorem voxel_bijective (nx ny nz : ℤ) (hx : 0 ≤ nx) (hy : 0 ≤ ny) :
    (∀ c : Cell, c.InMesh nx ny nz →
      0 ≤ VOXEL nx ny c.x c.y c.z ∧ VOXEL nx ny c.x c.y c.z < (nx + 2) * (ny + 2) * (nz + 2)) ∧
    (∀ c d : Cell, c.InMesh nx ny nz → d.InMesh nx ny nz →
      VOXEL nx ny c.x c.y c.z = VOXEL nx ny d.x d.y d.z → c = d) ∧
    (∀ v : ℤ, 0 ≤ v → v < (nx + 2) * (ny + 2) * (nz + 2) →
      ∃ c : Cell, c.InMesh nx ny nz ∧ VOXEL nx ny c.x c.y c.z = v) := by
  refine ⟨?_, ?_, ?_⟩
  · rintro c ⟨a1, a2, a3, a4, a5, a6⟩
    exact ⟨VOXEL_nonneg (by omega) (by omega) a1 a3 a5, VOXEL_lt hx hy a2 a4 a6⟩
  · rintro ⟨x, y, z⟩ ⟨x', y', z'⟩ ⟨a1, a2, a3, a4, a5, a6⟩ ⟨b1, b2, b3, b4, b5, b6⟩ h
    obtain ⟨e1, e2, e3⟩ := VOXEL_inj a1 a2 a3 a4 b1 b2 b3 b4 h
    simp_all
  · intro v h0 h1
    have hw : 0 < nx + 2 := by omega
    have hh : 0 < ny + 2 := by omega
    have m1 := Int.emod_nonneg v hw.ne'
    have m2 := Int.emod_lt_of_pos v hw
    have m3 := Int.mul_ediv_add_emod v (nx + 2)
    have n1 := Int.emod_nonneg (v / (nx + 2)) hh.ne'
    have n2 := Int.emod_lt_of_pos (v / (nx + 2)) hh
    have n3 := Int.mul_ediv_add_emod (v / (nx + 2)) (ny + 2)
    refine ⟨⟨v % (nx + 2), v / (nx + 2) % (ny + 2), v / (nx + 2) / (ny + 2)⟩,
      ⟨m1, by simp only; omega, n1, by simp only; omega, ?_, ?_⟩, ?_⟩
    · exact Int.ediv_nonneg (Int.ediv_nonneg h0 hw.le) hh.le
    · have : v / (nx + 2) / (ny + 2) < nz + 2 := by
        rw [Int.ediv_lt_iff_lt_mul hh, Int.ediv_lt_iff_lt_mul hw]
        calc v < _ := h1
          _ = _ := by ring
      simp only; omega
    · simp only [VOXEL]
      rw [add_comm (v / (nx + 2) % (ny + 2)), n3, add_comm, m3]

example : (⟨3, 0, 2⟩ : Cell).InMesh 2 4 5 := by simp [Cell.InMesh]

/-! ## Specification of the global mesh -/

/-- Spec: position in the global mesh of interior cell `c` of rank `r`. -/
def globalPos (D : Decomp) (r : ℕ) (c : Cell) : ℤ × ℤ × ℤ :=
  ((r : ℤ) % D.gpx * (D.gnx / D.gpx) + (c.x - 1),
   (r : ℤ) / D.gpx % D.gpy * (D.gny / D.gpy) + (c.y - 1),
   (r : ℤ) / D.gpx / D.gpy * (D.gnz / D.gpz) + (c.z - 1))

/-- Spec: number of local voxels (with ghosts) of each rank. -/
def localNv (D : Decomp) : ℤ := (D.gnx / D.gpx + 2) * (D.gny / D.gpy + 2) * (D.gnz / D.gpz + 2)

/-- Spec: global id of cell `c` on rank `r` when every rank owns `localNv D` voxels. -/
def cellId (D : Decomp) (r : ℕ) (c : Cell) : ℤ :=
  r * localNv D + (c.x + (D.gnx / D.gpx + 2) * (c.y + (D.gny / D.gpy + 2) * c.z))

/-- Spec: outward direction of a face, numbered -x,-y,-z,+x,+y,+z. -/
def faceDir : Fin 6 → ℤ × ℤ × ℤ
  | 0 => (-1, 0, 0) | 1 => (0, -1, 0) | 2 => (0, 0, -1)
  | 3 => (1, 0, 0) | 4 => (0, 1, 0) | 5 => (0, 0, 1)

/-- Spec: opposite face. -/
def oppFace : Fin 6 → Fin 6
  | 0 => 3 | 1 => 4 | 2 => 5 | 3 => 0 | 4 => 1 | 5 => 2

/-- Spec: translation on the periodic global mesh. -/
def periodicShift (D : Decomp) (p d : ℤ × ℤ × ℤ) : ℤ × ℤ × ℤ :=
  ((p.1 + d.1) % D.gnx, (p.2.1 + d.2.1) % D.gny, (p.2.2 + d.2.2) % D.gnz)

/-- Spec: non-ghost cell of a local mesh. -/
def IsInterior (D : Decomp) (c : Cell) : Prop :=
  1 ≤ c.x ∧ c.x ≤ D.gnx / D.gpx ∧ 1 ≤ c.y ∧ c.y ≤ D.gny / D.gpy ∧ 1 ≤ c.z ∧ c.z ≤ D.gnz / D.gpz

/-- Spec: cell of a local mesh, ghosts included. -/
def IsCell (D : Decomp) (c : Cell) : Prop :=
  0 ≤ c.x ∧ c.x ≤ D.gnx / D.gpx + 1 ∧ 0 ≤ c.y ∧ c.y ≤ D.gny / D.gpy + 1 ∧
    0 ≤ c.z ∧ c.z ≤ D.gnz / D.gpz + 1

/-- The grid rank `r` builds when all ranks call `partition_periodic_box` with decomposition `D`
(`t0 r` is the garbage in its freshly allocated table). -/
def gridOf (D : Decomp) (ws : ℕ) (t0 : ℕ → ℤ → ℤ) (r : ℕ) : Option LGrid :=
  partitionPeriodic ws (fun _ => localNv D) (t0 r) D r

/-- Neighbour table entry. -/
def nbr (g : LGrid) (c : Cell) (f : Fin 6) : ℤ :=
  g.neighbor (6 * (c.x + (g.nx + 2) * (c.y + (g.ny + 2) * c.z)) + (f : ℕ))

/-! ### axis lemmas -/

lemma axis_mod {P l p a : ℤ} (hp : 0 ≤ p) (hP : p < P) (ha : 0 ≤ a) (hl : a < l) :
    (p * l + a) % (P * l) = p * l + a := by
  apply Int.emod_eq_of_lt
  · have : 0 ≤ p * l := mul_nonneg hp (by omega)
    omega
  · have : (p + 1) * l ≤ P * l := mul_le_mul_of_nonneg_right (by omega) (by omega)
    linarith [add_mul p 1 l]

lemma axis_lo {P l p : ℤ} (hp : 0 ≤ p) (hP : p < P) (hl : 1 ≤ l) :
    (p * l + (1 - 1) + -1) % (P * l) = (p + -1) % P * l + (l - 1) := by
  rcases eq_or_lt_of_le hp with h | h
  · subst h
    have e1 : (0 + -1 : ℤ) % P = P - 1 := by
      rw [show (0 + -1 : ℤ) = (P - 1) + P * (-1) by ring, Int.add_mul_emod_self_left]
      exact Int.emod_eq_of_lt (by omega) (by omega)
    rw [e1, show (0 * l + (1 - 1) + -1 : ℤ) = ((P - 1) * l + (l - 1)) + P * l * (-1) by ring,
      Int.add_mul_emod_self_left]
    exact axis_mod (by omega) (by omega) (by omega) (by omega)
  · have e1 : (p + -1) % P = p - 1 := by
      rw [← sub_eq_add_neg]; exact Int.emod_eq_of_lt (by omega) (by omega)
    rw [e1, show (p * l + (1 - 1) + -1 : ℤ) = (p - 1) * l + (l - 1) by ring]
    exact axis_mod (by omega) (by omega) (by omega) (by omega)

lemma axis_hi {P l p : ℤ} (hp : 0 ≤ p) (hP : p < P) (hl : 1 ≤ l) :
    (p * l + (l - 1) + 1) % (P * l) = (p + 1) % P * l + (1 - 1) := by
  rcases eq_or_lt_of_le (show p + 1 ≤ P by omega) with h | h
  · rw [h, Int.emod_self, show p * l + (l - 1) + 1 = (p + 1) * l by ring, h, Int.emod_self]
    ring
  · rw [Int.emod_eq_of_lt (by omega) h, show p * l + (l - 1) + 1 = (p + 1) * l + (1 - 1) by ring]
    exact axis_mod (by omega) h (by omega) (by omega)

lemma face_range (f : Fin 6) : 0 ≤ ((f : ℕ) : ℤ) ∧ ((f : ℕ) : ℤ) < 6 := by omega

lemma emod_of_range {a n : ℤ} (h0 : 0 ≤ a) (h1 : a < n) : (a + 0) % n = a := by
  rw [add_zero]; exact Int.emod_eq_of_lt h0 h1

lemma wrapCell_interior {nx ny nz : ℤ} (hx : 1 ≤ nx) (hy : 1 ≤ ny) (hz : 1 ≤ nz) {c : Cell}
    {f : ℤ} (h : c.Interior nx ny nz) : (wrapCell nx ny nz c f).Interior nx ny nz := by
  unfold wrapCell Cell.Interior at *
  split_ifs <;> simp only <;> omega

lemma stepCell_interior {nx ny nz : ℤ} {c : Cell} {f : ℤ} (hf : 0 ≤ f ∧ f < 6)
    (h : c.Interior nx ny nz) (hw : ¬ atWall nx ny nz c f) : (stepCell c f).Interior nx ny nz := by
  unfold stepCell Cell.Interior atWall at *
  split_ifs <;> simp only <;> omega

/-! ## C04 -/

/-- **C04.** With a valid decomposition every rank builds a grid, and the neighbour through face `f`
of interior cell `c` of rank `r` is the id of the (interior) cell, on the rank `r'` that owns it,
that lies one step in the outward direction of `f` on the global periodic mesh. -/
theorem neighbor_is_adjacent (D : Decomp) (ws : ℕ) (hD : D.ok ws = true) (t0 : ℕ → ℤ → ℤ)
    (r : ℕ) (hr : r < ws) :
    ∃ g, gridOf D ws t0 r = some g ∧ g.rangel = r * localNv D ∧
      g.rangeh = (r + 1) * localNv D - 1 ∧
      ∀ c, IsInterior D c → ∀ f : Fin 6, ∃ r' c', r' < ws ∧ IsInterior D c' ∧
        nbr g c f = cellId D r' c' ∧
        globalPos D r' c' = periodicShift D (globalPos D r c) (faceDir f) := by
  have h := (D.ok_iff ws).mp hD
  obtain ⟨g, e, gx, gy, gz, -, gl, gh, -, -, gT⟩ :=
    partitionPeriodic_T h (fun _ => localNv D) (fun _ => rfl) (t0 r) r hr
  have hro : ∀ i, rangeOf (fun _ => localNv D) i = i * localNv D :=
    rangeOf_const _ _ (fun _ => rfl)
  obtain ⟨p1, p2, p3, p4, p5, p6⟩ := coord_bounds h r hr
  have hlx := h.lx_pos
  have hly := h.ly_pos
  have hlz := h.lz_pos
  refine ⟨g, e, by rw [gl, hro], by rw [gh, hro]; push_cast; ring, ?_⟩
  intro c hc f
  have hT := gT c hc (f : ℕ) (face_range f)
  have hn : nbr g c f = g.T c (f : ℕ) := rfl
  rw [hn, hT]
  obtain ⟨s, hs, es, sx, sy, sz⟩ := indexToRank_spec h (D.cx r + fdx (f : ℕ)) (D.cy r + fdy (f : ℕ))
    (D.cz r + fdz (f : ℕ))
  have enb : D.nbrRank r (f : ℕ) = s := es
  have hX : D.gnx = D.gpx * (D.gnx / D.gpx) := h.gx
  have hY : D.gny = D.gpy * (D.gny / D.gpy) := h.gy
  have hZ : D.gnz = D.gpz * (D.gnz / D.gpz) := h.gz
  obtain ⟨i1, i2, i3, i4, i5, i6⟩ := hc
  have keepx : (D.cx r * D.lx + (c.x - 1)) % (D.gpx * D.lx) = D.cx r * D.lx + (c.x - 1) :=
    axis_mod p1 p2 (by omega) (by unfold Decomp.lx; omega)
  have keepy : (D.cy r * D.ly + (c.y - 1)) % (D.gpy * D.ly) = D.cy r * D.ly + (c.y - 1) :=
    axis_mod p3 p4 (by omega) (by unfold Decomp.ly; omega)
  have keepz : (D.cz r * D.lz + (c.z - 1)) % (D.gpz * D.lz) = D.cz r * D.lz + (c.z - 1) :=
    axis_mod p5 p6 (by omega) (by unfold Decomp.lz; omega)
  split
  · rename_i hw
    refine ⟨s, wrapCell D.lx D.ly D.lz c (f : ℕ), hs, ?_, ?_, ?_⟩
    · exact wrapCell_interior hlx hly hlz ⟨i1, i2, i3, i4, i5, i6⟩
    · rw [enb, Int.toNat_natCast, hro]; rfl
    · have e1 : globalPos D s (wrapCell D.lx D.ly D.lz c (f : ℕ)) =
        (D.cx s * D.lx + ((wrapCell D.lx D.ly D.lz c (f : ℕ)).x - 1),
         D.cy s * D.ly + ((wrapCell D.lx D.ly D.lz c (f : ℕ)).y - 1),
         D.cz s * D.lz + ((wrapCell D.lx D.ly D.lz c (f : ℕ)).z - 1)) := rfl
      have e2 : globalPos D r c = (D.cx r * D.lx + (c.x - 1), D.cy r * D.ly + (c.y - 1),
        D.cz r * D.lz + (c.z - 1)) := rfl
      have mx : (D.cx r + 0) % D.gpx = D.cx r := emod_of_range p1 p2
      have my : (D.cy r + 0) % D.gpy = D.cy r := emod_of_range p3 p4
      have mz : (D.cz r + 0) % D.gpz = D.cz r := emod_of_range p5 p6
      rw [e1, e2, periodicShift, sx, sy, sz, h.gx, h.gy, h.gz]
      fin_cases f
      · have hw' : c.x = 1 := by simpa [atWall] using hw
        simp only [wrapCell, fdx, fdy, fdz, faceDir]
        norm_num
        refine ⟨?_, ?_, ?_⟩
        · rw [hw', axis_lo p1 p2 hlx]
        · rw [keepy, Int.emod_eq_of_lt p3 p4]
        · rw [keepz, Int.emod_eq_of_lt p5 p6]
      · have hw' : c.y = 1 := by simpa [atWall] using hw
        simp only [wrapCell, fdx, fdy, fdz, faceDir]
        norm_num
        refine ⟨?_, ?_, ?_⟩
        · rw [keepx, Int.emod_eq_of_lt p1 p2]
        · rw [hw', axis_lo p3 p4 hly]
        · rw [keepz, Int.emod_eq_of_lt p5 p6]
      · have hw' : c.z = 1 := by simpa [atWall] using hw
        simp only [wrapCell, fdx, fdy, fdz, faceDir]
        norm_num
        refine ⟨?_, ?_, ?_⟩
        · rw [keepx, Int.emod_eq_of_lt p1 p2]
        · rw [keepy, Int.emod_eq_of_lt p3 p4]
        · rw [hw', axis_lo p5 p6 hlz]
      · have hw' : c.x = D.lx := by simpa [atWall] using hw
        simp only [wrapCell, fdx, fdy, fdz, faceDir]
        norm_num
        refine ⟨?_, ?_, ?_⟩
        · rw [hw', axis_hi p1 p2 hlx]; ring
        · rw [keepy, Int.emod_eq_of_lt p3 p4]
        · rw [keepz, Int.emod_eq_of_lt p5 p6]
      · have hw' : c.y = D.ly := by simpa [atWall] using hw
        simp only [wrapCell, fdx, fdy, fdz, faceDir]
        norm_num
        refine ⟨?_, ?_, ?_⟩
        · rw [keepx, Int.emod_eq_of_lt p1 p2]
        · rw [hw', axis_hi p3 p4 hly]; ring
        · rw [keepz, Int.emod_eq_of_lt p5 p6]
      · have hw' : c.z = D.lz := by simpa [atWall] using hw
        simp only [wrapCell, fdx, fdy, fdz, faceDir]
        norm_num
        refine ⟨?_, ?_, ?_⟩
        · rw [keepx, Int.emod_eq_of_lt p1 p2]
        · rw [keepy, Int.emod_eq_of_lt p3 p4]
        · rw [hw', axis_hi p5 p6 hlz]; ring
  · rename_i hw
    have hxl : c.x ≤ D.lx := i2
    have hyl : c.y ≤ D.ly := i4
    have hzl : c.z ≤ D.lz := i6
    refine ⟨r, stepCell c (f : ℕ), hr, ?_, by rw [hro]; rfl, ?_⟩
    · exact stepCell_interior (face_range f) ⟨i1, i2, i3, i4, i5, i6⟩ hw
    · have e1 : globalPos D r (stepCell c (f : ℕ)) =
        (D.cx r * D.lx + ((stepCell c (f : ℕ)).x - 1),
         D.cy r * D.ly + ((stepCell c (f : ℕ)).y - 1),
         D.cz r * D.lz + ((stepCell c (f : ℕ)).z - 1)) := rfl
      have e2 : globalPos D r c = (D.cx r * D.lx + (c.x - 1), D.cy r * D.ly + (c.y - 1),
        D.cz r * D.lz + (c.z - 1)) := rfl
      rw [e1, e2, periodicShift, h.gx, h.gy, h.gz]
      fin_cases f <;> simp [atWall] at hw <;> simp only [stepCell, faceDir] <;> norm_num <;>
        (try rw [keepx]) <;> (try rw [keepy]) <;> (try rw [keepz]) <;>
        refine ⟨?_, ?_, ?_⟩ <;> try rfl
      · rw [add_assoc, axis_mod p1 p2 (by omega) (by omega)]; ring
      · rw [add_assoc, axis_mod p3 p4 (by omega) (by omega)]; ring
      · rw [add_assoc, axis_mod p5 p6 (by omega) (by omega)]; ring
      · rw [add_assoc, axis_mod p1 p2 (by omega) (by omega)]; ring
      · rw [add_assoc, axis_mod p3 p4 (by omega) (by omega)]; ring
      · rw [add_assoc, axis_mod p5 p6 (by omega) (by omega)]; ring

/-- **C04**, ids: cells of different ranks, or different cells, never share a global id. -/
theorem cellId_injective (D : Decomp) (ws : ℕ) (hD : D.ok ws = true) (r s : ℕ) (c d : Cell)
    (hc : IsCell D c) (hd : IsCell D d) (h : cellId D r c = cellId D s d) : r = s ∧ c = d := by
  have hv := (D.ok_iff ws).mp hD
  have hlx := hv.lx_pos
  have hly := hv.ly_pos
  obtain ⟨a1, a2, -⟩ := voxel_bijective (D.gnx / D.gpx) (D.gny / D.gpy) (D.gnz / D.gpz)
    (by unfold Decomp.lx at hlx; omega) (by unfold Decomp.ly at hly; omega)
  have h1 := a1 c hc
  have h2 := a1 d hd
  have h' : VOXEL (D.gnx / D.gpx) (D.gny / D.gpy) c.x c.y c.z + localNv D * r =
      VOXEL (D.gnx / D.gpx) (D.gny / D.gpy) d.x d.y d.z + localNv D * s := by
    unfold cellId at h; unfold VOXEL; linarith
  obtain ⟨e1, e2⟩ := digit_unique h1.1 h1.2 h2.1 h2.2 h'
  exact ⟨by exact_mod_cast e2, a2 c d hc hd e1⟩

/-- **C04**, positions: an interior cell of the global mesh belongs to exactly one rank. -/
theorem globalPos_injective (D : Decomp) (ws : ℕ) (hD : D.ok ws = true) (r s : ℕ) (c d : Cell)
    (hc : IsInterior D c) (hd : IsInterior D d) (h : globalPos D r c = globalPos D s d) :
    r = s ∧ c = d := by
  have hv := (D.ok_iff ws).mp hD
  obtain ⟨i1, i2, i3, i4, i5, i6⟩ := hc
  obtain ⟨j1, j2, j3, j4, j5, j6⟩ := hd
  simp only [globalPos, Prod.mk.injEq] at h
  obtain ⟨e1, e2, e3⟩ := h
  have f1 := digit_unique (n := D.gnx / D.gpx) (a := c.x - 1) (b := d.x - 1) (q := (r : ℤ) % D.gpx)
    (r := (s : ℤ) % D.gpx) (by omega) (by omega) (by omega) (by omega) (by linarith)
  have f2 := digit_unique (n := D.gny / D.gpy) (a := c.y - 1) (b := d.y - 1)
    (q := (r : ℤ) / D.gpx % D.gpy) (r := (s : ℤ) / D.gpx % D.gpy) (by omega) (by omega) (by omega)
    (by omega) (by linarith)
  have f3 := digit_unique (n := D.gnz / D.gpz) (a := c.z - 1) (b := d.z - 1)
    (q := (r : ℤ) / D.gpx / D.gpy) (r := (s : ℤ) / D.gpx / D.gpy) (by omega) (by omega) (by omega)
    (by omega) (by linarith)
  have hrs : (r : ℤ) = s := rank_ext hv f1.2 f2.2 f3.2
  refine ⟨by exact_mod_cast hrs, ?_⟩
  cases c; cases d
  simp only [Cell.mk.injEq]
  refine ⟨?_, ?_, ?_⟩
  · have := f1.1; simp only at this; omega
  · have := f2.1; simp only at this; omega
  · have := f3.1; simp only at this; omega

/-- **C04**, symmetry: if the neighbour of `c` (rank `r`) through `f` is cell `c'` of rank `r'`, then
the neighbour of `c'` on rank `r'` through the opposite face is `c` of rank `r`. -/
theorem neighbor_symmetric (D : Decomp) (ws : ℕ) (hD : D.ok ws = true) (t0 : ℕ → ℤ → ℤ)
    (r r' : ℕ) (hr : r < ws) (hr' : r' < ws) (g g' : LGrid) (hg : gridOf D ws t0 r = some g)
    (hg' : gridOf D ws t0 r' = some g') (c c' : Cell) (hc : IsInterior D c) (hc' : IsCell D c')
    (f : Fin 6) (h : nbr g c f = cellId D r' c') : nbr g' c' (oppFace f) = cellId D r c := by
  have hv := (D.ok_iff ws).mp hD
  obtain ⟨g1, e1, -, -, T1⟩ := neighbor_is_adjacent D ws hD t0 r hr
  obtain ⟨g2, e2, -, -, T2⟩ := neighbor_is_adjacent D ws hD t0 r' hr'
  obtain rfl : g1 = g := by rw [e1] at hg; exact Option.some.inj hg
  obtain rfl : g2 = g' := by rw [e2] at hg'; exact Option.some.inj hg'
  have toCell : ∀ d, IsInterior D d → IsCell D d := by
    rintro d ⟨a, b, c, d, e, f⟩
    refine ⟨?_, ?_, ?_, ?_, ?_, ?_⟩ <;> omega
  obtain ⟨s, d, hs, hd, ed, pd⟩ := T1 c hc f
  obtain ⟨rfl, rfl⟩ := cellId_injective D ws hD s r' d c' (toCell d hd) hc' (ed.symm.trans h)
  obtain ⟨u, k, hu, hk, ek, pk⟩ := T2 d hd (oppFace f)
  rw [ek]
  have hpos : globalPos D u k = globalPos D r c := by
    rw [pk, pd]
    obtain ⟨p1, p2, p3, p4, p5, p6⟩ := coord_bounds hv r hr
    obtain ⟨i1, i2, i3, i4, i5, i6⟩ := hc
    have rx : 0 ≤ (globalPos D r c).1 ∧ (globalPos D r c).1 < D.gnx := by
      have h0 := axis_mod (l := D.lx) (a := c.x - 1) p1 p2 (by omega) (by unfold Decomp.lx; omega)
      rw [← hv.gx] at h0
      have hp : 0 < D.gnx := by have := hv.nx; omega
      have e : (globalPos D r c).1 = D.cx r * D.lx + (c.x - 1) := rfl
      rw [e, ← h0]
      exact ⟨Int.emod_nonneg _ hp.ne', Int.emod_lt_of_pos _ hp⟩
    have ry : 0 ≤ (globalPos D r c).2.1 ∧ (globalPos D r c).2.1 < D.gny := by
      have h0 := axis_mod (l := D.ly) (a := c.y - 1) p3 p4 (by omega) (by unfold Decomp.ly; omega)
      rw [← hv.gy] at h0
      have hp : 0 < D.gny := by have := hv.ny; omega
      have e : (globalPos D r c).2.1 = D.cy r * D.ly + (c.y - 1) := rfl
      rw [e, ← h0]
      exact ⟨Int.emod_nonneg _ hp.ne', Int.emod_lt_of_pos _ hp⟩
    have rz : 0 ≤ (globalPos D r c).2.2 ∧ (globalPos D r c).2.2 < D.gnz := by
      have h0 := axis_mod (l := D.lz) (a := c.z - 1) p5 p6 (by omega) (by unfold Decomp.lz; omega)
      rw [← hv.gz] at h0
      have hp : 0 < D.gnz := by have := hv.nz; omega
      have e : (globalPos D r c).2.2 = D.cz r * D.lz + (c.z - 1) := rfl
      rw [e, ← h0]
      exact ⟨Int.emod_nonneg _ hp.ne', Int.emod_lt_of_pos _ hp⟩
    have key : ∀ a e e' n : ℤ, e + e' = 0 → 0 ≤ a → a < n → ((a + e) % n + e') % n = a := by
      intro a e e' n he h0 h1
      rw [Int.emod_add_emod, add_assoc, he, add_zero, Int.emod_eq_of_lt h0 h1]
    simp only [periodicShift]
    ext
    · exact key _ _ _ _ (by fin_cases f <;> rfl) rx.1 rx.2
    · exact key _ _ _ _ (by fin_cases f <;> rfl) ry.1 ry.2
    · exact key _ _ _ _ (by fin_cases f <;> rfl) rz.1 rz.2
  obtain ⟨rfl, rfl⟩ := globalPos_injective D ws hD u r k c hk hc hpos
  rfl

/-- Non-vacuity: a 2×1×3 decomposition of a 4×5×6 mesh. -/
example : (⟨4, 5, 6, 2, 1, 3⟩ : Decomp).ok 6 = true := by decide
example : IsInterior ⟨4, 5, 6, 2, 1, 3⟩ ⟨2, 5, 1⟩ := by unfold IsInterior; decide

/-! ## C05 -/

/-- **C05**, rank numbering: converting a rank to domain coordinates and back is the identity, and
wrapping any coordinates periodically gives a valid rank whose coordinates are the wrapped ones. -/
theorem rank_index_inverse (D : Decomp) (ws : ℕ) (hD : D.ok ws = true) :
    (∀ r : ℕ, r < ws →
      indexToRank D.gpx D.gpy D.gpz (rankToIndex D.gpx D.gpy r).1 (rankToIndex D.gpx D.gpy r).2.1
        (rankToIndex D.gpx D.gpy r).2.2 = r) ∧
    (∀ ix iy iz : ℤ, ∃ r : ℕ, r < ws ∧ indexToRank D.gpx D.gpy D.gpz ix iy iz = r ∧
      rankToIndex D.gpx D.gpy r = (ix % D.gpx, iy % D.gpy, iz % D.gpz)) := by
  have h := (D.ok_iff ws).mp hD
  constructor
  · intro r hr
    rw [rankToIndex_eq]
    obtain ⟨p1, p2, p3, p4, p5, p6⟩ := coord_bounds h r hr
    obtain ⟨s, hs, es, sx, sy, sz⟩ := indexToRank_spec h (D.cx r) (D.cy r) (D.cz r)
    rw [es]
    rw [Int.emod_eq_of_lt p1 p2] at sx
    rw [Int.emod_eq_of_lt p3 p4] at sy
    rw [Int.emod_eq_of_lt p5 p6] at sz
    exact rank_ext h sx sy sz
  · intro ix iy iz
    obtain ⟨s, hs, es, sx, sy, sz⟩ := indexToRank_spec h ix iy iz
    exact ⟨s, hs, es, by rw [rankToIndex_eq, sx, sy, sz]⟩

lemma portOf_faceDir (f : Fin 6) :
    portOf (f : ℕ) = BOUNDARY (faceDir f).1 (faceDir f).2.1 (faceDir f).2.2 := by
  fin_cases f <;> rfl

lemma portOf_opp (f : Fin 6) :
    portOf (oppFace f : ℕ) = BOUNDARY (-(faceDir f).1) (-(faceDir f).2.1) (-(faceDir f).2.2) := by
  fin_cases f <;> rfl

lemma nbrRank_opp {D : Decomp} {ws : ℕ} (h : D.Valid ws) (r s : ℕ) (hr : r < ws) (f : Fin 6)
    (hs : D.nbrRank r (f : ℕ) = s) : D.nbrRank s (oppFace f : ℕ) = r := by
  obtain ⟨p1, p2, p3, p4, p5, p6⟩ := coord_bounds h r hr
  obtain ⟨s', -, es, sx, sy, sz⟩ := indexToRank_spec h (D.cx r + fdx (f : ℕ)) (D.cy r + fdy (f : ℕ))
    (D.cz r + fdz (f : ℕ))
  have : (s' : ℤ) = s := by rw [← es]; exact hs
  obtain rfl : s' = s := by exact_mod_cast this
  obtain ⟨u, -, eu, ux, uy, uz⟩ := indexToRank_spec h (D.cx s' + fdx (oppFace f : ℕ))
    (D.cy s' + fdy (oppFace f : ℕ)) (D.cz s' + fdz (oppFace f : ℕ))
  have key : ∀ a e e' n : ℤ, e + e' = 0 → 0 ≤ a → a < n → ((a + e) % n + e') % n = a := by
    intro a e e' n he h0 h1
    rw [Int.emod_add_emod, add_assoc, he, add_zero, Int.emod_eq_of_lt h0 h1]
  have e : D.nbrRank s' (oppFace f : ℕ) = u := eu
  rw [e]
  apply rank_ext h
  · rw [ux, sx]; exact key _ _ _ _ (by fin_cases f <;> rfl) p1 p2
  · rw [uy, sy]; exact key _ _ _ _ (by fin_cases f <;> rfl) p3 p4
  · rw [uz, sz]; exact key _ _ _ _ (by fin_cases f <;> rfl) p5 p6

/-- **C05**, messages: on a periodic box, rank `r` sends a message through face direction `f` to rank
`s` with some tag exactly when rank `s`, in the matching receive call (same direction arguments),
posts a receive from `r` with the same tag; and every rank does send and receive. -/
theorem ports_match (D : Decomp) (ws : ℕ) (hD : D.ok ws = true) (t0 : ℕ → ℤ → ℤ)
    (f : Fin 6) (r : ℕ) (hr : r < ws) :
    ∃ (g g' : LGrid) (s : ℕ) (tag : ℤ), s < ws ∧ gridOf D ws t0 r = some g ∧
      gridOf D ws t0 s = some g' ∧
      sendPort ws g (faceDir f).1 (faceDir f).2.1 (faceDir f).2.2 = some ⟨s, tag⟩ ∧
      recvPort ws g' (faceDir f).1 (faceDir f).2.1 (faceDir f).2.2 = some ⟨r, tag⟩ := by
  have h := (D.ok_iff ws).mp hD
  obtain ⟨g, e, -, -, -, -, -, -, gb, -, -⟩ :=
    partitionPeriodic_T h (fun _ => localNv D) (fun _ => rfl) (t0 r) r hr
  obtain ⟨s, hs, es, -⟩ := indexToRank_spec h (D.cx r + fdx (f : ℕ)) (D.cy r + fdy (f : ℕ))
    (D.cz r + fdz (f : ℕ))
  obtain ⟨g', e', -, -, -, -, -, -, gb', -, -⟩ :=
    partitionPeriodic_T h (fun _ => localNv D) (fun _ => rfl) (t0 s) s hs
  have b1 : g.bc (BOUNDARY (faceDir f).1 (faceDir f).2.1 (faceDir f).2.2) = s := by
    rw [← portOf_faceDir, gb _ (face_range f)]; exact es
  have b2 : g'.bc (BOUNDARY (-(faceDir f).1) (-(faceDir f).2.1) (-(faceDir f).2.2)) = r := by
    rw [← portOf_opp, gb' _ (face_range _)]; exact nbrRank_opp h r s hr f es
  refine ⟨g, g', s, BOUNDARY (faceDir f).1 (faceDir f).2.1 (faceDir f).2.2, hs, e, e', ?_, ?_⟩
  · unfold sendPort
    simp only [b1]
    rw [if_neg (by omega)]
  · unfold recvPort
    simp only [b2]
    rw [if_neg (by omega)]

example : ∃ (g g' : LGrid) (s : ℕ) (tag : ℤ), s < 6 ∧
    gridOf ⟨4, 5, 6, 2, 1, 3⟩ 6 (fun _ _ => 77) 1 = some g ∧
    gridOf ⟨4, 5, 6, 2, 1, 3⟩ 6 (fun _ _ => 77) s = some g' ∧
    sendPort 6 g 0 0 1 = some ⟨s, tag⟩ ∧ recvPort 6 g' 0 0 1 = some ⟨(1 : ℕ), tag⟩ :=
  ports_match ⟨4, 5, 6, 2, 1, 3⟩ 6 (by decide) _ 5 1 (by norm_num)

end Verif.Grid
