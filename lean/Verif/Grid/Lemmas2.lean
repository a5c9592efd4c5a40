import Verif.Grid.Lemmas

namespace Verif.Grid

/-- Port (index in `bc`) of face `f`. -/
def portOf (f : ℤ) : ℤ :=
  if f = 0 then BOUNDARY (-1) 0 0 else if f = 1 then BOUNDARY 0 (-1) 0
  else if f = 2 then BOUNDARY 0 0 (-1) else if f = 3 then BOUNDARY 1 0 0
  else if f = 4 then BOUNDARY 0 1 0 else BOUNDARY 0 0 1

/-- The cell at the opposite end of the row of `c` along face direction `f`. -/
def wrapCell (nx ny nz : ℤ) (c : Cell) (f : ℤ) : Cell :=
  if f = 0 then { c with x := nx } else if f = 1 then { c with y := ny }
  else if f = 2 then { c with z := nz } else if f = 3 then { c with x := 1 }
  else if f = 4 then { c with y := 1 } else { c with z := 1 }

/-- Everything but `bc` and `neighbor` is unchanged. -/
def LGrid.Same (g g' : LGrid) : Prop :=
  g'.nx = g.nx ∧ g'.ny = g.ny ∧ g'.nz = g.nz ∧ g'.range = g.range ∧ g'.rangel = g.rangel ∧
    g'.rangeh = g.rangeh

lemma rnc_div {a b c : ℤ} (ha : 0 < a) (hb : 0 < b) (n : ℤ) (h : n = (c + 2) * (a * b)) :
    n % (a * b) = 0 ∧ n / (a * b) - 2 = c := by
  subst h
  have : a * b ≠ 0 := (mul_pos ha hb).ne'
  constructor
  · exact Int.mul_emod_left _ _
  · rw [Int.mul_ediv_cancel _ this]; ring

lemma joinGrid_face (ws : ℕ) (g : LGrid) (r : ℕ) (hr : r < ws) (f : ℤ) (hf : 0 ≤ f ∧ f < 6)
    (hx : 1 ≤ g.nx) (hy : 1 ≤ g.ny) (hz : 1 ≤ g.nz)
    (hsz : g.range (r + 1) - g.range r = (g.nx + 2) * (g.ny + 2) * (g.nz + 2)) :
    ∃ g', joinGrid ws g (portOf f) r = some g' ∧ g.Same g' ∧ g'.bc = store g.bc (portOf f) r ∧
      ∀ c, c.Interior g.nx g.ny g.nz → ∀ f', 0 ≤ f' ∧ f' < 6 →
        g'.T c f' = if f' = f ∧ atWall g.nx g.ny g.nz c f then
            g.range r + VOXEL g.nx g.ny (wrapCell g.nx g.ny g.nz c f).x
              (wrapCell g.nx g.ny g.nz c f).y (wrapCell g.nx g.ny g.nz c f).z
          else g.T c f' := by
  have hrr : ¬ ((r : ℤ) < 0) := by omega
  have hrw : ¬ ((r : ℤ) ≥ ws) := by omega
  have ex : (g.range (r + 1) - g.range r) % ((g.ny + 2) * (g.nz + 2)) = 0 ∧
      (g.range (r + 1) - g.range r) / ((g.ny + 2) * (g.nz + 2)) - 2 = g.nx :=
    rnc_div (by omega) (by omega) _ (by rw [hsz]; ring)
  have ey : (g.range (r + 1) - g.range r) % ((g.nz + 2) * (g.nx + 2)) = 0 ∧
      (g.range (r + 1) - g.range r) / ((g.nz + 2) * (g.nx + 2)) - 2 = g.ny :=
    rnc_div (by omega) (by omega) _ (by rw [hsz]; ring)
  have ez : (g.range (r + 1) - g.range r) % ((g.nx + 2) * (g.ny + 2)) = 0 ∧
      (g.range (r + 1) - g.range r) / ((g.nx + 2) * (g.ny + 2)) - 2 = g.nz :=
    rnc_div (by omega) (by omega) _ (by rw [hsz]; ring)
  have main : ∀ (w : List (ℤ × ℤ)) (b : ℤ → ℤ),
      (∀ p, p ∈ w ↔ ∃ c : Cell, (c.Interior g.nx g.ny g.nz ∧ atWall g.nx g.ny g.nz c f) ∧
        p = (6 * VOXEL g.nx g.ny c.x c.y c.z + f,
            g.range r + VOXEL g.nx g.ny (wrapCell g.nx g.ny g.nz c f).x
              (wrapCell g.nx g.ny g.nz c f).y (wrapCell g.nx g.ny g.nz c f).z)) →
      ∀ c, c.Interior g.nx g.ny g.nz → ∀ f', 0 ≤ f' ∧ f' < 6 →
        ({ g with bc := b, neighbor := stores g.neighbor w } : LGrid).T c f' =
          if f' = f ∧ atWall g.nx g.ny g.nz c f then
            g.range r + VOXEL g.nx g.ny (wrapCell g.nx g.ny g.nz c f).x
              (wrapCell g.nx g.ny g.nz c f).y (wrapCell g.nx g.ny g.nz c f).z
          else g.T c f' := by
    intro w b hw c hc f' hf'
    classical
    have := plane_stores g.nx g.ny g.nz g.neighbor w f hf
      (fun c => c.Interior g.nx g.ny g.nz ∧ atWall g.nx g.ny g.nz c f)
      (fun c => g.range r + VOXEL g.nx g.ny (wrapCell g.nx g.ny g.nz c f).x
              (wrapCell g.nx g.ny g.nz c f).y (wrapCell g.nx g.ny g.nz c f).z)
      (fun c h => h.1.inMesh) hw c hc.inMesh f' hf'
    simp only [LGrid.T]
    rw [this]
    simp only [hc, true_and]
  have fin : ∀ (w : List (ℤ × ℤ)),
      joinGrid ws g (portOf f) r =
        some { g with bc := store g.bc (portOf f) r, neighbor := stores g.neighbor w } →
      (∀ p, p ∈ w ↔ ∃ c : Cell, (c.Interior g.nx g.ny g.nz ∧ atWall g.nx g.ny g.nz c f) ∧
        p = (6 * VOXEL g.nx g.ny c.x c.y c.z + f,
            g.range r + VOXEL g.nx g.ny (wrapCell g.nx g.ny g.nz c f).x
              (wrapCell g.nx g.ny g.nz c f).y (wrapCell g.nx g.ny g.nz c f).z)) →
      ∃ g', joinGrid ws g (portOf f) r = some g' ∧ g.Same g' ∧ g'.bc = store g.bc (portOf f) r ∧
      ∀ c, c.Interior g.nx g.ny g.nz → ∀ f', 0 ≤ f' ∧ f' < 6 →
        g'.T c f' = if f' = f ∧ atWall g.nx g.ny g.nz c f then
            g.range r + VOXEL g.nx g.ny (wrapCell g.nx g.ny g.nz c f).x
              (wrapCell g.nx g.ny g.nz c f).y (wrapCell g.nx g.ny g.nz c f).z
          else g.T c f' :=
    fun w hj hw => ⟨_, hj, ⟨rfl, rfl, rfl, rfl, rfl, rfl⟩, rfl, main w _ hw⟩
  rcases face_cases hf with h | h | h | h | h | h <;> subst h
  · refine fin _ (by
      simp only [joinGrid, portOf, BOUNDARY, hrr, hrw, glueX, Int.toNat_natCast, ex.1, ex.2]
      norm_num; rfl) ?_
    rintro ⟨a, b⟩
    simp only [List.mem_flatMap, List.mem_map, mem_fromTo, Prod.mk.injEq]
    constructor
    · rintro ⟨z, hz, y, hy, e1, e2⟩
      exact ⟨⟨1, y, z⟩, ⟨⟨by simp, by simpa using hx, hy.1, hy.2, hz.1, hz.2⟩, by simp [atWall]⟩,
        by simpa using e1.symm, by simpa [wrapCell] using e2.symm⟩
    · rintro ⟨⟨cx, cy, cz⟩, ⟨hi, hwl⟩, e1, e2⟩
      simp [atWall] at hwl
      subst hwl
      obtain ⟨-, -, i3, i4, i5, i6⟩ := hi
      exact ⟨cz, ⟨i5, i6⟩, cy, ⟨i3, i4⟩, by simpa using e1.symm, by simpa [wrapCell] using e2.symm⟩
  · refine fin _ (by
      simp only [joinGrid, portOf, BOUNDARY, hrr, hrw, glueY, Int.toNat_natCast, ey.1, ey.2]
      norm_num; rfl) ?_
    rintro ⟨a, b⟩
    simp only [List.mem_flatMap, List.mem_map, mem_fromTo, Prod.mk.injEq]
    constructor
    · rintro ⟨x, hxx, z, hzz, e1, e2⟩
      exact ⟨⟨x, 1, z⟩, ⟨⟨hxx.1, hxx.2, by simp, by simpa using hy, hzz.1, hzz.2⟩,
        by simp [atWall]⟩, by simpa using e1.symm, by simpa [wrapCell] using e2.symm⟩
    · rintro ⟨⟨cx, cy, cz⟩, ⟨hi, hwl⟩, e1, e2⟩
      simp [atWall] at hwl
      subst hwl
      obtain ⟨i1, i2, -, -, i5, i6⟩ := hi
      exact ⟨cx, ⟨i1, i2⟩, cz, ⟨i5, i6⟩, by simpa using e1.symm, by simpa [wrapCell] using e2.symm⟩
  · refine fin _ (by
      simp only [joinGrid, portOf, BOUNDARY, hrr, hrw, glueZ, Int.toNat_natCast, ez.1, ez.2]
      norm_num; rfl) ?_
    rintro ⟨a, b⟩
    simp only [List.mem_flatMap, List.mem_map, mem_fromTo, Prod.mk.injEq]
    constructor
    · rintro ⟨y, hyy, x, hxx, e1, e2⟩
      exact ⟨⟨x, y, 1⟩, ⟨⟨hxx.1, hxx.2, hyy.1, hyy.2, by simp, by simpa using hz⟩,
        by simp [atWall]⟩, by simpa using e1.symm, by simpa [wrapCell] using e2.symm⟩
    · rintro ⟨⟨cx, cy, cz⟩, ⟨hi, hwl⟩, e1, e2⟩
      simp [atWall] at hwl
      subst hwl
      obtain ⟨i1, i2, i3, i4, -, -⟩ := hi
      exact ⟨cy, ⟨i3, i4⟩, cx, ⟨i1, i2⟩, by simpa using e1.symm, by simpa [wrapCell] using e2.symm⟩
  · refine fin _ (by
      simp only [joinGrid, portOf, BOUNDARY, hrr, hrw, glueX, Int.toNat_natCast, ex.1, ex.2]
      norm_num; rfl) ?_
    rintro ⟨a, b⟩
    simp only [List.mem_flatMap, List.mem_map, mem_fromTo, Prod.mk.injEq]
    constructor
    · rintro ⟨z, hz, y, hy, e1, e2⟩
      exact ⟨⟨g.nx, y, z⟩, ⟨⟨hx, le_rfl, hy.1, hy.2, hz.1, hz.2⟩, by simp [atWall]⟩,
        by simpa using e1.symm, by simpa [wrapCell] using e2.symm⟩
    · rintro ⟨⟨cx, cy, cz⟩, ⟨hi, hwl⟩, e1, e2⟩
      simp [atWall] at hwl
      subst hwl
      obtain ⟨-, -, i3, i4, i5, i6⟩ := hi
      exact ⟨cz, ⟨i5, i6⟩, cy, ⟨i3, i4⟩, by simpa using e1.symm, by simpa [wrapCell] using e2.symm⟩
  · refine fin _ (by
      simp only [joinGrid, portOf, BOUNDARY, hrr, hrw, glueY, Int.toNat_natCast, ey.1, ey.2]
      norm_num; rfl) ?_
    rintro ⟨a, b⟩
    simp only [List.mem_flatMap, List.mem_map, mem_fromTo, Prod.mk.injEq]
    constructor
    · rintro ⟨x, hxx, z, hzz, e1, e2⟩
      exact ⟨⟨x, g.ny, z⟩, ⟨⟨hxx.1, hxx.2, hy, le_rfl, hzz.1, hzz.2⟩,
        by simp [atWall]⟩, by simpa using e1.symm, by simpa [wrapCell] using e2.symm⟩
    · rintro ⟨⟨cx, cy, cz⟩, ⟨hi, hwl⟩, e1, e2⟩
      simp [atWall] at hwl
      subst hwl
      obtain ⟨i1, i2, -, -, i5, i6⟩ := hi
      exact ⟨cx, ⟨i1, i2⟩, cz, ⟨i5, i6⟩, by simpa using e1.symm, by simpa [wrapCell] using e2.symm⟩
  · refine fin _ (by
      simp only [joinGrid, portOf, BOUNDARY, hrr, hrw, glueZ, Int.toNat_natCast, ez.1, ez.2]
      norm_num; rfl) ?_
    rintro ⟨a, b⟩
    simp only [List.mem_flatMap, List.mem_map, mem_fromTo, Prod.mk.injEq]
    constructor
    · rintro ⟨y, hyy, x, hxx, e1, e2⟩
      exact ⟨⟨x, y, g.nz⟩, ⟨⟨hxx.1, hxx.2, hyy.1, hyy.2, hz, le_rfl⟩,
        by simp [atWall]⟩, by simpa using e1.symm, by simpa [wrapCell] using e2.symm⟩
    · rintro ⟨⟨cx, cy, cz⟩, ⟨hi, hwl⟩, e1, e2⟩
      simp [atWall] at hwl
      subst hwl
      obtain ⟨i1, i2, i3, i4, -, -⟩ := hi
      exact ⟨cy, ⟨i3, i4⟩, cx, ⟨i1, i2⟩, by simpa using e1.symm, by simpa [wrapCell] using e2.symm⟩

lemma setPbc_face (g : LGrid) (pbc : ℤ) (hp : pbc < 0) (f : ℤ) (hf : 0 ≤ f ∧ f < 6)
    (hx : 1 ≤ g.nx) (hy : 1 ≤ g.ny) (hz : 1 ≤ g.nz) :
    ∃ g', setPbc g (portOf f) pbc = some g' ∧ g.Same g' ∧ g'.bc = g.bc ∧
      ∀ c, c.Interior g.nx g.ny g.nz → ∀ f', 0 ≤ f' ∧ f' < 6 →
        g'.T c f' = if f' = f ∧ atWall g.nx g.ny g.nz c f then pbc else g.T c f' := by
  have hpp : ¬ (pbc ≥ 0) := by omega
  have main : ∀ (w : List (ℤ × ℤ)),
      (∀ p, p ∈ w ↔ ∃ c : Cell, (c.Interior g.nx g.ny g.nz ∧ atWall g.nx g.ny g.nz c f) ∧
        p = (6 * VOXEL g.nx g.ny c.x c.y c.z + f, pbc)) →
      ∀ c, c.Interior g.nx g.ny g.nz → ∀ f', 0 ≤ f' ∧ f' < 6 →
        ({ g with neighbor := stores g.neighbor w } : LGrid).T c f' =
          if f' = f ∧ atWall g.nx g.ny g.nz c f then pbc else g.T c f' := by
    intro w hw c hc f' hf'
    classical
    have := plane_stores g.nx g.ny g.nz g.neighbor w f hf
      (fun c => c.Interior g.nx g.ny g.nz ∧ atWall g.nx g.ny g.nz c f)
      (fun _ => pbc)
      (fun c h => h.1.inMesh) hw c hc.inMesh f' hf'
    simp only [LGrid.T]
    rw [this]
    simp only [hc, true_and]
  have fin : ∀ (w : List (ℤ × ℤ)),
      setPbc g (portOf f) pbc = some { g with neighbor := stores g.neighbor w } →
      (∀ p, p ∈ w ↔ ∃ c : Cell, (c.Interior g.nx g.ny g.nz ∧ atWall g.nx g.ny g.nz c f) ∧
        p = (6 * VOXEL g.nx g.ny c.x c.y c.z + f, pbc)) →
      ∃ g', setPbc g (portOf f) pbc = some g' ∧ g.Same g' ∧ g'.bc = g.bc ∧
      ∀ c, c.Interior g.nx g.ny g.nz → ∀ f', 0 ≤ f' ∧ f' < 6 →
        g'.T c f' = if f' = f ∧ atWall g.nx g.ny g.nz c f then pbc else g.T c f' :=
    fun w hj hw => ⟨_, hj, ⟨rfl, rfl, rfl, rfl, rfl, rfl⟩, rfl, main w hw⟩
  rcases face_cases hf with h | h | h | h | h | h <;> subst h
  all_goals
    refine fin _ (by
      simp only [setPbc, portOf, BOUNDARY, hpp]
      norm_num; rfl) ?_
    rintro ⟨a, b⟩
    simp only [List.mem_flatMap, List.mem_map, mem_fromTo, Prod.mk.injEq]
    constructor
  · rintro ⟨z, hz, y, hy, e1, e2⟩
    exact ⟨⟨1, y, z⟩, ⟨⟨le_rfl, hx, hy.1, hy.2, hz.1, hz.2⟩, by simp [atWall]⟩,
      by simpa using e1.symm, e2.symm⟩
  · rintro ⟨⟨cx, cy, cz⟩, ⟨⟨i1, i2, i3, i4, i5, i6⟩, hwl⟩, e1, e2⟩
    simp [atWall] at hwl
    subst hwl
    exact ⟨cz, ⟨i5, i6⟩, cy, ⟨i3, i4⟩, by simpa using e1.symm, e2.symm⟩
  · rintro ⟨x, hxx, z, hzz, e1, e2⟩
    exact ⟨⟨x, 1, z⟩, ⟨⟨hxx.1, hxx.2, le_rfl, hy, hzz.1, hzz.2⟩, by simp [atWall]⟩,
      by simpa using e1.symm, e2.symm⟩
  · rintro ⟨⟨cx, cy, cz⟩, ⟨⟨i1, i2, i3, i4, i5, i6⟩, hwl⟩, e1, e2⟩
    simp [atWall] at hwl
    subst hwl
    exact ⟨cx, ⟨i1, i2⟩, cz, ⟨i5, i6⟩, by simpa using e1.symm, e2.symm⟩
  · rintro ⟨y, hyy, x, hxx, e1, e2⟩
    exact ⟨⟨x, y, 1⟩, ⟨⟨hxx.1, hxx.2, hyy.1, hyy.2, le_rfl, hz⟩, by simp [atWall]⟩,
      by simpa using e1.symm, e2.symm⟩
  · rintro ⟨⟨cx, cy, cz⟩, ⟨⟨i1, i2, i3, i4, i5, i6⟩, hwl⟩, e1, e2⟩
    simp [atWall] at hwl
    subst hwl
    exact ⟨cy, ⟨i3, i4⟩, cx, ⟨i1, i2⟩, by simpa using e1.symm, e2.symm⟩
  · rintro ⟨z, hz, y, hy, e1, e2⟩
    exact ⟨⟨g.nx, y, z⟩, ⟨⟨hx, le_rfl, hy.1, hy.2, hz.1, hz.2⟩, by simp [atWall]⟩,
      by simpa using e1.symm, e2.symm⟩
  · rintro ⟨⟨cx, cy, cz⟩, ⟨⟨i1, i2, i3, i4, i5, i6⟩, hwl⟩, e1, e2⟩
    simp [atWall] at hwl
    subst hwl
    exact ⟨cz, ⟨i5, i6⟩, cy, ⟨i3, i4⟩, by simpa using e1.symm, e2.symm⟩
  · rintro ⟨x, hxx, z, hzz, e1, e2⟩
    exact ⟨⟨x, g.ny, z⟩, ⟨⟨hxx.1, hxx.2, hy, le_rfl, hzz.1, hzz.2⟩, by simp [atWall]⟩,
      by simpa using e1.symm, e2.symm⟩
  · rintro ⟨⟨cx, cy, cz⟩, ⟨⟨i1, i2, i3, i4, i5, i6⟩, hwl⟩, e1, e2⟩
    simp [atWall] at hwl
    subst hwl
    exact ⟨cx, ⟨i1, i2⟩, cz, ⟨i5, i6⟩, by simpa using e1.symm, e2.symm⟩
  · rintro ⟨y, hyy, x, hxx, e1, e2⟩
    exact ⟨⟨x, y, g.nz⟩, ⟨⟨hxx.1, hxx.2, hyy.1, hyy.2, hz, le_rfl⟩, by simp [atWall]⟩,
      by simpa using e1.symm, e2.symm⟩
  · rintro ⟨⟨cx, cy, cz⟩, ⟨⟨i1, i2, i3, i4, i5, i6⟩, hwl⟩, e1, e2⟩
    simp [atWall] at hwl
    subst hwl
    exact ⟨cy, ⟨i3, i4⟩, cx, ⟨i1, i2⟩, by simpa using e1.symm, e2.symm⟩

/-! ## Rank arithmetic -/

lemma wrapDown_spec (gp i : ℤ) (h : 0 < gp) :
    wrapDown gp i < gp ∧ wrapDown gp i % gp = i % gp ∧ (0 ≤ i → 0 ≤ wrapDown gp i) := by
  induction i using wrapDown.induct (gp := gp) with
  | case1 i hi ih =>
    rw [wrapDown, dif_pos hi]
    refine ⟨ih.1, ?_, fun _ => ih.2.2 (by omega)⟩
    rw [ih.2.1]; exact Int.sub_emod_right i gp
  | case2 i hi =>
    rw [wrapDown, dif_neg hi]
    exact ⟨by omega, rfl, id⟩

lemma wrapUp_spec (gp i : ℤ) (h : 0 < gp) (hi' : i < gp) :
    0 ≤ wrapUp gp i ∧ wrapUp gp i < gp ∧ wrapUp gp i % gp = i % gp := by
  induction i using wrapUp.induct (gp := gp) with
  | case1 i hi ih =>
    rw [wrapUp, dif_pos hi]
    have := ih (by omega)
    refine ⟨this.1, this.2.1, ?_⟩
    rw [this.2.2]; exact Int.add_emod_right i gp
  | case2 i hi =>
    rw [wrapUp, dif_neg hi]
    exact ⟨by omega, hi', rfl⟩

/-- The two wrapping loops compute the mathematical remainder. -/
lemma wrap_eq_emod (gp i : ℤ) (h : 0 < gp) : wrapUp gp (wrapDown gp i) = i % gp := by
  obtain ⟨a, b, -⟩ := wrapDown_spec gp i h
  obtain ⟨c, d, e⟩ := wrapUp_spec gp (wrapDown gp i) h a
  rw [← b, ← e, Int.emod_eq_of_lt c d]

lemma rangeOf_const (nv : ℤ) (nvs : ℕ → ℤ) (h : ∀ i, nvs i = nv) (i : ℕ) :
    rangeOf nvs i = i * nv := by
  induction i with
  | zero => simp [rangeOf]
  | succ i ih => rw [rangeOf, ih, h]; push_cast; ring

end Verif.Grid
