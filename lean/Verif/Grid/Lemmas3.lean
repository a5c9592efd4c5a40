import Verif.Grid.Lemmas2

namespace Verif.Grid

/-- The decomposition passes the argument checks (mathematical form). -/
structure Decomp.Valid (D : Decomp) (ws : ℕ) : Prop where
  px : 1 ≤ D.gpx
  py : 1 ≤ D.gpy
  pz : 1 ≤ D.gpz
  ws : D.gpx * D.gpy * D.gpz = ws
  nx : 1 ≤ D.gnx
  ny : 1 ≤ D.gny
  nz : 1 ≤ D.gnz
  dx : D.gpx ∣ D.gnx
  dy : D.gpy ∣ D.gny
  dz : D.gpz ∣ D.gnz

lemma Decomp.ok_iff (D : Decomp) (ws : ℕ) : D.ok ws = true ↔ D.Valid ws := by
  simp only [Decomp.ok, Bool.and_eq_true, Bool.not_eq_true', Bool.or_eq_false_iff,
    decide_eq_false_iff_not, not_lt, not_not]
  constructor
  · rintro ⟨⟨⟨⟨a, b⟩, c⟩, d⟩, ⟨⟨⟨⟨e, f⟩, g⟩, h⟩, i⟩, j⟩
    exact ⟨a, b, c, d, e, f, g, Int.dvd_of_emod_eq_zero h, Int.dvd_of_emod_eq_zero i,
      Int.dvd_of_emod_eq_zero j⟩
  · rintro ⟨a, b, c, d, e, f, g, h, i, j⟩
    exact ⟨⟨⟨⟨a, b⟩, c⟩, d⟩, ⟨⟨⟨⟨e, f⟩, g⟩, Int.emod_eq_zero_of_dvd h⟩, Int.emod_eq_zero_of_dvd i⟩,
      Int.emod_eq_zero_of_dvd j⟩

/-- Local resolutions. -/
def Decomp.lx (D : Decomp) : ℤ := D.gnx / D.gpx
@[inherit_doc Decomp.lx] def Decomp.ly (D : Decomp) : ℤ := D.gny / D.gpy
@[inherit_doc Decomp.lx] def Decomp.lz (D : Decomp) : ℤ := D.gnz / D.gpz

lemma one_le_div {a b : ℤ} (ha : 1 ≤ a) (hb : 1 ≤ b) (h : b ∣ a) : 1 ≤ a / b := by
  obtain ⟨k, rfl⟩ := h
  rw [Int.mul_ediv_cancel_left _ (by omega)]
  by_contra hk
  have : b * k ≤ 0 := mul_nonpos_of_nonneg_of_nonpos (by omega) (by omega)
  omega

lemma Decomp.Valid.lx_pos {D : Decomp} {ws : ℕ} (h : D.Valid ws) : 1 ≤ D.lx :=
  one_le_div h.nx h.px h.dx
lemma Decomp.Valid.ly_pos {D : Decomp} {ws : ℕ} (h : D.Valid ws) : 1 ≤ D.ly :=
  one_le_div h.ny h.py h.dy
lemma Decomp.Valid.lz_pos {D : Decomp} {ws : ℕ} (h : D.Valid ws) : 1 ≤ D.lz :=
  one_le_div h.nz h.pz h.dz
lemma Decomp.Valid.gx {D : Decomp} {ws : ℕ} (h : D.Valid ws) : D.gnx = D.gpx * D.lx :=
  (Int.mul_ediv_cancel' h.dx).symm
lemma Decomp.Valid.gy {D : Decomp} {ws : ℕ} (h : D.Valid ws) : D.gny = D.gpy * D.ly :=
  (Int.mul_ediv_cancel' h.dy).symm
lemma Decomp.Valid.gz {D : Decomp} {ws : ℕ} (h : D.Valid ws) : D.gnz = D.gpz * D.lz :=
  (Int.mul_ediv_cancel' h.dz).symm

/-- Domain coordinates of a rank. -/
def Decomp.cx (D : Decomp) (r : ℤ) : ℤ := r % D.gpx
@[inherit_doc Decomp.cx] def Decomp.cy (D : Decomp) (r : ℤ) : ℤ := r / D.gpx % D.gpy
@[inherit_doc Decomp.cx] def Decomp.cz (D : Decomp) (r : ℤ) : ℤ := r / D.gpx / D.gpy

lemma rankToIndex_eq (D : Decomp) (r : ℤ) :
    rankToIndex D.gpx D.gpy r = (D.cx r, D.cy r, D.cz r) := by
  have h1 := Int.mul_ediv_add_emod r D.gpx
  have h2 := Int.mul_ediv_add_emod (r / D.gpx) D.gpy
  rw [mul_comm] at h1 h2
  simp only [rankToIndex, Decomp.cx, Decomp.cy, Decomp.cz, Prod.mk.injEq]
  refine ⟨by omega, by omega, trivial⟩

lemma coord_bounds {D : Decomp} {ws : ℕ} (h : D.Valid ws) (r : ℕ) (hr : r < ws) :
    0 ≤ D.cx r ∧ D.cx r < D.gpx ∧ 0 ≤ D.cy r ∧ D.cy r < D.gpy ∧ 0 ≤ D.cz r ∧ D.cz r < D.gpz := by
  have hpx : 0 < D.gpx := by have := h.px; omega
  have hpy : 0 < D.gpy := by have := h.py; omega
  refine ⟨Int.emod_nonneg _ hpx.ne', Int.emod_lt_of_pos _ hpx, Int.emod_nonneg _ hpy.ne',
    Int.emod_lt_of_pos _ hpy, ?_, ?_⟩
  · exact Int.ediv_nonneg (Int.ediv_nonneg (by positivity) hpx.le) hpy.le
  · unfold Decomp.cz
    rw [Int.ediv_lt_iff_lt_mul hpy, Int.ediv_lt_iff_lt_mul hpx]
    have : (r : ℤ) < ws := by exact_mod_cast hr
    rw [← h.ws] at this
    calc (r : ℤ) < _ := this
      _ = _ := by ring

lemma indexToRank_eq {D : Decomp} {ws : ℕ} (h : D.Valid ws) (ix iy iz : ℤ) :
    indexToRank D.gpx D.gpy D.gpz ix iy iz =
      ix % D.gpx + D.gpx * (iy % D.gpy + D.gpy * (iz % D.gpz)) := by
  have hpx : 0 < D.gpx := by have := h.px; omega
  have hpy : 0 < D.gpy := by have := h.py; omega
  have hpz : 0 < D.gpz := by have := h.pz; omega
  simp only [indexToRank, wrap_eq_emod _ _ hpx, wrap_eq_emod _ _ hpy, wrap_eq_emod _ _ hpz]

/-- The wrapped rank exists and has the wrapped coordinates. -/
lemma indexToRank_spec {D : Decomp} {ws : ℕ} (h : D.Valid ws) (ix iy iz : ℤ) :
    ∃ r : ℕ, r < ws ∧ indexToRank D.gpx D.gpy D.gpz ix iy iz = r ∧
      D.cx r = ix % D.gpx ∧ D.cy r = iy % D.gpy ∧ D.cz r = iz % D.gpz := by
  have hpx : 0 < D.gpx := by have := h.px; omega
  have hpy : 0 < D.gpy := by have := h.py; omega
  have hpz : 0 < D.gpz := by have := h.pz; omega
  have x0 := Int.emod_nonneg ix hpx.ne'
  have x1 := Int.emod_lt_of_pos ix hpx
  have y0 := Int.emod_nonneg iy hpy.ne'
  have y1 := Int.emod_lt_of_pos iy hpy
  have z0 := Int.emod_nonneg iz hpz.ne'
  have z1 := Int.emod_lt_of_pos iz hpz
  rw [indexToRank_eq h]
  set a := ix % D.gpx
  set b := iy % D.gpy
  set c := iz % D.gpz
  have hnn : 0 ≤ a + D.gpx * (b + D.gpy * c) := by positivity
  have hlt : a + D.gpx * (b + D.gpy * c) < ws := by
    rw [← h.ws]
    have s1 : b + D.gpy * c + 1 ≤ D.gpy * D.gpz := by nlinarith
    have s2 : D.gpx * (b + D.gpy * c + 1) ≤ D.gpx * (D.gpy * D.gpz) :=
      mul_le_mul_of_nonneg_left s1 hpx.le
    nlinarith
  refine ⟨(a + D.gpx * (b + D.gpy * c)).toNat, by omega, by omega, ?_, ?_, ?_⟩
  · rw [Int.toNat_of_nonneg hnn, Decomp.cx, Int.add_mul_emod_self_left, Int.emod_eq_of_lt x0 x1]
  · rw [Int.toNat_of_nonneg hnn, Decomp.cy, Int.add_mul_ediv_left _ _ hpx.ne',
      Int.ediv_eq_zero_of_lt x0 x1, zero_add, Int.add_mul_emod_self_left, Int.emod_eq_of_lt y0 y1]
  · rw [Int.toNat_of_nonneg hnn, Decomp.cz, Int.add_mul_ediv_left _ _ hpx.ne',
      Int.ediv_eq_zero_of_lt x0 x1, zero_add, Int.add_mul_ediv_left _ _ hpy.ne',
      Int.ediv_eq_zero_of_lt y0 y1, zero_add]

/-- Ranks are determined by their coordinates. -/
lemma rank_ext {D : Decomp} {ws : ℕ} (_h : D.Valid ws) {r s : ℤ} (hx : D.cx r = D.cx s)
    (hy : D.cy r = D.cy s) (hz : D.cz r = D.cz s) : r = s := by
  unfold Decomp.cx at hx
  unfold Decomp.cy at hy
  unfold Decomp.cz at hz
  have h1 := Int.mul_ediv_add_emod r D.gpx
  have h2 := Int.mul_ediv_add_emod s D.gpx
  have h3 := Int.mul_ediv_add_emod (r / D.gpx) D.gpy
  have h4 := Int.mul_ediv_add_emod (s / D.gpx) D.gpy
  rw [hz, hy, h4] at h3
  rw [← h3, hx, h2] at h1
  exact h1.symm

/-- Shift of the domain coordinates through face `f`. -/
def fdx (f : ℤ) : ℤ := if f = 0 then -1 else if f = 3 then 1 else 0
@[inherit_doc fdx] def fdy (f : ℤ) : ℤ := if f = 1 then -1 else if f = 4 then 1 else 0
@[inherit_doc fdx] def fdz (f : ℤ) : ℤ := if f = 2 then -1 else if f = 5 then 1 else 0

/-- The rank joined through face `f`. -/
def Decomp.nbrRank (D : Decomp) (r : ℤ) (f : ℤ) : ℤ :=
  indexToRank D.gpx D.gpy D.gpz (D.cx r + fdx f) (D.cy r + fdy f) (D.cz r + fdz f)

lemma LGrid.Same.trans {a b c : LGrid} (h : a.Same b) (h' : b.Same c) : a.Same c := by
  obtain ⟨h1, h2, h3, h4, h5, h6⟩ := h
  obtain ⟨k1, k2, k3, k4, k5, k6⟩ := h'
  exact ⟨k1.trans h1, k2.trans h2, k3.trans h3, k4.trans h4, k5.trans h5, k6.trans h6⟩

/-- Result of `partition_periodic_box`. -/
lemma partitionPeriodic_T {D : Decomp} {ws : ℕ} (h : D.Valid ws) (nvs : ℕ → ℤ)
    (hnv : ∀ i, nvs i = (D.lx + 2) * (D.ly + 2) * (D.lz + 2)) (t0 : ℤ → ℤ) (r : ℕ) (_hr : r < ws) :
    ∃ g, partitionPeriodic ws nvs t0 D r = some g ∧
      g.nx = D.lx ∧ g.ny = D.ly ∧ g.nz = D.lz ∧
      g.range = (fun i => rangeOf nvs i.toNat) ∧ g.rangel = rangeOf nvs r ∧
      g.rangeh = rangeOf nvs (r + 1) - 1 ∧
      (∀ f, 0 ≤ f ∧ f < 6 → g.bc (portOf f) = D.nbrRank r f) ∧
      (∀ p, (∀ f, 0 ≤ f ∧ f < 6 → p ≠ portOf f) →
        g.bc p = if p = BOUNDARY 0 0 0 then (r : ℤ) else -1) ∧
      ∀ c, c.Interior D.lx D.ly D.lz → ∀ f, 0 ≤ f ∧ f < 6 →
        g.T c f = if atWall D.lx D.ly D.lz c f then
            rangeOf nvs (D.nbrRank r f).toNat + VOXEL D.lx D.ly (wrapCell D.lx D.ly D.lz c f).x
              (wrapCell D.lx D.ly D.lz c f).y (wrapCell D.lx D.ly D.lz c f).z
          else rangeOf nvs r +
            VOXEL D.lx D.ly (stepCell c f).x (stepCell c f).y (stepCell c f).z := by
  have hlx := h.lx_pos
  have hly := h.ly_pos
  have hlz := h.lz_pos
  have hsz : ∃ g0, sizeGrid nvs r t0 D.lx D.ly D.lz = some g0 := by
    unfold sizeGrid
    rw [if_neg (by omega)]
    exact ⟨_, rfl⟩
  obtain ⟨g0, e0⟩ := hsz
  obtain ⟨n1, n2, n3, n4, n5, n6, n7, nT⟩ := sizeGrid_T e0
  -- the six joins
  have nr : ∀ f, 0 ≤ f ∧ f < 6 → ∃ s : ℕ, s < ws ∧ D.nbrRank r f = s := by
    intro f _
    obtain ⟨s, hs, e, -⟩ := indexToRank_spec h (D.cx r + fdx f) (D.cy r + fdy f) (D.cz r + fdz f)
    exact ⟨s, hs, e⟩
  have step : ∀ (g : LGrid), g0.Same g → ∀ f, 0 ≤ f ∧ f < 6 →
      ∃ g', joinGrid ws g (portOf f) (D.nbrRank r f) = some g' ∧ g0.Same g' ∧
        g'.bc = store g.bc (portOf f) (D.nbrRank r f) ∧
        ∀ c, c.Interior D.lx D.ly D.lz → ∀ f', 0 ≤ f' ∧ f' < 6 →
        g'.T c f' = if f' = f ∧ atWall D.lx D.ly D.lz c f then
            rangeOf nvs (D.nbrRank r f).toNat + VOXEL D.lx D.ly (wrapCell D.lx D.ly D.lz c f).x
              (wrapCell D.lx D.ly D.lz c f).y (wrapCell D.lx D.ly D.lz c f).z
          else g.T c f' := by
    intro g hg f hf
    obtain ⟨s, hs, es⟩ := nr f hf
    obtain ⟨m1, m2, m3, m4, m5, m6⟩ := hg
    rw [n1] at m1; rw [n2] at m2; rw [n3] at m3; rw [n6] at m4
    have hsz : g.range (s + 1) - g.range s = (g.nx + 2) * (g.ny + 2) * (g.nz + 2) := by
      rw [m1, m2, m3, m4]
      have : ((s : ℤ) + 1).toNat = s + 1 := by omega
      simp only [this, Int.toNat_natCast, rangeOf, hnv]
      ring
    obtain ⟨g', j1, j2, j3, j4⟩ := joinGrid_face ws g s hs f hf (by omega) (by omega) (by omega) hsz
    rw [es]
    refine ⟨g', j1, LGrid.Same.trans ⟨m1.trans n1.symm, m2.trans n2.symm, m3.trans n3.symm,
      m4.trans n6.symm, m5, m6⟩ j2, j3, ?_⟩
    rw [m1, m2, m3, m4] at j4
    simpa using j4
  have same0 : g0.Same g0 := ⟨rfl, rfl, rfl, rfl, rfl, rfl⟩
  obtain ⟨g1, a1, s1, b1, T1⟩ := step g0 same0 0 (by omega)
  obtain ⟨g2, a2, s2, b2, T2⟩ := step g1 s1 1 (by omega)
  obtain ⟨g3, a3, s3, b3, T3⟩ := step g2 s2 2 (by omega)
  obtain ⟨g4, a4, s4, b4, T4⟩ := step g3 s3 3 (by omega)
  obtain ⟨g5, a5, s5, b5, T5⟩ := step g4 s4 4 (by omega)
  obtain ⟨g6, a6, s6, b6, T6⟩ := step g5 s5 5 (by omega)
  have hok := (D.ok_iff ws).mpr h
  refine ⟨g6, ?_, s6.1.trans n1, s6.2.1.trans n2, s6.2.2.1.trans n3, s6.2.2.2.1.trans n6,
    s6.2.2.2.2.1.trans n4, s6.2.2.2.2.2.trans n5, ?_, ?_, ?_⟩
  · unfold partitionPeriodic
    rw [if_pos hok, rankToIndex_eq]
    have p0 : portOf 0 = BOUNDARY (-1) 0 0 := rfl
    have p1 : portOf 1 = BOUNDARY 0 (-1) 0 := rfl
    have p2 : portOf 2 = BOUNDARY 0 0 (-1) := rfl
    have p3 : portOf 3 = BOUNDARY 1 0 0 := rfl
    have p4 : portOf 4 = BOUNDARY 0 1 0 := rfl
    have p5 : portOf 5 = BOUNDARY 0 0 1 := rfl
    simp only [Decomp.nbrRank, fdx, fdy, fdz, p0, p1, p2, p3, p4, p5] at a1 a2 a3 a4 a5 a6
    norm_num at a1 a2 a3 a4 a5 a6
    simp only [← sub_eq_add_neg] at a1 a2 a3 a4 a5 a6
    have e0' : sizeGrid nvs r t0 (D.gnx / D.gpx) (D.gny / D.gpy) (D.gnz / D.gpz) = some g0 := e0
    simp only [e0', Option.bind_eq_bind, Option.bind_some, a1, a2, a3, a4, a5, a6]
  · intro f hf
    rw [b6, b5, b4, b3, b2, b1]
    rcases face_cases hf with h | h | h | h | h | h <;> subst h <;> simp [store, portOf, BOUNDARY]
  · intro p hp
    have q0 := hp 0 (by omega); have q1 := hp 1 (by omega); have q2 := hp 2 (by omega)
    have q3 := hp 3 (by omega); have q4 := hp 4 (by omega); have q5 := hp 5 (by omega)
    rw [b6, b5, b4, b3, b2, b1]
    simp only [store, q0, q1, q2, q3, q4, q5, if_false, n7]
  · intro c hc f hf
    rw [T6 c hc f hf, T5 c hc f hf, T4 c hc f hf, T3 c hc f hf, T2 c hc f hf, T1 c hc f hf,
      nT c hc f hf]
    rcases face_cases hf with h | h | h | h | h | h <;> subst h <;> norm_num <;>
      split <;> rfl

end Verif.Grid
