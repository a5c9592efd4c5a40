import Verif.Charge.Accum
import Verif.Boundary.Conserve
import Verif.Field.SyncCart

/-!
# The nodes of a periodic box

Weights that are one on all copies of one node of the global mesh.
-/
namespace Verif.Charge

open Grid Deposit SfInterface MoveP
open Boundary (Env)
open Field (Pos coordOf ranksOf)

section
variable {K : Type} {S : Type*} [Field K] [LinearOrder K] [IsStrictOrderedRing K]

/-- Spec: cells along each axis on each rank. -/
def cellsOf (D : Decomp) : Pos := ![D.lx, D.ly, D.lz]

/-- Spec: place in the periodic global mesh of position `c` of rank `r`. -/
def siteAt (D : Decomp) {n : ℕ} (r : Fin n) (c : Pos) (a : Fin 3) : ℤ :=
  (coordOf D r a * cellsOf D a + (c a - 1)) % (ranksOf D a * cellsOf D a)

/-- The position of a node. -/
def posOf (g : LGrid) (v : ℤ) : Pos := ![(nodeCoord g v).1, (nodeCoord g v).2.1, (nodeCoord g v).2.2]

open Classical in
/-- Spec: one on the copies of the node at place `X`, zero on all other nodes. -/
noncomputable def onSite (K : Type) [Field K] (D : Decomp) {n : ℕ} (X : Pos) (r : Fin n) (g : LGrid) (v : ℤ) : K :=
  if ∀ a, siteAt D r (posOf g v) a = X a then 1 else 0

/-- Spec: axes along which a rank is its own neighbour. -/
def selfJoined (D : Decomp) (a : Fin 3) : Bool := decide (ranksOf D a = 1)

lemma posOf_voxel {g : LGrid} (h : LocalMesh g) {x y z : ℤ} (hx : 0 ≤ x ∧ x ≤ g.nx + 1) (hy : 0 ≤ y ∧ y ≤ g.ny + 1) :
    posOf g (VOXEL g.nx g.ny x y z) = ![x, y, z] := by
  unfold posOf
  rw [nodeCoord_voxel g h.nx h.ny hx hy]

lemma ring_up {u P l : ℤ} (h0 : 0 ≤ u) (h1 : u < P) (hl : 1 ≤ l) (e : u * l + (1 - 1) = (u * l + (l - 1) + 1) % (P * l)) :
    P = 1 := by
  by_cases hu : u + 1 = P
  · have e2 : u * l + (l - 1) + 1 = P * l := by rw [← hu]; ring
    rw [e2, Int.emod_self] at e
    have : u * l = 0 := by linarith
    rcases mul_eq_zero.mp this with h | h <;> omega
  · have h2 : u + 2 ≤ P := by omega
    have h3 := mul_le_mul_of_nonneg_right h2 (by omega : 0 ≤ l)
    have h4 : 0 ≤ u * l := mul_nonneg h0 (by omega)
    rw [add_mul] at h3
    rw [Int.emod_eq_of_lt (by omega) (by omega)] at e
    omega

lemma ring_down {u P l : ℤ} (h0 : 0 ≤ u) (h1 : u < P) (hl : 1 ≤ l)
    (e : u * l + (l - 1) = (u * l + (1 - 1) + -1) % (P * l)) : P = 1 := by
  by_cases hu : u = 0
  · subst hu
    have h3 := mul_le_mul_of_nonneg_right (by omega : 1 ≤ P) (by omega : 0 ≤ l)
    have e2 : (0 * l + (1 - 1) + -1) % (P * l) = P * l - 1 := by
      rw [← Int.add_emod_right, Int.emod_eq_of_lt (by omega) (by omega)]
      ring
    rw [e2] at e
    by_contra hP
    have h4 := mul_le_mul_of_nonneg_right (by omega : 2 ≤ P) (by omega : 0 ≤ l)
    omega
  · have h3 := mul_le_mul_of_nonneg_right (by omega : u + 1 ≤ P) (by omega : 0 ≤ l)
    have h4 := mul_le_mul_of_nonneg_right (by omega : 1 ≤ u) (by omega : 0 ≤ l)
    rw [add_mul] at h3
    rw [Int.emod_eq_of_lt (by omega) (by omega)] at e
    omega

lemma coord_range {D : Decomp} {n : ℕ} (hD : D.ok n = true) (r : Fin n) (a : Fin 3) :
    0 ≤ coordOf D r a ∧ coordOf D r a < ranksOf D a := by
  obtain ⟨p1, p2, p3, p4, p5, p6⟩ := coord_bounds ((D.ok_iff n).mp hD) r r.2
  fin_cases a
  · exact ⟨p1, p2⟩
  · exact ⟨p3, p4⟩
  · exact ⟨p5, p6⟩

lemma cells_pos {D : Decomp} {n : ℕ} (hD : D.ok n = true) (a : Fin 3) : 1 ≤ cellsOf D a := by
  have h := (D.ok_iff n).mp hD
  fin_cases a
  · exact h.lx_pos
  · exact h.ly_pos
  · exact h.lz_pos

section
variable {D : Decomp} {n : ℕ} (hD : D.ok n = true) (t0 : ℕ → ℤ → ℤ) {G : Fin n → LGrid}
  (hg : ∀ r : Fin n, gridOf D n t0 r = some (G r))
include hD hg

lemma grid_size (r : Fin n) : (G r).nx = D.lx ∧ (G r).ny = D.ly ∧ (G r).nz = D.lz := by
  have hok := (D.ok_iff n).mp hD
  obtain ⟨g1, e, k1, k2, k3, -⟩ := partitionPeriodic_T hok (fun _ => localNv D) (fun _ => rfl) (t0 r) r r.2
  have : g1 = G r := by
    have := hg r
    rw [gridOf, e] at this
    exact Option.some.inj this
  subst this
  exact ⟨k1, k2, k3⟩

lemma grid_mesh (r : Fin n) : LocalMesh (G r) := periodic_localMesh D n hD t0 r r.2 _ (hg r)

lemma grid_nv (r : Fin n) : nvox (G r) = localNv D := by
  obtain ⟨a, b, c⟩ := grid_size hD t0 hg r
  unfold nvox localNv
  rw [a, b, c]
  unfold Decomp.lx Decomp.ly Decomp.lz
  ring

lemma grid_next (r : Fin n) : (G r).rangel = (r : ℕ) * localNv D ∧ (G r).rangeh = ((r : ℕ) + 1) * localNv D - 1 ∧
    ∀ c, IsInterior D c → ∀ f : Fin 6, ∃ r' c', r' < n ∧ IsInterior D c' ∧ nbr (G r) c f = cellId D r' c' ∧
      globalPos D r' c' = periodicShift D (globalPos D r c) (faceDir f) := by
  obtain ⟨g1, e1, hl, hh, hadj⟩ := neighbor_is_adjacent D n hD t0 r r.2
  have e := hg r
  rw [e1] at e
  obtain rfl := Option.some.inj e
  exact ⟨hl, hh, hadj⟩

lemma interior_iff (r : Fin n) (c : Cell) : c.Interior (G r).nx (G r).ny (G r).nz ↔ IsInterior D c := by
  obtain ⟨a, b, c⟩ := grid_size hD t0 hg r
  rw [a, b, c]
  rfl

/-- The cell behind a face. -/
lemma grid_adjacent (r s : Fin n) (c c' : Cell) (hc : IsInterior D c) (hc' : IsInterior D c') (f : Fin 6)
    (e : (G r).neighbor (6 * VOXEL (G r).nx (G r).ny c.x c.y c.z + (f : ℕ)) =
      (G s).rangel + VOXEL (G s).nx (G s).ny c'.x c'.y c'.z) :
    globalPos D s c' = periodicShift D (globalPos D r c) (faceDir f) := by
  obtain ⟨r', c2, hr', hc2, e1, e2⟩ := (grid_next hD t0 hg r).2.2 c hc f
  have vr : ∀ {d : Cell} (t : Fin n), IsInterior D d →
      0 ≤ VOXEL (G t).nx (G t).ny d.x d.y d.z ∧ VOXEL (G t).nx (G t).ny d.x d.y d.z < localNv D := by
    intro d t hd
    have := voxel_range (grid_mesh hD t0 hg t) (c := d) ((interior_iff hD t0 hg t d).mpr hd).inMesh
    rwa [grid_nv hD t0 hg t] at this
  have e3 : cellId D r' c2 = r' * localNv D + VOXEL (G s).nx (G s).ny c2.x c2.y c2.z := by
    obtain ⟨a, b, -⟩ := grid_size hD t0 hg s
    unfold cellId VOXEL
    rw [a, b]
    rfl
  have e4 : (r' : ℤ) * localNv D + VOXEL (G s).nx (G s).ny c2.x c2.y c2.z =
      (s : ℕ) * localNv D + VOXEL (G s).nx (G s).ny c'.x c'.y c'.z := by
    rw [← e3, ← e1, ← (grid_next hD t0 hg s).1]
    exact e
  have v1 := vr s hc2
  have v2 := vr s hc'
  have hrs : r' = (s : ℕ) := by
    have a1 : ((s : ℕ) : ℤ) < r' + 1 := by nlinarith
    have a2 : (r' : ℤ) < (s : ℕ) + 1 := by nlinarith
    omega
  subst hrs
  have e5 : VOXEL (G s).nx (G s).ny c2.x c2.y c2.z = VOXEL (G s).nx (G s).ny c'.x c'.y c'.z := by linarith
  have k1 := (interior_iff hD t0 hg s c2).mpr hc2
  have k2 := (interior_iff hD t0 hg s c').mpr hc'
  obtain ⟨b1, b2, b3, b4, b5, b6⟩ := k1
  obtain ⟨d1, d2, d3, d4, d5, d6⟩ := k2
  have e6 := congrArg (nodeCoord (G s)) e5
  rw [nodeCoord_voxel _ (grid_mesh hD t0 hg s).nx (grid_mesh hD t0 hg s).ny ⟨by omega, by omega⟩ ⟨by omega, by omega⟩,
    nodeCoord_voxel _ (grid_mesh hD t0 hg s).nx (grid_mesh hD t0 hg s).ny ⟨by omega, by omega⟩ ⟨by omega, by omega⟩] at e6
  simp only [Prod.mk.injEq] at e6
  have e7 : c2 = c' := by
    cases c2; cases c'
    simp_all
  rw [← e7]
  exact e2

lemma periodic_closed {W : Fin n → Env K S} (hW : ∀ r, (W r).g = G r) (hr : ∀ r, (W r).g.range n = n * localNv D) :
    Closed W := by
  intro r c hc f h0 h6
  obtain ⟨k, rfl⟩ := Boundary.face_fin h0 h6
  right
  rw [hr, hW]
  rw [hW] at hc
  obtain ⟨r', c2, hr', hc2, e1, -⟩ := (grid_next hD t0 hg r).2.2 c ((interior_iff hD t0 hg r c).mp hc) k
  have e : (G r).neighbor (6 * VOXEL (G r).nx (G r).ny c.x c.y c.z + ((k : ℕ) : ℤ)) = cellId D r' c2 := e1
  rw [e]
  have v := voxel_range (grid_mesh hD t0 hg r) (c := c2) ((interior_iff hD t0 hg r c2).mpr hc2).inMesh
  rw [grid_nv hD t0 hg r] at v
  obtain ⟨a, b, -⟩ := grid_size hD t0 hg r
  have e3 : cellId D r' c2 = r' * localNv D + VOXEL (G r).nx (G r).ny c2.x c2.y c2.z := by
    unfold cellId VOXEL
    rw [a, b]
    rfl
  rw [e3]
  have h1 : ((r' : ℤ) + 1) ≤ n := by omega
  have h2 : 0 ≤ (r' : ℤ) * localNv D := mul_nonneg (by omega) (by omega)
  have h3 := mul_le_mul_of_nonneg_right h1 (by omega : 0 ≤ localNv D)
  rw [add_mul, one_mul] at h3
  omega

/-- Sites behind a face. -/
lemma site_adjacent (r s : Fin n) (c c' : Cell) (hc : IsInterior D c) (hc' : IsInterior D c') (f : Fin 6)
    (e : (G r).neighbor (6 * VOXEL (G r).nx (G r).ny c.x c.y c.z + (f : ℕ)) =
      (G s).rangel + VOXEL (G s).nx (G s).ny c'.x c'.y c'.z) (a : Fin 3) :
    coordOf D s a * cellsOf D a + ((![c'.x, c'.y, c'.z] : Pos) a - 1) =
      (coordOf D r a * cellsOf D a + ((![c.x, c.y, c.z] : Pos) a - 1) +
        (![(faceDir f).1, (faceDir f).2.1, (faceDir f).2.2] : Pos) a) % (ranksOf D a * cellsOf D a) := by
  have h := (D.ok_iff n).mp hD
  have := grid_adjacent hD t0 hg r s c c' hc hc' f e
  unfold globalPos periodicShift at this
  simp only [Prod.mk.injEq] at this
  obtain ⟨h1, h2, h3⟩ := this
  have hX : D.gpx * (D.gnx / D.gpx) = D.gnx := (h.gx).symm
  have hY : D.gpy * (D.gny / D.gpy) = D.gny := (h.gy).symm
  have hZ : D.gpz * (D.gnz / D.gpz) = D.gnz := (h.gz).symm
  fin_cases a
  · simp only [coordOf, cellsOf, ranksOf, Decomp.cx, Decomp.lx, Fin.zero_eta, Matrix.cons_val_zero]
    rw [hX]; exact h1
  · simp only [coordOf, cellsOf, ranksOf, Decomp.cy, Decomp.ly, Fin.mk_one, Matrix.cons_val_one, Matrix.cons_val_zero]
    rw [hY]; exact h2
  · simp only [coordOf, cellsOf, ranksOf, Decomp.cz, Decomp.lz, Fin.reduceFinMk, Matrix.cons_val]
    rw [hZ]; exact h3

lemma periodic_joinedOn (r : Fin n) : JoinedOn (G r) (selfJoined D) := by
  intro c hc axis up hw h0 h1
  have h := (D.ok_iff n).mp hD
  have hm := grid_mesh hD t0 hg r
  obtain ⟨k, hk⟩ := Boundary.face_fin (f := faceOf axis up) (by unfold faceOf; split <;> omega)
    (by unfold faceOf; split <;> omega)
  have e := hm.adj c hc (faceOf axis up) (by rw [hk]; exact face_range k) h0 h1
  have hi := localNext_interior hm hc (f := faceOf axis up) (by rw [hk]; exact face_range k)
  rw [hk] at e
  have hs := site_adjacent hD t0 hg r r c (localNext (G r) c (k : ℕ)) ((interior_iff hD t0 hg r c).mp hc)
    ((interior_iff hD t0 hg r _).mp (hk ▸ hi)) k (by omega) axis
  obtain ⟨u1, u2⟩ := coord_range hD r axis
  have hl := cells_pos hD axis
  obtain ⟨s1, s2, s3⟩ := grid_size hD t0 hg r
  have key : (up = true → (![c.x, c.y, c.z] : Pos) axis = cellsOf D axis ∧
        (![(localNext (G r) c (k : ℕ)).x, (localNext (G r) c (k : ℕ)).y, (localNext (G r) c (k : ℕ)).z] : Pos) axis = 1 ∧
        (![(faceDir k).1, (faceDir k).2.1, (faceDir k).2.2] : Pos) axis = 1) ∧
      (up = false → (![c.x, c.y, c.z] : Pos) axis = 1 ∧
        (![(localNext (G r) c (k : ℕ)).x, (localNext (G r) c (k : ℕ)).y, (localNext (G r) c (k : ℕ)).z] : Pos) axis =
          cellsOf D axis ∧ (![(faceDir k).1, (faceDir k).2.1, (faceDir k).2.2] : Pos) axis = -1) := by
    rw [hk] at hw
    unfold localNext
    rw [if_pos hw, s1, s2, s3]
    rw [s1, s2, s3] at hw
    fin_cases axis <;> cases up <;> fin_cases k <;> simp [faceOf] at hk <;>
      simp [atWall] at hw <;> simp [wrapCell, faceDir, cellsOf, hw]
  unfold selfJoined
  rw [decide_eq_true_iff]
  cases up
  · obtain ⟨k1, k2, k3⟩ := key.2 rfl
    rw [k1, k2, k3] at hs
    exact ring_down u1 u2 hl hs
  · obtain ⟨k1, k2, k3⟩ := key.1 rfl
    rw [k1, k2, k3] at hs
    exact ring_up u1 u2 hl hs

/-- The weights of a site agree on copies of a node. -/
lemma onSite_compatible {W : Fin n → Env K S} (hW : ∀ r, (W r).g = G r) (X : Pos) :
    Compatible W (fun _ => selfJoined D) (fun r => onSite K D X r (G r)) := by
  constructor
  · intro r v v' e
    rw [hW] at e
    obtain ⟨s1, s2, s3⟩ := grid_size hD t0 hg r
    have key : ∀ a, siteAt D r (posOf (G r) v) a = siteAt D r (posOf (G r) v') a := by
      have step : ∀ (a : Fin 3) (p q : ℤ), (if selfJoined D a then (p - 1) % cellsOf D a else p) =
          (if selfJoined D a then (q - 1) % cellsOf D a else q) →
          (coordOf D r a * cellsOf D a + (p - 1)) % (ranksOf D a * cellsOf D a) =
            (coordOf D r a * cellsOf D a + (q - 1)) % (ranksOf D a * cellsOf D a) := by
        intro a p q e
        split_ifs at e with hj
        · unfold selfJoined at hj
          rw [decide_eq_true_iff] at hj
          rw [hj, one_mul, Int.add_emod, e, ← Int.add_emod]
        · rw [e]
      unfold nodeClass at e
      simp only [Prod.mk.injEq, s1, s2, s3] at e
      intro a
      fin_cases a
      · exact step 0 _ _ e.1
      · exact step 1 _ _ e.2.1
      · exact step 2 _ _ e.2.2
    unfold onSite
    simp only [key]
  · intro r s c c' hc hc' axis up e x y z x' y' z' h1 h2 h3
    rw [hW] at hc
    rw [hW] at hc'
    rw [hW, hW] at e
    rw [hW, hW]
    obtain ⟨k, hk⟩ := Boundary.face_fin (f := faceOf axis up) (by unfold faceOf; split <;> omega)
      (by unfold faceOf; split <;> omega)
    rw [hk] at e
    have hs := site_adjacent hD t0 hg r s c c' ((interior_iff hD t0 hg r c).mp hc) ((interior_iff hD t0 hg s c').mp hc') k e
    obtain ⟨b1, b2, b3, b4, b5, b6⟩ := hc
    obtain ⟨d1, d2, d3, d4, d5, d6⟩ := hc'
    have p1 := posOf_voxel (grid_mesh hD t0 hg r) (x := c.x + if x then 1 else 0) (y := c.y + if y then 1 else 0)
      (z := c.z + if z then 1 else 0) (by split <;> omega) (by split <;> omega)
    have p2 := posOf_voxel (grid_mesh hD t0 hg s) (x := c'.x + if x' then 1 else 0) (y := c'.y + if y' then 1 else 0)
      (z := c'.z + if z' then 1 else 0) (by split <;> omega) (by split <;> omega)
    have key : ∀ a, siteAt D r (posOf (G r) (VOXEL (G r).nx (G r).ny (c.x + if x then 1 else 0) (c.y + if y then 1 else 0)
          (c.z + if z then 1 else 0))) a =
        siteAt D s (posOf (G s) (VOXEL (G s).nx (G s).ny (c'.x + if x' then 1 else 0) (c'.y + if y' then 1 else 0)
          (c'.z + if z' then 1 else 0))) a := by
      rw [p1, p2]
      have step : ∀ (a : Fin 3) (p q d o o' : ℤ), coordOf D s a * cellsOf D a + (q - 1) =
          (coordOf D r a * cellsOf D a + (p - 1) + d) % (ranksOf D a * cellsOf D a) → d + o' = o →
          (coordOf D r a * cellsOf D a + (p + o - 1)) % (ranksOf D a * cellsOf D a) =
          (coordOf D s a * cellsOf D a + (q + o' - 1)) % (ranksOf D a * cellsOf D a) := by
        intro a p q d o o' e ho
        have e2 : coordOf D s a * cellsOf D a + (q + o' - 1) = coordOf D s a * cellsOf D a + (q - 1) + o' := by ring
        rw [e2, e, Int.emod_add_emod]
        congr 1
        rw [← ho]; ring
      have a0 := h3 0
      have a1 := h3 1
      have a2 := h3 2
      intro a
      have hsa := hs a
      fin_cases a <;> refine step _ _ _ _ _ _ hsa ?_ <;>
      fin_cases axis <;> cases up <;> fin_cases k <;> simp [faceOf] at hk <;> simp at h1 h2 a0 a1 a2 <;>
        simp [faceDir, h1, h2, a0, a1, a2]
    unfold onSite
    simp only [key]

end

end

end Verif.Charge
