import Verif.Interp.Model
import Verif.Common.Sweep
import Verif.Field.Sample

/-!
# Interpolation of the fields (C23)
-/
namespace Verif.Interp

open Grid Field Boris

/-! ### Specification -/

section Spec
variable {K : Type*} [Field K]

/-- Bilinear interpolation of component `a` of E at offset `d` (in `[-1,1]³`) of cell `c` between the four edges of
the cell along `a`. -/
def eSpec (e : Fin 3 → Pos → K) (c : Pos) (d : Fin 3 → K) (a : Fin 3) : K :=
  1 / 4 * ((1 - d (a + 1)) * (1 - d (a + 2)) * e a c + (1 + d (a + 1)) * (1 - d (a + 2)) * e a (up (a + 1) c) +
    (1 - d (a + 1)) * (1 + d (a + 2)) * e a (up (a + 2) c) +
    (1 + d (a + 1)) * (1 + d (a + 2)) * e a (up (a + 2) (up (a + 1) c)))

/-- Linear interpolation of component `a` of B between the two faces of the cell normal to `a`. -/
def bSpec (b : Fin 3 → Pos → K) (c : Pos) (d : Fin 3 → K) (a : Fin 3) : K :=
  1 / 2 * ((1 - d a) * b a c + (1 + d a) * b a (up a c))

end Spec

/-! ### The loop -/

lemma add_one_ne' (a : Fin 3) : a + 1 ≠ a ∧ a + 2 ≠ a ∧ a + 2 ≠ a + 1 := by
  refine ⟨?_, ?_, ?_⟩ <;> omega


lemma stencils_walk {g : LGrid} (hg : Mesh g) (n : ℕ) (x y z v : ℤ) (hv : v = VOXEL g.nx g.ny x y z)
    (hx : x ≤ g.nx) (hy : y ≤ g.ny) :
    stencils g n (loadStencil g x y z) x y z =
      (Distribute.walk g.nx g.ny ⟨1, g.nx, 1, g.ny, 1, g.nz⟩ n ⟨v, x, y, z⟩).map
        fun s => loadStencil g s.x s.y s.z := by
  have px : 1 ≤ g.nx := hg.pos 0
  have py : 1 ≤ g.ny := hg.pos 1
  induction n generalizing x y z v with
  | zero => rfl
  | succ n ih =>
    rw [stencils, Distribute.walk, List.map_cons]
    congr 1
    split
    · rename_i hx1
      obtain rfl : x = g.nx := by omega
      dsimp only
      rw [ih _ _ _ _ rfl px (by split <;> omega)]
      congr 2
      simp only [Distribute.nextVoxel, hx1, if_true]
      by_cases hy1 : y + 1 > g.ny
      · obtain rfl : y = g.ny := by omega
        simp only [hy1, if_true, Distribute.VPos.mk.injEq, and_true]
        subst hv
        unfold VOXEL
        ring
      · simp only [hy1, if_false, Distribute.VPos.mk.injEq, and_true]
        subst hv
        unfold VOXEL
        ring
    · rename_i hx1
      have e : (loadStencil g x y z).next = loadStencil g (x + 1) y z := by
        simp only [Stencil.next, loadStencil, VOXEL, Stencil.mk.injEq]
        refine ⟨?_, ?_, ?_, ?_, ?_, ?_, ?_, ?_⟩ <;> ring
      rw [e, ih _ _ _ (v + 1) (by subst hv; unfold VOXEL; ring) (by omega) hy]
      congr 2
      have hy1 : ¬ y > g.ny := by omega
      simp only [Distribute.nextVoxel, hx1, hy1, if_false]

/-- The voxels of a box as distributed over pipelines: the starting position is in the box's rectangle. -/
lemma start_in {R : Distribute.Rounding} {g : LGrid} (hg : Mesh g) {p P : ℕ} {x y z n : ℤ}
    (h : Distribute.distributeVoxels R ⟨1, g.nx, 1, g.ny, 1, g.nz⟩ 1 p P = some ((x, y, z), n)) :
    x ≤ g.nx ∧ y ≤ g.ny := by
  have px : 1 ≤ g.nx := hg.pos 0
  have py : 1 ≤ g.ny := hg.pos 1
  unfold Distribute.distributeVoxels at h
  dsimp only at h
  split at h
  · simp at h
  · have e1 : g.nx - 1 + 1 = g.nx := by ring
    have e2 : g.ny - 1 + 1 = g.ny := by ring
    simp only [Option.some.injEq, Prod.mk.injEq, e1, e2] at h
    obtain ⟨⟨hx, hy, -⟩, -⟩ := h
    rw [if_pos (by omega)] at hx hy
    rw [if_pos (by omega)] at hy
    generalize (((1 : ℕ) : ℤ) * _ : ℤ) = w at hx hy
    have a1 := Int.emod_lt_of_pos w (show 0 < g.nx by omega)
    have a2 := Int.mul_ediv_add_emod w g.nx
    have b1 := Int.emod_lt_of_pos (w / g.nx) (show 0 < g.ny by omega)
    have b2 := Int.mul_ediv_add_emod (w / g.nx) g.ny
    constructor
    · have : w / g.nx * g.nx = g.nx * (w / g.nx) := by ring
      omega
    · have : w / g.nx / g.ny * g.ny = g.ny * (w / g.nx / g.ny) := by ring
      omega

/-- All pipelines together pass over every cell once. -/
lemma load_visits {R : Distribute.Rounding} (hR : R.Accurate) {g : LGrid} (hg : Mesh g) {P : ℕ} (hP : 0 < P)
    (hP2 : P ≤ 2 ^ 16) :
    ∃ (ls : List (List Stencil)) (L : List Pos), (List.range (P + 1)).mapM (loadPipeline R g P) = some ls ∧
      ls.flatten = L.map (fun c => loadStencil g (c 0) (c 1) (c 2)) ∧ L.Nodup ∧ ∀ c, c ∈ L ↔ CellOn g c := by
  have px : 1 ≤ g.nx := hg.pos 0
  have py : 1 ≤ g.ny := hg.pos 1
  have pz : 1 ≤ g.nz := hg.pos 2
  have hN : g.nx * g.ny * g.nz < 2 ^ 31 := by
    have := hg.fits
    nlinarith [mul_pos (show (0 : ℤ) < g.nx by omega) (show (0 : ℤ) < g.ny by omega),
      mul_pos (show (0 : ℤ) < g.nx by omega) (show (0 : ℤ) < g.nz by omega),
      mul_pos (show (0 : ℤ) < g.ny by omega) (show (0 : ℤ) < g.nz by omega)]
  have e1 : g.nx - 1 + 1 = g.nx := by ring
  have e2 : g.ny - 1 + 1 = g.ny := by ring
  have e3 : g.nz - 1 + 1 = g.nz := by ring
  obtain ⟨L, hL, hn, hm⟩ := Distribute.distribute_voxels_exact R hR g.nx g.ny ⟨1, g.nx, 1, g.ny, 1, g.nz⟩ 1 P
    (by simp; omega) (by simp; omega) (by simp; omega) (by simp only [e1, e2, e3]; exact hN) (by norm_num) hP hP2
  have eq : ∀ p ∈ List.range (P + 1), loadPipeline R g P p =
      (Distribute.visits R g.nx g.ny ⟨1, g.nx, 1, g.ny, 1, g.nz⟩ 1 p P).map
        (List.map fun s => loadStencil g s.x s.y s.z) := by
    intro p hp
    unfold loadPipeline Distribute.visits
    split
    · rename_i hpP
      subst hpP
      have hN0 : 0 ≤ g.nx * g.ny * g.nz := by positivity
      have hc : ¬ ((1 : ℕ) = 0 ∨ p = 0 ∨ g.nx < 0 ∨ g.ny < 0 ∨ g.nx * g.ny * g.nz < 0) := by omega
      simp only [Distribute.distributeVoxels, e1, e2, e3]
      rw [if_neg hc]
      have hc := Distribute.cut_last R hR ((g.nx * g.ny * g.nz).toNat / 1) p hP (by rw [Nat.div_one]; omega)
      rw [hc]
      simp [Distribute.walk, hN0]
    · cases h : Distribute.distributeVoxels R ⟨1, g.nx, 1, g.ny, 1, g.nz⟩ 1 p P with
      | none => rfl
      | some q =>
        obtain ⟨⟨x, y, z⟩, n⟩ := q
        obtain ⟨hx, hy⟩ := start_in hg h
        simp only [Option.map_some]
        rw [stencils_walk hg n.toNat x y z _ rfl hx hy]
        rfl
  unfold Distribute.allVisits at hL
  cases hv : (List.range (P + 1)).mapM fun p =>
      Distribute.visits R g.nx g.ny ⟨1, g.nx, 1, g.ny, 1, g.nz⟩ 1 p P with
  | none => rw [hv] at hL; simp at hL
  | some vs =>
    rw [hv] at hL
    simp only [Option.map_some, Option.some.injEq] at hL
    obtain ⟨h1, h2⟩ := mapM_exists _ _ _ hv
    choose! w hw using h1
    have ev : vs = (List.range (P + 1)).map w := by
      have : (List.range (P + 1)).map (fun p =>
          Distribute.visits R g.nx g.ny ⟨1, g.nx, 1, g.ny, 1, g.nz⟩ 1 p P)
          = ((List.range (P + 1)).map w).map some := by
        rw [List.map_map]
        exact List.map_congr_left fun p hp => hw p hp
      rw [this] at h2
      exact (List.map_injective_iff.mpr (Option.some_injective _) h2).symm
    refine ⟨_, L.map fun s => (![s.x, s.y, s.z] : Pos), Distribute.mapM_some _ _
      (fun p => (w p).map fun s => loadStencil g s.x s.y s.z) (fun p hp => by rw [eq p hp, hw p hp]; rfl), ?_, ?_, ?_⟩
    · rw [← hL, ev, List.map_map]
      simp only [List.map_flatten, List.map_map]
      rfl
    · refine hn.map_on fun s hs t ht e => ?_
      have a := ((hm s).mp hs).2
      have b := ((hm t).mp ht).2
      have c0 := congrFun e 0
      have c1 := congrFun e 1
      have c2 := congrFun e 2
      simp at c0 c1 c2
      obtain ⟨v, x, y, z⟩ := s
      obtain ⟨v', x', y', z'⟩ := t
      simp only at a b c0 c1 c2
      subst c0 c1 c2
      rw [a, b]
    · intro c
      rw [List.mem_map]
      constructor
      · rintro ⟨s, hs, rfl⟩
        obtain ⟨a1, a2, a3, a4, a5, a6⟩ := ((hm s).mp hs).1
        simp only at a1 a2 a3 a4 a5 a6
        intro b
        fin_cases b <;> simp [dims] <;> omega
      · intro hc
        have c0 := hc 0
        have c1 := hc 1
        have c2 := hc 2
        simp only [dims, Matrix.cons_val_zero, Matrix.cons_val_one, Matrix.cons_val_two, Matrix.head_cons,
          Matrix.tail_cons] at c0 c1 c2
        refine ⟨⟨VOXEL g.nx g.ny (c 0) (c 1) (c 2), c 0, c 1, c 2⟩, (hm _).mpr ⟨⟨c0.1, c0.2, c1.1, c1.2, c2.1, c2.2⟩, rfl⟩, ?_⟩
        apply pos_ext <;> rfl

section
variable {K : Type*} [Field K]

/-- **Loading.**  Whatever the interleaving of the pipelines, the interpolator of every cell gets the coefficients
computed from the fields at the cell's corners, and those of the ghost voxels stay as they were. -/
theorem load_interpolator_result {R : Distribute.Rounding} (hR : R.Accurate) {g : LGrid} (hg : Mesh g) {P : ℕ}
    (hP : 0 < P) (hP2 : P ≤ 2 ^ 16) {f : FMem K} {m m' : IMem K} (h : LoadInterpolator R g P f m m') :
    (∀ c, CellOn g c → m' (vox g c) = coefficients f (loadStencil g (c 0) (c 1) (c 2))) ∧
    ∀ v, (∀ c, CellOn g c → v ≠ vox g c) → m' v = m v := by
  obtain ⟨ls, L, hls, hfl, hn, hL⟩ := load_visits hR hg hP hP2
  obtain ⟨ls', hls', hrun⟩ := h
  rw [hls] at hls'
  obtain rfl := Option.some.inj hls'
  have inj : ∀ c ∈ L, ∀ d ∈ L, vox g c = vox g d → c = d := fun c hc d hd e =>
    vox_inj ((hL c).mp hc).inArray ((hL d).mp hd).inArray e
  have nd : ls.flatten.Nodup := by
    rw [hfl]
    exact hn.map_on fun c hc d hd e => inj c hc d hd (congrArg Stencil.pi e)
  have piv : ∀ s ∈ ls.flatten, ∃ c ∈ L, s = loadStencil g (c 0) (c 1) (c 2) := by
    intro s hs
    rw [hfl, List.mem_map] at hs
    obtain ⟨c, hc, rfl⟩ := hs
    exact ⟨c, hc, rfl⟩
  obtain ⟨r1, r2⟩ := runs_sweep (A := ℤ) (V := fun _ => Interp K) (loadOne f) (fun s v => v = s.pi) (fun _ => False) ls nd
    (fun s _ => ⟨fun m x hx => Function.update_of_ne hx _ _, fun m m' _ x hx => by
      subst hx; simp [loadOne]⟩)
    (by
      intro s hs s' hs' hne x hx hx'
      obtain ⟨c, hc, rfl⟩ := piv s hs
      obtain ⟨c', hc', rfl⟩ := piv s' hs'
      exact hne (by rw [inj c hc c' hc' (hx.symm.trans hx')]))
    (fun _ _ _ h => h.elim) m m' hrun
  constructor
  · intro c hc
    have hs : loadStencil g (c 0) (c 1) (c 2) ∈ ls.flatten := by
      rw [hfl]
      exact List.mem_map_of_mem ((hL c).mpr hc)
    rw [r1 _ hs (vox g c) rfl]
    simp [loadOne, loadStencil, vox]
  · intro v hv
    refine r2 v fun s hs => ?_
    obtain ⟨c, hc, rfl⟩ := piv s hs
    exact hv c ((hL c).mp hc)

/-- Some interleaving exists. -/
theorem load_interpolator_runs {R : Distribute.Rounding} (hR : R.Accurate) {g : LGrid} (hg : Mesh g) {P : ℕ}
    (hP : 0 < P) (hP2 : P ≤ 2 ^ 16) (f : FMem K) (m : IMem K) : ∃ m', LoadInterpolator R g P f m m' := by
  obtain ⟨ls, L, hls, -⟩ := load_visits hR hg hP hP2
  exact ⟨_, ls, hls, runs_seq _ m⟩

end

/-! ### C23 -/

variable {K : Type*} [Field K] [LinearOrder K] [IsStrictOrderedRing K]

/-- The electric field on the mesh. -/
abbrev eMesh (g : LGrid) (f : FMem K) (a : Fin 3) (c : Pos) : K := f (vox g c, .e a)
/-- The magnetic field on the mesh. -/
abbrev bMesh (g : LGrid) (f : FMem K) (a : Fin 3) (c : Pos) : K := f (vox g c, .cb a)

/-- **C23, the interpolated fields.**  What `advance_p`, `center_p` and `uncenter_p` evaluate at offset `d` of cell
`c` is the bilinear interpolation of E between the cell's edges (times `qdt_2mc`) and the linear interpolation of B
between its faces. -/
theorem interpolated_field {R : Distribute.Rounding} (hR : R.Accurate) {g : LGrid} (hg : Mesh g) {P : ℕ}
    (hP : 0 < P) (hP2 : P ≤ 2 ^ 16) {f : FMem K} {m m' : IMem K} (h : LoadInterpolator R g P f m m')
    (c : Pos) (hc : CellOn g c) (qdt_2mc : K) (d : Fin 3 → K) (a : Fin 3) :
    halfE qdt_2mc (m' (vox g c)) d a = qdt_2mc * eSpec (eMesh g f) c d a ∧
    interpB (m' (vox g c)) d a = bSpec (bMesh g f) c d a := by
  rw [(load_interpolator_result hR hg hP hP2 h).1 c hc]
  have u : ∀ x y z : ℤ, VOXEL g.nx g.ny x y z = vox g ![x, y, z] := fun _ _ _ => rfl
  have u0 : (![c 0 + 1, c 1, c 2] : Pos) = up 0 c := by apply pos_ext <;> simp [up]
  have u1 : (![c 0, c 1 + 1, c 2] : Pos) = up 1 c := by apply pos_ext <;> simp [up]
  have u2 : (![c 0, c 1, c 2 + 1] : Pos) = up 2 c := by apply pos_ext <;> simp [up]
  have u00 : (![c 0, c 1, c 2] : Pos) = c := by apply pos_ext <;> simp
  have u12 : (![c 0, c 1 + 1, c 2 + 1] : Pos) = up 2 (up 1 c) := by apply pos_ext <;> simp [up]
  have u20 : (![c 0 + 1, c 1, c 2 + 1] : Pos) = up 0 (up 2 c) := by apply pos_ext <;> simp [up]
  have u01 : (![c 0 + 1, c 1 + 1, c 2] : Pos) = up 1 (up 0 c) := by apply pos_ext <;> simp [up]
  have s : loadStencil g (c 0) (c 1) (c 2) = ⟨vox g c, vox g c, vox g (up 0 c), vox g (up 1 c), vox g (up 2 c),
      vox g (up 2 (up 1 c)), vox g (up 0 (up 2 c)), vox g (up 1 (up 0 c))⟩ := by
    simp only [loadStencil, u, u0, u1, u2, u00, u12, u20, u01]
  rw [s]
  have a1 : (1 : Fin 3) + 1 = 2 := rfl
  have a2 : (1 : Fin 3) + 2 = 0 := rfl
  have a3 : (2 : Fin 3) + 1 = 0 := rfl
  have a4 : (2 : Fin 3) + 2 = 1 := rfl
  fin_cases a
  · simp [halfE, interpB, coefficients, eSpec, bSpec]
    exact ⟨by ring_nf; simp, by ring⟩
  · simp [halfE, interpB, coefficients, eSpec, bSpec, a1, a2]
    exact ⟨by ring_nf; simp, by ring⟩
  · simp [halfE, interpB, coefficients, eSpec, bSpec, a3, a4]
    exact ⟨by ring_nf; simp, by ring⟩

/-- **C23, exact on edges and faces.**  At an edge of the cell the interpolated component of E along it is the mesh
value of that edge, and on a face of the cell the normal component of B is the mesh value of that face. -/
theorem interpolation_exact {R : Distribute.Rounding} (hR : R.Accurate) {g : LGrid} (hg : Mesh g) {P : ℕ}
    (hP : 0 < P) (hP2 : P ≤ 2 ^ 16) {f : FMem K} {m m' : IMem K} (h : LoadInterpolator R g P f m m')
    (c : Pos) (hc : CellOn g c) (qdt_2mc : K) (d : Fin 3 → K) (a : Fin 3) :
    (∀ i j : Bool, d (a + 1) = (if i then 1 else -1) → d (a + 2) = (if j then 1 else -1) →
      halfE qdt_2mc (m' (vox g c)) d a = qdt_2mc * f (vox g (fun b =>
        c b + if b = a + 1 then (if i then 1 else 0) else if b = a + 2 then (if j then 1 else 0) else 0), .e a)) ∧
    ∀ i : Bool, d a = (if i then 1 else -1) →
      interpB (m' (vox g c)) d a = f (vox g (fun b => c b + if b = a then (if i then 1 else 0) else 0), .cb a) := by
  obtain ⟨h1, h2⟩ := interpolated_field hR hg hP hP2 h c hc qdt_2mc d a
  obtain ⟨n1, n2, n3⟩ := add_one_ne' a
  constructor
  · intro i j hi hj
    rw [h1]
    congr 1
    unfold eSpec eMesh
    rw [hi, hj]
    have e00 : (fun b => c b + if b = a + 1 then 0 else if b = a + 2 then 0 else 0) = c := by
      funext b; simp
    have e10 : (fun b => c b + if b = a + 1 then 1 else if b = a + 2 then 0 else 0) = up (a + 1) c := by
      funext b; unfold up; split <;> simp
    have e01 : (fun b => c b + if b = a + 1 then 0 else if b = a + 2 then 1 else 0) = up (a + 2) c := by
      funext b; unfold up
      by_cases hb : b = a + 1
      · subst hb; simp [n3.symm]
      · simp only [hb, if_false]; split <;> simp
    have e11 : (fun b => c b + if b = a + 1 then 1 else if b = a + 2 then 1 else 0) = up (a + 2) (up (a + 1) c) := by
      funext b; unfold up
      by_cases hb : b = a + 1
      · subst hb; simp [n3.symm]
      · simp only [hb, if_false]; split <;> simp
    cases i <;> cases j <;> simp only [Bool.false_eq_true, if_true, if_false, e00, e10, e01, e11] <;> ring
  · intro i hi
    rw [h2]
    unfold bSpec bMesh
    rw [hi]
    have e0 : (fun b => c b + if b = a then 0 else 0) = c := by funext b; simp
    have e1 : (fun b => c b + if b = a then 1 else 0) = up a c := by funext b; unfold up; split <;> simp
    cases i <;> simp only [Bool.false_eq_true, if_true, if_false, e0, e1] <;> ring

/-- **C23, continuous over shared faces.**  Cells `c` and `up b c` share a face.  At a point of that face both cells
give the same tangential E and the same normal B. -/
theorem interpolation_continuous {R : Distribute.Rounding} (hR : R.Accurate) {g : LGrid} (hg : Mesh g) {P : ℕ}
    (hP : 0 < P) (hP2 : P ≤ 2 ^ 16) {f : FMem K} {m m' : IMem K} (h : LoadInterpolator R g P f m m')
    (b : Fin 3) (c : Pos) (hc : CellOn g c) (hc' : CellOn g (up b c)) (qdt_2mc : K) (d : Fin 3 → K) (hd : d b = 1) :
    (∀ a, a ≠ b → halfE qdt_2mc (m' (vox g c)) d a =
      halfE qdt_2mc (m' (vox g (up b c))) (Function.update d b (-1)) a) ∧
    interpB (m' (vox g c)) d b = interpB (m' (vox g (up b c))) (Function.update d b (-1)) b := by
  constructor
  · intro a ha
    rw [(interpolated_field hR hg hP hP2 h c hc qdt_2mc d a).1,
      (interpolated_field hR hg hP hP2 h (up b c) hc' qdt_2mc _ a).1]
    congr 1
    unfold eSpec
    obtain ⟨n1, n2, n3⟩ := add_one_ne' a
    have hb : b = a + 1 ∨ b = a + 2 := by omega
    have cm : ∀ b b' : Fin 3, up b (up b' c) = up b' (up b c) := by
      intro b b'
      funext x
      unfold up
      split <;> split <;> simp_all
    rcases hb with rfl | rfl
    · rw [hd, Function.update_self, Function.update_of_ne n3]
      ring
    · rw [hd, Function.update_self, Function.update_of_ne n3.symm, cm (a + 2) (a + 1)]
      ring
  · rw [(interpolated_field hR hg hP hP2 h c hc qdt_2mc d b).2,
      (interpolated_field hR hg hP hP2 h (up b c) hc' qdt_2mc _ b).2]
    unfold bSpec
    rw [hd, Function.update_self]
    ring

/-- A concrete case: on a 4×3×1 mesh, with every field component equal to the y index of its voxel, the loaded
interpolator of cell (2,2,1) gives 5/2 at the centre. -/
example (m : IMem ℚ) : ∃ m', LoadInterpolator Distribute.doubleRounding (sampleGrid 0) 3
    (fun q => ((q.1 / 6 % 5 : ℤ) : ℚ)) m m' ∧
    halfE 1 (m' (vox (sampleGrid 0) ![2, 2, 1])) (fun _ => 0) 0 = 5 / 2 := by
  obtain ⟨m', h⟩ := load_interpolator_runs Distribute.doubleRounding_accurate (sample_mesh 0) (P := 3) (by norm_num)
    (by norm_num) (fun q => ((q.1 / 6 % 5 : ℤ) : ℚ)) m
  refine ⟨m', h, ?_⟩
  rw [(interpolated_field Distribute.doubleRounding_accurate (sample_mesh 0) (by norm_num) (by norm_num) h ![2, 2, 1]
    (by simp [CellOn, forall_axis, dims, sampleGrid]) 1 (fun _ => 0) 0).1]
  simp [eSpec, eMesh, vox, VOXEL, up, sampleGrid]
  norm_num

end Verif.Interp
