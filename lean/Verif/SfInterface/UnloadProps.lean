import Verif.SfInterface.UnloadPipe
import Verif.Common.Sweep
import Verif.Field.Sample
import Verif.Interp.Props

/-!
# Unloading the accumulators: the result for every interleaving
-/
namespace Verif.SfInterface

open Grid Field
open MoveP (Accum)

lemma uStencils_walk {g : LGrid} (hg : Mesh g) (n : ℕ) (x y z v : ℤ) (hv : v = VOXEL g.nx g.ny x y z)
    (hx : x ≤ g.nx + 1) (hy : y ≤ g.ny + 1) :
    uStencils g n (uLoad g x y z) x y z =
      (Distribute.walk g.nx g.ny ⟨1, g.nx + 1, 1, g.ny + 1, 1, g.nz + 1⟩ n ⟨v, x, y, z⟩).map
        fun s => uLoad g s.x s.y s.z := by
  have px : 1 ≤ g.nx := hg.pos 0
  have py : 1 ≤ g.ny := hg.pos 1
  induction n generalizing x y z v with
  | zero => rfl
  | succ n ih =>
    rw [uStencils, Distribute.walk, List.map_cons]
    congr 1
    split
    · rename_i hx1
      obtain rfl : x = g.nx + 1 := by omega
      dsimp only
      rw [ih _ _ _ _ rfl (by omega) (by split <;> omega)]
      congr 2
      simp only [Distribute.nextVoxel, hx1, if_true]
      by_cases hy1 : y + 1 > g.ny + 1
      · obtain rfl : y = g.ny + 1 := by omega
        simp only [hy1, if_true, Distribute.VPos.mk.injEq, and_true]
        subst hv
        unfold VOXEL
        ring
      · simp only [hy1, if_false, Distribute.VPos.mk.injEq, and_true]
        subst hv
        unfold VOXEL
        ring
    · rename_i hx1
      have e : (uLoad g x y z).next = uLoad g (x + 1) y z := by
        simp only [UStencil.next, uLoad, VOXEL, UStencil.mk.injEq]
        refine ⟨?_, ?_, ?_, ?_, ?_, ?_, ?_, ?_⟩ <;> ring
      rw [e, ih _ _ _ (v + 1) (by subst hv; unfold VOXEL; ring) (by omega) hy]
      congr 2
      have hy1 : ¬ y > g.ny + 1 := by omega
      simp only [Distribute.nextVoxel, hx1, hy1, if_false]

lemma uStart_in {R : Distribute.Rounding} {g : LGrid} (hg : Mesh g) {p P : ℕ} {x y z n : ℤ}
    (h : Distribute.distributeVoxels R ⟨1, g.nx + 1, 1, g.ny + 1, 1, g.nz + 1⟩ 1 p P = some ((x, y, z), n)) :
    x ≤ g.nx + 1 ∧ y ≤ g.ny + 1 := by
  have px : 1 ≤ g.nx := hg.pos 0
  have py : 1 ≤ g.ny := hg.pos 1
  unfold Distribute.distributeVoxels at h
  dsimp only at h
  split at h
  · simp at h
  · have e1 : g.nx + 1 - 1 + 1 = g.nx + 1 := by ring
    have e2 : g.ny + 1 - 1 + 1 = g.ny + 1 := by ring
    simp only [Option.some.injEq, Prod.mk.injEq, e1, e2] at h
    obtain ⟨⟨hx, hy, -⟩, -⟩ := h
    rw [if_pos (by omega)] at hx hy
    rw [if_pos (by omega)] at hy
    generalize (((1 : ℕ) : ℤ) * _ : ℤ) = w at hx hy
    have a1 := Int.emod_lt_of_pos w (show 0 < g.nx + 1 by omega)
    have a2 := Int.mul_ediv_add_emod w (g.nx + 1)
    have b1 := Int.emod_lt_of_pos (w / (g.nx + 1)) (show 0 < g.ny + 1 by omega)
    have b2 := Int.mul_ediv_add_emod (w / (g.nx + 1)) (g.ny + 1)
    constructor
    · have : w / (g.nx + 1) * (g.nx + 1) = (g.nx + 1) * (w / (g.nx + 1)) := by ring
      omega
    · have : w / (g.nx + 1) / (g.ny + 1) * (g.ny + 1) = (g.ny + 1) * (w / (g.nx + 1) / (g.ny + 1)) := by ring
      omega

/-- All pipelines together pass over every node once. -/
lemma unload_visits {R : Distribute.Rounding} (hR : R.Accurate) {g : LGrid} (hg : Mesh g) {P : ℕ} (hP : 0 < P)
    (hP2 : P ≤ 2 ^ 16) :
    ∃ (ls : List (List UStencil)) (L : List Pos), (List.range (P + 1)).mapM (uPipeline R g P) = some ls ∧
      ls.flatten = L.map (fun c => uLoad g (c 0) (c 1) (c 2)) ∧ L.Nodup ∧ ∀ c, c ∈ L ↔ NodeOn g c := by
  have px : 1 ≤ g.nx := hg.pos 0
  have py : 1 ≤ g.ny := hg.pos 1
  have pz : 1 ≤ g.nz := hg.pos 2
  have hN : (g.nx + 1) * (g.ny + 1) * (g.nz + 1) < 2 ^ 31 := by
    have := hg.fits
    nlinarith [mul_pos (show (0 : ℤ) < g.nx by omega) (show (0 : ℤ) < g.ny by omega),
      mul_pos (show (0 : ℤ) < g.nx by omega) (show (0 : ℤ) < g.nz by omega),
      mul_pos (show (0 : ℤ) < g.ny by omega) (show (0 : ℤ) < g.nz by omega)]
  have e1 : g.nx + 1 - 1 + 1 = g.nx + 1 := by ring
  have e2 : g.ny + 1 - 1 + 1 = g.ny + 1 := by ring
  have e3 : g.nz + 1 - 1 + 1 = g.nz + 1 := by ring
  obtain ⟨L, hL, hn, hm⟩ := Distribute.distribute_voxels_exact R hR g.nx g.ny
    ⟨1, g.nx + 1, 1, g.ny + 1, 1, g.nz + 1⟩ 1 P
    (by simp; omega) (by simp; omega) (by simp; omega) (by simp only [e1, e2, e3]; exact hN) (by norm_num) hP hP2
  have eq : ∀ p ∈ List.range (P + 1), uPipeline R g P p =
      (Distribute.visits R g.nx g.ny ⟨1, g.nx + 1, 1, g.ny + 1, 1, g.nz + 1⟩ 1 p P).map
        (List.map fun s => uLoad g s.x s.y s.z) := by
    intro p hp
    unfold uPipeline Distribute.visits
    split
    · rename_i hpP
      subst hpP
      have hx0 : (0 : ℤ) ≤ g.nx + 1 := by omega
      have hy0 : (0 : ℤ) ≤ g.ny + 1 := by omega
      have hz0 : (0 : ℤ) ≤ g.nz + 1 := by omega
      have hN0 : 0 ≤ (g.nx + 1) * (g.ny + 1) * (g.nz + 1) := mul_nonneg (mul_nonneg hx0 hy0) hz0
      have hc : ¬ ((1 : ℕ) = 0 ∨ p = 0 ∨ g.nx + 1 < 0 ∨ g.ny + 1 < 0 ∨
        (g.nx + 1) * (g.ny + 1) * (g.nz + 1) < 0) := by omega
      simp only [Distribute.distributeVoxels, e1, e2, e3]
      rw [if_neg hc]
      have hc := Distribute.cut_last R hR (((g.nx + 1) * (g.ny + 1) * (g.nz + 1)).toNat / 1) p hP
        (by rw [Nat.div_one]; omega)
      rw [hc]
      simp [Distribute.walk, hN0]
    · cases h : Distribute.distributeVoxels R ⟨1, g.nx + 1, 1, g.ny + 1, 1, g.nz + 1⟩ 1 p P with
      | none => rfl
      | some q =>
        obtain ⟨⟨x, y, z⟩, n⟩ := q
        obtain ⟨hx, hy⟩ := uStart_in hg h
        simp only [Option.map_some]
        rw [uStencils_walk hg n.toNat x y z _ rfl hx hy]
        rfl
  unfold Distribute.allVisits at hL
  cases hv : (List.range (P + 1)).mapM fun p =>
      Distribute.visits R g.nx g.ny ⟨1, g.nx + 1, 1, g.ny + 1, 1, g.nz + 1⟩ 1 p P with
  | none => rw [hv] at hL; simp at hL
  | some vs =>
    rw [hv] at hL
    simp only [Option.map_some, Option.some.injEq] at hL
    obtain ⟨h1, h2⟩ := mapM_exists _ _ _ hv
    choose! w hw using h1
    have ev : vs = (List.range (P + 1)).map w := by
      have : (List.range (P + 1)).map (fun p =>
          Distribute.visits R g.nx g.ny ⟨1, g.nx + 1, 1, g.ny + 1, 1, g.nz + 1⟩ 1 p P)
          = ((List.range (P + 1)).map w).map some := by
        rw [List.map_map]
        exact List.map_congr_left fun p hp => hw p hp
      rw [this] at h2
      exact (List.map_injective_iff.mpr (Option.some_injective _) h2).symm
    refine ⟨_, L.map fun s => (![s.x, s.y, s.z] : Pos), Distribute.mapM_some _ _
      (fun p => (w p).map fun s => uLoad g s.x s.y s.z) (fun p hp => by rw [eq p hp, hw p hp]; rfl), ?_, ?_, ?_⟩
    · rw [← hL, ev, List.map_map]
      simp only [List.map_flatten, List.map_map]
      rfl
    · refine hn.map_on fun s hs t ht e => ?_
      have a := ((hm s).mp hs).2
      have b := ((hm t).mp ht).2
      have c0 := congrFun e 0
      have c1 := congrFun e 1
      have c2 := congrFun e 2
      simp at c0 c1 c2
      obtain ⟨v, x, y, z⟩ := s
      obtain ⟨v', x', y', z'⟩ := t
      simp only at a b c0 c1 c2
      subst c0 c1 c2
      rw [a, b]
    · intro c
      rw [List.mem_map]
      constructor
      · rintro ⟨s, hs, rfl⟩
        obtain ⟨a1, a2, a3, a4, a5, a6⟩ := ((hm s).mp hs).1
        simp only at a1 a2 a3 a4 a5 a6
        intro b
        fin_cases b <;> simp [dims] <;> omega
      · intro hc
        have c0 := hc 0
        have c1 := hc 1
        have c2 := hc 2
        simp only [dims, Matrix.cons_val_zero, Matrix.cons_val_one, Matrix.cons_val_two, Matrix.head_cons,
          Matrix.tail_cons] at c0 c1 c2
        refine ⟨⟨VOXEL g.nx g.ny (c 0) (c 1) (c 2), c 0, c 1, c 2⟩,
          (hm _).mpr ⟨⟨c0.1, c0.2, c1.1, c1.2, c2.1, c2.2⟩, rfl⟩, ?_⟩
        apply pos_ext <;> rfl

section
variable {K : Type*} [Field K]

lemma uAdds_eq (g : LGrid) (c : Fin 3 → K) (a : Accum K) (p : Pos) :
    uAdds c a (uLoad g (p 0) (p 1) (p 2)) = unloadAt g c a (vox g p) := by
  have e1 : VOXEL g.nx g.ny (p 0 - 1) (p 1) (p 2) = vox g p - 1 := by unfold vox VOXEL; ring
  have e2 : VOXEL g.nx g.ny (p 0) (p 1 - 1) (p 2) = vox g p - (g.nx + 2) := by unfold vox VOXEL; ring
  have e3 : VOXEL g.nx g.ny (p 0) (p 1) (p 2 - 1) = vox g p - (g.ny + 2) * (g.nx + 2) := by unfold vox VOXEL; ring
  have e4 : VOXEL g.nx g.ny (p 0) (p 1 - 1) (p 2 - 1) = vox g p - (g.nx + 2) - (g.ny + 2) * (g.nx + 2) := by
    unfold vox VOXEL; ring
  have e5 : VOXEL g.nx g.ny (p 0 - 1) (p 1) (p 2 - 1) = vox g p - (g.ny + 2) * (g.nx + 2) - 1 := by
    unfold vox VOXEL; ring
  have e6 : VOXEL g.nx g.ny (p 0 - 1) (p 1 - 1) (p 2) = vox g p - 1 - (g.nx + 2) := by unfold vox VOXEL; ring
  have e0 : VOXEL g.nx g.ny (p 0) (p 1) (p 2) = vox g p := rfl
  simp only [uAdds, unloadAt, uLoad, e0, e1, e2, e3, e4, e5, e6]

/-- **Unloading.**  Whatever the interleaving of the pipelines, the currents stored at every node of the mesh grow
once by what the stencil gives there; the currents of the other voxels and all other members of the fields stay. -/
theorem unload_accumulator_result {R : Distribute.Rounding} (hR : R.Accurate) {g : LGrid} (hg : Mesh g) {P : ℕ}
    (hP : 0 < P) (hP2 : P ≤ 2 ^ 16) {sc : Scales K} {a : Accum K} {m m' : FMem K}
    (h : UnloadAccumulator R g P sc a m m') :
    (∀ c, NodeOn g c → ∀ k, m' (vox g c, .jf k) = m (vox g c, .jf k) + unloadAt g (unloadC sc) a (vox g c) k) ∧
    (∀ q, (∀ c k, NodeOn g c → q ≠ (vox g c, FC.jf k)) → m' q = m q) := by
  obtain ⟨ls, L, hls, hfl, hn, hL⟩ := unload_visits hR hg hP hP2
  obtain ⟨ls', hls', hrun⟩ := h
  rw [hls] at hls'
  obtain rfl := Option.some.inj hls'
  have inj : ∀ c ∈ L, ∀ d ∈ L, vox g c = vox g d → c = d := fun c hc d hd e =>
    vox_inj ((hL c).mp hc).inArray ((hL d).mp hd).inArray e
  have nd : ls.flatten.Nodup := by
    rw [hfl]
    exact hn.map_on fun c hc d hd e => inj c hc d hd (congrArg UStencil.f0 e)
  have piv : ∀ s ∈ ls.flatten, ∃ c ∈ L, s = uLoad g (c 0) (c 1) (c 2) := by
    intro s hs
    rw [hfl, List.mem_map] at hs
    obtain ⟨c, hc, rfl⟩ := hs
    exact ⟨c, hc, rfl⟩
  obtain ⟨r1, r2⟩ := runs_sweep (A := ℤ × FC) (V := fun _ => K) (uOne (unloadC sc) a)
    (fun s q => q.1 = s.f0 ∧ ∃ k, q.2 = .jf k) (fun _ => False) ls nd
    (fun s _ => ⟨fun m x hx => by
        obtain ⟨v, k⟩ := x
        unfold uOne
        split
        · rename_i e
          cases k <;> simp_all
        · rfl, fun m m' hm x hx => by
        obtain ⟨v, k⟩ := x
        obtain ⟨e1, k', e2⟩ := hx
        simp only at e1 e2
        subst e1 e2
        have := hm (s.f0, .jf k') (Or.inl ⟨rfl, k', rfl⟩)
        simp [uOne, this]⟩)
    (by
      intro s hs s' hs' hne x hx hx'
      obtain ⟨c, hc, rfl⟩ := piv s hs
      obtain ⟨c', hc', rfl⟩ := piv s' hs'
      exact hne (by rw [inj c hc c' hc' (hx.1.symm.trans hx'.1)]))
    (fun _ _ _ h => h.elim) m m' hrun
  constructor
  · intro c hc k
    have hs : uLoad g (c 0) (c 1) (c 2) ∈ ls.flatten := by
      rw [hfl]
      exact List.mem_map_of_mem ((hL c).mpr hc)
    rw [r1 _ hs (vox g c, .jf k) ⟨rfl, k, rfl⟩, ← uAdds_eq]
    simp [uOne, uLoad, vox]
  · intro q hq
    refine r2 q fun s hs hx => ?_
    obtain ⟨c, hc, rfl⟩ := piv s hs
    obtain ⟨e1, k, e2⟩ := hx
    exact hq c k ((hL c).mp hc) (Prod.ext e1 e2)

/-- Some interleaving exists. -/
theorem unload_accumulator_runs {R : Distribute.Rounding} (hR : R.Accurate) {g : LGrid} (hg : Mesh g) {P : ℕ}
    (hP : 0 < P) (hP2 : P ≤ 2 ^ 16) (sc : Scales K) (a : Accum K) (m : FMem K) :
    ∃ m', UnloadAccumulator R g P sc a m m' := by
  obtain ⟨ls, L, hls, -⟩ := unload_visits hR hg hP hP2
  exact ⟨_, ls, hls, runs_seq _ m⟩

end

/-- A concrete case: on a 4×3×1 mesh with accumulators equal to the voxel index plus the member index, some
interleaving of three pipelines adds `(n + n-6 + n-30 + n-36 + 6)/4` to `jfx` of the last node. -/
example (m : FMem ℚ) : ∃ m', UnloadAccumulator Distribute.doubleRounding (sampleGrid 0) 3 ⟨1, fun _ => 1, 1⟩
    (fun v k => (v : ℚ) + (k : ℕ)) m m' ∧
    m' (vox (sampleGrid 0) ![5, 4, 2], .jf 0) = m (vox (sampleGrid 0) ![5, 4, 2], .jf 0) + 145 / 2 := by
  obtain ⟨m', h⟩ := unload_accumulator_runs Distribute.doubleRounding_accurate (sample_mesh 0) (P := 3) (by norm_num)
    (by norm_num) ⟨1, fun _ => 1, 1⟩ (fun v k => (v : ℚ) + (k : ℕ)) m
  refine ⟨m', h, ?_⟩
  rw [(unload_accumulator_result Distribute.doubleRounding_accurate (sample_mesh 0) (by norm_num) (by norm_num) h).1
    ![5, 4, 2] (by simp [NodeOn, forall_axis, dims, sampleGrid]) 0]
  simp [unloadAt, unloadC, vox, VOXEL, sampleGrid]
  norm_num

end Verif.SfInterface
