import Verif.Collision.Pairs
import Verif.Common.Interleave

/-!
# C56: the result of a collision operator does not depend on the scheduling of the pipelines
-/
namespace Verif.Collision

/-- What a collision operator reads and writes: particles of the two species and one generator per
pipeline. -/
inductive Addr
  /-- particle `i` of species i (`false`) or species j (`true`) -/
  | part (sp : Bool) (i : ℕ)
  /-- generator (and counter of large probabilities) of a pipeline -/
  | rng (p : ℕ)

/-- The part of the memory that belongs to voxel `v` when processed by pipeline `r`. -/
def voxelFoot (partition : Bool → ℕ → ℕ) (r v : ℕ) : Addr → Prop
  | .part sp i => partition sp v ≤ i ∧ i < partition sp (v + 1)
  | .rng p => p = r

lemma local_widen {A : Type*} {V : A → Type*} {F G : A → Prop} {R : A → Prop} {f : Memory V → Memory V}
    (hf : Local F R f) (h : ∀ x, F x → G x) : Local G R f := by
  classical
  refine ⟨fun m x hx => hf.frame m x (fun hF => hx (h x hF)), ?_⟩
  intro m m' hm x hx
  by_cases hF : F x
  · exact hf.dep m m' (fun y hy => hm y (hy.imp (h y) id)) x hF
  · rw [hf.frame m x hF, hf.frame m' x hF]; exact hm x (Or.inl hx)

/-- C56: if the processing of a voxel by a pipeline touches only the particles of that voxel and the generator of that
pipeline, then every interleaving of the pipelines gives the result of running them one after the other. -/
theorem collisions_schedule_independent {V : Addr → Type*} (nx ny nz P : ℕ) (hP : 0 < P) (fuel : ℕ)
    (hf : nx + (nx + 2) * (ny + (ny + 2) * nz) + 1 < fuel)
    (partition : Bool → ℕ → ℕ) (hmono : ∀ sp v, partition sp v ≤ partition sp (v + 1))
    (step : ℕ → ℕ → Memory V → Memory V)
    (hlocal : ∀ r v, Local (voxelFoot partition r v) (fun _ => False) (step r v))
    (L : ℕ → List ℕ) (hL : ∀ r < P, stripe nx ny nz P r fuel = some (L r)) (m m' : Memory V)
    (hrun : Runs ((List.range P).map fun r => (L r).map (step r)) m m') :
    m' = runSeq ((List.range P).map fun r => (L r).map (step r)).flatten m := by
  obtain ⟨L', h1, h2, h3, h4, h5⟩ := stripes_partition nx ny nz P hP fuel hf
  have hLL : ∀ r < P, L r = L' r := by
    intro r hr
    have := (hL r hr).symm.trans (h1 r hr)
    simpa using this
  apply runs_eq_seq hrun
  apply independent_of_local (List.range P) (fun r x => ∃ v ∈ L r, voxelFoot partition r v x) (fun _ => False)
  · intro r hr f hfm
    obtain ⟨v, hv, rfl⟩ := List.mem_map.mp hfm
    exact local_widen (hlocal r v) (fun x hx => ⟨v, hv, hx⟩)
  · have := List.nodup_range (n := P)
    refine List.Pairwise.imp_of_mem ?_ this
    rintro r r' hr hr' hne x ⟨v, hv, hx⟩ ⟨v', hv', hx'⟩
    rw [List.mem_range] at hr hr'
    cases x with
    | part sp i =>
      rw [hLL r hr] at hv
      rw [hLL r' hr'] at hv'
      have hvv : v ≠ v' := by
        rintro rfl
        exact h3 r hr r' hr' hne v hv hv'
      exact voxel_ranges_disjoint (partition sp) (hmono sp) v v' hvv i hx hx'
    | rng p => exact hne (hx.symm.trans hx')
  · intro r _ x hx; exact hx.elim

/-- A step of this kind: a voxel whose first particle of species i is changed using the generator. -/
example : Local (V := fun _ : Addr => ℕ) (voxelFoot (fun _ v => 2 * v) 1 3) (fun _ => False)
    (fun m x => match x with
      | .part false 6 => m (.part false 6) + m (.rng 1)
      | .rng 1 => m (.rng 1) + 1
      | y => m y) := by
  constructor
  · intro m x hx
    split
    · exact absurd (show voxelFoot (fun _ v => 2 * v) 1 3 (.part false 6) by simp [voxelFoot]) hx
    · exact absurd (show voxelFoot (fun _ v => 2 * v) 1 3 (.rng 1) by simp [voxelFoot]) hx
    · rfl
  · intro m m' hm x hx
    have h1 := hm (.part false 6) (Or.inl (by simp [voxelFoot]))
    have h2 := hm (.rng 1) (Or.inl (by simp [voxelFoot]))
    have h3 := hm x (Or.inl hx)
    split <;> simp_all

end Verif.Collision
