import Verif.Region.Props
import Verif.MoveP.Mesh

/-! # Particle boundary conditions of regions -/
namespace Verif.Region

open Grid (LGrid VOXEL BOUNDARY Cell stepCell face_cases)
open Field (Pos vox box mem_box box_nodup dims InArray vox_inj CellOn)
open Inject (Geom)
open MoveP (LocalMesh MState PassSpec pass pass_spec loop moveP nvox localNext faceOf)

variable {K : Type*} [Field K]

/-- A cell as a position. -/
def toPos (c : Cell) : Pos := ![c.x, c.y, c.z]

/-- Spec: the centre of a cell is in the region. -/
def CellIn (G : Geom K) (rgn : (Fin 3 → K) → Bool) (c : Cell) : Prop := Inside G rgn (toPos c)

/-- A boundary condition that an input deck can have: those made with `define_particle_bc` have numbers below -2
(/repo/src/boundary/boundary.cc:57-76). -/
def Pbc.Ok : Pbc → Prop
  | .custom id => id < -2
  | _ => True

lemma pbc_neg {b : Pbc} (h : b.Ok) (hu : b ≠ .unchanged) : getParticleBcId b < 0 := by
  cases b with
  | unchanged => exact absurd rfl hu
  | reflect => simp [getParticleBcId]
  | absorb => simp [getParticleBcId]
  | custom id => have : id < -2 := h; simp only [getParticleBcId]; omega

lemma pbc_zero {b : Pbc} (h : b.Ok) : getParticleBcId b = 0 ↔ b = .unchanged := by
  constructor
  · intro e
    by_contra hu
    have := pbc_neg h hu
    omega
  · rintro rfl
    rfl

lemma seven_eq [CharZero K] (G : Geom K) (rgn : (Fin 3 → K) → Bool) (c : Cell) :
    ((sevenOf G rgn c.x c.y c.z).1 = true ↔ CellIn G rgn c) ∧
    ∀ f : Fin 6, ((sevenOf G rgn c.x c.y c.z).2 f = true ↔ CellIn G rgn (stepCell c (f : ℕ))) := by
  have h : ∀ (d : Cell) (s : Fin 3 → K), (∀ a, axisAt G a (toPos c a) (s a) = spot G (toPos d) (fun _ => true) a) →
      (rgn ![axisAt G 0 c.x (s 0), axisAt G 1 c.y (s 1), axisAt G 2 c.z (s 2)] = true ↔ CellIn G rgn d) := fun d s hs => by
    have e : ![axisAt G 0 c.x (s 0), axisAt G 1 c.y (s 1), axisAt G 2 c.z (s 2)] = spot G (toPos d) fun _ => true := by
      funext a
      rw [← hs a]
      fin_cases a <;> rfl
    rw [e]
    rfl
  have key : ∀ (i j : ℤ) (s : K) (a : Fin 3), (j : K) - s = i - 1 + 1 / 2 → axisAt G a j s = G.x0 a + G.d a * ((i : K) - 1 + 1 / 2) :=
    fun i j s a e => by unfold axisAt; rw [e]
  refine ⟨h c (fun _ => 1 / 2) fun a => ?_, fun f => ?_⟩
  · simp only [spot, if_true]
    exact key _ _ _ _ (by ring)
  · fin_cases f
    · refine h (stepCell c 0) ![3 / 2, 1 / 2, 1 / 2] fun a => ?_
      simp only [spot, if_true]
      fin_cases a <;> exact key _ _ _ _ (by simp [toPos, stepCell] <;> ring)
    · refine h (stepCell c 1) ![1 / 2, 3 / 2, 1 / 2] fun a => ?_
      simp only [spot, if_true]
      fin_cases a <;> exact key _ _ _ _ (by simp [toPos, stepCell] <;> ring)
    · refine h (stepCell c 2) ![1 / 2, 1 / 2, 3 / 2] fun a => ?_
      simp only [spot, if_true]
      fin_cases a <;> exact key _ _ _ _ (by simp [toPos, stepCell] <;> ring)
    · refine h (stepCell c 3) ![-(1 / 2), 1 / 2, 1 / 2] fun a => ?_
      simp only [spot, if_true]
      fin_cases a <;> exact key _ _ _ _ (by simp [toPos, stepCell] <;> ring)
    · refine h (stepCell c 4) ![1 / 2, -(1 / 2), 1 / 2] fun a => ?_
      simp only [spot, if_true]
      fin_cases a <;> exact key _ _ _ _ (by simp [toPos, stepCell] <;> ring)
    · refine h (stepCell c 5) ![1 / 2, 1 / 2, -(1 / 2)] fun a => ?_
      simp only [spot, if_true]
      fin_cases a <;> exact key _ _ _ _ (by simp [toPos, stepCell] <;> ring)

lemma setSix_apply (b : Fin 6 → Bool) (n v : ℤ) (t : ℤ → ℤ) (y : ℤ) :
    (∀ f : Fin 6, y = n + (f : ℕ) → setSix b n v t y = if b f then v else t y) ∧
    ((∀ f : Fin 6, y ≠ n + (f : ℕ)) → setSix b n v t y = t y) := by
  constructor
  · rintro f rfl
    unfold setSix
    simp only [setIf_apply]
    fin_cases f <;> simp
  · intro h
    have h0 := h 0; have h1 := h 1; have h2 := h 2; have h3 := h 3; have h4 := h 4; have h5 := h 5
    unfold setSix
    simp only [setIf_apply]
    simp at h0 h1 h2 h3 h4 h5
    simp [h0, h1, h2, h3, h4, h5]

/-- The stores of `set_region_bc` for one cell. -/
def bcAt (G : Geom K) (rgn : (Fin 3 → K) → Bool) (v ib eb : ℤ) (c : Pos) (n : ℤ) (t : ℤ → ℤ) : ℤ → ℤ :=
  let r := sevenOf G rgn (c 0) (c 1) (c 2)
  let t := if v ≠ 0 then setSix (fun f => r.1 && r.2 f) n v t else t
  let t := if ib ≠ 0 then setSix (fun f => r.1 && !r.2 f) n ib t else t
  if eb ≠ 0 then setSix (fun f => !r.1 && r.2 f) n eb t else t

lemma bcAt_face (G : Geom K) (rgn : (Fin 3 → K) → Bool) (v ib eb : ℤ) (c : Pos) (n : ℤ) (t : ℤ → ℤ) (f : Fin 6) :
    bcAt G rgn v ib eb c n t (n + (f : ℕ)) =
      if eb ≠ 0 ∧ (sevenOf G rgn (c 0) (c 1) (c 2)).1 = false ∧ (sevenOf G rgn (c 0) (c 1) (c 2)).2 f = true then eb
      else if ib ≠ 0 ∧ (sevenOf G rgn (c 0) (c 1) (c 2)).1 = true ∧ (sevenOf G rgn (c 0) (c 1) (c 2)).2 f = false then ib
      else if v ≠ 0 ∧ (sevenOf G rgn (c 0) (c 1) (c 2)).1 = true ∧ (sevenOf G rgn (c 0) (c 1) (c 2)).2 f = true then v
      else t (n + (f : ℕ)) := by
  have ei : ∀ (p : Prop) [Decidable p] (m m' : ℤ → ℤ) y, (if p then m else m') y = if p then m y else m' y := fun p _ m m' y => by
    split_ifs <;> rfl
  unfold bcAt
  simp only [ei, (setSix_apply _ _ _ _ _).1 f rfl]
  cases (sevenOf G rgn (c 0) (c 1) (c 2)).1 <;> cases (sevenOf G rgn (c 0) (c 1) (c 2)).2 f <;> simp
  all_goals split_ifs <;> simp_all

lemma bcAt_other (G : Geom K) (rgn : (Fin 3 → K) → Bool) (v ib eb : ℤ) (c : Pos) (n : ℤ) (t : ℤ → ℤ) (y : ℤ)
    (h : ∀ f : Fin 6, y ≠ n + (f : ℕ)) : bcAt G rgn v ib eb c n t y = t y := by
  have ei : ∀ (p : Prop) [Decidable p] (m m' : ℤ → ℤ) y, (if p then m else m') y = if p then m y else m' y := fun p _ m m' y => by
    split_ifs <;> rfl
  unfold bcAt
  simp only [ei, (setSix_apply _ _ _ _ _).2 h, ite_self]

/-- **C98.** `set_region_bc( rgn, vpbc, ipbc, epbc )` gives `vpbc` to the faces between two cells of the region, `ipbc` to the faces
of cells of the region towards cells outside, `epbc` to the faces of cells outside towards cells of the region, and leaves all
other faces; a boundary condition `leave_unchanged` leaves its faces. -/
theorem region_bc_set [CharZero K] {g : LGrid} (hg : ∀ a, 0 ≤ dims g a) (G : Geom K) (rgn : (Fin 3 → K) → Bool) (vpbc ipbc epbc : Pbc)
    (hv : vpbc.Ok) (hi : ipbc.Ok) (he : epbc.Ok) (t : ℤ → ℤ) :
    let t' := setRegionBc g G rgn vpbc ipbc epbc t
    let entry := fun (c : Cell) (f : Fin 6) => 6 * VOXEL g.nx g.ny c.x c.y c.z + (f : ℕ)
    let becomes := fun (b : Pbc) (n : ℤ) => t' n = if b = .unchanged then t n else getParticleBcId b
    (∀ c : Cell, c.Interior g.nx g.ny g.nz → ∀ f : Fin 6,
      (CellIn G rgn c → CellIn G rgn (stepCell c (f : ℕ)) → becomes vpbc (entry c f)) ∧
      (CellIn G rgn c → ¬ CellIn G rgn (stepCell c (f : ℕ)) → becomes ipbc (entry c f)) ∧
      (¬ CellIn G rgn c → CellIn G rgn (stepCell c (f : ℕ)) → becomes epbc (entry c f)) ∧
      (¬ CellIn G rgn c → ¬ CellIn G rgn (stepCell c (f : ℕ)) → t' (entry c f) = t (entry c f))) ∧
    ∀ n, (∀ c : Cell, c.Interior g.nx g.ny g.nz → ∀ f : Fin 6, n ≠ entry c f) → t' n = t n := by
  intro t' entry becomes
  have hm : ∀ c, c ∈ box (fun _ => 1) (dims g) ↔ CellOn g c := fun c => mem_box
  have harr : ∀ c, CellOn g c → InArray g c := fun c h a => ⟨by have := (h a).1; omega, by have := (h a).2; omega⟩
  have key := foldl_own (fun (c : Pos) (t : ℤ → ℤ) =>
      bcAt G rgn (getParticleBcId vpbc) (getParticleBcId ipbc) (getParticleBcId epbc) c (6 * vox g c) t)
    (fun c y => ∃ f : Fin 6, y = 6 * vox g c + (f : ℕ)) (box (fun _ => 1) (dims g)) (box_nodup _ _)
    (fun c m y h => bcAt_other _ _ _ _ _ _ _ _ _ fun f hf => h ⟨f, hf⟩)
    (fun c m m' y h => by
      by_cases hy : ∃ f : Fin 6, y = 6 * vox g c + (f : ℕ)
      · obtain ⟨f, rfl⟩ := hy
        rw [bcAt_face, bcAt_face, h]
      · rw [bcAt_other _ _ _ _ _ _ _ _ _ fun f hf => hy ⟨f, hf⟩, bcAt_other _ _ _ _ _ _ _ _ _ fun f hf => hy ⟨f, hf⟩, h])
    (fun c hc d hd y => by
      rintro ⟨f, e⟩ ⟨f', e'⟩
      refine vox_inj (harr _ ((hm c).1 hc)) (harr _ ((hm d).1 hd)) ?_
      have := f.2; have := f'.2
      omega) t
  have et : (getParticleBcId vpbc = 0 ∧ getParticleBcId ipbc = 0 ∧ getParticleBcId epbc = 0 → t' = t) ∧
      (¬ (getParticleBcId vpbc = 0 ∧ getParticleBcId ipbc = 0 ∧ getParticleBcId epbc = 0) → t' = (box (fun _ => 1) (dims g)).foldl (fun t c =>
        bcAt G rgn (getParticleBcId vpbc) (getParticleBcId ipbc) (getParticleBcId epbc) c (6 * vox g c) t) t) := by
    constructor
    · intro h
      show setRegionBc g G rgn vpbc ipbc epbc t = t
      unfold setRegionBc
      simp only [h, and_self, if_true]
    · intro h
      show setRegionBc g G rgn vpbc ipbc epbc t = _
      unfold setRegionBc
      simp only [h, if_false]
      rw [sweepSix_eq hg]
      rfl
  by_cases h0 : getParticleBcId vpbc = 0 ∧ getParticleBcId ipbc = 0 ∧ getParticleBcId epbc = 0
  · have e := et.1 h0
    have z1 := (pbc_zero hv).1 h0.1
    have z2 := (pbc_zero hi).1 h0.2.1
    have z3 := (pbc_zero he).1 h0.2.2
    refine ⟨fun c _ f => ⟨fun _ _ => ?_, fun _ _ => ?_, fun _ _ => ?_, fun _ _ => by rw [e]⟩, fun n _ => by rw [e]⟩
    · show t' _ = _; rw [e, if_pos z1]
    · show t' _ = _; rw [e, if_pos z2]
    · show t' _ = _; rw [e, if_pos z3]
  · have e := et.2 h0
    refine ⟨fun c hc f => ?_, fun n hn => ?_⟩
    · have hcm : toPos c ∈ box (fun _ => 1) (dims g) := (hm _).2 fun a => by
        obtain ⟨a1, a2, a3, a4, a5, a6⟩ := hc
        fin_cases a
        exacts [⟨a1, a2⟩, ⟨a3, a4⟩, ⟨a5, a6⟩]
      have ht := (congrFun e (entry c f)).trans ((key.2 _ hcm (entry c f) ⟨f, rfl⟩).trans (bcAt_face _ _ _ _ _ _ _ _ f))
      obtain ⟨s1, s2⟩ := seven_eq G rgn c
      have s2 := s2 f
      have er : sevenOf G rgn (toPos c 0) (toPos c 1) (toPos c 2) = sevenOf G rgn c.x c.y c.z := rfl
      rw [er] at ht
      have en : 6 * vox g (toPos c) + ((f : ℕ) : ℤ) = entry c f := rfl
      rw [en] at ht
      have zz : ∀ b : Pbc, b.Ok → (b = .unchanged ↔ getParticleBcId b = 0) := fun b hb => (pbc_zero hb).symm
      have zv := zz _ hv; have zi := zz _ hi; have ze := zz _ he
      refine ⟨fun h1 h2 => ?_, fun h1 h2 => ?_, fun h1 h2 => ?_, fun h1 h2 => ?_⟩
      · have r1 := s1.2 h1
        have r2 := s2.2 h2
        show t' _ = _
        rw [ht, r1, r2]
        simp [zv]
      · have r1 := s1.2 h1
        have r2 : (sevenOf G rgn c.x c.y c.z).2 f = false := by simpa using fun h => h2 (s2.1 h)
        show t' _ = _
        rw [ht, r1, r2]
        simp [zi]
      · have r1 : (sevenOf G rgn c.x c.y c.z).1 = false := by simpa using fun h => h1 (s1.1 h)
        have r2 := s2.2 h2
        show t' _ = _
        rw [ht, r1, r2]
        simp [ze]
      · have r1 : (sevenOf G rgn c.x c.y c.z).1 = false := by simpa using fun h => h1 (s1.1 h)
        have r2 : (sevenOf G rgn c.x c.y c.z).2 f = false := by simpa using fun h => h2 (s2.1 h)
        rw [ht, r1, r2]
        simp
    · rw [e]
      refine key.1 n fun c hc => ?_
      rintro ⟨f, rfl⟩
      refine hn ⟨c 0, c 1, c 2⟩ ?_ f rfl
      have h := (hm c).1 hc
      exact ⟨(h 0).1, (h 0).2, (h 1).1, (h 1).2, (h 2).1, (h 2).2⟩

section mover
variable [LinearOrder K] [IsStrictOrderedRing K]

/-- Spec: the region is the same on both sides of a face where the local mesh is joined to itself.  (In a box cut along an axis, no
face is; in a box that is not, a periodic region.) -/
def JoinsWell (g : LGrid) (G : Geom K) (rgn : (Fin 3 → K) → Bool) : Prop :=
  ∀ c : Cell, c.Interior g.nx g.ny g.nz → ∀ f : ℤ, 0 ≤ f ∧ f < 6 →
    g.rangel ≤ g.neighbor (6 * VOXEL g.nx g.ny c.x c.y c.z + f) → g.neighbor (6 * VOXEL g.nx g.ny c.x c.y c.z + f) ≤ g.rangeh →
    (CellIn G rgn (localNext g c f) ↔ CellIn G rgn (stepCell c f))

/-- **C99.** After `set_region_bc` with boundary conditions on both sides of the surface, no move of a particle crosses the surface: a
particle of a cell of the region ends in a cell of the region, a particle outside ends outside, also if it is stopped at a face. -/
theorem region_surface_not_crossed {g : LGrid} (hg : LocalMesh g) (G : Geom K) (rgn : (Fin 3 → K) → Bool) (hj : JoinsWell g G rgn)
    (vpbc ipbc epbc : Pbc) (hv : vpbc.Ok) (hi : ipbc.Ok) (he : epbc.Ok) (hi' : ipbc ≠ .unchanged) (he' : epbc ≠ .unchanged)
    (q : K) (fuel : ℕ) (s s' : MState K) (stopped : Bool)
    (c : Cell) (hc : c.Interior g.nx g.ny g.nz) (hs : s.p.i = VOXEL g.nx g.ny c.x c.y c.z) (hd : ∀ k, -1 ≤ s.p.d k ∧ s.p.d k ≤ 1)
    (hm : moveP { g with neighbor := setRegionBc g G rgn vpbc ipbc epbc g.neighbor } q fuel s = some (stopped, s')) :
    ∃ c' : Cell, c'.Interior g.nx g.ny g.nz ∧ (CellIn G rgn c' ↔ CellIn G rgn c) ∧
      if stopped then ∃ f : ℤ, 0 ≤ f ∧ f < 6 ∧ s'.p.i = 8 * VOXEL g.nx g.ny c'.x c'.y c'.z + f
      else s'.p.i = VOXEL g.nx g.ny c'.x c'.y c'.z := by
  have hg0 : ∀ a, 0 ≤ dims g a := fun a => by
    have := hg.nx; have := hg.ny; have := hg.nz
    fin_cases a
    · show 0 ≤ g.nx; omega
    · show 0 ≤ g.ny; omega
    · show 0 ≤ g.nz; omega
  obtain ⟨b1, -⟩ := region_bc_set hg0 G rgn vpbc ipbc epbc hv hi he g.neighbor
  set t' := setRegionBc g G rgn vpbc ipbc epbc g.neighbor with ht'
  -- where the new table leads to a local voxel, it is the old one, and the surface is not crossed
  have hcross : ∀ c : Cell, c.Interior g.nx g.ny g.nz → ∀ f : ℤ, 0 ≤ f ∧ f < 6 →
      g.rangel ≤ t' (6 * VOXEL g.nx g.ny c.x c.y c.z + f) → t' (6 * VOXEL g.nx g.ny c.x c.y c.z + f) ≤ g.rangeh →
      t' (6 * VOXEL g.nx g.ny c.x c.y c.z + f) - g.rangel =
        VOXEL g.nx g.ny (localNext g c f).x (localNext g c f).y (localNext g c f).z ∧
      (CellIn G rgn (localNext g c f) ↔ CellIn G rgn c) := by
    intro c hc f hf hl hh
    obtain ⟨k1, k2, k3, k4⟩ := b1 c hc ⟨f.toNat, by omega⟩
    have ef : (((⟨f.toNat, by omega⟩ : Fin 6) : ℕ) : ℤ) = f := by show ((f.toNat : ℕ) : ℤ) = f; omega
    simp only [ef] at k1 k2 k3 k4
    have hrl := hg.rl
    by_cases h1 : CellIn G rgn c <;> by_cases h2 : CellIn G rgn (stepCell c f)
    · have := k1 h1 h2
      by_cases hu : vpbc = .unchanged
      · rw [if_pos hu] at this
        rw [this] at hl hh
        refine ⟨by rw [this]; exact hg.adj c hc f hf hl hh, ?_⟩
        rw [hj c hc f hf hl hh]
        exact iff_of_true h2 h1
      · rw [if_neg hu] at this
        have := pbc_neg hv hu
        omega
    · have := k2 h1 h2
      rw [if_neg hi'] at this
      have := pbc_neg hi hi'
      omega
    · have := k3 h1 h2
      rw [if_neg he'] at this
      have := pbc_neg he he'
      omega
    · have := k4 h1 h2
      rw [this] at hl hh
      refine ⟨by rw [this]; exact hg.adj c hc f hf hl hh, ?_⟩
      rw [hj c hc f hf hl hh]
      exact iff_of_false h2 h1
  unfold moveP at hm
  generalize q * s.p.w = q' at hm
  induction fuel generalizing s c with
  | zero => simp [loop] at hm
  | succ fuel ih =>
    have hr := MoveP.voxel_range hg hc.inMesh
    have hi0 : 0 ≤ s.p.i ∧ s.p.i < nvox { g with neighbor := t' } := by rw [hs]; exact hr
    obtain ⟨v3, n, s1, hp, v0, v1, hb, hspec⟩ := pass_spec { g with neighbor := t' } q' s hi0 hd
    rw [loop, hp] at hm
    cases hspec with
    | finished h1 =>
      simp only [Option.some.injEq, Prod.mk.injEq] at hm
      obtain ⟨rfl, rfl⟩ := hm
      exact ⟨c, hc, Iff.rfl, by simpa using hs⟩
    | reflect axis up h1 hsg hface hn => refine ih _ c hc ?_ ?_ hm; exacts [hs, hb]
    | boundary axis up h1 hsg hface hn hr =>
      simp only [Option.some.injEq, Prod.mk.injEq] at hm
      obtain ⟨rfl, rfl⟩ := hm
      have := MoveP.faceOf_range axis up
      refine ⟨c, hc, Iff.rfl, ?_⟩
      rw [if_pos rfl]
      exact ⟨faceOf axis up, this.1, this.2, by show 8 * s.p.i + _ = _; rw [hs]⟩
    | cross axis up h1 hsg hface hn hr =>
      have hf := MoveP.faceOf_range axis up
      simp only at hr hm
      rw [hs] at hr
      obtain ⟨e1, e2⟩ := hcross c hc _ hf hr.1 hr.2
      obtain ⟨c', r1, r2, r3⟩ := ih _ (localNext g c (faceOf axis up)) (MoveP.localNext_interior hg hc hf)
        (by show t' (6 * s.p.i + _) - _ = _; rw [hs]; exact e1) (fun k => by
          by_cases hk : k = axis
          · subst hk
            simp only [Function.update_self]
            cases up <;> simp [MoveP.sgn]
          · simp only [Function.update_of_ne hk]
            exact hb k) hm
      exact ⟨c', r1, r2.trans e2, r3⟩

end mover

end Verif.Region
