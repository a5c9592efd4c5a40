import Verif.Field.GhostLemmas

/-!
# Wall conditions (C33)

What each function of /repo/src/field_advance/standard/local.cc leaves in memory, for every field, mesh
and combination of boundary codes.
-/
namespace Verif.Field

open Grid

variable {K : Type*} [Field K]

/-- The position lies on the wall of side `s`. -/
def OnWall (E : Env K) (s : Fin 3 × Bool) (c : Pos) : Prop := IsWall E s ∧ c s.1 = wallOf E.g s

/-- The boundary codes the solver knows. -/
def KnownCode (bc : ℤ) : Prop :=
  bc = antiSymmetricFields ∨ bc = symmetricFields ∨ bc = pmcFields ∨ bc = absorbFields

instance (bc : ℤ) : Decidable (KnownCode bc) := by unfold KnownCode; infer_instance

/-! ### Unknown codes -/

lemma codes_distinct : antiSymmetricFields ≠ symmetricFields ∧ antiSymmetricFields ≠ pmcFields ∧
    antiSymmetricFields ≠ absorbFields ∧ symmetricFields ≠ pmcFields ∧ symmetricFields ≠ absorbFields ∧
    pmcFields ≠ absorbFields := by decide

/-- Each of the nine wall functions stops with an error exactly when the boundary code of some wall is
not one of the four known ones. -/
theorem unknown_code_is_an_error (E : Env K) :
    let bad := ∃ s, IsWall E s ∧ ¬ KnownCode (sideBC E.g s)
    (localGhostTangB E = none ↔ bad) ∧ (localGhostNormE E = none ↔ bad) ∧
    (localGhostDivB E = none ↔ bad) ∧ (localAdjustTangE E = none ↔ bad) ∧
    (localAdjustNormB E = none ↔ bad) ∧ (localAdjustDivE E = none ↔ bad) ∧
    (localAdjustJf E = none ↔ bad) ∧ (localAdjustRhof E = none ↔ bad) ∧
    (localAdjustRhob E = none ↔ bad) := by
  have key : ∀ act : Fin 3 × Bool → ℤ → Option (List (Step K)),
      (∀ s bc, act s bc = none ↔ ¬ KnownCode bc) →
      (localPass E act = none ↔ ∃ s, IsWall E s ∧ ¬ KnownCode (sideBC E.g s)) := by
    intro act hact
    rw [localPass_none]
    exact exists_congr fun s => and_congr_right fun _ => hact s _
  refine ⟨key _ ?_, key _ ?_, key _ ?_, key _ ?_, key _ ?_, key _ ?_, key _ ?_, key _ ?_, key _ ?_⟩ <;>
  · intro s bc
    simp only [KnownCode]
    split_ifs <;> simp_all <;> tauto

/-! ### Tangential E on conducting walls -/

/-- Addresses cleared by `local_adjust_tang_e` on a side. -/
private def tangAddrs (g : LGrid) (s : Fin 3 × Bool) : List Addr :=
  (edgePlane g s.1 (s.1 + 1) (wallOf g s)).flatMap (fun c => [(vox g c, .e (s.1 + 1)), (vox g c, .tca (s.1 + 1))]) ++
  (edgePlane g s.1 (s.1 + 2) (wallOf g s)).flatMap (fun c => [(vox g c, .e (s.1 + 2)), (vox g c, .tca (s.1 + 2))])

private lemma runSeq_zero (L : List Addr) (m : FMem K) (x : Addr) :
    runSeq (L.map fun y => (setAt y fun _ => (0 : K))) m x = if x ∈ L then 0 else m x := by
  induction L generalizing m with
  | nil => simp
  | cons y L ih =>
    rw [List.map_cons, runSeq_cons, ih]
    by_cases hx : x = y
    · subst hx; simp [setAt]
    · simp [hx, setAt, Function.update_of_ne hx]

private lemma mem_tangAddrs {g : LGrid} (hg : Mesh g) (s : Fin 3 × Bool) (x : Addr) :
    x ∈ tangAddrs g s ↔ ∃ a c, s.1 ≠ a ∧ EdgeOn g a c ∧ c s.1 = wallOf g s ∧
      (x = (vox g c, .e a) ∨ x = (vox g c, .tca a)) := by
  obtain ⟨n1, n2, n3⟩ := add_one_ne s.1
  simp only [tangAddrs, List.mem_append, List.mem_flatMap, mem_wall_edge hg s _ n1,
    mem_wall_edge hg s _ n2, List.mem_cons, List.not_mem_nil, or_false]
  constructor
  · rintro (⟨c, ⟨h1, h2⟩, h⟩ | ⟨c, ⟨h1, h2⟩, h⟩)
    · exact ⟨_, c, n1.symm, h1, h2, h⟩
    · exact ⟨_, c, n2.symm, h1, h2, h⟩
  · rintro ⟨a, c, hne, h1, h2, h⟩
    rcases axis_cases s.1 a with rfl | rfl | rfl
    · exact absurd rfl hne
    · exact Or.inl ⟨c, ⟨h1, h2⟩, h⟩
    · exact Or.inr ⟨c, ⟨h1, h2⟩, h⟩

/-- The edge `(a, c)` is tangential to a wall with the `anti_symmetric_fields` (perfect conductor) code
and lies on it. -/
def OnConductor (E : Env K) (a : Fin 3) (c : Pos) : Prop :=
  ∃ s, s.1 ≠ a ∧ OnWall E s c ∧ sideBC E.g s = antiSymmetricFields

/-- After `local_adjust_tang_e` the electric field and its damping term are zero on every edge that lies
on a conducting wall, and everything else is as before. -/
theorem tang_e_zero_on_conductor {E : Env K} (hg : Mesh E.g) {adj : List (Step K)}
    (h : localAdjustTangE E = some adj) (m : FMem K) :
    (∀ a c, EdgeOn E.g a c → OnConductor E a c →
      runSeq adj m (vox E.g c, .e a) = 0 ∧ runSeq adj m (vox E.g c, .tca a) = 0) ∧
    ∀ x, (∀ a c, EdgeOn E.g a c → OnConductor E a c → ¬ EW E.g (a, c) x) → runSeq adj m x = m x := by
  have key := adjust_result (E := E) (tangAddrs E.g)
    (fun bc v => if bc = antiSymmetricFields then (0 : K) else v) (by
      intro s bc l hl m x
      dsimp only at hl
      split_ifs at hl with h1 h2
      · simp only [Option.some.injEq] at hl
        subst hl
        rw [if_pos h1, ← runSeq_zero (tangAddrs E.g s) m x]
        simp only [tangAddrs, List.map_append, List.map_flatMap, List.map_cons, List.map_nil]
      · simp only [Option.some.injEq] at hl
        subst hl
        simp [h1]) h m
  constructor
  · rintro a c hc ⟨s, hne, ⟨hw, hx⟩, hbc⟩
    constructor
    · rw [key]
      refine foldl_absorb (fun s v => if sideBC E.g s = antiSymmetricFields then (0 : K) else v) _
        (by intro; simp) ⟨s, ?_, by simp [hbc]⟩ _
      simp only [List.mem_filter, mem_sides, true_and, decide_eq_true_eq]
      exact ⟨hw, (mem_tangAddrs hg s _).mpr ⟨a, c, hne, hc, hx, Or.inl rfl⟩⟩
    · rw [key]
      refine foldl_absorb (fun s v => if sideBC E.g s = antiSymmetricFields then (0 : K) else v) _
        (by intro; simp) ⟨s, ?_, by simp [hbc]⟩ _
      simp only [List.mem_filter, mem_sides, true_and, decide_eq_true_eq]
      exact ⟨hw, (mem_tangAddrs hg s _).mpr ⟨a, c, hne, hc, hx, Or.inr rfl⟩⟩
  · intro x hx
    rw [key]
    refine foldl_same (fun s v => if sideBC E.g s = antiSymmetricFields then (0 : K) else v) _ ?_ _
    intro s hs v
    simp only [List.mem_filter, mem_sides, true_and, decide_eq_true_eq] at hs
    obtain ⟨a, c, hne, hc, hw, he⟩ := (mem_tangAddrs hg s x).mp hs.2
    split_ifs with hbc
    · exact absurd he (hx a c hc ⟨s, hne, ⟨hs.1, hw⟩, hbc⟩)
    · rfl

/-! ### Normal B on symmetric walls -/

/-- After `local_adjust_norm_b` the magnetic field normal to a wall with the `symmetric_fields` code is
zero on the wall, and everything else is as before. -/
theorem norm_b_zero_on_symmetric {E : Env K} (hg : Mesh E.g) {adj : List (Step K)}
    (h : localAdjustNormB E = some adj) (m : FMem K) :
    (∀ s c, FaceOn E.g s.1 c → OnWall E s c → sideBC E.g s = symmetricFields →
      runSeq adj m (vox E.g c, .cb s.1) = 0) ∧
    ∀ x, (∀ s c, FaceOn E.g s.1 c → OnWall E s c → sideBC E.g s = symmetricFields →
      x ≠ (vox E.g c, .cb s.1)) → runSeq adj m x = m x := by
  obtain ⟨-, d2, d3, d4, d5, -⟩ := codes_distinct
  have key := adjust_result (E := E) (fun s => at' E.g (.cb s.1) (facePlane E.g s.1 (wallOf E.g s)))
    (fun bc v => if bc = symmetricFields then (0 : K) else v) (by
      intro s bc l hl m x
      split_ifs at hl with h1 h2
      · simp only [Option.some.injEq] at hl
        subst hl
        have : bc ≠ symmetricFields := by
          rintro rfl
          revert h1; decide
        simp [this]
      · simp only [Option.some.injEq] at hl
        subst hl
        rw [if_pos h2, ← runSeq_zero _ m x]
        simp only [at', List.map_map, Function.comp_def]) h m
  have mem : ∀ s x, x ∈ at' E.g (.cb s.1) (facePlane E.g s.1 (wallOf E.g s)) ↔
      ∃ c, FaceOn E.g s.1 c ∧ c s.1 = wallOf E.g s ∧ x = (vox E.g c, .cb s.1) := by
    intro s x
    simp only [at', List.mem_map, mem_wall_face hg]
    constructor
    · rintro ⟨c, ⟨h1, h2⟩, rfl⟩; exact ⟨c, h1, h2, rfl⟩
    · rintro ⟨c, h1, h2, rfl⟩; exact ⟨c, ⟨h1, h2⟩, rfl⟩
  constructor
  · rintro s c hc ⟨hw, hx⟩ hbc
    rw [key]
    refine foldl_absorb (fun s v => if sideBC E.g s = symmetricFields then (0 : K) else v) _
      (by intro; simp) ⟨s, ?_, by simp [hbc]⟩ _
    simp only [List.mem_filter, mem_sides, true_and, decide_eq_true_eq]
    exact ⟨hw, (mem s _).mpr ⟨c, hc, hx, rfl⟩⟩
  · intro x hx
    rw [key]
    refine foldl_same (fun s v => if sideBC E.g s = symmetricFields then (0 : K) else v) _ ?_ _
    intro s hs v
    simp only [List.mem_filter, mem_sides, true_and, decide_eq_true_eq] at hs
    obtain ⟨c, hc, hw, he⟩ := (mem s x).mp hs.2
    split_ifs with hbc
    · exact absurd he (hx s c hc ⟨hs.1, hw⟩ hbc)
    · rfl

/-! ### Node quantities -/

/-- Generic statement for node quantities. -/
private lemma node_adjust {E : Env K} (hg : Mesh E.g) (T : FC) (zero : ℤ → Prop) [DecidablePred zero] (k : K)
    {act : Fin 3 × Bool → ℤ → Option (List (Step K))}
    (hact : ∀ s bc l, act s bc = some l → ∀ m x, runSeq l m x =
      if x ∈ at' E.g T (nodePlane E.g s.1 (wallOf E.g s)) then (if zero bc then 0 else m x * k) else m x)
    {adj : List (Step K)} (h : localPass E act = some adj) (m : FMem K) :
    (∀ c, NodeOn E.g c → (∃ s, OnWall E s c ∧ zero (sideBC E.g s)) → runSeq adj m (vox E.g c, T) = 0) ∧
    (∀ c, NodeOn E.g c → (∀ s, OnWall E s c → ¬ zero (sideBC E.g s)) →
      runSeq adj m (vox E.g c, T) = m (vox E.g c, T) * k ^ (sides.filter fun s => IsWall E s ∧ c s.1 = wallOf E.g s).length) ∧
    ∀ x, (∀ c s, NodeOn E.g c → OnWall E s c → x ≠ (vox E.g c, T)) → runSeq adj m x = m x := by
  have key := adjust_result (E := E) (fun s => at' E.g T (nodePlane E.g s.1 (wallOf E.g s)))
    (fun bc v => if zero bc then (0 : K) else v * k) hact h m
  have mem : ∀ s c, NodeOn E.g c → ((vox E.g c, T) ∈ at' E.g T (nodePlane E.g s.1 (wallOf E.g s)) ↔
      c s.1 = wallOf E.g s) := by
    intro s c hc
    rw [mem_at' (wall_node_inArray hg s) hc.inArray, mem_wall_node hg]
    simp [hc]
  refine ⟨?_, ?_, ?_⟩
  · rintro c hc ⟨s, ⟨hw, hx⟩, hz⟩
    rw [key]
    refine foldl_absorb (fun s v => if zero (sideBC E.g s) then (0 : K) else v * k) _
      (by intro; simp) ⟨s, ?_, by simp [hz]⟩ _
    simp only [List.mem_filter, mem_sides, true_and, decide_eq_true_eq]
    exact ⟨hw, (mem s c hc).mpr hx⟩
  · intro c hc hnz
    rw [key]
    have e : (sides.filter fun s => IsWall E s ∧ (vox E.g c, T) ∈ at' E.g T (nodePlane E.g s.1 (wallOf E.g s))) =
        sides.filter fun s => IsWall E s ∧ c s.1 = wallOf E.g s := by
      apply List.filter_congr
      intro s _
      simp [mem s c hc]
    rw [e]
    refine foldl_scale (fun s v => if zero (sideBC E.g s) then (0 : K) else v * k) _ k ?_ _
    intro s hs v
    simp only [List.mem_filter, mem_sides, true_and, decide_eq_true_eq] at hs
    simp [hnz s hs]
  · intro x hx
    rw [key]
    have : (sides.filter fun s => IsWall E s ∧ x ∈ at' E.g T (nodePlane E.g s.1 (wallOf E.g s))) = [] := by
      rw [List.filter_eq_nil_iff]
      intro s _
      simp only [decide_eq_true_eq, not_and]
      intro hw hxm
      simp only [at', List.mem_map] at hxm
      obtain ⟨c, hc, rfl⟩ := hxm
      obtain ⟨h1, h2⟩ := (mem_wall_node hg s c).mp hc
      exact hx c s h1 ⟨hw, h2⟩ rfl
    rw [this]
    rfl

private lemma runSeq_at' {g : LGrid} (T : FC) {L : List Pos} (hn : L.Nodup) (hL : ∀ c ∈ L, InArray g c) (φ : K → K)
    (m : FMem K) (x : Addr) :
    runSeq (L.map fun c => setAt (vox g c, T) fun m => φ (m (vox g c, T))) m x =
      if x ∈ at' g T L then φ (m x) else m x := by
  rw [← runSeq_pt φ (at' g T L) (at'_nodup T hn hL) m x]
  simp only [at', List.map_map, Function.comp_def, pt]

/-- `local_adjust_div_e`: the divergence error is zero on conducting and absorbing walls and unchanged
elsewhere. -/
theorem div_e_zero_on_walls {E : Env K} (hg : Mesh E.g) {adj : List (Step K)}
    (h : localAdjustDivE E = some adj) (m : FMem K) :
    (∀ c, NodeOn E.g c → (∃ s, OnWall E s c ∧ (sideBC E.g s = antiSymmetricFields ∨
      sideBC E.g s = absorbFields)) → runSeq adj m (vox E.g c, .divE) = 0) ∧
    (∀ c, NodeOn E.g c → (∀ s, OnWall E s c → ¬ (sideBC E.g s = antiSymmetricFields ∨
      sideBC E.g s = absorbFields)) → runSeq adj m (vox E.g c, .divE) = m (vox E.g c, .divE)) ∧
    ∀ x, (∀ c s, NodeOn E.g c → OnWall E s c → x ≠ (vox E.g c, .divE)) → runSeq adj m x = m x := by
  have := node_adjust hg .divE (fun bc => bc = antiSymmetricFields ∨ bc = absorbFields) 1 (by
      intro s bc l hl m x
      split_ifs at hl with h1 h2
      · simp only [Option.some.injEq] at hl
        subst hl
        simp only [h1, if_true]
        exact runSeq_at' .divE (box_nodup _ _) (wall_node_inArray hg s) (fun _ => 0) m x
      · simp only [Option.some.injEq] at hl
        subst hl
        simp [h1]) h m
  simpa using this

/-- `local_adjust_rhob`: the bound charge is zero on conducting walls and unchanged elsewhere. -/
theorem rhob_zero_on_conductor {E : Env K} (hg : Mesh E.g) {adj : List (Step K)}
    (h : localAdjustRhob E = some adj) (m : FMem K) :
    (∀ c, NodeOn E.g c → (∃ s, OnWall E s c ∧ sideBC E.g s = antiSymmetricFields) →
      runSeq adj m (vox E.g c, .rhob) = 0) ∧
    (∀ c, NodeOn E.g c → (∀ s, OnWall E s c → sideBC E.g s ≠ antiSymmetricFields) →
      runSeq adj m (vox E.g c, .rhob) = m (vox E.g c, .rhob)) ∧
    ∀ x, (∀ c s, NodeOn E.g c → OnWall E s c → x ≠ (vox E.g c, .rhob)) → runSeq adj m x = m x := by
  have := node_adjust hg .rhob (fun bc => bc = antiSymmetricFields) 1 (by
      intro s bc l hl m x
      split_ifs at hl with h1 h2
      · simp only [Option.some.injEq] at hl
        subst hl
        simp only [h1, if_true]
        exact runSeq_at' .rhob (box_nodup _ _) (wall_node_inArray hg s) (fun _ => 0) m x
      · simp only [Option.some.injEq] at hl
        subst hl
        simp [h1]) h m
  simpa using this

/-- `local_adjust_rhof`: the free charge is zero on conducting walls; elsewhere it is doubled once for every
wall the node lies on. -/
theorem rhof_at_walls {E : Env K} (hg : Mesh E.g) {adj : List (Step K)}
    (h : localAdjustRhof E = some adj) (m : FMem K) :
    (∀ c, NodeOn E.g c → (∃ s, OnWall E s c ∧ sideBC E.g s = antiSymmetricFields) →
      runSeq adj m (vox E.g c, .rhof) = 0) ∧
    (∀ c, NodeOn E.g c → (∀ s, OnWall E s c → sideBC E.g s ≠ antiSymmetricFields) →
      runSeq adj m (vox E.g c, .rhof) = m (vox E.g c, .rhof) *
        2 ^ (sides.filter fun s => IsWall E s ∧ c s.1 = wallOf E.g s).length) ∧
    ∀ x, (∀ c s, NodeOn E.g c → OnWall E s c → x ≠ (vox E.g c, .rhof)) → runSeq adj m x = m x := by
  refine node_adjust hg .rhof (fun bc => bc = antiSymmetricFields) 2 (by
      intro s bc l hl m x
      split_ifs at hl with h1 h2
      · simp only [Option.some.injEq] at hl
        subst hl
        simp only [h1, if_true]
        exact runSeq_at' .rhof (box_nodup _ _) (wall_node_inArray hg s) (fun _ => 0) m x
      · simp only [Option.some.injEq] at hl
        subst hl
        simp only [h1, if_false]
        exact runSeq_at' .rhof (box_nodup _ _) (wall_node_inArray hg s) (fun v => v * 2) m x) h m

/-! ### Free current -/

private def jfAddrs (g : LGrid) (s : Fin 3 × Bool) : List Addr :=
  at' g (.jf (s.1 + 1)) (edgePlane g s.1 (s.1 + 1) (wallOf g s)) ++
  at' g (.jf (s.1 + 2)) (edgePlane g s.1 (s.1 + 2) (wallOf g s))

/-- `local_adjust_jf`: the free current along a conducting wall is zero; elsewhere it is doubled once for
every wall the edge lies on. -/
theorem jf_at_walls {E : Env K} (hg : Mesh E.g) {adj : List (Step K)}
    (h : localAdjustJf E = some adj) (m : FMem K) :
    (∀ a c, EdgeOn E.g a c → OnConductor E a c → runSeq adj m (vox E.g c, .jf a) = 0) ∧
    (∀ a c, EdgeOn E.g a c → ¬ OnConductor E a c → runSeq adj m (vox E.g c, .jf a) =
      m (vox E.g c, .jf a) *
        2 ^ (sides.filter fun s => s.1 ≠ a ∧ IsWall E s ∧ c s.1 = wallOf E.g s).length) ∧
    ∀ x, (∀ a c s, EdgeOn E.g a c → s.1 ≠ a → OnWall E s c → x ≠ (vox E.g c, .jf a)) →
      runSeq adj m x = m x := by
  have nod : ∀ s, (jfAddrs E.g s).Nodup := by
    intro s
    obtain ⟨-, -, n3⟩ := add_one_ne s.1
    rw [jfAddrs, List.nodup_append]
    refine ⟨at'_nodup _ (box_nodup _ _) (wall_edge_inArray hg s _),
      at'_nodup _ (box_nodup _ _) (wall_edge_inArray hg s _), ?_⟩
    rintro x hx y hy rfl
    have := (at'_kind hx).symm.trans (at'_kind hy)
    simp only [FC.jf.injEq] at this
    exact n3 this
  have key := adjust_result (E := E) (jfAddrs E.g)
    (fun bc v => if bc = antiSymmetricFields then (0 : K) else v * 2) (by
      intro s bc l hl m x
      dsimp only at hl
      split_ifs at hl with h1 h2
      · simp only [Option.some.injEq] at hl
        subst hl
        rw [if_pos h1, ← runSeq_pt (fun _ => 0) _ (nod s) m x]
        simp only [jfAddrs, at', List.map_append, List.map_map, Function.comp_def, pt]
      · simp only [Option.some.injEq] at hl
        subst hl
        rw [if_neg h1, ← runSeq_pt (fun v => v * 2) _ (nod s) m x]
        simp only [jfAddrs, at', List.map_append, List.map_map, Function.comp_def, pt]) h m
  have mem : ∀ s a c, EdgeOn E.g a c → ((vox E.g c, .jf a) ∈ jfAddrs E.g s ↔
      s.1 ≠ a ∧ c s.1 = wallOf E.g s) := by
    intro s a c hc
    obtain ⟨n1, n2, n3⟩ := add_one_ne s.1
    rw [jfAddrs, List.mem_append, mem_at' (wall_edge_inArray hg s _) hc.inArray,
      mem_at' (wall_edge_inArray hg s _) hc.inArray, mem_wall_edge hg s _ n1, mem_wall_edge hg s _ n2]
    simp only [FC.jf.injEq]
    constructor
    · rintro (⟨rfl, -, h2⟩ | ⟨rfl, -, h2⟩)
      · exact ⟨n1.symm, h2⟩
      · exact ⟨n2.symm, h2⟩
    · rintro ⟨hne, h2⟩
      rcases axis_cases s.1 a with rfl | rfl | rfl
      · exact absurd rfl hne
      · exact Or.inl ⟨rfl, hc, h2⟩
      · exact Or.inr ⟨rfl, hc, h2⟩
  refine ⟨?_, ?_, ?_⟩
  · rintro a c hc ⟨s, hne, ⟨hw, hx⟩, hbc⟩
    rw [key]
    refine foldl_absorb (fun s v => if sideBC E.g s = antiSymmetricFields then (0 : K) else v * 2) _
      (by intro; simp) ⟨s, ?_, by simp [hbc]⟩ _
    simp only [List.mem_filter, mem_sides, true_and, decide_eq_true_eq]
    exact ⟨hw, (mem s a c hc).mpr ⟨hne, hx⟩⟩
  · intro a c hc hn
    rw [key]
    have e : (sides.filter fun s => IsWall E s ∧ (vox E.g c, .jf a) ∈ jfAddrs E.g s) =
        sides.filter fun s => s.1 ≠ a ∧ IsWall E s ∧ c s.1 = wallOf E.g s := by
      apply List.filter_congr
      intro s _
      simp only [mem s a c hc]
      congr 1
      simp only [eq_iff_iff]
      tauto
    rw [e]
    refine foldl_scale (fun s v => if sideBC E.g s = antiSymmetricFields then (0 : K) else v * 2) _ 2 ?_ _
    intro s hs v
    simp only [List.mem_filter, mem_sides, true_and, decide_eq_true_eq] at hs
    rw [if_neg]
    intro hbc
    exact hn ⟨s, hs.1, ⟨hs.2.1, hs.2.2⟩, hbc⟩
  · intro x hx
    rw [key]
    have : (sides.filter fun s => IsWall E s ∧ x ∈ jfAddrs E.g s) = [] := by
      rw [List.filter_eq_nil_iff]
      intro s _
      simp only [decide_eq_true_eq, not_and]
      intro hw hxm
      obtain ⟨n1, n2, n3⟩ := add_one_ne s.1
      rw [jfAddrs, List.mem_append] at hxm
      rcases hxm with hxm | hxm
      · simp only [at', List.mem_map] at hxm
        obtain ⟨c, hc, rfl⟩ := hxm
        obtain ⟨h1, h2⟩ := (mem_wall_edge hg s _ n1 c).mp hc
        exact hx _ c s h1 n1.symm ⟨hw, h2⟩ rfl
      · simp only [at', List.mem_map] at hxm
        obtain ⟨c, hc, rfl⟩ := hxm
        obtain ⟨h1, h2⟩ := (mem_wall_edge hg s _ n2 c).mp hc
        exact hx _ c s h1 n2.symm ⟨hw, h2⟩ rfl
    rw [this]
    rfl

end Verif.Field
