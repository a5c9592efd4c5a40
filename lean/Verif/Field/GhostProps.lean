import Verif.Field.WallProps

/-!
# Ghosts at walls (C33)

The ghosts that the wall functions fill: mirror images with the sign of the symmetry, or the
absorbing condition.
-/
namespace Verif.Field

open Grid

variable {K : Type*} [Field K]

/-- `c` is in the layer of ghosts behind side `s`, at a position of the local mesh in the other
directions, one further along the directions in `ext`. -/
def GhostAt (g : LGrid) (s : Fin 3 × Bool) (ext : Fin 3 → Prop) [DecidablePred ext] (c : Pos) : Prop :=
  c s.1 = ghostOf g s ∧ ∀ b, b ≠ s.1 → 1 ≤ c b ∧ c b ≤ if ext b then dims g b + 1 else dims g b

lemma GhostAt.inArray {g : LGrid} (hg : Mesh g) {s : Fin 3 × Bool} {ext : Fin 3 → Prop}
    [DecidablePred ext] {c : Pos} (h : GhostAt g s ext c) : InArray g c := by
  intro b
  have hp := hg.pos b
  by_cases hb : b = s.1
  · subst hb
    rw [h.1]
    unfold ghostOf
    split <;> omega
  · have := h.2 b hb
    split at this <;> omega

lemma ghostOf_cases {g : LGrid} (hg : Mesh g) (s : Fin 3 × Bool) :
    (s.2 = true ∧ ghostOf g s = 0) ∨ (s.2 = false ∧ ghostOf g s = dims g s.1 + 1) := by
  unfold ghostOf
  cases s.2 <;> simp

lemma side_of_ghost {g : LGrid} (hg : Mesh g) {s s' : Fin 3 × Bool} (h : s.1 = s'.1)
    (hh : ghostOf g s = ghostOf g s') : s = s' := by
  have hp := hg.pos s.1
  refine Prod.ext h ?_
  have e : dims g s'.1 = dims g s.1 := by rw [h]
  rcases ghostOf_cases hg s with ⟨h1, h2⟩ | ⟨h1, h2⟩ <;>
    rcases ghostOf_cases hg s' with ⟨h3, h4⟩ | ⟨h3, h4⟩ <;> first | omega | rw [h1, h3]

lemma other_axis {X o a b : Fin 3} (n1 : o ≠ X) (n2 : a ≠ X) (n3 : o ≠ a) (hb : b ≠ X) :
    b = o ∨ b = a := by omega

/-- The position next to a ghost is on the mesh in the direction of the side. -/
lemma inward_range {g : LGrid} (hg : Mesh g) {s : Fin 3 × Bool} {c : Pos} (h : c s.1 = ghostOf g s) :
    1 ≤ inward s c s.1 ∧ inward s c s.1 ≤ dims g s.1 := by
  have hp := hg.pos s.1
  rcases ghostOf_cases hg s with ⟨h1, h2⟩ | ⟨h1, h2⟩ <;> simp [inward, h1, up, dn, h, h2] <;> omega

lemma inward_other (s : Fin 3 × Bool) (c : Pos) {b : Fin 3} (hb : b ≠ s.1) : inward s c b = c b := by
  cases h1 : s.2 <;> simp [inward, h1, up, dn, hb]

lemma inward_ne {g : LGrid} (hg : Mesh g) {s s' : Fin 3 × Bool} {c c' : Pos} (h : c s.1 = ghostOf g s)
    (h' : c' s'.1 = ghostOf g s') (hs : s'.1 = s.1) : c' ≠ inward s c := by
  intro e
  have h1 := inward_range hg h
  rw [← e, ← hs, h'] at h1
  have hp := hg.pos s'.1
  unfold ghostOf at h1
  split at h1 <;> omega

/-! ### div b -/

/-- `local_ghost_div_b`: behind a conducting wall the divergence error is mirrored, behind a symmetric or
magnetic wall mirrored with the opposite sign, behind an absorbing wall zero; nothing else changes. -/
theorem ghost_div_b {E : Env K} (hg : Mesh E.g) {l : List (Step K)}
    (h : localGhostDivB E = some l) (m : FMem K) :
    (∀ s c, IsWall E s → GhostAt E.g s (fun _ => False) c →
      runSeq l m (vox E.g c, .divB) =
        if sideBC E.g s = antiSymmetricFields then m (vox E.g (inward s c), .divB)
        else if sideBC E.g s = absorbFields then 0
        else - m (vox E.g (inward s c), .divB)) ∧
    ∀ x, (∀ s c, IsWall E s → GhostAt E.g s (fun _ => False) c → x ≠ (vox E.g c, .divB)) →
      runSeq l m x = m x := by
  have mem : ∀ s (c : Pos), c ∈ facePlane E.g s.1 (ghostOf E.g s) ↔ GhostAt E.g s (fun _ => False) c := by
    intro s c
    rw [mem_facePlane]
    constructor
    · intro h1
      refine ⟨?_, fun b hb => ?_⟩
      · have := h1 s.1; simp at this; omega
      · have := h1 b; simpa [hb] using this
    · rintro ⟨h1, h2⟩ b
      by_cases hb : b = s.1
      · subst hb; simp [h1]
      · have := h2 b hb; simpa [hb] using this
  have key := ghost_result (E := E) (fun s => (facePlane E.g s.1 (ghostOf E.g s)).map fun c => (FC.divB, c))
    (fun s bc o m => if bc = antiSymmetricFields then m (vox E.g (inward s o.2), .divB)
        else if bc = absorbFields then 0 else - m (vox E.g (inward s o.2), .divB)) (by
      intro s bc l hl
      dsimp only at hl
      split_ifs at hl with h1 h2 h3
      · simp only [Option.some.injEq] at hl
        subst hl
        simp [List.map_map, Function.comp_def, h1]
      · simp only [Option.some.injEq] at hl
        subst hl
        have : bc ≠ absorbFields := by rintro rfl; revert h2; decide
        simp [List.map_map, Function.comp_def, h1, this]
      · simp only [Option.some.injEq] at hl
        subst hl h3
        simp [List.map_map, Function.comp_def, h1])
    (fun s => List.Nodup.map (fun _ _ e => (Prod.mk.inj e).2) (box_nodup _ _))
    (by
      intro s o ho
      simp only [List.mem_map] at ho
      obtain ⟨c, hc, rfl⟩ := ho
      exact ((mem s c).mp hc).inArray hg)
    (by
      intro s s' o ho ho'
      simp only [List.mem_map] at ho ho'
      obtain ⟨c, hc, rfl⟩ := ho
      obtain ⟨c', hc', e⟩ := ho'
      simp only [Prod.mk.injEq, true_and] at e
      subst e
      obtain ⟨a1, a2⟩ := (mem s _).mp hc
      obtain ⟨b1, b2⟩ := (mem s' _).mp hc'
      by_cases hs : s.1 = s'.1
      · exact side_of_ghost hg hs (by rw [← a1, ← b1, hs])
      · exfalso
        have h1 := a2 s'.1 (Ne.symm hs)
        rw [b1] at h1
        have hp := hg.pos s'.1
        unfold ghostOf at h1
        simp only [if_false] at h1
        split at h1 <;> omega) h m
  constructor
  · intro s c hw hc
    have hr := key.1 s hw (.divB, c) (List.mem_map_of_mem ((mem s c).mpr hc))
      (fun x => x = (vox E.g (inward s c), .divB))
      (by intro m1 m2 hm; simp only [hm _ rfl])
      (by
        intro s' o' ho' hne
        simp only [List.mem_map] at ho'
        obtain ⟨c', hc', rfl⟩ := ho'
        obtain ⟨b1, b2⟩ := (mem s' _).mp hc'
        simp only [Prod.mk.injEq, and_true]
        have hin : ∀ b, 1 ≤ inward s c b ∧ inward s c b ≤ dims E.g b := by
          intro b
          by_cases hb : b = s.1
          · subst hb; exact inward_range hg hc.1
          · rw [inward_other s c hb]; simpa using hc.2 b hb
        intro e
        have e2 := vox_inj (GhostAt.inArray hg ⟨b1, b2⟩) (fun b => by have := hin b; constructor <;> omega) e
        have := hin s'.1
        rw [← e2, b1] at this
        unfold ghostOf at this
        split at this <;> omega)
    exact hr
  · intro x hx
    refine key.2 x ?_
    intro s hw o ho
    simp only [List.mem_map] at ho
    obtain ⟨c, hc, rfl⟩ := ho
    exact hx s c hw ((mem s c).mp hc)

/-! ### Normal E -/

/-- `local_ghost_norm_e`: behind a conducting wall the normal electric field and its damping term are
mirrored, behind a symmetric or magnetic wall mirrored with the opposite sign, and behind an absorbing
wall extrapolated linearly from the two values inside; nothing else changes.  The extrapolation is stated for
a direction with at least two cells: with one cell the second value inside is itself a ghost. -/
theorem ghost_norm_e {E : Env K} (hg : Mesh E.g) {l : List (Step K)}
    (h : localGhostNormE E = some l) (m : FMem K) :
    (∀ s c, IsWall E s → GhostAt E.g s (fun _ => True) c → ∀ k, (k = .e s.1 ∨ k = .tca s.1) →
      (sideBC E.g s = absorbFields → 1 < dims E.g s.1) →
      runSeq l m (vox E.g c, k) =
        if sideBC E.g s = antiSymmetricFields then m (vox E.g (inward s c), k)
        else if sideBC E.g s = absorbFields then
          2 * m (vox E.g (inward s c), k) - m (vox E.g (inward s (inward s c)), k)
        else - m (vox E.g (inward s c), k)) ∧
    ∀ x, (∀ s c, IsWall E s → GhostAt E.g s (fun _ => True) c →
      x ≠ (vox E.g c, .e s.1) ∧ x ≠ (vox E.g c, .tca s.1)) → runSeq l m x = m x := by
  have mem : ∀ s (c : Pos), c ∈ nodePlane E.g s.1 (ghostOf E.g s) ↔ GhostAt E.g s (fun _ => True) c := by
    intro s c
    rw [mem_nodePlane]
    constructor
    · intro h1
      refine ⟨?_, fun b hb => ?_⟩
      · have := h1 s.1; simp at this; omega
      · have := h1 b; simpa [hb] using this
    · rintro ⟨h1, h2⟩ b
      by_cases hb : b = s.1
      · subst hb; simp [h1]
      · have := h2 b hb; simpa [hb] using this
  have memops : ∀ s o, o ∈ (nodePlane E.g s.1 (ghostOf E.g s)).flatMap
      (fun c => [(FC.e s.1, c), (FC.tca s.1, c)]) ↔
      GhostAt E.g s (fun _ => True) o.2 ∧ (o.1 = .e s.1 ∨ o.1 = .tca s.1) := by
    intro s o
    simp only [List.mem_flatMap, mem, List.mem_cons, List.not_mem_nil, or_false]
    constructor
    · rintro ⟨c, hc, rfl | rfl⟩
      · exact ⟨hc, Or.inl rfl⟩
      · exact ⟨hc, Or.inr rfl⟩
    · obtain ⟨k, c⟩ := o
      rintro ⟨hc, h1 | h1⟩
      · exact ⟨c, hc, Or.inl (by rw [← h1])⟩
      · exact ⟨c, hc, Or.inr (by rw [← h1])⟩
  have kind : ∀ {s s' : Fin 3 × Bool} {k : FC}, (k = .e s.1 ∨ k = .tca s.1) →
      (k = .e s'.1 ∨ k = .tca s'.1) → s.1 = s'.1 := by
    rintro s s' k (rfl | rfl) (e | e) <;> simp_all
  have key := ghost_result (E := E) (fun s => (nodePlane E.g s.1 (ghostOf E.g s)).flatMap
      fun c => [(FC.e s.1, c), (FC.tca s.1, c)])
    (fun s bc o m => if bc = antiSymmetricFields then m (vox E.g (inward s o.2), o.1)
        else if bc = absorbFields then
          2 * m (vox E.g (inward s o.2), o.1) - m (vox E.g (inward s (inward s o.2)), o.1)
        else - m (vox E.g (inward s o.2), o.1)) (by
      intro s bc l hl
      dsimp only at hl
      split_ifs at hl with h1 h2 h3
      · simp only [Option.some.injEq] at hl
        subst hl
        simp [List.map_flatMap, h1]
      · simp only [Option.some.injEq] at hl
        subst hl
        have : bc ≠ absorbFields := by rintro rfl; revert h2; decide
        simp [List.map_flatMap, h1, this]
      · simp only [Option.some.injEq] at hl
        subst hl h3
        simp [List.map_flatMap, h1])
    (by
      intro s
      rw [List.nodup_flatMap]
      refine ⟨by intro c _; simp, ?_⟩
      refine List.Pairwise.imp_of_mem ?_ (box_nodup _ _)
      intro c d _ _ hne o h1 h2
      simp only [List.mem_cons, List.not_mem_nil, or_false] at h1 h2
      apply hne
      rcases h1 with rfl | rfl <;> rcases h2 with e | e <;> simp at e <;> exact e)
    (fun s o ho => ((memops s o).mp ho).1.inArray hg)
    (by
      intro s s' o ho ho'
      obtain ⟨a1, a2⟩ := (memops s o).mp ho
      obtain ⟨b1, b2⟩ := (memops s' o).mp ho'
      have hs := kind a2 b2
      exact side_of_ghost hg hs (by rw [← a1.1, ← b1.1, hs])) h m
  constructor
  · intro s c hw hc k hk habs
    have ho : (k, c) ∈ (nodePlane E.g s.1 (ghostOf E.g s)).flatMap
      (fun c => [(FC.e s.1, c), (FC.tca s.1, c)]) := (memops s _).mpr ⟨hc, hk⟩
    have hinA : ∀ d : Pos, (∀ b, b ≠ s.1 → d b = c b) → 0 ≤ d s.1 → d s.1 ≤ dims E.g s.1 + 1 →
        InArray E.g d := by
      intro d h1 h2 h3 b
      by_cases hb : b = s.1
      · subst hb; exact ⟨h2, h3⟩
      · rw [h1 b hb]; exact hc.inArray hg b
    have hr1 := inward_range hg hc.1
    have nowrite : ∀ (d : Pos), (∀ b, b ≠ s.1 → d b = c b) → 1 ≤ d s.1 → d s.1 ≤ dims E.g s.1 →
        ∀ s' : Fin 3 × Bool, ∀ o' : FC × Pos, GhostAt E.g s' (fun _ => True) o'.2 →
          (o'.1 = .e s'.1 ∨ o'.1 = .tca s'.1) → (vox E.g o'.2, o'.1) ≠ (vox E.g d, k) := by
      intro d h1 h2 h3 s' o' hg' hk' e
      simp only [Prod.mk.injEq] at e
      have hs := kind hk (e.2 ▸ hk')
      have e2 := vox_inj (hg'.inArray hg) (hinA d h1 (by omega) (by omega)) e.1
      have h4 := hg'.1
      rw [e2, ← hs] at h4
      rw [h4] at h2 h3
      have e5 : dims E.g s'.1 = dims E.g s.1 := by rw [hs]
      rcases ghostOf_cases hg s' with ⟨-, h6⟩ | ⟨-, h6⟩ <;> omega
    by_cases habs' : sideBC E.g s = absorbFields
    · have h1d := habs habs'
      have hr2 : 1 ≤ inward s (inward s c) s.1 ∧ inward s (inward s c) s.1 ≤ dims E.g s.1 := by
        rcases ghostOf_cases hg s with ⟨h1, h2⟩ | ⟨h1, h2⟩ <;> simp [inward, h1, up, dn, hc.1, h2] <;> omega
      exact key.1 s hw (k, c) ho
        (fun x => x = (vox E.g (inward s c), k) ∨ x = (vox E.g (inward s (inward s c)), k))
        (by intro m1 m2 hm; simp only [hm _ (Or.inl rfl), hm _ (Or.inr rfl)])
        (by
          intro s' o' ho' _
          obtain ⟨b1, b2⟩ := (memops s' o').mp ho'
          rintro (e | e)
          · exact nowrite _ (fun b hb => inward_other s c hb) hr1.1 hr1.2 s' o' b1 b2 e
          · exact nowrite _ (fun b hb => by rw [inward_other s _ hb, inward_other s c hb])
              hr2.1 hr2.2 s' o' b1 b2 e)
    · have := key.1 s hw (k, c) ho (fun x => x = (vox E.g (inward s c), k))
        (by intro m1 m2 hm; simp only [habs', if_false, hm _ rfl])
        (by
          intro s' o' ho' _
          obtain ⟨b1, b2⟩ := (memops s' o').mp ho'
          exact nowrite _ (fun b hb => inward_other s c hb) hr1.1 hr1.2 s' o' b1 b2)
      exact this
  · intro x hx
    refine key.2 x ?_
    intro s hw o ho e
    obtain ⟨h1, h2⟩ := (memops s o).mp ho
    rcases h2 with h2 | h2
    · exact (hx s o.2 hw h1).1 (by rw [e, h2])
    · exact (hx s o.2 hw h1).2 (by rw [e, h2])

/-! ### Tangential B -/

/-- `local_ghost_tang_b`: behind a conducting wall the tangential magnetic field is mirrored, behind a
symmetric or magnetic wall mirrored with the opposite sign, and behind an absorbing wall advanced with
the first order absorbing condition `absorbB`; nothing else changes. -/
theorem ghost_tang_b {E : Env K} (hg : Mesh E.g) {l : List (Step K)}
    (h : localGhostTangB E = some l) (m : FMem K) :
    (∀ s c a, IsWall E s → a ≠ s.1 → GhostAt E.g s (fun b => b = a) c →
      runSeq l m (vox E.g c, .cb a) =
        if sideBC E.g s = antiSymmetricFields then m (vox E.g (inward s c), .cb a)
        else if sideBC E.g s = absorbFields then
          (if a = s.1 + 1 then absorbB E s (s.1 + 1) (s.1 + 2) true c m (vox E.g c, .cb a)
           else absorbB E s (s.1 + 2) (s.1 + 1) false c m (vox E.g c, .cb a))
        else - m (vox E.g (inward s c), .cb a)) ∧
    ∀ x, (∀ s c a, IsWall E s → a ≠ s.1 → GhostAt E.g s (fun b => b = a) c → x ≠ (vox E.g c, .cb a)) →
      runSeq l m x = m x := by
  have mem : ∀ (s : Fin 3 × Bool) (o a : Fin 3) (c : Pos), o ≠ s.1 → a ≠ s.1 → o ≠ a →
      (c ∈ edgePlane E.g s.1 o (ghostOf E.g s) ↔ GhostAt E.g s (fun b => b = a) c) := by
    intro s o a c n1 n2 n3
    rw [mem_edgePlane]
    constructor
    · intro h1
      refine ⟨?_, fun b hb => ?_⟩
      · have := h1 s.1; simp at this; omega
      · have := h1 b
        have hoa : b = o ∨ b = a := by
          exact other_axis n1 n2 n3 hb
        rcases hoa with rfl | rfl
        · simp [hb, n3] at this ⊢; omega
        · simp [hb, n3.symm] at this ⊢; omega
    · rintro ⟨h1, h2⟩ b
      by_cases hb : b = s.1
      · subst hb; simp [h1]
      · have := h2 b hb
        have hoa : b = o ∨ b = a := by
          exact other_axis n1 n2 n3 hb
        rcases hoa with rfl | rfl
        · simp [hb, n3] at this ⊢; omega
        · simp [hb, n3.symm] at this ⊢; omega
  let ops : Fin 3 × Bool → List (FC × Pos) := fun s =>
    (edgePlane E.g s.1 (s.1 + 2) (ghostOf E.g s)).map (fun c => (FC.cb (s.1 + 1), c)) ++
    (edgePlane E.g s.1 (s.1 + 1) (ghostOf E.g s)).map (fun c => (FC.cb (s.1 + 2), c))
  have memops : ∀ s o, o ∈ ops s ↔ ∃ a, a ≠ s.1 ∧ o.1 = .cb a ∧ GhostAt E.g s (fun b => b = a) o.2 := by
    intro s o
    obtain ⟨n1, n2, n3⟩ := add_one_ne s.1
    simp only [ops, List.mem_append, List.mem_map, mem s _ _ _ n2 n1 n3.symm, mem s _ _ _ n1 n2 n3]
    constructor
    · rintro (⟨c, hc, rfl⟩ | ⟨c, hc, rfl⟩)
      · exact ⟨_, n1, rfl, hc⟩
      · exact ⟨_, n2, rfl, hc⟩
    · obtain ⟨k, c⟩ := o
      rintro ⟨a, hne, rfl, hc⟩
      rcases axis_cases s.1 a with rfl | rfl | rfl
      · exact absurd rfl hne
      · exact Or.inl ⟨c, hc, rfl⟩
      · exact Or.inr ⟨c, hc, rfl⟩
  have key := ghost_result (E := E) ops
    (fun s bc o m => if bc = antiSymmetricFields then m (vox E.g (inward s o.2), o.1)
        else if bc = absorbFields then
          (if o.1 = .cb (s.1 + 1) then
            absorbB E s (s.1 + 1) (s.1 + 2) true o.2 m (vox E.g o.2, .cb (s.1 + 1))
           else absorbB E s (s.1 + 2) (s.1 + 1) false o.2 m (vox E.g o.2, .cb (s.1 + 2)))
        else - m (vox E.g (inward s o.2), o.1)) (by
      intro s bc l hl
      obtain ⟨n1, n2, n3⟩ := add_one_ne s.1
      dsimp only at hl
      split_ifs at hl with h1 h2 h3
      · simp only [Option.some.injEq] at hl
        subst hl
        simp [ops, List.map_append, List.map_map, Function.comp_def, h1]
      · simp only [Option.some.injEq] at hl
        subst hl
        have : bc ≠ absorbFields := by rintro rfl; revert h2; decide
        simp [ops, List.map_append, List.map_map, Function.comp_def, h1, this]
      · simp only [Option.some.injEq] at hl
        subst hl h3
        have e2 : ¬ (FC.cb (s.1 + 2) = FC.cb (s.1 + 1)) := by
          simp only [FC.cb.injEq]; exact n3.symm
        simp only [ops, List.map_append, List.map_map, Function.comp_def, h1, if_false, if_true, e2]
        congr 1 <;>
        · refine List.map_congr_left fun c _ => ?_
          simp only [absorbB, setAt, Function.update_self])
    (by
      intro s
      obtain ⟨n1, n2, n3⟩ := add_one_ne s.1
      rw [List.nodup_append]
      refine ⟨List.Nodup.map (fun _ _ e => (Prod.mk.inj e).2) (box_nodup _ _),
        List.Nodup.map (fun _ _ e => (Prod.mk.inj e).2) (box_nodup _ _), ?_⟩
      rintro x hx y hy rfl
      simp only [List.mem_map] at hx hy
      obtain ⟨c, -, rfl⟩ := hx
      obtain ⟨d, -, e⟩ := hy
      simp only [Prod.mk.injEq, FC.cb.injEq] at e
      exact n3 e.1.symm)
    (by
      intro s o ho
      obtain ⟨a, -, -, hc⟩ := (memops s o).mp ho
      exact hc.inArray hg)
    (by
      intro s s' o ho ho'
      obtain ⟨a, a1, a2, a3⟩ := (memops s o).mp ho
      obtain ⟨b, b1, b2, b3⟩ := (memops s' o).mp ho'
      have hab : a = b := by simpa using a2.symm.trans b2
      subst hab
      by_cases hs : s.1 = s'.1
      · exact side_of_ghost hg hs (by rw [← a3.1, ← b3.1, hs])
      · exfalso
        have h1 := a3.2 s'.1 (Ne.symm hs)
        rw [b3.1, if_neg (Ne.symm b1)] at h1
        unfold ghostOf at h1
        split at h1 <;> omega) h m
  constructor
  · intro s c a hw hne hc
    have hin : ∀ b, 1 ≤ inward s c b ∧ inward s c b ≤ if b = a then dims E.g b + 1 else dims E.g b := by
      intro b
      by_cases hb : b = s.1
      · subst hb; rw [if_neg (Ne.symm hne)]; exact inward_range hg hc.1
      · rw [inward_other s c hb]; exact hc.2 b hb
    have nowrite : ∀ s' o', o' ∈ ops s' → (vox E.g o'.2, o'.1) ≠ (vox E.g (inward s c), FC.cb a) := by
      intro s' o' ho' e
      obtain ⟨b, b1, b2, b3⟩ := (memops s' o').mp ho'
      simp only [Prod.mk.injEq] at e
      have hab : a = b := by simpa using e.2.symm.trans b2
      subst hab
      have e2 := vox_inj (b3.inArray hg) (fun b => by
        have := hin b; split at this <;> constructor <;> omega) e.1
      have h4 := hin s'.1
      rw [← e2, b3.1, if_neg (Ne.symm b1)] at h4
      unfold ghostOf at h4
      split at h4 <;> omega
    have hr := key.1 s hw (.cb a, c) ((memops s _).mpr ⟨a, hne, rfl, hc⟩)
      (fun x => (∃ b, x.2 = .e b) ∨ x = (vox E.g (inward s c), .cb a) ∨ x = (vox E.g c, .cb a))
      (by
        intro m1 m2 hm
        have he : ∀ v b, m1 (v, .e b) = m2 (v, .e b) := fun v b => hm _ (Or.inl ⟨b, rfl⟩)
        have h1 := hm _ (Or.inr (Or.inl rfl))
        have h2 := hm _ (Or.inr (Or.inr rfl))
        rcases axis_cases s.1 a with rfl | rfl | rfl
        · exact absurd rfl hne
        · simp only [absorbB, setAt, Function.update_self, he, h1, h2, if_true]
        · have n3 := (add_one_ne s.1).2.2.symm
          simp only [absorbB, setAt, Function.update_self, he, h1, h2, FC.cb.injEq, n3, if_false])
      (by
        intro s' o' ho' hno
        obtain ⟨b, b1, b2, b3⟩ := (memops s' o').mp ho'
        rintro (⟨d, e⟩ | e | e)
        · simp only at e; rw [e] at b2; simp at b2
        · exact nowrite s' o' ho' e
        · simp only [Prod.mk.injEq] at e
          exact hno (Prod.ext e.2 (vox_inj (b3.inArray hg) (hc.inArray hg) e.1)))
    rw [hr]
    rcases axis_cases s.1 a with rfl | rfl | rfl
    · exact absurd rfl hne
    · simp
    · have n3 := (add_one_ne s.1).2.2.symm
      simp only [FC.cb.injEq, n3, if_false]
  · intro x hx
    refine key.2 x ?_
    intro s hw o ho e
    obtain ⟨a, a1, a2, a3⟩ := (memops s o).mp ho
    exact hx s o.2 a hw a1 a3 (by rw [e, a2])

end Verif.Field
