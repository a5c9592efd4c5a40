import Verif.Global.Spec

/-!
# The mover of a rank follows the walk in the box
-/
namespace Verif.Global

open Grid MoveP Charge Torus
open Field (Pos ranksOf coordOf)

section
variable {K : Type} [Field K] [LinearOrder K]

lemma walk_mono (N : Pos) (q : K) (x : GPart K × GAccum K) (k : ℕ) : ∀ (fuel : ℕ) (p : GPart K) (disp : Fin 3 → K),
    walk N q fuel p disp = some x → walk N q (fuel + k) p disp = some x := by
  intro fuel
  induction fuel generalizing x with
  | zero => intro p disp h; simp [walk] at h
  | succ fuel ih =>
    intro p disp h
    rw [show fuel + 1 + k = fuel + k + 1 by omega]
    rw [walk] at h ⊢
    cases hs : (streakOf p.d disp).2.1 with
    | none => rw [hs] at h; exact h
    | some a =>
      rw [hs] at h
      dsimp only at h ⊢
      obtain ⟨y, h1, h2⟩ := Option.map_eq_some_iff.mp h
      rw [ih y _ _ h1, Option.map_some, h2]

lemma walk_det {N : Pos} {q : K} {F F' : ℕ} {p : GPart K} {disp : Fin 3 → K} {x y : GPart K × GAccum K}
    (h : walk N q F p disp = some x) (h' : walk N q F' p disp = some y) : x = y := by
  have a := walk_mono N q x F' F p disp h
  have b := walk_mono N q y F F' p disp h'
  rw [Nat.add_comm, b] at a
  exact (Option.some.inj a).symm

variable [IsStrictOrderedRing K]

/-- The particle on the other side of a face it is on. -/
def through (N : Pos) (a : Fin 3) (up : Bool) (p : GPart K) : GPart K :=
  { p with cell := beyond N a up p.cell, d := Function.update p.d a (-sgn up) }

/-- One streak of a walk. -/
lemma walk_succ (N : Pos) (q : K) (p : GPart K) (disp : Fin 3 → K) (hd : ∀ k, -1 ≤ p.d k ∧ p.d k ≤ 1) :
    ∃ v : K, 0 ≤ v ∧ v ≤ 1 ∧ (∀ k, -1 ≤ p.d k + 2 * (v * disp k) ∧ p.d k + 2 * (v * disp k) ≤ 1) ∧
      ((v = 1 ∧ streakOf p.d disp = (v, none, fun k => v * disp k) ∧
          ∀ fuel, walk N q (fuel + 1) p disp = some (⟨p.cell, fun k => p.d k + 2 * (v * disp k), p.u, p.w⟩,
          put p.cell (streakJ q (fun k => p.d k + v * disp k) fun k => v * disp k))) ∨
        ∃ a up, v < 1 ∧ (if up then 0 < disp a else disp a < 0) ∧ p.d a + 2 * (v * disp a) = sgn up ∧
          streakOf p.d disp = (v, some a, fun k => v * disp k) ∧
          ∀ fuel, walk N q (fuel + 1) p disp = (walk N q fuel (through N a up ⟨p.cell, fun k => p.d k + 2 * (v * disp k), p.u, p.w⟩)
            fun k => (1 - v) * disp k).map fun x =>
              (x.1, put p.cell (streakJ q (fun k => p.d k + v * disp k) fun k => v * disp k) + x.2)) := by
  obtain ⟨v, ax, sd, hst⟩ : ∃ v ax sd, streakOf p.d disp = (v, ax, sd) := ⟨_, _, _, rfl⟩
  obtain ⟨f1, f2, f3, f4, f5, f6⟩ := streak_facts p.d disp hd v ax sd hst
  obtain rfl : sd = fun k => v * disp k := funext f3
  refine ⟨v, f1, f2, f4, ?_⟩
  have ed : (fun k => p.d k + (v * disp k + v * disp k)) = fun k => p.d k + 2 * (v * disp k) := by funext k; ring
  have em : (fun k => disp k - v * disp k) = fun k => (1 - v) * disp k := by funext k; ring
  simp only [walk, hst, ed, em]
  cases hax : ax with
  | none => exact Or.inl ⟨f5 hax, rfl, fun _ => rfl⟩
  | some a =>
    obtain ⟨g1, g2, g3⟩ := f6 a hax
    obtain ⟨up, u1, u2⟩ := sdir_eq g2
    refine Or.inr ⟨a, up, g1, u2, by rw [g3, u1], rfl, fun fuel => ?_⟩
    have e : decide (0 < disp a) = up := by
      cases up
      · simp only [Bool.false_eq_true, if_false] at u2
        simp [u2.le]
      · simp only [if_true] at u2
        simp [u2]
    dsimp only
    rw [e, u1]
    rfl

/-- A walk ends after at most one cell for each face left and one more. -/
lemma walk_ends (N : Pos) (q : K) : ∀ (M fuel : ℕ) (p : GPart K) (disp : Fin 3 → K), (∀ k, -1 ≤ p.d k ∧ p.d k ≤ 1) →
    FacesLeft M p.d disp → M < fuel → ∃ x, walk N q fuel p disp = some x := by
  intro M
  induction M with
  | zero =>
    intro fuel p disp hd hf hM
    obtain ⟨f, rfl⟩ : ∃ f, fuel = f + 1 := ⟨fuel - 1, by omega⟩
    obtain ⟨v, -, -, -, h | ⟨a, up, h1, h2, h3, -, h4⟩⟩ := walk_succ N q p disp hd
    · exact ⟨_, h.2.2 f⟩
    · have := (facesLeft_cross (facesLeft_streak hf h1) h3 (sign_scale h1 h2)).1
      omega
  | succ M ih =>
    intro fuel p disp hd hf hM
    obtain ⟨f, rfl⟩ : ∃ f, fuel = f + 1 := ⟨fuel - 1, by omega⟩
    obtain ⟨v, -, -, hb, h | ⟨a, up, h1, h2, h3, -, h4⟩⟩ := walk_succ N q p disp hd
    · exact ⟨_, h.2.2 f⟩
    · have hc := (facesLeft_cross (facesLeft_streak hf h1) h3 (sign_scale h1 h2)).2
      obtain ⟨x, hx⟩ := ih f (through N a up ⟨p.cell, fun k => p.d k + 2 * (v * disp k), p.u, p.w⟩) (fun k => (1 - v) * disp k) (by
        intro k
        unfold through
        by_cases hk : k = a
        · subst hk; simp only [Function.update_self]; cases up <;> simp [sgn]
        · simp only [Function.update_of_ne hk]; exact hb k) hc (by omega)
      rw [h4 f, hx]
      exact ⟨_, rfl⟩

end

/-! ### Cells of the ranks and cells of the box -/

section
variable {K : Type} {S : Type*} [Field K] [LinearOrder K] [IsStrictOrderedRing K]
variable {D : Decomp} {n : ℕ} (hD : D.ok n = true) (t0 : ℕ → ℤ → ℤ) {G : Fin n → LGrid}
  (hg : ∀ r : Fin n, gridOf D n t0 r = some (G r))

include hD hg

/-- Behind every face of every cell is a cell of some rank. -/
lemma behind (r : Fin n) (c : Cell) (hc : IsInterior D c) (f : Fin 6) : ∃ (s : Fin n) (c' : Cell), IsInterior D c' ∧
    (G r).neighbor (6 * VOXEL (G r).nx (G r).ny c.x c.y c.z + (f : ℕ)) =
      (G s).rangel + VOXEL (G s).nx (G s).ny c'.x c'.y c'.z := by
  obtain ⟨r', c2, hr', hc2, e1, -⟩ := (grid_next hD t0 hg r).2.2 c hc f
  refine ⟨⟨r', hr'⟩, c2, hc2, ?_⟩
  have e : (G r).neighbor (6 * VOXEL (G r).nx (G r).ny c.x c.y c.z + ((f : ℕ) : ℤ)) = cellId D r' c2 := e1
  rw [e, (grid_next hD t0 hg ⟨r', hr'⟩).1]
  obtain ⟨a, b, -⟩ := grid_size hD t0 hg ⟨r', hr'⟩
  unfold cellId VOXEL
  rw [a, b]
  rfl

/-- It is the cell behind the face in the box. -/
lemma site_beyond (r s : Fin n) (c c' : Cell) (hc : IsInterior D c) (hc' : IsInterior D c') (a : Fin 3) (up : Bool)
    (e : (G r).neighbor (6 * VOXEL (G r).nx (G r).ny c.x c.y c.z + faceOf a up) =
      (G s).rangel + VOXEL (G s).nx (G s).ny c'.x c'.y c'.z) :
    siteAt D s ![c'.x, c'.y, c'.z] = beyond (Torus.sizeOf D) a up (siteAt D r ![c.x, c.y, c.z]) := by
  obtain ⟨k, hk⟩ := Boundary.face_fin (f := faceOf a up) (by unfold faceOf; split <;> omega) (by unfold faceOf; split <;> omega)
  rw [hk] at e
  have h := site_adjacent hD t0 hg r s c c' hc hc' k e
  have hdir : ∀ b, (![(faceDir k).1, (faceDir k).2.1, (faceDir k).2.2] : Pos) b = if b = a then (if up then 1 else -1) else 0 := by
    intro b
    fin_cases a <;> cases up <;> fin_cases k <;> simp [faceOf] at hk <;> fin_cases b <;> simp [faceDir]
  funext b
  have hb := h b
  rw [hdir b] at hb
  unfold beyond next prev siteAt Torus.sizeOf
  rw [hb, Int.emod_emod]
  by_cases hba : b = a
  · cases up
    · simp only [if_pos hba, Bool.false_eq_true, if_false]
      rw [sub_eq_add_neg (_ % _) (1 : ℤ), Int.emod_add_emod]
    · simp only [if_pos hba, if_true]
      rw [Int.emod_add_emod]
  · cases up <;> simp [hba]

/-- Cells of the box are cells of one rank each. -/
lemma site_inj (r s : Fin n) (c c' : Pos) (hc : ∀ a, 1 ≤ c a ∧ c a ≤ cellsOf D a) (hc' : ∀ a, 1 ≤ c' a ∧ c' a ≤ cellsOf D a)
    (e : siteAt D r c = siteAt D s c') : r = s ∧ c = c' := by
  have key : ∀ a, coordOf D r a = coordOf D s a ∧ c a = c' a := by
    intro a
    have := congrFun e a
    unfold siteAt at this
    obtain ⟨u1, u2⟩ := coord_range hD r a
    obtain ⟨w1, w2⟩ := coord_range hD s a
    have b1 := hc a
    have b2 := hc' a
    set l := cellsOf D a
    set P := ranksOf D a
    set x := coordOf D r a
    set y := coordOf D s a
    have hl : 1 ≤ l := cells_pos hD a
    have g1 : 0 ≤ x * l + (c a - 1) := by have := mul_nonneg u1 (by omega : 0 ≤ l); omega
    have g2 : x * l + (c a - 1) < P * l := by
      have := mul_le_mul_of_nonneg_right (by omega : x + 1 ≤ P) (by omega : 0 ≤ l)
      rw [add_mul] at this; omega
    have g3 : 0 ≤ y * l + (c' a - 1) := by have := mul_nonneg w1 (by omega : 0 ≤ l); omega
    have g4 : y * l + (c' a - 1) < P * l := by
      have := mul_le_mul_of_nonneg_right (by omega : y + 1 ≤ P) (by omega : 0 ≤ l)
      rw [add_mul] at this; omega
    rw [Int.emod_eq_of_lt g1 g2, Int.emod_eq_of_lt g3 g4] at this
    have hxy : x = y := by
      rcases lt_trichotomy x y with h | h | h
      · have := mul_le_mul_of_nonneg_right (by omega : x + 1 ≤ y) (by omega : 0 ≤ l)
        rw [add_mul] at this; omega
      · exact h
      · have := mul_le_mul_of_nonneg_right (by omega : y + 1 ≤ x) (by omega : 0 ≤ l)
        rw [add_mul] at this; omega
    refine ⟨hxy, ?_⟩
    rw [hxy] at this
    omega
  exact ⟨Field.coordOf_inj r s (funext fun a => (key a).1), funext fun a => (key a).2⟩

omit hg hD in
lemma interior_pos (c : Cell) : IsInterior D c ↔ ∀ a, 1 ≤ (![c.x, c.y, c.z] : Pos) a ∧ (![c.x, c.y, c.z] : Pos) a ≤ cellsOf D a := by
  simp [Fin.forall_fin_succ, Charge.cellsOf, IsInterior, Decomp.lx, Decomp.ly, Decomp.lz, Cell.Interior, and_assoc]

lemma lift_voxel (r : Fin n) (p : MoveP.Part K) {c : Cell} (hc : IsInterior D c) (hi : p.i = VOXEL (G r).nx (G r).ny c.x c.y c.z) :
    lift D r (G r) p = ⟨siteAt D r ![c.x, c.y, c.z], p.d, p.u, p.w⟩ := by
  unfold lift
  obtain ⟨b1, b2, b3, b4, b5, b6⟩ := (interior_iff hD t0 hg r c).mpr hc
  rw [hi, posOf_voxel (grid_mesh hD t0 hg r) ⟨by omega, by omega⟩ ⟨by omega, by omega⟩]

end

/-! ### Accumulators of the ranks and of the box -/

section
variable {K : Type} {S : Type*} [Field K] [LinearOrder K] [IsStrictOrderedRing K]

/-- The accumulators of a rank as a part of those of the box. -/
noncomputable def spread (D : Decomp) {n : ℕ} (r : Fin n) (g : LGrid) (a : Accum K) : GAccum K := fun s k =>
  ∑ v ∈ Finset.Ico 0 (nvox g), if (∀ b, 1 ≤ posOf g v b ∧ posOf g v b ≤ Charge.cellsOf D b) ∧ siteAt D r (posOf g v) = s then a v k else 0

omit [LinearOrder K] [IsStrictOrderedRing K] in
lemma spread_add (D : Decomp) {n : ℕ} (r : Fin n) (g : LGrid) (a b : Accum K) :
    spread D r g (fun v k => a v k + b v k) = spread D r g a + spread D r g b := by
  funext s k
  simp only [spread, Pi.add_apply]
  rw [← Finset.sum_add_distrib]
  refine Finset.sum_congr rfl fun v _ => ?_
  split_ifs <;> simp

omit [LinearOrder K] [IsStrictOrderedRing K] in
lemma spread_zero (D : Decomp) {n : ℕ} (r : Fin n) (g : LGrid) : spread D r g (fun _ _ => (0 : K)) = 0 := by
  funext s k
  simp [spread]

variable {D : Decomp} {n : ℕ} (hD : D.ok n = true) (t0 : ℕ → ℤ → ℤ) {G : Fin n → LGrid}
  (hg : ∀ r : Fin n, gridOf D n t0 r = some (G r))

include hD hg

omit [LinearOrder K] [IsStrictOrderedRing K] in
lemma spread_accAdd (r : Fin n) (a : Accum K) {c : Cell} (hc : IsInterior D c) (j : Fin 12 → K) :
    spread D r (G r) (accAdd a (VOXEL (G r).nx (G r).ny c.x c.y c.z) j) = spread D r (G r) a + put (siteAt D r ![c.x, c.y, c.z]) j := by
  have hi := (interior_iff hD t0 hg r c).mpr hc
  have hv := voxel_range (grid_mesh hD t0 hg r) hi.inMesh
  obtain ⟨b1, b2, b3, b4, b5, b6⟩ := hi
  have hp := posOf_voxel (grid_mesh hD t0 hg r) (x := c.x) (y := c.y) (z := c.z) ⟨by omega, by omega⟩ ⟨by omega, by omega⟩
  have hacc : accAdd a (VOXEL (G r).nx (G r).ny c.x c.y c.z) j = fun v k => a v k +
      (if v = VOXEL (G r).nx (G r).ny c.x c.y c.z then j k else 0) := by
    funext v k
    unfold accAdd
    split_ifs <;> simp
  rw [hacc, spread_add]
  congr 1
  funext s k
  simp only [spread, put]
  rw [Finset.sum_eq_single (VOXEL (G r).nx (G r).ny c.x c.y c.z)]
  · rw [hp, if_pos rfl]
    by_cases hs : s = siteAt D r ![c.x, c.y, c.z]
    · rw [if_pos hs, if_pos ⟨(interior_pos c).mp hc, hs.symm⟩]
    · rw [if_neg hs, if_neg fun h => hs h.2.symm]
  · intro v _ hne
    rw [if_neg hne, ite_self]
  · intro h
    exact absurd (Finset.mem_Ico.mpr hv) h

/-- The accumulators of a rank at one of its cells. -/
lemma spread_own (r : Fin n) (a : Accum K) {c : Cell} (hc : IsInterior D c) (k : Fin 12) :
    spread D r (G r) a (siteAt D r ![c.x, c.y, c.z]) k = a (VOXEL (G r).nx (G r).ny c.x c.y c.z) k := by
  have hi := (interior_iff hD t0 hg r c).mpr hc
  have hv := voxel_range (grid_mesh hD t0 hg r) hi.inMesh
  obtain ⟨b1, b2, b3, b4, b5, b6⟩ := hi
  have hm := grid_mesh hD t0 hg r
  have hp := posOf_voxel hm (x := c.x) (y := c.y) (z := c.z) ⟨by omega, by omega⟩ ⟨by omega, by omega⟩
  unfold spread
  rw [Finset.sum_eq_single (VOXEL (G r).nx (G r).ny c.x c.y c.z)]
  · rw [hp, if_pos ⟨(interior_pos c).mp hc, rfl⟩]
  · intro v hv' hne
    rw [if_neg]
    rintro ⟨h1, h2⟩
    have e := (site_inj hD t0 hg r r _ _ h1 ((interior_pos c).mp hc) h2).2
    apply hne
    have e0 : v % ((G r).nx + 2) = c.x := congrFun e 0
    have e1 : v / ((G r).nx + 2) % ((G r).ny + 2) = c.y := congrFun e 1
    have e2 : v / ((G r).nx + 2) / ((G r).ny + 2) = c.z := congrFun e 2
    unfold VOXEL
    rw [← e0, ← e1, ← e2, Int.emod_add_mul_ediv, Int.emod_add_mul_ediv]
  · intro h
    exact absurd (Finset.mem_Ico.mpr hv) h

/-- And at a cell of another rank. -/
lemma spread_other (r s : Fin n) (hrs : r ≠ s) (a : Accum K) {c : Cell} (hc : IsInterior D c) (k : Fin 12) :
    spread D r (G r) a (siteAt D s ![c.x, c.y, c.z]) k = 0 := by
  unfold spread
  refine Finset.sum_eq_zero fun v _ => ?_
  rw [if_neg]
  rintro ⟨h1, h2⟩
  exact hrs (site_inj hD t0 hg r s _ _ h1 ((interior_pos c).mp hc) h2).1

/-! ### The mover -/

/-- A move of a rank is a part of a walk in the box: a finished one is all of it, an unfinished one leaves the particle on a
face, and the walk goes on behind that face. -/
lemma loop_walk (r : Fin n) (q : K) (fuel : ℕ) : ∀ (s : MState K) (c : Cell), IsInterior D c →
    s.p.i = VOXEL (G r).nx (G r).ny c.x c.y c.z → (∀ k, -1 ≤ s.p.d k ∧ s.p.d k ≤ 1) →
    ∀ (b : Bool) (s' : MState K), loop (G r) q fuel s = some (b, s') →
    ∃ dep : GAccum K, spread D r (G r) s'.a = spread D r (G r) s.a + dep ∧ s'.p.w = s.p.w ∧
      (b = false → ∃ F, walk (Torus.sizeOf D) q F (lift D r (G r) s.p) s.disp = some (lift D r (G r) s'.p, dep)) ∧
      (b = true → ∃ (c' : Cell) (a : Fin 3) (up : Bool), IsInterior D c' ∧
        s'.p.i = 8 * VOXEL (G r).nx (G r).ny c'.x c'.y c'.z + faceOf a up ∧ s'.p.d a = sgn up ∧
        ∀ F x, walk (Torus.sizeOf D) q F (through (Torus.sizeOf D) a up ⟨siteAt D r ![c'.x, c'.y, c'.z], s'.p.d, s'.p.u, s'.p.w⟩)
          s'.disp = some x →
          ∃ F', walk (Torus.sizeOf D) q F' (lift D r (G r) s.p) s.disp = some (x.1, dep + x.2)) := by
  induction fuel with
  | zero => intro s c _ _ _ b s' h; simp [loop] at h
  | succ fuel ih =>
    intro s c hc hi hd b s' h
    have hint := (interior_iff hD t0 hg r c).mpr hc
    have hr := voxel_range (grid_mesh hD t0 hg r) hint.inMesh
    have hl := lift_voxel hD t0 hg r s.p hc hi
    rw [loop, pass, if_neg (by rw [hi]; omega)] at h
    obtain ⟨v, -, -, hb, ⟨-, h1, h2⟩ | ⟨a, up, h1, h2, h3, h4, h5⟩⟩ :=
      walk_succ (Torus.sizeOf D) q (lift D r (G r) s.p) s.disp hd
    · have h1' : streakOf s.p.d s.disp = (v, none, fun k => v * s.disp k) := h1
      simp only [h1', Option.some.injEq, Prod.mk.injEq] at h
      obtain ⟨rfl, rfl⟩ := h
      refine ⟨put (siteAt D r ![c.x, c.y, c.z]) (streakJ q (fun k => s.p.d k + v * s.disp k) fun k => v * s.disp k), ?_, rfl, ?_, ?_⟩
      · rw [hi]
        exact spread_accAdd hD t0 hg r s.a hc _
      · intro _
        refine ⟨1, ?_⟩
        rw [h2 0, hl, lift_voxel hD t0 hg r (MoveP.Part.mk _ _ _ _) hc (by exact hi)]
        have ed : (fun k => s.p.d k + (v * s.disp k + v * s.disp k)) = fun k => s.p.d k + 2 * (v * s.disp k) := by funext k; ring
        simp only [ed]
      · intro h; simp at h
    · have h4' : streakOf s.p.d s.disp = (v, some a, fun k => v * s.disp k) := h4
      have h3' : s.p.d a + 2 * (v * s.disp a) = sgn up := h3
      simp only [hl] at h5
      have ed : (fun k => s.p.d k + (v * s.disp k + v * s.disp k)) = fun k => s.p.d k + 2 * (v * s.disp k) := by funext k; ring
      have em : (fun k => s.disp k - v * s.disp k) = fun k => (1 - v) * s.disp k := by funext k; ring
      have hupd : Function.update (fun k => s.p.d k + 2 * (v * s.disp k)) a (sgn up) = fun k => s.p.d k + 2 * (v * s.disp k) := by
        rw [← h3']; exact Function.update_eq_self a (fun k => s.p.d k + 2 * (v * s.disp k))
      have hface : (if (sgn up : K) > 0 then (((a : ℕ) : ℤ) + 3) else ((a : ℕ) : ℤ)) = faceOf a up := by
        cases up <;> simp [sgn, faceOf]
      have hbd : ∀ k, -1 ≤ Function.update (fun k => s.p.d k + 2 * (v * s.disp k)) a (-sgn up) k ∧
          Function.update (fun k => s.p.d k + 2 * (v * s.disp k)) a (-sgn up) k ≤ 1 := by
        intro k
        by_cases hk : k = a
        · subst hk; simp only [Function.update_self]; cases up <;> simp [sgn]
        · simp only [Function.update_of_ne hk]; exact hb k
      obtain ⟨f, hf⟩ := Boundary.face_fin (f := faceOf a up) (by unfold faceOf; split <;> omega)
        (by unfold faceOf; split <;> omega)
      obtain ⟨s2, c', hc', hn⟩ := behind hD t0 hg r c hc f
      rw [← hf] at hn
      have hsite := site_beyond hD t0 hg r s2 c c' hc hc' a up hn
      have hv' := voxel_range (grid_mesh hD t0 hg s2) ((interior_iff hD t0 hg s2 c').mpr hc').inMesh
      have hnv := grid_nv hD t0 hg s2
      have hl2 := (grid_next hD t0 hg s2).1
      obtain ⟨hl1, hh1, -⟩ := grid_next hD t0 hg r
      set J := put (siteAt D r ![c.x, c.y, c.z]) (streakJ q (fun k => s.p.d k + v * s.disp k) fun k => v * s.disp k) with hJ
      have hacc := spread_accAdd hD t0 hg r s.a hc (streakJ q (fun k => s.p.d k + v * s.disp k) fun k => v * s.disp k)
      simp only [h4', ed, em, sdir_of_sign h2, hupd, hface, hi, hn] at h
      have h0 : 0 ≤ (G s2).rangel := by rw [hl2]; have := (grid_mesh hD t0 hg s2).rl; rw [hl2] at this; exact this
      rw [if_neg (by rw [Grid.reflectParticles]; omega)] at h
      split_ifs at h with hout
      · simp only [Option.some.injEq, Prod.mk.injEq] at h
        obtain ⟨rfl, rfl⟩ := h
        refine ⟨J, hacc, rfl, ⟨by simp, fun _ => ⟨c, a, up, hc, rfl, h3', ?_⟩⟩⟩
        intro F x hx
        refine ⟨F + 1, ?_⟩
        rw [hl, h5 F, hx]
        rfl
      · have hrs : r = s2 := by
          push Not at hout
          have hvn := hnv ▸ hv'
          rw [hl1, hh1, hl2] at hout
          have a1 : ((s2 : ℕ) : ℤ) < (r : ℕ) + 1 := by nlinarith [hout.2]
          have a2 : ((r : ℕ) : ℤ) < (s2 : ℕ) + 1 := by nlinarith [hout.1]
          exact Fin.ext (by omega)
        subst hrs
        have hthrough : through (Torus.sizeOf D) a up ⟨siteAt D r ![c.x, c.y, c.z], fun k => s.p.d k + 2 * (v * s.disp k), s.p.u, s.p.w⟩ =
            lift D r (G r) ⟨Function.update (fun k => s.p.d k + 2 * (v * s.disp k)) a (-sgn up),
              (G r).rangel + VOXEL (G r).nx (G r).ny c'.x c'.y c'.z - (G r).rangel, s.p.u, s.p.w⟩ := by
          rw [lift_voxel hD t0 hg r (MoveP.Part.mk _ _ _ _) hc' (by dsimp only; omega), hsite]
          rfl
        obtain ⟨dep, k1, kw, k2, k3⟩ := ih _ c' hc' (by dsimp only; omega) (by simpa using hbd) b s' h
        refine ⟨J + dep, by rw [k1, ← add_assoc, ← hacc], kw, ?_, ?_⟩
        · intro hb
          obtain ⟨F, hF⟩ := k2 hb
          refine ⟨F + 1, ?_⟩
          rw [hl, h5 F, hthrough]
          dsimp only at hF
          rw [hF]
          rfl
        · intro hb
          obtain ⟨c2, a2, up2, m1, m2, m3, m4⟩ := k3 hb
          refine ⟨c2, a2, up2, m1, m2, m3, fun F x hx => ?_⟩
          obtain ⟨F', hF⟩ := m4 F x hx
          refine ⟨F' + 1, ?_⟩
          rw [hl, h5 F', hthrough]
          dsimp only at hF
          rw [hF, Option.map_some, add_assoc]

end

end Verif.Global
