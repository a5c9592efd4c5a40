import Verif.Inject.Model
import Verif.Deposit.Props
import Verif.Grid.Walled
import Verif.MoveP.Mesh
import Mathlib.Tactic.Linarith
import Mathlib.Tactic.FinCases

/-!
# C58, C59: where injected particles go, and their storage
-/
namespace Verif.Inject

open Grid
open MoveP (Part Mover MState Accum moveP nvox LocalMesh)
open Deposit (accumulateRhob InCell inside)

variable {K : Type*} [Field K] [LinearOrder K] [IsStrictOrderedRing K] [FloorRing K]

/-! ### Specification -/

/-- Spec: the domain coordinates of a rank, and their numbers. -/
def coord (D : Decomp) (r : ℕ) : Fin 3 → ℤ := ![D.cx r, D.cy r, D.cz r]
@[inherit_doc coord] def ranks (D : Decomp) : Fin 3 → ℤ := ![D.gpx, D.gpy, D.gpz]

/-- Spec: numbers of cells of the global mesh. -/
def cells (D : Decomp) : Fin 3 → ℤ := ![D.gnx, D.gny, D.gnz]

/-- Spec: the global cell of a local one. -/
def globalCell (D : Decomp) (r : ℕ) (c : Cell) : Fin 3 → ℤ :=
  ![(globalPos D r c).1, (globalPos D r c).2.1, (globalPos D r c).2.2]

/-- Spec: the position in space of offsets `d` in cell `c` of rank `r`: the box is divided into equal cells, and the offsets go
from -1 to 1 over a cell. -/
def position (B : Box K) (D : Decomp) (r : ℕ) (c : Cell) (d : Fin 3 → K) (k : Fin 3) : K :=
  B.lo k + (B.hi k - B.lo k) / cells D k * (globalCell D r c k + (1 + d k) / 2)

/-- Spec: a position is in the box; its upper end belongs to it only along an axis with walls, as otherwise it is the same as the
lower end. -/
def InBox (B : Box K) (walled : Fin 3 → Prop) (x : Fin 3 → K) : Prop :=
  ∀ k, B.lo k ≤ x k ∧ (x k < B.hi k ∨ (walled k ∧ x k = B.hi k))

/-- Spec: the grid of a rank: its upper face along an axis is joined unless it is a wall. -/
structure Faces (D : Decomp) (walled : Fin 3 → Prop) (r : ℕ) (g : LGrid) : Prop where
  nx : g.nx = D.lx
  ny : g.ny = D.ly
  nz : g.nz = D.lz
  mesh : LocalMesh g
  up : ∀ k, 0 ≤ g.bc (![BOUNDARY 1 0 0, BOUNDARY 0 1 0, BOUNDARY 0 0 1] k) ↔ ¬ (walled k ∧ coord D r k = ranks D k - 1)

/-! ### Lemmas -/

lemma place_spec (n : ℤ) (hn : 1 ≤ n) (x x0 x1 : K) (h : x0 < x1) (h0 : x0 ≤ x) (h1 : x ≤ x1) :
    1 ≤ (place n x x0 x1).1 ∧ (place n x x0 x1).1 ≤ n ∧ -1 ≤ (place n x x0 x1).2 ∧ (place n x x0 x1).2 ≤ 1 ∧
      x = x0 + (x1 - x0) / n * (((place n x x0 x1).1 - 1 : ℤ) + (1 + (place n x x0 x1).2) / 2) := by
  have hd : 0 < x1 - x0 := by linarith
  have hnK : (0 : K) < n := by exact_mod_cast (by omega : 0 < n)
  obtain ⟨y, hy⟩ : ∃ y, y = (n : K) * ((x - x0) / (x1 - x0)) := ⟨_, rfl⟩
  have hx : x = x0 + (x1 - x0) / n * y := by rw [hy]; field_simp; ring
  have y0 : 0 ≤ y := by rw [hy]; exact mul_nonneg hnK.le (div_nonneg (by linarith) hd.le)
  have y1 : y ≤ n := by
    rw [hy]
    have : (x - x0) / (x1 - x0) ≤ 1 := by rw [div_le_one hd]; linarith
    nlinarith
  have f1 := Int.floor_le y
  have f2 := Int.lt_floor_add_one y
  have f0 : 0 ≤ ⌊y⌋ := Int.floor_nonneg.2 y0
  have fn : ⌊y⌋ ≤ n := by
    have : ⌊y⌋ ≤ ⌊(n : K)⌋ := Int.floor_le_floor y1
    simpa using this
  unfold place
  simp only [← hy, trunc, if_pos y0]
  by_cases hc : ⌊y⌋ = n
  · have e : y = n := by rw [hc] at f1; exact le_antisymm y1 f1
    simp only [hc, if_true]
    refine ⟨by omega, by omega, by linarith, le_refl _, ?_⟩
    rw [hx, e]
    push_cast
    ring
  · simp only [if_neg hc]
    refine ⟨by omega, by omega, by linarith, by linarith, ?_⟩
    rw [hx]
    push_cast
    ring

/-- A rank injects along an axis iff the position is in its part. -/
lemma skip_iff (lo hi x : K) (P c : ℤ) (hP : 1 ≤ P) (h : lo < hi) (bc : ℤ) (y : K) (hy : y = (P : K) * ((x - lo) / (hi - lo))) :
    ¬ skip x (lo * (1 - (c : K) / P) + hi * ((c : K) / P)) (lo * (1 - ((c + 1 : ℤ) : K) / P) + hi * (((c + 1 : ℤ) : K) / P)) bc ↔
      (c : K) ≤ y ∧ (y < c + 1 ∨ (y = c + 1 ∧ bc < 0)) := by
  have hd : 0 < hi - lo := by linarith
  have hPK : (0 : K) < P := by exact_mod_cast (by omega : 0 < P)
  have hx : x = lo + (hi - lo) / P * y := by rw [hy]; field_simp; ring
  have hs : 0 < (hi - lo) / P := div_pos hd hPK
  obtain ⟨s, hs'⟩ : ∃ s, s = (hi - lo) / P := ⟨_, rfl⟩
  have e0 : ∀ c : K, lo * (1 - c / P) + hi * (c / P) = lo + s * c := by intro c; rw [hs']; field_simp; ring
  rw [e0, e0, hx]
  rw [← hs'] at hs ⊢
  unfold skip
  push_cast
  have l0 : lo + s * y < lo + s * c ↔ y < c := by rw [add_lt_add_iff_left]; exact mul_lt_mul_iff_right₀ hs
  have l1 : lo + s * y > lo + s * (c + 1) ↔ (c : K) + 1 < y := by rw [gt_iff_lt, add_lt_add_iff_left]; exact mul_lt_mul_iff_right₀ hs
  have l2 : lo + s * y = lo + s * (c + 1) ↔ y = c + 1 := by rw [add_right_inj]; exact mul_right_inj' hs.ne'
  rw [l0, l1, l2]
  constructor
  · intro h
    push Not at h
    refine ⟨h.1, ?_⟩
    rcases lt_or_eq_of_le h.2.1 with h2 | h2
    · exact .inl h2
    · exact .inr ⟨h2, h.2.2 h2⟩
  · rintro ⟨h1, h2⟩ h3
    rcases h3 with h3 | h3 | ⟨h3, h4⟩
    · exact absurd h1 (not_le.2 h3)
    · rcases h2 with h2 | ⟨h2, _⟩
      · exact absurd h3 (not_lt.2 h2.le)
      · rw [h2] at h3; exact lt_irrefl _ h3
    · rcases h2 with h2 | ⟨_, h2⟩
      · rw [h3] at h2; exact lt_irrefl _ h2
      · omega

/-- Exactly one part of an axis takes a position in the box, and none one outside. -/
lemma axis_unique (lo hi x : K) (P : ℤ) (hP : 1 ≤ P) (h : lo < hi) (W : Prop) (bc : ℤ → ℤ)
    (hbc : ∀ c, 0 ≤ c → c < P → (0 ≤ bc c ↔ ¬ (W ∧ c = P - 1))) :
    (lo ≤ x ∧ (x < hi ∨ (W ∧ x = hi)) →
      ∃ c, 0 ≤ c ∧ c < P ∧ ¬ skip x (lo * (1 - (c : K) / P) + hi * ((c : K) / P))
        (lo * (1 - ((c + 1 : ℤ) : K) / P) + hi * (((c + 1 : ℤ) : K) / P)) (bc c)) ∧
    (∀ c, 0 ≤ c → c < P → ¬ skip x (lo * (1 - (c : K) / P) + hi * ((c : K) / P))
        (lo * (1 - ((c + 1 : ℤ) : K) / P) + hi * (((c + 1 : ℤ) : K) / P)) (bc c) →
      (lo ≤ x ∧ (x < hi ∨ (W ∧ x = hi))) ∧ ∀ c', 0 ≤ c' → c' < P →
        ¬ skip x (lo * (1 - (c' : K) / P) + hi * ((c' : K) / P))
        (lo * (1 - ((c' + 1 : ℤ) : K) / P) + hi * (((c' + 1 : ℤ) : K) / P)) (bc c') → c' = c) := by
  have hd : 0 < hi - lo := by linarith
  have hPK : (0 : K) < P := by exact_mod_cast (by omega : 0 < P)
  obtain ⟨y, hy⟩ : ∃ y, y = (P : K) * ((x - lo) / (hi - lo)) := ⟨_, rfl⟩
  have hx : x = lo + (hi - lo) / P * y := by rw [hy]; field_simp; ring
  have hs : 0 < (hi - lo) / P := div_pos hd hPK
  have hlo : lo ≤ x ↔ 0 ≤ y := by
    rw [hy]
    constructor
    · intro h; exact mul_nonneg hPK.le (div_nonneg (by linarith) hd.le)
    · intro h
      have := nonneg_of_mul_nonneg_right h hPK
      have := (div_nonneg_iff.1 this)
      rcases this with h | h <;> linarith
  have hhi : x < hi ↔ y < P := by
    rw [hy]
    constructor
    · intro h
      have : (x - lo) / (hi - lo) < 1 := by rw [div_lt_one hd]; linarith
      nlinarith
    · intro h
      have : (x - lo) / (hi - lo) < 1 := by
        by_contra h2
        push Not at h2
        nlinarith
      rw [div_lt_one hd] at this
      linarith
  have heq : x = hi ↔ y = P := by
    constructor
    · rintro rfl; rw [hy, div_self hd.ne', mul_one]
    · intro h; rw [hx, h]; field_simp; ring
  have key : ∀ c, 0 ≤ c → c < P → (¬ skip x (lo * (1 - (c : K) / P) + hi * ((c : K) / P))
        (lo * (1 - ((c + 1 : ℤ) : K) / P) + hi * (((c + 1 : ℤ) : K) / P)) (bc c) ↔
      (c : K) ≤ y ∧ (y < c + 1 ∨ (y = P ∧ W ∧ c = P - 1))) := by
    intro c h0 h1
    rw [skip_iff lo hi x P c hP h (bc c) y hy]
    have := hbc c h0 h1
    have hb : bc c < 0 ↔ W ∧ c = P - 1 := by
      constructor
      · intro hh; by_contra h2; have := this.2 h2; omega
      · intro hh; by_contra h2; exact this.1 (by omega) hh
    rw [hb]
    constructor
    · rintro ⟨a, b | ⟨b, w, e⟩⟩
      · exact ⟨a, .inl b⟩
      · refine ⟨a, .inr ⟨?_, w, e⟩⟩
        rw [b, e]; push_cast; ring
    · rintro ⟨a, b | ⟨b, w, e⟩⟩
      · exact ⟨a, .inl b⟩
      · refine ⟨a, .inr ⟨?_, w, e⟩⟩
        rw [b, e]; push_cast; ring
  rw [hlo, hhi, heq]
  constructor
  · rintro ⟨h0, h1⟩
    rcases h1 with h1 | ⟨w, h1⟩
    · refine ⟨⌊y⌋, Int.floor_nonneg.2 h0, Int.floor_lt.2 h1, ?_⟩
      rw [key _ (Int.floor_nonneg.2 h0) (Int.floor_lt.2 h1)]
      exact ⟨Int.floor_le y, .inl (Int.lt_floor_add_one y)⟩
    · refine ⟨P - 1, by omega, by omega, ?_⟩
      rw [key _ (by omega) (by omega)]
      refine ⟨?_, .inr ⟨h1, w, rfl⟩⟩
      rw [h1]; push_cast; linarith
  · intro c c0 c1 hc
    rw [key c c0 c1] at hc
    obtain ⟨a, b⟩ := hc
    have c0K : (0 : K) ≤ c := by exact_mod_cast c0
    have c1K : (c : K) + 1 ≤ P := by exact_mod_cast c1
    refine ⟨⟨by linarith, ?_⟩, ?_⟩
    · rcases b with b | ⟨b, w, _⟩
      · exact .inl (by linarith)
      · exact .inr ⟨w, b⟩
    · intro c' c0' c1' hc'
      rw [key c' c0' c1'] at hc'
      obtain ⟨a', b'⟩ := hc'
      have c1K' : (c' : K) + 1 ≤ P := by exact_mod_cast c1'
      have le1 : ∀ u v : ℤ, (u : K) ≤ y → y < v + 1 → u ≤ v := by
        intro u v h1 h2
        have : (u : K) < v + 1 := lt_of_le_of_lt h1 h2
        have : u < v + 1 := by exact_mod_cast this
        omega
      rcases b with b | ⟨b, w, e⟩ <;> rcases b' with b' | ⟨b', w', e'⟩
      · have := le1 c c' a b'; have := le1 c' c a' b; omega
      · linarith
      · linarith
      · omega

omit [LinearOrder K] [IsStrictOrderedRing K] [FloorRing K] in
lemma geom_ends (B : Box K) (D : Decomp) (r : ℕ) (cdt : K) (k : Fin 3) :
    (geomOf B D r cdt).x0 k = B.lo k * (1 - (coord D r k : K) / ranks D k) + B.hi k * ((coord D r k : K) / ranks D k) ∧
    (geomOf B D r cdt).x1 k = B.lo k * (1 - ((coord D r k + 1 : ℤ) : K) / ranks D k) +
      B.hi k * (((coord D r k + 1 : ℤ) : K) / ranks D k) := by
  unfold geomOf
  rw [rankToIndex_eq]
  exact ⟨rfl, rfl⟩

lemma coord_range {D : Decomp} {ws : ℕ} (h : D.Valid ws) (r : ℕ) (hr : r < ws) (k : Fin 3) : 0 ≤ coord D r k ∧ coord D r k < ranks D k := by
  obtain ⟨a1, a2, a3, a4, a5, a6⟩ := coord_bounds h r hr
  fin_cases k
  · exact ⟨a1, a2⟩
  · exact ⟨a3, a4⟩
  · exact ⟨a5, a6⟩

lemma ranks_pos {D : Decomp} {ws : ℕ} (h : D.Valid ws) (k : Fin 3) : 1 ≤ ranks D k := by
  fin_cases k
  · exact h.px
  · exact h.py
  · exact h.pz

/-- The port of the upper face. -/
def upPort : Fin 3 → ℤ := ![BOUNDARY 1 0 0, BOUNDARY 0 1 0, BOUNDARY 0 0 1]

/-- Spec: rank `r` takes the position. -/
def Takes (B : Box K) (D : Decomp) (r : ℕ) (g : LGrid) (x : Fin 3 → K) : Prop :=
  ∀ k, ¬ skip (x k) ((geomOf B D r 0).x0 k) ((geomOf B D r 0).x1 k) (g.bc (upPort k))

/-- Exactly one rank takes a position in the box, none one outside. -/
lemma takes_unique {D : Decomp} {ws : ℕ} (h : D.Valid ws) (B : Box K) (hB : ∀ k, B.lo k < B.hi k) (walled : Fin 3 → Prop)
    (gr : ℕ → LGrid) (hF : ∀ r < ws, Faces D walled r (gr r)) (x : Fin 3 → K) :
    (InBox B walled x → ∃ r < ws, Takes B D r (gr r) x) ∧
    (∀ r < ws, Takes B D r (gr r) x → InBox B walled x ∧ ∀ r' < ws, Takes B D r' (gr r') x → r' = r) := by
  classical
  -- the boundary conditions as a function of the coordinate
  let bc : Fin 3 → ℤ → ℤ := fun k c => if walled k ∧ c = ranks D k - 1 then -1 else 0
  have ax := fun k => axis_unique (B.lo k) (B.hi k) (x k) (ranks D k) (ranks_pos h k) (hB k) (walled k) (bc k) (by
    intro c _ _
    by_cases hc : walled k ∧ c = ranks D k - 1
    · simp [bc, hc]
    · simp [bc, hc])
  have takes_iff : ∀ r < ws, ∀ k, skip (x k) ((geomOf B D r 0).x0 k) ((geomOf B D r 0).x1 k) ((gr r).bc (upPort k)) ↔
      skip (x k) (B.lo k * (1 - (coord D r k : K) / ranks D k) + B.hi k * ((coord D r k : K) / ranks D k))
        (B.lo k * (1 - ((coord D r k + 1 : ℤ) : K) / ranks D k) + B.hi k * (((coord D r k + 1 : ℤ) : K) / ranks D k))
        (bc k (coord D r k)) := by
    intro r hr k
    rw [(geom_ends B D r 0 k).1, (geom_ends B D r 0 k).2]
    have hu := (hF r hr).up k
    have : 0 ≤ (gr r).bc (upPort k) ↔ 0 ≤ bc k (coord D r k) := by
      unfold upPort
      rw [hu]
      by_cases hc : walled k ∧ coord D r k = ranks D k - 1
      · simp [bc, hc]
      · simp [bc, hc]
    unfold skip
    simp only [ge_iff_le, this]
  constructor
  · intro hx
    choose c c0 c1 hc using fun k => (ax k).1 (hx k)
    obtain ⟨r, hr, -, e0, e1, e2⟩ := indexToRank_spec h (c 0) (c 1) (c 2)
    have ec : ∀ k, coord D r k = c k := by
      intro k
      fin_cases k
      · exact e0.trans (Int.emod_eq_of_lt (c0 0) (c1 0))
      · exact e1.trans (Int.emod_eq_of_lt (c0 1) (c1 1))
      · exact e2.trans (Int.emod_eq_of_lt (c0 2) (c1 2))
    refine ⟨r, hr, fun k => ?_⟩
    rw [takes_iff r hr k, ec k]
    exact hc k
  · intro r hr ht
    have hk : ∀ k, _ := fun k => (ax k).2 (coord D r k) (coord_range h r hr k).1 (coord_range h r hr k).2
      ((not_congr (takes_iff r hr k)).1 (ht k))
    refine ⟨fun k => (hk k).1, fun r' hr' ht' => ?_⟩
    have e : ∀ k, coord D r' k = coord D r k := fun k => (hk k).2 (coord D r' k) (coord_range h r' hr' k).1 (coord_range h r' hr' k).2
      ((not_congr (takes_iff r' hr' k)).1 (ht' k))
    have := rank_ext h (e 0) (e 1) (e 2)
    exact_mod_cast this

/-- The cell and the offsets of a position on the rank that takes it. -/
lemma takes_place {D : Decomp} {ws : ℕ} (h : D.Valid ws) (B : Box K) (hB : ∀ k, B.lo k < B.hi k) (r : ℕ) (hr : r < ws) (g : LGrid)
    (x : Fin 3 → K) (ht : Takes B D r g x) (k : Fin 3) (n : ℤ) (hn : 1 ≤ n) (hnk : cells D k = ranks D k * n) (cdt : K) :
    let q := place n (x k) ((geomOf B D r cdt).x0 k) ((geomOf B D r cdt).x1 k)
    1 ≤ q.1 ∧ q.1 ≤ n ∧ -1 ≤ q.2 ∧ q.2 ≤ 1 ∧
      x k = B.lo k + (B.hi k - B.lo k) / cells D k * ((coord D r k * n + (q.1 - 1) : ℤ) + (1 + q.2) / 2) := by
  intro q
  have e0 : (geomOf B D r cdt).x0 k = (geomOf B D r 0).x0 k := rfl
  have e1 : (geomOf B D r cdt).x1 k = (geomOf B D r 0).x1 k := rfl
  obtain ⟨g0, g1⟩ := geom_ends B D r cdt k
  have hP := ranks_pos h k
  have hPK : (0 : K) < ranks D k := by exact_mod_cast (by omega : 0 < ranks D k)
  have hnK : (0 : K) < n := by exact_mod_cast (by omega : 0 < n)
  have hk := ht k
  unfold skip at hk
  push Not at hk
  have diff : (geomOf B D r cdt).x1 k - (geomOf B D r cdt).x0 k = (B.hi k - B.lo k) / ranks D k := by
    rw [g0, g1]; push_cast; field_simp; ring
  have hlt : (geomOf B D r cdt).x0 k < (geomOf B D r cdt).x1 k := by
    have : 0 < (B.hi k - B.lo k) / ranks D k := div_pos (by linarith [hB k]) hPK
    linarith
  obtain ⟨a1, a2, a3, a4, a5⟩ := place_spec n hn (x k) _ _ hlt hk.1 hk.2.1
  refine ⟨a1, a2, a3, a4, ?_⟩
  have eq : x k = (geomOf B D r cdt).x0 k + ((geomOf B D r cdt).x1 k - (geomOf B D r cdt).x0 k) / n *
      (((q.1 - 1 : ℤ) : K) + (1 + q.2) / 2) := a5
  rw [diff, g0] at eq
  rw [hnk, eq]
  push_cast
  field_simp
  ring

omit [IsStrictOrderedRing K] in
lemma inject_skip (g : LGrid) (G : Geom K) (rt : K → K) (fuel : ℕ) (s : Sim K) (x u : Fin 3 → K) (w a : K) (upd : Bool) (hw : 0 ≤ w)
    (k : Fin 3) (hk : skip (x k) (G.x0 k) (G.x1 k) (g.bc (upPort k))) : injectParticle g G rt fuel s x u w a upd = .ok s := by
  have hk' : ∀ j, j = k → skip (x j) (G.x0 j) (G.x1 j) (g.bc (upPort j)) := by rintro j rfl; exact hk
  unfold injectParticle
  rw [if_neg (not_lt.2 hw)]
  by_cases h0 : skip (x 0) (G.x0 0) (G.x1 0) (g.bc (BOUNDARY 1 0 0))
  · rw [if_pos h0]
  rw [if_neg h0]
  by_cases h1 : skip (x 1) (G.x0 1) (G.x1 1) (g.bc (BOUNDARY 0 1 0))
  · rw [if_pos h1]
  rw [if_neg h1]
  by_cases h2 : skip (x 2) (G.x0 2) (G.x1 2) (g.bc (BOUNDARY 0 0 1))
  · rw [if_pos h2]
  exfalso
  fin_cases k
  · exact h0 hk
  · exact h1 hk
  · exact h2 hk

/-! ### C58 -/

/-- Spec: the particle of offsets `d` in cell `c`. -/
def atCell (g : LGrid) (c : Cell) (d u : Fin 3 → K) (w : K) : Part K := { d := d, i := VOXEL g.nx g.ny c.x c.y c.z, u := u, w := w }

omit [FloorRing K] in
/-- **C58.** A particle injected at a position in the box is stored by exactly one rank, at the end of its list, in an interior
cell with offsets from -1 to 1 that reproduce the position; with `update_rhob` the opposite charge is left at the corners of this
cell.  All other ranks are unchanged. -/
theorem inject_where [FloorRing K] {D : Decomp} {ws : ℕ} (hD : D.ok ws = true) (B : Box K) (hB : ∀ k, B.lo k < B.hi k)
    (walled : Fin 3 → Prop) (gr : ℕ → LGrid) (hF : ∀ r < ws, Faces D walled r (gr r)) (x : Fin 3 → K) (hx : InBox B walled x) (cdt : K) :
    ∃ r < ws, ∃ (c : Cell) (d : Fin 3 → K), IsInterior D c ∧ (∀ k, -1 ≤ d k ∧ d k ≤ 1) ∧ (∀ k, position B D r c d k = x k) ∧
      (∀ (rt : K → K) (fuel : ℕ) (s : Sim K) (u : Fin 3 → K) (w : K) (upd : Bool), 0 ≤ w → s.sp.p.length < s.sp.maxNp →
        ∃ s', injectParticle (gr r) (geomOf B D r cdt) rt fuel s x u w 0 upd = .ok s' ∧
          s'.sp = { s.sp with p := s.sp.p ++ [atCell (gr r) c d u w] } ∧ s'.a = s.a ∧
          (upd = false → s'.rhob = s.rhob) ∧
          (upd = true →
            ∑ n ∈ Finset.Ico 0 (nvox (gr r)), inside (gr r) n * (s'.rhob n - s.rhob n) = -(8 * (geomOf B D r cdt).r8V * (s.sp.q * w)) ∧
            ∀ n, (∀ k, n ≠ Deposit.cornerNode (gr r) c k) → s'.rhob n = s.rhob n)) ∧
      (∀ (rt : K → K) (s : Sim K) (u : Fin 3 → K) (w age : K) (upd : Bool) (n : Fin 3 → ℕ) (fuel : ℕ), 0 ≤ w → age ≠ 0 →
        s.sp.p.length < s.sp.maxNp → s.sp.pm.length < s.sp.maxNm →
        let disp : Fin 3 → K := fun k => u k * (age * (cdt / rt (u 0 * u 0 + u 1 * u 1 + u 2 * u 2 + 1))) * (geomOf B D r cdt).rd k
        (∀ k, |disp k| ≤ n k) → n 0 + n 1 + n 2 < fuel →
        ∃ s' b m C' walls t, injectParticle (gr r) (geomOf B D r cdt) rt fuel s x u w age upd = .ok s' ∧
          MoveP.Moved (gr r) (fun _ => True) (MoveP.wrappedVoxel (gr r)) ⟨atCell (gr r) c d u w, disp, s.a⟩ ![c.x - 1, c.y - 1, c.z - 1]
            b m C' walls t ∧
          s'.sp = { s.sp with p := s.sp.p ++ [m.p], pm := s.sp.pm ++ if b then [{ disp := m.disp, i := s.sp.p.length }] else [] } ∧
          s'.a = m.a ∧ (upd = false → s'.rhob = s.rhob) ∧
          (upd = true →
            ∑ n ∈ Finset.Ico 0 (nvox (gr r)), inside (gr r) n * (s'.rhob n - s.rhob n) = -(8 * (geomOf B D r cdt).r8V * (s.sp.q * w)) ∧
            ∀ n, (∀ k, n ≠ Deposit.cornerNode (gr r) c k) → s'.rhob n = s.rhob n)) ∧
      ∀ r' < ws, r' ≠ r → ∀ (rt : K → K) (fuel : ℕ) (s : Sim K) (u : Fin 3 → K) (w age : K) (upd : Bool), 0 ≤ w →
        injectParticle (gr r') (geomOf B D r' cdt) rt fuel s x u w age upd = .ok s := by
  have h := (D.ok_iff ws).mp hD
  obtain ⟨r, hr, ht⟩ := (takes_unique h B hB walled gr hF x).1 hx
  have hun := ((takes_unique h B hB walled gr hF x).2 r hr ht).2
  have hf := hF r hr
  have nx : cells D 0 = ranks D 0 * D.lx := (Int.mul_ediv_cancel' h.dx).symm
  have ny : cells D 1 = ranks D 1 * D.ly := (Int.mul_ediv_cancel' h.dy).symm
  have nz : cells D 2 = ranks D 2 * D.lz := (Int.mul_ediv_cancel' h.dz).symm
  obtain ⟨a1, a2, a3, a4, a5⟩ := takes_place h B hB r hr (gr r) x ht 0 D.lx h.lx_pos nx cdt
  obtain ⟨b1, b2, b3, b4, b5⟩ := takes_place h B hB r hr (gr r) x ht 1 D.ly h.ly_pos ny cdt
  obtain ⟨c1, c2, c3, c4, c5⟩ := takes_place h B hB r hr (gr r) x ht 2 D.lz h.lz_pos nz cdt
  set qx := place D.lx (x 0) ((geomOf B D r cdt).x0 0) ((geomOf B D r cdt).x1 0) with hqx
  set qy := place D.ly (x 1) ((geomOf B D r cdt).x0 1) ((geomOf B D r cdt).x1 1) with hqy
  set qz := place D.lz (x 2) ((geomOf B D r cdt).x0 2) ((geomOf B D r cdt).x1 2) with hqz
  have hd : ∀ k, -1 ≤ (![qx.2, qy.2, qz.2] : Fin 3 → K) k ∧ (![qx.2, qy.2, qz.2] : Fin 3 → K) k ≤ 1 := by
    intro k
    fin_cases k
    · exact ⟨a3, a4⟩
    · exact ⟨b3, b4⟩
    · exact ⟨c3, c4⟩
  have hint : (⟨qx.1, qy.1, qz.1⟩ : Cell).Interior D.lx D.ly D.lz := ⟨a1, a2, b1, b2, c1, c2⟩
  have hin : ∀ u w, InCell (gr r) (atCell (gr r) ⟨qx.1, qy.1, qz.1⟩ ![qx.2, qy.2, qz.2] u w) ⟨qx.1, qy.1, qz.1⟩ := by
    intro u w
    refine ⟨?_, rfl⟩
    rw [hf.nx, hf.ny, hf.nz]
    exact hint
  have s0 : ¬ skip (x 0) ((geomOf B D r cdt).x0 0) ((geomOf B D r cdt).x1 0) ((gr r).bc (BOUNDARY 1 0 0)) := ht 0
  have s1 : ¬ skip (x 1) ((geomOf B D r cdt).x0 1) ((geomOf B D r cdt).x1 1) ((gr r).bc (BOUNDARY 0 1 0)) := ht 1
  have s2 : ¬ skip (x 2) ((geomOf B D r cdt).x0 2) ((geomOf B D r cdt).x1 2) ((gr r).bc (BOUNDARY 0 0 1)) := ht 2
  -- the charge left behind
  have rhob : ∀ (s : Sim K) (u : Fin 3 → K) (w : K) (upd : Bool), ∃ rhob',
      (if upd then accumulateRhob (gr r) (geomOf B D r cdt).r8V (-s.sp.q)
        (atCell (gr r) ⟨qx.1, qy.1, qz.1⟩ ![qx.2, qy.2, qz.2] u w) s.rhob else some s.rhob) = some rhob' ∧
      (upd = false → rhob' = s.rhob) ∧
      (upd = true →
        ∑ n ∈ Finset.Ico 0 (nvox (gr r)), inside (gr r) n * (rhob' n - s.rhob n) = -(8 * (geomOf B D r cdt).r8V * (s.sp.q * w)) ∧
        ∀ n, (∀ k, n ≠ Deposit.cornerNode (gr r) ⟨qx.1, qy.1, qz.1⟩ k) → rhob' n = s.rhob n) := by
    intro s u w upd
    cases upd with
    | false => exact ⟨s.rhob, rfl, fun _ => rfl, fun h => by simp at h⟩
    | true =>
      obtain ⟨rhob', e, e1, e2, _⟩ := Deposit.rhob_conserves hf.mesh (geomOf B D r cdt).r8V (-s.sp.q) _ _ (hin u w) s.rhob
      refine ⟨rhob', by simpa using e, fun h => by simp at h, fun _ => ⟨?_, e2⟩⟩
      rw [e1]
      simp only [atCell]
      ring
  refine ⟨r, hr, ⟨qx.1, qy.1, qz.1⟩, ![qx.2, qy.2, qz.2], hint, hd, ?_, ?_, ?_, ?_⟩
  · intro k
    unfold position
    fin_cases k
    · rw [show x ((fun i => i) (⟨0, by decide⟩ : Fin 3)) = x 0 from rfl, a5]; rfl
    · rw [show x ((fun i => i) (⟨1, by decide⟩ : Fin 3)) = x 1 from rfl, b5]; rfl
    · rw [show x ((fun i => i) (⟨2, by decide⟩ : Fin 3)) = x 2 from rfl, c5]; rfl
  · intro rt fuel s u w upd hw hroom
    obtain ⟨rhob', e, e1, e2⟩ := rhob s u w upd
    refine ⟨{ sp := { s.sp with p := s.sp.p ++ [atCell (gr r) ⟨qx.1, qy.1, qz.1⟩ ![qx.2, qy.2, qz.2] u w] }, rhob := rhob', a := s.a },
      ?_, rfl, rfl, e1, e2⟩
    unfold injectParticle
    rw [if_neg (not_lt.2 hw), if_neg s0, if_neg s1, if_neg s2, if_neg (by omega)]
    simp only [hf.nx, hf.ny, hf.nz, ← hqx, ← hqy, ← hqz]
    unfold atCell at e
    rw [hf.nx, hf.ny] at e
    rw [e]
    simp [atCell, hf.nx, hf.ny]
  · intro rt s u w ag upd n fuel hw ha hroom hmov disp hn hfu
    obtain ⟨rhob', e, e1, e2⟩ := rhob s u w upd
    obtain ⟨b, m, C', walls, t, em, hm⟩ := MoveP.move_p_trajectory (gr r) (fun _ => True) (MoveP.wrappedVoxel (gr r))
      (MoveP.localMesh_covers (gr r) hf.mesh) s.sp.q
      ⟨atCell (gr r) ⟨qx.1, qy.1, qz.1⟩ ![qx.2, qy.2, qz.2] u w, disp, s.a⟩ ![qx.1 - 1, qy.1 - 1, qz.1 - 1] trivial
      (by
        have := MoveP.wrappedVoxel_self (g := gr r) (c := ⟨qx.1, qy.1, qz.1⟩) (hin u w).1
        exact this.symm) hd n hn fuel hfu
    refine ⟨{ sp := { s.sp with p := s.sp.p ++ [m.p], pm := s.sp.pm ++ if b then [{ disp := m.disp, i := s.sp.p.length }] else [] }
              rhob := rhob', a := m.a }, b, m, C', walls, t, ?_, hm, rfl, rfl, e1, e2⟩
    unfold injectParticle
    rw [if_neg (not_lt.2 hw), if_neg s0, if_neg s1, if_neg s2, if_neg (by omega)]
    simp only [hf.nx, hf.ny, hf.nz, ← hqx, ← hqy, ← hqz]
    unfold atCell at e em
    rw [hf.nx, hf.ny] at e em
    rw [e]
    simp only [ne_eq, ha, not_false_eq_true, if_true]
    unfold age
    have hd' : (fun k => u k * (ag * ((geomOf B D r cdt).cdt / rt (u 0 * u 0 + u 1 * u 1 + u 2 * u 2 + 1))) * (geomOf B D r cdt).rd k) =
        disp := rfl
    rw [hd']
    simp only [em]
    rw [if_neg (by omega)]
    cases b <;> simp
  · intro r' hr' hne rt fuel s u w ag upd hw
    have hnt : ¬ Takes B D r' (gr r') x := fun ht' => hne (hun r' hr' ht')
    unfold Takes at hnt
    push Not at hnt
    obtain ⟨k, hk⟩ := hnt
    exact inject_skip _ _ _ _ _ _ _ _ _ _ hw k hk

omit [FloorRing K] in
/-- C58: a particle outside of the box is ignored by all ranks. -/
theorem inject_outside [FloorRing K] {D : Decomp} {ws : ℕ} (hD : D.ok ws = true) (B : Box K) (hB : ∀ k, B.lo k < B.hi k)
    (walled : Fin 3 → Prop) (gr : ℕ → LGrid) (hF : ∀ r < ws, Faces D walled r (gr r)) (x : Fin 3 → K) (hx : ¬ InBox B walled x) (cdt : K)
    (r : ℕ) (hr : r < ws) (rt : K → K) (fuel : ℕ) (s : Sim K) (u : Fin 3 → K) (w ag : K) (upd : Bool) (hw : 0 ≤ w) :
    injectParticle (gr r) (geomOf B D r cdt) rt fuel s x u w ag upd = .ok s := by
  have h := (D.ok_iff ws).mp hD
  have hnt : ¬ Takes B D r (gr r) x := fun ht => hx ((takes_unique h B hB walled gr hF x).2 r hr ht).1
  unfold Takes at hnt
  push Not at hnt
  obtain ⟨k, hk⟩ := hnt
  exact inject_skip _ _ _ _ _ _ _ _ _ _ hw k hk

/-! ### The grids of the partitions -/

/-- The grids of a periodic box. -/
theorem periodic_faces (D : Decomp) (ws : ℕ) (hD : D.ok ws = true) (t0 : ℕ → ℤ → ℤ) (r : ℕ) (hr : r < ws) :
    ∃ g, gridOf D ws t0 r = some g ∧ Faces D (fun _ => False) r g := by
  have h := (D.ok_iff ws).mp hD
  obtain ⟨g, e, gx, gy, gz, -, -, -, gb, -, -⟩ := partitionPeriodic_T h (fun _ => localNv D) (fun _ => rfl) (t0 r) r hr
  refine ⟨g, e, gx, gy, gz, MoveP.periodic_localMesh D ws hD t0 r hr g e, fun k => ?_⟩
  have hb : ∀ f : ℤ, 0 ≤ f ∧ f < 6 → 0 ≤ g.bc (portOf f) := by
    intro f hf
    rw [gb f hf]
    obtain ⟨s, hs, e, -⟩ := indexToRank_spec h (D.cx r + fdx f) (D.cy r + fdy f) (D.cz r + fdz f)
    unfold Decomp.nbrRank
    rw [e]
    omega
  simp only [false_and, not_false_eq_true, iff_true]
  fin_cases k
  · exact hb 3 (by decide)
  · exact hb 4 (by decide)
  · exact hb 5 (by decide)

/-- The grids of a box with walls: an axis of more than one cell has walls. -/
theorem walled_faces (D : Decomp) (ws : ℕ) (hD : D.ok ws = true) (t0 : ℕ → ℤ → ℤ) (fbc pbc : ℤ) (hp : pbc < 0)
    (hfb : fbc = -1 ∨ fbc = -2 ∨ fbc = -3 ∨ fbc = -4) (r : ℕ) (hr : r < ws) :
    ∃ g, partitionWalled fbc pbc ws (fun _ => localNv D) (t0 r) D r = some g ∧ Faces D (fun k => cells D k > 1) r g := by
  have h := (D.ok_iff ws).mp hD
  obtain ⟨g1, e, gx, gy, gz, -, -, -, gb, -, -⟩ := partitionPeriodic_T h (fun _ => localNv D) (fun _ => rfl) (t0 r) r hr
  obtain ⟨g, a1, ⟨s1, s2, s3, s4, s5, s6⟩, a3, a4⟩ := partitionWalled_T h fbc pbc hp hfb _ (t0 r) r g1 e gx gy gz
  refine ⟨g, a1, s1.trans gx, s2.trans gy, s3.trans gz, MoveP.walled_localMesh D ws hD t0 fbc pbc hp hfb r hr g a1, fun k => ?_⟩
  have hb : ∀ f : ℤ, 0 ≤ f ∧ f < 6 → (0 ≤ g.bc (portOf f) ↔ ¬ outerRank D r f = true) := by
    intro f hf
    rw [a3 f hf, gb f hf]
    obtain ⟨s, hs, e, -⟩ := indexToRank_spec h (D.cx r + fdx f) (D.cy r + fdy f) (D.cz r + fdz f)
    unfold Decomp.nbrRank
    rw [e]
    split_ifs with ho
    · simp only [ho, not_true, iff_false]; omega
    · simp [ho]
  fin_cases k
  · refine (hb 3 (by decide)).trans (not_congr ?_)
    simp [outerRank, cells, coord, ranks, and_comm]
  · refine (hb 4 (by decide)).trans (not_congr ?_)
    simp [outerRank, cells, coord, ranks, and_comm]
  · refine (hb 5 (by decide)).trans (not_congr ?_)
    simp [outerRank, cells, coord, ranks, and_comm]

/-! ### C59 -/

/-- Spec: the lists are inside of their storage. -/
def Fits (sp : Species K) : Prop := sp.p.length ≤ sp.maxNp ∧ sp.pm.length ≤ sp.maxNm

omit [IsStrictOrderedRing K] [FloorRing K] in
lemma age_fits (g : LGrid) (fuel : ℕ) (s s' : Sim K) (q : Part K) (disp : Fin 3 → K) (h : s.sp.p.length < s.sp.maxNp)
    (e : age g fuel s q disp = .ok s') : Fits s'.sp := by
  unfold age at e
  split_ifs at e with hm
  split at e
  · simp at e
  · rename_i b m _
    simp only [Except.ok.injEq] at e
    subst e
    cases b <;> refine ⟨?_, ?_⟩ <;> simp <;> omega

omit [IsStrictOrderedRing K] [FloorRing K] in
/-- **C59, partial.** Injection keeps the lists inside of their storage, and a full particle list is reported; what is missing is that
a full mover list is handled too, see `inject_overruns_movers`. -/
theorem inject_storage_partial [FloorRing K] (g : LGrid) (G : Geom K) (rt : K → K) (fuel : ℕ) (s : Sim K) (x u : Fin 3 → K) (w a : K)
    (upd : Bool) (hs : Fits s.sp) :
    (∀ s', injectParticle g G rt fuel s x u w a upd = .ok s' → Fits s'.sp ∧ s'.sp.maxNp = s.sp.maxNp ∧ s'.sp.maxNm = s.sp.maxNm) ∧
    (s.sp.p.length = s.sp.maxNp → injectParticle g G rt fuel s x u w a upd = .ok s ∨
      injectParticle g G rt fuel s x u w a upd = .error .error) := by
  constructor
  · intro s' e
    have base : ∀ r : Except Fault (Sim K), r = .ok s' → r = .ok s ∨ r = .error .error → Fits s'.sp ∧ s'.sp.maxNp = s.sp.maxNp ∧
        s'.sp.maxNm = s.sp.maxNm := by
      rintro r e (rfl | rfl)
      · obtain rfl := Except.ok.inj e; exact ⟨hs, rfl, rfl⟩
      · simp at e
    unfold injectParticle at e
    by_cases h1 : w < 0
    · rw [if_pos h1] at e; exact base _ e (.inr rfl)
    rw [if_neg h1] at e
    by_cases h2 : skip (x 0) (G.x0 0) (G.x1 0) (g.bc (BOUNDARY 1 0 0))
    · rw [if_pos h2] at e; exact base _ e (.inl rfl)
    rw [if_neg h2] at e
    by_cases h3 : skip (x 1) (G.x0 1) (G.x1 1) (g.bc (BOUNDARY 0 1 0))
    · rw [if_pos h3] at e; exact base _ e (.inl rfl)
    rw [if_neg h3] at e
    by_cases h4 : skip (x 2) (G.x0 2) (G.x1 2) (g.bc (BOUNDARY 0 0 1))
    · rw [if_pos h4] at e; exact base _ e (.inl rfl)
    rw [if_neg h4] at e
    by_cases h5 : s.sp.p.length ≥ s.sp.maxNp
    · rw [if_pos h5] at e; exact base _ e (.inr rfl)
    rw [if_neg h5] at e
    dsimp only at e
    split at e
    · simp at e
    · rename_i rhob _
      by_cases ha : a ≠ 0
      · rw [if_pos ha] at e
        refine ⟨age_fits g fuel _ s' _ _ (by exact not_le.1 h5) e, ?_⟩
        unfold age at e
        split_ifs at e
        split at e
        · simp at e
        · obtain rfl := Except.ok.inj e; exact ⟨rfl, rfl⟩
      · rw [if_neg ha] at e
        obtain rfl := Except.ok.inj e
        refine ⟨⟨?_, hs.2⟩, rfl, rfl⟩
        simp
        omega
  · intro hfull
    unfold injectParticle
    split_ifs <;> first | exact .inl rfl | exact .inr rfl | (exfalso; omega)

omit [FloorRing K] in
/-- Finding: with an age and a full mover list, `inject_particle` writes a mover past the end of the storage (after a warning). -/
theorem inject_overruns_movers [FloorRing K] {D : Decomp} {ws : ℕ} (hD : D.ok ws = true) (B : Box K) (hB : ∀ k, B.lo k < B.hi k)
    (walled : Fin 3 → Prop) (gr : ℕ → LGrid) (hF : ∀ r < ws, Faces D walled r (gr r)) (x : Fin 3 → K) (hx : InBox B walled x) (cdt : K) :
    ∃ r < ws, ∀ (rt : K → K) (fuel : ℕ) (s : Sim K) (u : Fin 3 → K) (w ag : K), 0 ≤ w → ag ≠ 0 → s.sp.p.length < s.sp.maxNp →
      s.sp.pm.length = s.sp.maxNm → injectParticle (gr r) (geomOf B D r cdt) rt fuel s x u w ag false = .error .overrun := by
  have h := (D.ok_iff ws).mp hD
  obtain ⟨r, hr, ht⟩ := (takes_unique h B hB walled gr hF x).1 hx
  refine ⟨r, hr, fun rt fuel s u w ag hw ha hroom hmov => ?_⟩
  have s0 : ¬ skip (x 0) ((geomOf B D r cdt).x0 0) ((geomOf B D r cdt).x1 0) ((gr r).bc (BOUNDARY 1 0 0)) := ht 0
  have s1 : ¬ skip (x 1) ((geomOf B D r cdt).x0 1) ((geomOf B D r cdt).x1 1) ((gr r).bc (BOUNDARY 0 1 0)) := ht 1
  have s2 : ¬ skip (x 2) ((geomOf B D r cdt).x0 2) ((geomOf B D r cdt).x1 2) ((gr r).bc (BOUNDARY 0 0 1)) := ht 2
  unfold injectParticle
  rw [if_neg (not_lt.2 hw), if_neg s0, if_neg s1, if_neg s2, if_neg (by omega)]
  simp [ha, age, hmov]

omit [FloorRing K] [Field K] [LinearOrder K] [IsStrictOrderedRing K] in
/-- Finding: `inject_particle_raw` does not check the storage. -/
theorem inject_raw_overruns (s : Sim K) (q : Part K) :
    injectRaw s q = .error .overrun ↔ s.sp.maxNp ≤ s.sp.p.length := by
  unfold injectRaw
  split_ifs with h <;> simp [h]

end Verif.Inject
