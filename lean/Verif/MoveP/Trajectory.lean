import Verif.MoveP.Lemmas
import Mathlib.Tactic.LinearCombination

/-!
# C15: the mover follows the straight trajectory

Specification.  Cells of the (unwrapped) mesh have integer coordinates `C`; a particle at offset
`d` in cell `C` is at position `2 C + d` (in half cells).  `loc C` is the local voxel that holds the
cell `C` (several `C` may share a voxel when the box is periodic within one domain).
-/
namespace Verif.MoveP

open Grid (LGrid)

variable {K : Type*} [Field K] [LinearOrder K] [IsStrictOrderedRing K]

/-! ## Specification -/

/-- Spec: the cell on the other side of a face. -/
def nextCell (C : Fin 3 → ℤ) (axis : Fin 3) (up : Bool) : Fin 3 → ℤ :=
  Function.update C axis (C axis + if up then 1 else -1)

/-- Spec: `loc` places the cells of `dom` on the local mesh, and wherever the neighbour table leads
to a local voxel, that voxel holds the adjacent cell. -/
structure Covers (g : LGrid) (dom : (Fin 3 → ℤ) → Prop) (loc : (Fin 3 → ℤ) → ℤ) : Prop where
  range : ∀ C, dom C → 0 ≤ loc C ∧ loc C < nvox g
  step : ∀ C axis up, dom C →
    g.neighbor (6 * loc C + faceOf axis up) ≠ Grid.reflectParticles →
    g.rangel ≤ g.neighbor (6 * loc C + faceOf axis up) →
    g.neighbor (6 * loc C + faceOf axis up) ≤ g.rangeh →
    dom (nextCell C axis up) ∧
      loc (nextCell C axis up) = g.neighbor (6 * loc C + faceOf axis up) - g.rangel

/-- Spec: global position of offset `d` in cell `C`, in half cells. -/
def pos (C : Fin 3 → ℤ) (d : Fin 3 → K) : Fin 3 → K := fun k => 2 * (C k : K) + d k

/-- A plane normal to an axis. -/
structure Plane (K : Type*) where
  axis : Fin 3
  at_ : K

/-- Spec: mirror image of a point in a plane. -/
def mirror (X : Fin 3 → K) (W : Plane K) : Fin 3 → K :=
  fun k => if k = W.axis then 2 * W.at_ - X k else X k

/-- Spec: mirror image of a vector. -/
def flip (u : Fin 3 → K) (W : Plane K) : Fin 3 → K :=
  fun k => if k = W.axis then -u k else u k

/-- Spec: the plane of a reflecting face of a cell of the mesh. -/
def IsWall (g : LGrid) (dom : (Fin 3 → ℤ) → Prop) (loc : (Fin 3 → ℤ) → ℤ) (W : Plane K) : Prop :=
  ∃ C up, dom C ∧ g.neighbor (6 * loc C + faceOf W.axis up) = Grid.reflectParticles ∧
    W.at_ = 2 * (C W.axis : K) + sgn up

/-- Spec of a (complete or partial) move from `s` in cell `C` to `s'`. -/
structure Moved (g : LGrid) (dom : (Fin 3 → ℤ) → Prop) (loc : (Fin 3 → ℤ) → ℤ)
    (s : MState K) (C : Fin 3 → ℤ) (unfinished : Bool) (s' : MState K) (C' : Fin 3 → ℤ)
    (walls : List (Plane K)) (t : K) : Prop where
  /-- the weight is unchanged -/
  weight : s'.p.w = s.p.w
  /-- the particle is inside its cell -/
  inCell : ∀ k, -1 ≤ s'.p.d k ∧ s'.p.d k ≤ 1
  /-- the planes are those of reflecting faces -/
  areWalls : ∀ W ∈ walls, IsWall g dom loc W
  /-- position plus remaining displacement is the mirrored requested end point -/
  target : (fun k => pos C' s'.p.d k + 2 * s'.disp k) =
    walls.foldl mirror fun k => pos C s.p.d k + 2 * s.disp k
  /-- a fraction `t` of the (mirrored) displacement has been used -/
  frac : 0 ≤ t ∧ t ≤ 1
  disp : s'.disp = fun k => (1 - t) * walls.foldl flip s.disp k
  /-- momentum is mirrored in the same planes -/
  momentum : s'.p.u = walls.foldl flip s.p.u
  cell : dom C'
  /-- finished: everything has been travelled and the voxel is the one of the final cell -/
  done : unfinished = false → t = 1 ∧ s'.p.i = loc C'
  /-- unfinished: something is left, the particle sits exactly on a face which leads neither to a
  local voxel nor to a reflecting wall, and the voxel field encodes voxel and face -/
  stopped : unfinished = true → t < 1 ∧ ∃ axis up,
    s'.p.i = 8 * loc C' + faceOf axis up ∧ s'.p.d axis = sgn up ∧
    (if up then 0 < s'.disp axis else s'.disp axis < 0) ∧
    g.neighbor (6 * loc C' + faceOf axis up) ≠ Grid.reflectParticles ∧
    (g.neighbor (6 * loc C' + faceOf axis up) < g.rangel ∨
      g.rangeh < g.neighbor (6 * loc C' + faceOf axis up))

/-! ## Proof -/

lemma foldl_flip_smul (ws : List (Plane K)) (c : K) (u : Fin 3 → K) :
    ws.foldl flip (fun k => c * u k) = fun k => c * ws.foldl flip u k := by
  induction ws generalizing u with
  | nil => rfl
  | cons w ws ih =>
    simp only [List.foldl_cons]
    rw [show flip (fun k => c * u k) w = fun k => c * flip u w k by
      funext k; simp only [flip]; split_ifs <;> ring]
    exact ih _

lemma sgn_sq (up : Bool) : (sgn up : K) * sgn up = 1 := by cases up <;> simp [sgn]

lemma sgn_mul_abs {up : Bool} {x : K} (h : if up then 0 < x else x < 0) : sgn up * x = |x| := by
  cases up
  · simp only [Bool.false_eq_true, if_false] at h; simp [sgn, abs_of_neg h]
  · simp only [if_true] at h; simp [sgn, abs_of_pos h]

/-- How far (in half cells, beyond the cell centre) the remaining displacement reaches along an
axis. -/
def reach (s : MState K) (k : Fin 3) : K := sdir (s.disp k) * s.p.d k + 2 * |s.disp k|

lemma sdir_mul_abs (x : K) : sdir x * x = |x| := by
  unfold sdir
  split_ifs with h
  · rw [one_mul, abs_of_pos h]
  · rw [abs_of_nonpos (not_lt.mp h)]; ring

lemma sdir_scale {v x : K} (hv : v < 1) : sdir ((1 - v) * x) = sdir x := by
  have : 0 < 1 - v := by linarith
  simp only [sdir, gt_iff_lt, mul_pos_iff_of_pos_left this]

lemma reach_streak (d disp v : K) (h1 : v < 1) :
    sdir ((1 - v) * disp) * (d + 2 * (v * disp)) + 2 * |(1 - v) * disp| =
      sdir disp * d + 2 * |disp| := by
  rw [sdir_scale h1, abs_mul, abs_of_pos (by linarith : (0 : K) < 1 - v), ← sdir_mul_abs disp]
  ring

lemma sdir_of_sign {up : Bool} {x : K} (h : if up then 0 < x else x < 0) : sdir x = sgn up := by
  cases up
  · simp only [Bool.false_eq_true, if_false] at h; simp [sdir, sgn, not_lt.mpr h.le]
  · simp only [if_true] at h; simp [sdir, sgn, h]

lemma sign_scale {up : Bool} {v x : K} (hv : v < 1) (h : if up then 0 < x else x < 0) :
    if up then 0 < (1 - v) * x else (1 - v) * x < 0 := by
  have : 0 < 1 - v := by linarith
  cases up
  · simp only [Bool.false_eq_true, if_false] at h ⊢; exact mul_neg_of_pos_of_neg this h
  · simp only [if_true] at h ⊢; exact mul_pos this h

lemma sdir_neg_of_sign {up : Bool} {x : K} (h : if up then 0 < x else x < 0) :
    sdir (-x) = -sgn up := by
  cases up
  · simp only [Bool.false_eq_true, if_false] at h; simp [sdir, sgn, h]
  · simp only [if_true] at h; simp [sdir, sgn, h.le]

lemma crossing_reach {s : MState K} {axis : Fin 3} {up : Bool} {v3 : K} (h1 : v3 < 1)
    (hs : if up then 0 < s.disp axis else s.disp axis < 0)
    (hface : s.p.d axis + 2 * (v3 * s.disp axis) = sgn up) {n : ℕ}
    (hn : reach s axis ≤ 1 + 2 * n) : 1 ≤ n := by
  by_contra hc
  have : n = 0 := by omega
  subst this
  unfold reach at hn
  rw [← reach_streak _ _ v3 h1, hface, sdir_of_sign (sign_scale h1 hs), sgn_sq] at hn
  have hne : s.disp axis ≠ 0 := by
    cases up
    · simp only [Bool.false_eq_true, if_false] at hs; exact hs.ne
    · simp only [if_true] at hs; exact hs.ne'
  have : 0 < |(1 - v3) * s.disp axis| :=
    abs_pos.mpr (mul_ne_zero (by linarith) hne)
  simp only [Nat.cast_zero, mul_zero, add_zero] at hn
  linarith

lemma pos_next (C : Fin 3 → ℤ) (axis : Fin 3) (up : Bool) :
    ((nextCell C axis up axis : ℤ) : K) = (C axis : K) + sgn up := by
  simp only [nextCell, Function.update_self, sgn]
  cases up <;> simp

/-- Composition of a cell crossing with the rest of the move. -/
lemma moved_cross {g : LGrid} {dom : (Fin 3 → ℤ) → Prop} {loc : (Fin 3 → ℤ) → ℤ}
    {s s' : MState K} {C C' : Fin 3 → ℤ} {r : Bool} {walls : List (Plane K)} {t v3 : K}
    {axis : Fin 3} {up : Bool} {i1 : ℤ} {a1 : Accum K} (h0 : 0 ≤ v3) (h1 : v3 < 1)
    (hface : s.p.d axis + 2 * (v3 * s.disp axis) = sgn up)
    (h : Moved g dom loc
      ⟨⟨Function.update (fun k => s.p.d k + 2 * (v3 * s.disp k)) axis (-sgn up), i1, s.p.u, s.p.w⟩,
        fun k => (1 - v3) * s.disp k, a1⟩ (nextCell C axis up) r s' C' walls t) :
    Moved g dom loc s C r s' C' walls (v3 + t - v3 * t) where
  weight := h.weight
  inCell := h.inCell
  areWalls := h.areWalls
  target := by
    rw [h.target]
    congr 1
    funext k
    simp only [pos]
    by_cases hk : k = axis
    · subst hk
      rw [Function.update_self, pos_next]
      linear_combination -hface
    · rw [Function.update_of_ne hk, show nextCell C axis up k = C k from Function.update_of_ne hk _ _]
      ring
  frac := by
    obtain ⟨a, b⟩ := h.frac
    constructor
    · nlinarith
    · nlinarith
  disp := by
    rw [h.disp]
    simp only [foldl_flip_smul]
    funext k; ring
  momentum := h.momentum
  cell := h.cell
  done := fun e => by
    obtain ⟨a, b⟩ := h.done e
    exact ⟨by rw [a]; ring, b⟩
  stopped := fun e => by
    obtain ⟨a, b⟩ := h.stopped e
    exact ⟨by nlinarith, b⟩

/-- Composition of a reflection with the rest of the move. -/
lemma moved_reflect {g : LGrid} {dom : (Fin 3 → ℤ) → Prop} {loc : (Fin 3 → ℤ) → ℤ}
    {s s' : MState K} {C C' : Fin 3 → ℤ} {r : Bool} {walls : List (Plane K)} {t v3 : K}
    {axis : Fin 3} {up : Bool} {a1 : Accum K} (h0 : 0 ≤ v3) (h1 : v3 < 1) (hdom : dom C)
    (hi : s.p.i = loc C)
    (hface : s.p.d axis + 2 * (v3 * s.disp axis) = sgn up)
    (hn : g.neighbor (6 * s.p.i + faceOf axis up) = Grid.reflectParticles)
    (h : Moved g dom loc
      ⟨⟨fun k => s.p.d k + 2 * (v3 * s.disp k), s.p.i,
          Function.update s.p.u axis (-(s.p.u axis)), s.p.w⟩,
        Function.update (fun k => (1 - v3) * s.disp k) axis (-((1 - v3) * s.disp axis)), a1⟩
      C r s' C' walls t) :
    Moved g dom loc s C r s' C' (⟨axis, 2 * (C axis : K) + sgn up⟩ :: walls)
      (v3 + t - v3 * t) where
  weight := h.weight
  inCell := h.inCell
  areWalls := by
    intro W hW
    rcases List.mem_cons.mp hW with rfl | hW
    · exact ⟨C, up, hdom, by rw [← hi]; exact hn, rfl⟩
    · exact h.areWalls W hW
  target := by
    rw [h.target, List.foldl_cons]
    congr 1
    funext k
    simp only [pos, mirror]
    by_cases hk : k = axis
    · subst hk
      rw [Function.update_self, if_pos rfl]
      linear_combination 2 * hface
    · rw [Function.update_of_ne hk, if_neg hk]
      ring
  frac := by
    obtain ⟨a, b⟩ := h.frac
    constructor
    · nlinarith
    · nlinarith
  disp := by
    rw [h.disp, List.foldl_cons]
    have : Function.update (fun k => (1 - v3) * s.disp k) axis (-((1 - v3) * s.disp axis)) =
        fun k => (1 - v3) * flip s.disp ⟨axis, 2 * (C axis : K) + sgn up⟩ k := by
      funext k
      simp only [flip]
      by_cases hk : k = axis
      · subst hk; rw [Function.update_self, if_pos rfl]; ring
      · rw [Function.update_of_ne hk, if_neg hk]
    simp only [this, foldl_flip_smul]
    funext k; ring
  momentum := by
    rw [h.momentum, List.foldl_cons]
    congr 1
    funext k
    simp only [flip]
    by_cases hk : k = axis
    · subst hk; rw [Function.update_self, if_pos rfl]
    · rw [Function.update_of_ne hk, if_neg hk]
  cell := h.cell
  done := fun e => by
    obtain ⟨a, b⟩ := h.done e
    exact ⟨by rw [a]; ring, b⟩
  stopped := fun e => by
    obtain ⟨a, b⟩ := h.stopped e
    exact ⟨by nlinarith, b⟩

lemma loop_moved (g : LGrid) (dom : (Fin 3 → ℤ) → Prop) (loc : (Fin 3 → ℤ) → ℤ)
    (hc : Covers g dom loc) (q : K) (N : ℕ) :
    ∀ (s : MState K) (C : Fin 3 → ℤ) (n : Fin 3 → ℕ), n 0 + n 1 + n 2 = N →
      (∀ k, reach s k ≤ 1 + 2 * n k) → dom C → s.p.i = loc C →
      (∀ k, -1 ≤ s.p.d k ∧ s.p.d k ≤ 1) → ∀ fuel, N < fuel →
      ∃ r s' C' walls t, loop g q fuel s = some (r, s') ∧ Moved g dom loc s C r s' C' walls t := by
  induction N using Nat.strong_induction_on with
  | _ N ih =>
    intro s C n hN hr hdom hi hd fuel hf
    obtain ⟨fuel, rfl⟩ : ∃ f, fuel = f + 1 := ⟨fuel - 1, by omega⟩
    obtain ⟨v3, nx, s1, hp, v0, v1, hb, hspec⟩ := pass_spec g q s (hi ▸ hc.range C hdom) hd
    simp only [loop, hp]
    have hsum : ∀ axis : Fin 3, 1 ≤ n axis →
        Function.update n axis (n axis - 1) 0 + Function.update n axis (n axis - 1) 1 +
          Function.update n axis (n axis - 1) 2 = N - 1 ∧ 1 ≤ N := by
      intro axis h
      fin_cases axis <;> simp [Function.update_apply] at h ⊢ <;> omega
    have key := fun (hN : N - 1 < N) => ih (N - 1) hN s1
    cases hspec with
    | finished h1 =>
      refine ⟨false, _, C, [], 1, rfl, ?_⟩
      subst h1
      exact { weight := rfl, inCell := hb, areWalls := by simp,
              target := by funext k; simp [pos]; ring
              frac := by simp, disp := by simp, momentum := rfl, cell := hdom,
              done := fun _ => ⟨rfl, hi⟩, stopped := fun h => by simp at h }
    | boundary axis up h1 hs hface hn hrg =>
      refine ⟨true, _, C, [], v3, rfl, ?_⟩
      exact { weight := rfl, inCell := hb, areWalls := by simp,
              target := by funext k; simp only [pos, List.foldl_nil]; ring
              frac := ⟨v0, v1⟩, disp := rfl, momentum := rfl, cell := hdom,
              done := fun h => by simp at h,
              stopped := fun _ => ⟨h1, axis, up, by simp only [hi], hface, sign_scale h1 hs,
                hi ▸ hn, hi ▸ hrg⟩ }
    | reflect axis up h1 hs hface hn =>
      have hn1 := crossing_reach h1 hs hface (hr axis)
      obtain ⟨q1, q2⟩ := hsum axis hn1
      obtain ⟨r, s', C', walls, t, e, m⟩ := key (by omega) C
        (Function.update n axis (n axis - 1)) q1 (by
          intro k
          simp only [reach]
          by_cases hk : k = axis
          · subst hk
            simp only [Function.update_self]
            rw [sdir_neg_of_sign (sign_scale h1 hs), hface, abs_neg]
            have := hr k
            unfold reach at this
            rw [← reach_streak _ _ v3 h1, hface, sdir_of_sign (sign_scale h1 hs), sgn_sq] at this
            push_cast [hn1]
            linear_combination this + (-1) * sgn_sq (K := K) up
          · simp only [Function.update_of_ne hk]
            rw [reach_streak _ _ v3 h1]
            exact hr k) hdom hi hb fuel (by omega)
      exact ⟨r, s', C', _, _, e, moved_reflect v0 h1 hdom hi hface hn m⟩
    | cross axis up h1 hs hface hn hrg =>
      have hn1 := crossing_reach h1 hs hface (hr axis)
      obtain ⟨q1, q2⟩ := hsum axis hn1
      have hstep := hc.step C axis up hdom (hi ▸ hn) (hi ▸ hrg.1) (hi ▸ hrg.2)
      obtain ⟨r, s', C', walls, t, e, m⟩ := key (by omega) (nextCell C axis up)
        (Function.update n axis (n axis - 1)) q1 (by
          intro k
          simp only [reach]
          by_cases hk : k = axis
          · subst hk
            simp only [Function.update_self]
            have := hr k
            unfold reach at this
            rw [← reach_streak _ _ v3 h1, hface, sdir_of_sign (sign_scale h1 hs), sgn_sq] at this
            rw [sdir_of_sign (sign_scale h1 hs)]
            push_cast [hn1]
            linear_combination this + (-1) * sgn_sq (K := K) up
          · simp only [Function.update_of_ne hk]
            rw [reach_streak _ _ v3 h1]
            exact hr k) hstep.1 (by simp only [hi, hstep.2]) (by
          intro k
          by_cases hk : k = axis
          · subst hk; simp only [Function.update_self]; cases up <;> simp [sgn]
          · simp only [Function.update_of_ne hk]; exact hb k) fuel (by omega)
      exact ⟨r, s', C', _, _, e, moved_cross v0 h1 hface m⟩

/-! ## Property -/

/-- **C15.** For every grid, every particle inside a cell of the mesh and every displacement, the
mover terminates (after at most `n₀+n₁+n₂+1` streaks when `|disp k| ≤ n k`), never leaves the
arrays, and the result is a straight move, mirrored in the reflecting walls it hits, as described
by `Moved`. -/
theorem move_p_trajectory (g : LGrid) (dom : (Fin 3 → ℤ) → Prop) (loc : (Fin 3 → ℤ) → ℤ)
    (hc : Covers g dom loc) (qsp : K) (s : MState K) (C : Fin 3 → ℤ) (hC : dom C)
    (hi : s.p.i = loc C) (hd : ∀ k, -1 ≤ s.p.d k ∧ s.p.d k ≤ 1) (n : Fin 3 → ℕ)
    (hn : ∀ k, |s.disp k| ≤ n k) (fuel : ℕ) (hf : n 0 + n 1 + n 2 < fuel) :
    ∃ r s' C' walls t, moveP g qsp fuel s = some (r, s') ∧
      Moved g dom loc s C r s' C' walls t := by
  refine loop_moved g dom loc hc _ _ s C n rfl ?_ hC hi hd fuel hf
  intro k
  have h1 : sdir (s.disp k) * s.p.d k ≤ 1 := by
    obtain ⟨a, b⟩ := hd k
    unfold sdir; split_ifs <;> linarith
  have := hn k
  unfold reach; linarith

/-- Without reflecting walls: when the move completes, the particle has been displaced by exactly
the requested amount (twice `disp`, in half cells). -/
theorem move_p_displacement (g : LGrid) (dom : (Fin 3 → ℤ) → Prop) (loc : (Fin 3 → ℤ) → ℤ)
    (hc : Covers g dom loc)
    (hw : ∀ C axis up, dom C → g.neighbor (6 * loc C + faceOf axis up) ≠ Grid.reflectParticles)
    (qsp : K) (s : MState K) (C : Fin 3 → ℤ) (hC : dom C)
    (hi : s.p.i = loc C) (hd : ∀ k, -1 ≤ s.p.d k ∧ s.p.d k ≤ 1) (n : Fin 3 → ℕ)
    (hn : ∀ k, |s.disp k| ≤ n k) (fuel : ℕ) (hf : n 0 + n 1 + n 2 < fuel) :
    ∃ r s' C', moveP g qsp fuel s = some (r, s') ∧ s'.p.u = s.p.u ∧
      (∀ k, pos C' s'.p.d k + 2 * s'.disp k = pos C s.p.d k + 2 * s.disp k) ∧
      (r = false → s'.p.i = loc C' ∧ ∀ k, pos C' s'.p.d k = pos C s.p.d k + 2 * s.disp k) := by
  obtain ⟨r, s', C', walls, t, e, m⟩ :=
    move_p_trajectory g dom loc hc qsp s C hC hi hd n hn fuel hf
  have hnil : walls = [] := by
    rcases walls with _ | ⟨W, ws⟩
    · rfl
    · obtain ⟨C, up, h1, h2, -⟩ := m.areWalls W (by simp)
      exact absurd h2 (hw _ _ _ h1)
  subst hnil
  refine ⟨r, s', C', e, m.momentum, fun k => congrFun m.target k, ?_⟩
  intro hr
  obtain ⟨ht, hi'⟩ := m.done hr
  refine ⟨hi', fun k => ?_⟩
  have h1 := congrFun m.target k
  have h2 := congrFun m.disp k
  simp only [List.foldl_nil, ht] at h1 h2
  rw [← h1, h2]; ring

end Verif.MoveP
