import Verif.Simd.Move

/-!
# The straight-line part of a block, lane by lane
-/
namespace Verif.Simd

open MoveP Boris Grid AdvanceP

variable {K : Type*} [Field K] [LinearOrder K] [IsStrictOrderedRing K]

/-- `sqrt` is the square root. -/
def IsSqrt (rt : K → K) : Prop := ∀ x, 0 ≤ x → 0 ≤ rt x ∧ rt x * rt x = x

lemma rsqrt_eq {rt : K → K} (h : IsSqrt rt) {x : K} (hx : 0 < x) : rt (1 / x) = 1 / rt x := by
  obtain ⟨h1, h2⟩ := h x hx.le
  obtain ⟨h3, h4⟩ := h (1 / x) (by positivity)
  have hpos : 0 < rt x := lt_of_le_of_ne h1 (fun h0 => by rw [← h0] at h2; simp at h2; linarith)
  have h5 : (1 / rt x) * (1 / rt x) = 1 / x := by
    rw [div_mul_div_comm, h2, one_mul]
  have h6 : (rt (1 / x) - 1 / rt x) * (rt (1 / x) + 1 / rt x) = 0 := by
    linear_combination h4 - h5
  have h7 : 0 < 1 / rt x := by positivity
  rcases mul_eq_zero.mp h6 with h | h
  · linarith
  · linarith

lemma one_add_sq_pos (a b c : K) : 0 < 1 + (a * a + (b * b + c * c)) := by
  nlinarith [mul_self_nonneg a, mul_self_nonneg b, mul_self_nonneg c]

/-- The vector rotation of a block is the scalar rotation of every lane. -/
lemma rotateV_eq {w : ℕ} {rt : K → K} (hrt : IsSqrt rt) (h : K) (ux uy uz bx bY bz : Vec w K)
    (u b : Fin w → Fin 3 → K) (hu : ∀ k, u k 0 = ux k ∧ u k 1 = uy k ∧ u k 2 = uz k)
    (hb : ∀ k, b k 0 = bx k ∧ b k 1 = bY k ∧ b k 2 = bz k) (k : Fin w) :
    (rotateV rt h ux uy uz bx bY bz).1 k = rotate rt h (u k) (b k) 0 ∧
    (rotateV rt h ux uy uz bx bY bz).2.1 k = rotate rt h (u k) (b k) 1 ∧
    (rotateV rt h ux uy uz bx bY bz).2.2 k = rotate rt h (u k) (b k) 2 := by
  obtain ⟨u0, u1, u2⟩ := hu k
  obtain ⟨b0, b1, b2⟩ := hb k
  have e := rsqrt_eq hrt (one_add_sq_pos (ux k) (uy k) (uz k))
  simp only [rotateV, rotate, fma, fms, rsqrt, rcp, splat, Pi.add_apply, Pi.mul_apply, u0, u1, u2, b0,
    b1, b2, e, Matrix.cons_val_zero, Matrix.cons_val_one, Matrix.cons_val]
  generalize rt (1 + (ux k * ux k + (uy k * uy k + uz k * uz k))) = r
  have ev0 : h * (1 / r) = h / r := by ring
  rw [ev0]
  generalize h / r = v0
  generalize hv1 : bx k * bx k + (bY k * bY k + bz k * bz k) = v1
  have ev3 : v0 * ((2 / 15 * (v0 * v0 * v1) + 1 / 3) * (v0 * v0 * v1) + 1) =
    v0 * (1 + v0 * v0 * v1 * (1 / 3 + v0 * v0 * v1 * (2 / 15))) := by ring
  rw [ev3]
  generalize v0 * (1 + v0 * v0 * v1 * (1 / 3 + v0 * v0 * v1 * (2 / 15))) = v3
  have ev4 : v3 * (1 / (v3 * v3 * v1 + 1)) = v3 / (1 + v1 * (v3 * v3)) := by
    rw [mul_one_div, show v3 * v3 * v1 + 1 = 1 + v1 * (v3 * v3) by ring]
  rw [ev4]
  generalize v3 / (1 + v1 * (v3 * v3)) = v4
  refine ⟨?_, ?_, ?_⟩ <;> ring

omit [LinearOrder K] [IsStrictOrderedRing K] in
lemma fieldsV_eq {w : ℕ} (qdt_2mc : K) (f0 : ℤ → Interp K) (ii : Vec w ℤ) (dx dy dz : Vec w K)
    (d : Fin w → Fin 3 → K) (hd : ∀ k, d k 0 = dx k ∧ d k 1 = dy k ∧ d k 2 = dz k) (k : Fin w) :
    ((fieldsV qdt_2mc f0 ii dx dy dz).1.1 k = halfE qdt_2mc (f0 (ii k)) (d k) 0 ∧
     (fieldsV qdt_2mc f0 ii dx dy dz).1.2.1 k = halfE qdt_2mc (f0 (ii k)) (d k) 1 ∧
     (fieldsV qdt_2mc f0 ii dx dy dz).1.2.2 k = halfE qdt_2mc (f0 (ii k)) (d k) 2) ∧
    (interpB (f0 (ii k)) (d k) 0 = (fieldsV qdt_2mc f0 ii dx dy dz).2.1 k ∧
     interpB (f0 (ii k)) (d k) 1 = (fieldsV qdt_2mc f0 ii dx dy dz).2.2.1 k ∧
     interpB (f0 (ii k)) (d k) 2 = (fieldsV qdt_2mc f0 ii dx dy dz).2.2.2 k) := by
  obtain ⟨d0, d1, d2⟩ := hd k
  have w0 : ∀ f : Interp K, word f 0 = f.ex := fun _ => rfl
  have w1 : ∀ f : Interp K, word f 1 = f.dexdy := fun _ => rfl
  have w2 : ∀ f : Interp K, word f 2 = f.dexdz := fun _ => rfl
  have w3 : ∀ f : Interp K, word f 3 = f.d2exdydz := fun _ => rfl
  have w4 : ∀ f : Interp K, word f 4 = f.ey := fun _ => rfl
  have w5 : ∀ f : Interp K, word f 5 = f.deydz := fun _ => rfl
  have w6 : ∀ f : Interp K, word f 6 = f.deydx := fun _ => rfl
  have w7 : ∀ f : Interp K, word f 7 = f.d2eydzdx := fun _ => rfl
  have w8 : ∀ f : Interp K, word f 8 = f.ez := fun _ => rfl
  have w9 : ∀ f : Interp K, word f 9 = f.dezdx := fun _ => rfl
  have w10 : ∀ f : Interp K, word f 10 = f.dezdy := fun _ => rfl
  have w11 : ∀ f : Interp K, word f 11 = f.d2ezdxdy := fun _ => rfl
  have w12 : ∀ f : Interp K, word f 12 = f.cbx := fun _ => rfl
  have w13 : ∀ f : Interp K, word f 13 = f.dcbxdx := fun _ => rfl
  have w14 : ∀ f : Interp K, word f 14 = f.cby := fun _ => rfl
  have w15 : ∀ f : Interp K, word f 15 = f.dcbydy := fun _ => rfl
  have w16 : ∀ f : Interp K, word f 16 = f.cbz := fun _ => rfl
  have w17 : ∀ f : Interp K, word f 17 = f.dcbzdz := fun _ => rfl
  simp only [fieldsV, halfE, interpB, gather, fma, splat, Pi.mul_apply, d0, d1, d2,
    Matrix.cons_val_zero, Matrix.cons_val_one, Matrix.cons_val,
    w0, w1, w2, w3, w4, w5, w6, w7, w8, w9, w10, w11, w12, w13, w14, w15, w16, w17]
  refine ⟨⟨?_, ?_, ?_⟩, ?_, ?_, ?_⟩ <;> ring

/-- New momentum of a particle. -/
def newU (A : Args K) (p : MoveP.Part K) : Fin 3 → K := pushU A.rt A.qdt_2mc (A.f0 p.i) p.d p.u

/-- Its half displacement. -/
def newS (A : Args K) (p : MoveP.Part K) : Fin 3 → K := normDisp A (newU A p)

/-- Streak midpoint. -/
def newM (A : Args K) (p : MoveP.Part K) : Fin 3 → K := fun k => p.d k + newS A p k

/-- Whether it stays in its cell. -/
def stays (A : Args K) (p : MoveP.Part K) : Bool := inBounds fun k => newM A p k + newS A p k

/-- What is stored for it before the moves. -/
def stPart (A : Args K) (p : MoveP.Part K) : MoveP.Part K :=
  { p with u := newU A p, d := if stays A p then fun k => newM A p k + newS A p k else p.d }

/-- What is deposited for it before the moves. -/
def stJ (A : Args K) (p : MoveP.Part K) : Fin 12 → K :=
  if stays A p then inCellJ (p.w * A.qsp) (newM A p) (newS A p) else 0

omit [LinearOrder K] [IsStrictOrderedRing K] in
lemma vec_of3 (f : Fin 3 → K) {a b c : K} (h0 : a = f 0) (h1 : b = f 1) (h2 : c = f 2) :
    (![a, b, c] : Fin 3 → K) = f := by
  funext k
  fin_cases k
  exacts [h0, h1, h2]

lemma out_eq (f : Fin 3 → K) :
    (decide (f 0 > 1) || decide (f 0 < -1) || decide (f 1 > 1) || decide (f 1 < -1) ||
      decide (f 2 > 1) || decide (f 2 < -1)) = !inBounds f := by
  have e : ∀ x : K, x < -1 ↔ 1 < -x := fun x => lt_neg
  have hst : inBounds f = true ↔ _ := decide_eq_true_iff
  rw [Bool.eq_iff_iff, Bool.not_eq_true', ← Bool.not_eq_true, hst]
  simp only [Bool.or_eq_true, decide_eq_true_eq, not_and_or, not_le, gt_iff_lt, e]
  tauto

omit [LinearOrder K] [IsStrictOrderedRing K] in
lemma laneJ_accJ {w : ℕ} (q ux uy uz mx my mz c : Vec w K) (l : Fin w) (Q C : K) (m s : Fin 3 → K)
    (hq : q l = Q) (hc : c l = C) (h0 : ux l = s 0) (h1 : uy l = s 1) (h2 : uz l = s 2)
    (h3 : mx l = m 0) (h4 : my l = m 1) (h5 : mz l = m 2) :
    laneJ (accJ q ux my mz c) (accJ q uy mz mx c) (accJ q uz mx my c) l =
      let jx := accumulateJ Q (s 0) (m 1) (m 2) C
      let jy := accumulateJ Q (s 1) (m 2) (m 0) C
      let jz := accumulateJ Q (s 2) (m 0) (m 1) C
      ![jx.1, jx.2.1, jx.2.2.1, jx.2.2.2, jy.1, jy.2.1, jy.2.2.1, jy.2.2.2,
        jz.1, jz.2.1, jz.2.2.1, jz.2.2.2] := by
  rw [← hq, ← hc, ← h0, ← h1, ← h2, ← h3, ← h4, ← h5]
  rfl

/-- The straight-line part of a block treats every lane as the scalar code treats its particle. -/
theorem block_eq (W : Width) (A : Args K) (hrt : IsSqrt A.rt) (ps : Vec W.lanes (MoveP.Part K))
    (a : Accum K) (hi : ∀ k, 0 ≤ (ps k).i ∧ (ps k).i < nvox A.g) :
    block W A ps a = some ⟨fun k => stPart A (ps k),
      fun v j => a v j + ∑ l, if v = (ps l).i then stJ A (ps l) j else 0,
      fun k => !stays A (ps k), fun k => newS A (ps k)⟩ := by
  unfold block
  have hr : ¬ ∃ k, (ps k).i < 0 ∨ nvox A.g ≤ (ps k).i := by
    rintro ⟨k, hk⟩; have := hi k; omega
  rw [if_neg hr]
  simp only [increments_eq, Option.map_some]
  have F := fieldsV_eq A.qdt_2mc A.f0 (fun k => (ps k).i) (fun k => (ps k).d 0) (fun k => (ps k).d 1)
    (fun k => (ps k).d 2) (fun k => (ps k).d) (fun k => ⟨rfl, rfl, rfl⟩)
  set fl := fieldsV A.qdt_2mc A.f0 (fun k => (ps k).i) (fun k => (ps k).d 0) (fun k => (ps k).d 1)
    (fun k => (ps k).d 2) with hfl
  have R := rotateV_eq hrt A.qdt_2mc ((fun k => (ps k).u 0) + fl.1.1) ((fun k => (ps k).u 1) + fl.1.2.1)
    ((fun k => (ps k).u 2) + fl.1.2.2) fl.2.1 fl.2.2.1 fl.2.2.2
    (fun k j => (ps k).u j + halfE A.qdt_2mc (A.f0 (ps k).i) (ps k).d j)
    (fun k => interpB (A.f0 (ps k).i) (ps k).d)
    (fun k => by simp only [Pi.add_apply, (F k).1.1, (F k).1.2.1, (F k).1.2.2, and_self])
    (fun k => (F k).2)
  set ro := rotateV A.rt A.qdt_2mc ((fun k => (ps k).u 0) + fl.1.1) ((fun k => (ps k).u 1) + fl.1.2.1)
    ((fun k => (ps k).u 2) + fl.1.2.2) fl.2.1 fl.2.2.1 fl.2.2.2 with hro
  have U : ∀ k, (ro.1 + fl.1.1) k = newU A (ps k) 0 ∧ (ro.2.1 + fl.1.2.1) k = newU A (ps k) 1 ∧
      (ro.2.2 + fl.1.2.2) k = newU A (ps k) 2 := by
    intro k
    simp only [Pi.add_apply, (R k).1, (R k).2.1, (R k).2.2, (F k).1.1, (F k).1.2.1, (F k).1.2.2]
    exact ⟨rfl, rfl, rfl⟩
  generalize ro.1 + fl.1.1 = ux at U
  generalize ro.2.1 + fl.1.2.1 = uy at U
  generalize ro.2.2 + fl.1.2.2 = uz at U
  have su : ∀ k, (![ux k, uy k, uz k] : Fin 3 → K) = newU A (ps k) := fun k =>
    vec_of3 _ (U k).1 (U k).2.1 (U k).2.2
  have S : ∀ k, (ux * splat (A.cdt_d 0) * rsqrt A.rt (splat 1 + fma ux ux (fma uy uy (uz * uz))) :
        Vec W.lanes K) k =
        newS A (ps k) 0 ∧
      (uy * splat (A.cdt_d 1) * rsqrt A.rt (splat 1 + fma ux ux (fma uy uy (uz * uz))) :
        Vec W.lanes K) k =
        newS A (ps k) 1 ∧
      (uz * splat (A.cdt_d 2) * rsqrt A.rt (splat 1 + fma ux ux (fma uy uy (uz * uz))) :
        Vec W.lanes K) k =
        newS A (ps k) 2 := by
    intro k
    have e := rsqrt_eq hrt (one_add_sq_pos (newU A (ps k) 0) (newU A (ps k) 1) (newU A (ps k) 2))
    simp only [Pi.mul_apply, splat, rsqrt, fma, Pi.add_apply, (U k).1, (U k).2.1, (U k).2.2, e]
    exact ⟨rfl, rfl, rfl⟩
  simp only [su]
  generalize ux * splat (A.cdt_d 0) * rsqrt A.rt (splat 1 + fma ux ux (fma uy uy (uz * uz))) = sx at S
  generalize uy * splat (A.cdt_d 1) * rsqrt A.rt (splat 1 + fma ux ux (fma uy uy (uz * uz))) = sy at S
  generalize uz * splat (A.cdt_d 2) * rsqrt A.rt (splat 1 + fma ux ux (fma uy uy (uz * uz))) = sz at S
  have sv : ∀ k, (![sx k, sy k, sz k] : Fin 3 → K) = newS A (ps k) := fun k =>
    vec_of3 _ (S k).1 (S k).2.1 (S k).2.2
  simp only [sv]
  set out : Vec W.lanes Bool := fun k => !stays A (ps k) with hout
  have ho : (fun k =>
      decide (((fun k => (ps k).d 0) + sx + sx) k > 1) || decide (((fun k => (ps k).d 0) + sx + sx) k < -1) ||
      decide (((fun k => (ps k).d 1) + sy + sy) k > 1) || decide (((fun k => (ps k).d 1) + sy + sy) k < -1) ||
      decide (((fun k => (ps k).d 2) + sz + sz) k > 1) || decide (((fun k => (ps k).d 2) + sz + sz) k < -1)) =
      out := by
    funext k
    simp only [Pi.add_apply, (S k).1, (S k).2.1, (S k).2.2]
    exact out_eq fun j => newM A (ps k) j + newS A (ps k) j
  simp only [ho]
  refine congrArg some ?_
  rw [BlockOut.mk.injEq]
  refine ⟨?_, ?_, rfl, rfl⟩
  · funext k
    have e3 : (![merge out (fun k => (ps k).d 0) ((fun k => (ps k).d 0) + sx + sx) k,
        merge out (fun k => (ps k).d 1) ((fun k => (ps k).d 1) + sy + sy) k,
        merge out (fun k => (ps k).d 2) ((fun k => (ps k).d 2) + sz + sz) k] : Fin 3 → K) =
        if stays A (ps k) then fun j => newM A (ps k) j + newS A (ps k) j else (ps k).d := by
      refine vec_of3 _ ?_ ?_ ?_ <;>
      · cases hs : stays A (ps k) <;>
          simp [merge, hout, hs, newM, (S k).1, (S k).2.1, (S k).2.2]
    rw [e3]
    rfl
  · funext v j
    congr 1
    refine Finset.sum_congr rfl fun l _ => ?_
    by_cases hv : v = (ps l).i
    · rw [if_pos hv, if_pos hv]
      cases hs : stays A (ps l)
      · rw [laneJ_accJ _ _ _ _ _ _ _ _ l 0 0 (newM A (ps l)) (newS A (ps l))
          (by simp [czero, hout, hs]) (by simp [czero, hout, hs]) (S l).1 (S l).2.1 (S l).2.2
          (by rw [Pi.add_apply, (S l).1]; rfl) (by rw [Pi.add_apply, (S l).2.1]; rfl)
          (by rw [Pi.add_apply, (S l).2.2]; rfl)]
        simp only [stJ, hs, accumulateJ]
        fin_cases j <;> simp
      · rw [laneJ_accJ _ _ _ _ _ _ _ _ l ((ps l).w * A.qsp)
          ((ps l).w * A.qsp * newS A (ps l) 0 * newS A (ps l) 1 * newS A (ps l) 2 * (1 / 3))
          (newM A (ps l)) (newS A (ps l))
          (by simp [czero, hout, hs, splat])
          (by simp [czero, hout, hs, splat, (S l).1, (S l).2.1, (S l).2.2])
          (S l).1 (S l).2.1 (S l).2.2
          (by rw [Pi.add_apply, (S l).1]; rfl) (by rw [Pi.add_apply, (S l).2.1]; rfl)
          (by rw [Pi.add_apply, (S l).2.2]; rfl)]
        simp only [stJ, hs, if_true]
        rfl
    · rw [if_neg hv, if_neg hv]

end Verif.Simd
