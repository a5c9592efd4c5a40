import Verif.Simd.Vec
import Mathlib.Tactic.LinearCombination

/-!
# The vector `move_p` against the scalar one
-/
namespace Verif.Simd

open MoveP Boris Grid AdvanceP

variable {K : Type*} [Field K] [LinearOrder K] [IsStrictOrderedRing K]

/-- No displacement component is lost by the shift of the denominator: `(x+x) + copysign(tiny,x)` is
`x+x` unless `x` is zero. -/
def V4Env.Exact (E : V4Env K) : Prop := ∀ x, x ≠ 0 → E.den x = x + x

/-- Along an axis with no displacement, the particle is not on the face to which the vector mover
believes it moves (in terms of the computed fraction). -/
def NotOnFace (E : V4Env K) (d disp : Fin 3 → K) : Prop :=
  ∀ k, disp k = 0 → 1 ≤ (E.z - d k) / E.den 0

lemma sgn_eq {E : V4Env K} {x : K} (h : x ≠ 0) : sgn E x = sdir x := by
  unfold sgn sdir
  rcases lt_or_gt_of_ne h with h' | h'
  · rw [if_pos h', if_neg (by linarith : ¬ x > 0)]
  · rw [if_neg (by linarith : ¬ x < 0), if_neg h, if_pos h']

/-- The two fractions of an axis agree as far as the choice of the axis goes. -/
def FracRel (v t : K) : Prop := v = t * (1 / 2) ∨ (1 ≤ v ∧ 2 ≤ t)

lemma fracRel (E : V4Env K) (hE : E.Exact) (d x : K) (h0 : x = 0 → 1 ≤ (E.z - d) / E.den 0) :
    FracRel ((sgn E x - d) / E.den x) (twiceFrac d x) := by
  by_cases hx : x = 0
  · right
    subst hx
    constructor
    · have : sgn E 0 = E.z := by simp [sgn]
      rw [this]; exact h0 rfl
    · rw [twiceFrac, if_pos rfl]; exact two_le_big
  · left
    rw [sgn_eq hx, hE x hx, twiceFrac_ne hx]
    field_simp
    ring

def PickRel (r r' : K × Option (Fin 3)) : Prop := r.1 = r'.1 * (1 / 2) ∧ r'.1 ≤ 2 ∧ r.2 = r'.2

lemma pick_step {v t : K} (h : FracRel v t) (a : Fin 3) {r r' : K × Option (Fin 3)}
    (hr : PickRel r r') :
    PickRel (if v < r.1 then (v, some a) else r) (if t < r'.1 then (t, some a) else r') := by
  obtain ⟨h1, h2, h3⟩ := hr
  rcases h with h | ⟨h, h'⟩
  · by_cases hl : t < r'.1
    · rw [if_pos hl, if_pos (by rw [h, h1]; linarith)]
      exact ⟨h, by linarith, rfl⟩
    · rw [if_neg hl, if_neg (by rw [h, h1]; linarith)]
      exact ⟨h1, h2, h3⟩
  · rw [if_neg (by rw [h1]; linarith), if_neg (by linarith)]
    exact ⟨h1, h2, h3⟩

lemma pickV_eq {v0 v1 v2 t0 t1 t2 : K} (h0 : FracRel v0 t0) (h1 : FracRel v1 t1)
    (h2 : FracRel v2 t2) :
    pickV v0 v1 v2 = ((pickAxis t0 t1 t2).1 * (1 / 2), (pickAxis t0 t1 t2).2) := by
  have h : PickRel (pickV v0 v1 v2) (pickAxis t0 t1 t2) :=
    pick_step h2 2 (pick_step h1 1 (pick_step h0 0 ⟨by norm_num, le_refl _, rfl⟩))
  exact Prod.ext h.1 h.2.2

omit [LinearOrder K] [IsStrictOrderedRing K] in
lemma streak_incr (q : K) (i : ℤ) (a : Accum K) (mid sd : Fin 3 → K) (m4 s4 : Vec 4 K)
    (hm : ∀ k : Fin 3, m4 k.castSucc = mid k) (hs : ∀ k : Fin 3, s4 k.castSucc = sd k) :
    doIncrs 12 [⟨i, 0, List.ofFn (transpose (streakV q m4 s4) 0)⟩,
      ⟨i, 4, List.ofFn (transpose (streakV q m4 s4) 1)⟩,
      ⟨i, 8, List.ofFn (transpose (streakV q m4 s4) 2)⟩] a = some (accAdd a i (streakJ q mid sd)) := by
  have m0 := hm 0; have m1 := hm 1; have m2 := hm 2
  have s0 := hs 0; have s1 := hs 1; have s2 := hs 2
  simp only [Fin.castSucc_zero, Fin.castSucc_one] at m0 m1 s0 s1
  change m4 2 = mid 2 at m2
  change s4 2 = sd 2 at s2
  rw [doIncrs_eq]
  · congr 1
    funext v k
    simp only [List.map_cons, List.map_nil, List.sum_cons, List.sum_nil, contrib_ofFn, accAdd,
      transpose_apply]
    by_cases h : v = i
    · simp only [if_pos h]
      congr 1
      fin_cases k <;>
        simp [streakV, streakJ, accumulateJ, splat, m0, m1, m2, s0, s1, s2] <;> ring
    · simp only [if_neg h]; ring
  · intro x hx
    simp only [List.mem_cons, List.not_mem_nil, or_false] at hx
    rcases hx with rfl | rfl | rfl <;> simp

omit [Field K] [LinearOrder K] [IsStrictOrderedRing K] in
lemma vec3_eq (c : Vec 4 K) (f : Fin 3 → K) (h : ∀ k : Fin 3, c k.castSucc = f k) :
    (![c 0, c 1, c 2] : Fin 3 → K) = f := by
  funext k
  fin_cases k
  exacts [h 0, h 1, h 2]

/-- The axis of a crossing has a displacement, and the crossing comes before its end. -/
lemma pick_some (d disp : Fin 3 → K) (axis : Fin 3)
    (h : (pickAxis (twiceFrac (d 0) (disp 0)) (twiceFrac (d 1) (disp 1))
      (twiceFrac (d 2) (disp 2))).2 = some axis) :
    disp axis ≠ 0 ∧ (pickAxis (twiceFrac (d 0) (disp 0)) (twiceFrac (d 1) (disp 1))
      (twiceFrac (d 2) (disp 2))).1 < 2 := by
  have hf := pickAxis_facts (fun k => twiceFrac (d k) (disp k)) _ _ (Prod.mk.eta).symm
  obtain ⟨h1, h2⟩ := hf.2.2.2 axis h
  refine ⟨fun h0 => ?_, h2⟩
  rw [h1, twiceFrac, if_pos h0] at h2
  linarith [two_le_big (K := K)]

lemma passV_eq (E : V4Env K) (hE : E.Exact) (g : LGrid) (q : K) (s : MState K)
    (h0 : NotOnFace E s.p.d s.disp) : passV E g q s = pass g q s := by
  unfold passV pass
  by_cases hr : s.p.i < 0 ∨ nvox g ≤ s.p.i
  · rw [if_pos hr, if_pos hr]
  rw [if_neg hr, if_neg hr]
  have f0 := fracRel E hE (s.p.d 0) (s.disp 0) (h0 0)
  have f1 := fracRel E hE (s.p.d 1) (s.disp 1) (h0 1)
  have f2 := fracRel E hE (s.p.d 2) (s.disp 2) (h0 2)
  have hp := pickV_eq f0 f1 f2
  have l : ∀ x : Fin 3 → K, lift4 x 0 = x 0 ∧ lift4 x 1 = x 1 ∧ lift4 x 2 = x 2 := fun x =>
    ⟨rfl, rfl, rfl⟩
  simp only [(l _).1, (l _).2.1, (l _).2.2, hp, streakOf]
  set r := pickAxis (twiceFrac (s.p.d 0) (s.disp 0)) (twiceFrac (s.p.d 1) (s.disp 1))
    (twiceFrac (s.p.d 2) (s.disp 2)) with hrdef
  have lk : ∀ (x : Fin 3 → K) (k : Fin 3), lift4 x k.castSucc = x k := by
    intro x k; fin_cases k <;> rfl
  rw [streak_incr q s.p.i s.a (fun k => s.p.d k + s.disp k * (r.1 * (1 / 2)))
    (fun k => s.disp k * (r.1 * (1 / 2)))]
  rotate_left
  · intro k; simp only [Pi.add_apply, Pi.mul_apply, splat, lk]; ring
  · intro k; simp only [Pi.mul_apply, splat, lk]; ring
  have e1 := vec3_eq (lift4 s.disp - splat (r.1 * (1 / 2)) * lift4 s.disp)
    (fun k => s.disp k - s.disp k * (r.1 * (1 / 2)))
    (fun k => by simp only [Pi.sub_apply, Pi.mul_apply, splat, lk]; ring)
  have e2 := vec3_eq (lift4 s.p.d + (splat (r.1 * (1 / 2)) * lift4 s.disp +
      splat (r.1 * (1 / 2)) * lift4 s.disp))
    (fun k => s.p.d k + (s.disp k * (r.1 * (1 / 2)) + s.disp k * (r.1 * (1 / 2))))
    (fun k => by simp only [Pi.add_apply, Pi.mul_apply, splat, lk]; ring)
  simp only [e1, e2]
  cases ha : r.2 with
  | none => rfl
  | some axis =>
    have hne : s.disp axis ≠ 0 := (pick_some s.p.d s.disp axis (hrdef ▸ ha)).1
    simp only [sgn_eq hne, Function.update_self, Function.update_idem]

/-- A pass that continues does not bring the particle onto a face it does not move to. -/
lemma pass_notOnFace (E : V4Env K) (g : LGrid) (q : K) (s s' : MState K)
    (h : pass g q s = some (.again, s')) (h0 : NotOnFace E s.p.d s.disp) :
    NotOnFace E s'.p.d s'.disp := by
  unfold pass at h
  by_cases hr : s.p.i < 0 ∨ nvox g ≤ s.p.i
  · rw [if_pos hr] at h; cases h
  rw [if_neg hr] at h
  simp only [streakOf] at h
  have hps := pick_some s.p.d s.disp
  set r := pickAxis (twiceFrac (s.p.d 0) (s.disp 0)) (twiceFrac (s.p.d 1) (s.disp 1))
    (twiceFrac (s.p.d 2) (s.disp 2)) with hrdef
  cases ha : r.2 with
  | none => rw [ha] at h; simp at h
  | some axis =>
    rw [ha] at h
    obtain ⟨hne, hlt⟩ := hps axis ha
    have hne' : s.disp axis - s.disp axis * (r.1 * (1 / 2)) ≠ 0 := by
      have : s.disp axis - s.disp axis * (r.1 * (1 / 2)) = s.disp axis * (1 - r.1 * (1 / 2)) := by
        ring
      rw [this]
      exact mul_ne_zero hne (by intro hh; linarith)
    have other : ∀ k, k ≠ axis → s.disp k - s.disp k * (r.1 * (1 / 2)) = 0 →
        1 ≤ (E.z - (s.p.d k + (s.disp k * (r.1 * (1 / 2)) + s.disp k * (r.1 * (1 / 2))))) / E.den 0 := by
      intro k _ hz
      have hk : s.disp k = 0 := by
        have : s.disp k * (1 - r.1 * (1 / 2)) = 0 := by linear_combination hz
        rcases mul_eq_zero.mp this with h | h
        · exact h
        · exfalso; linarith
      have := h0 k hk
      simpa [hk] using this
    simp only at h
    generalize (if sdir (s.disp axis) > 0 then ((axis : ℕ) : ℤ) + 3 else ((axis : ℕ) : ℤ)) = face at h
    split_ifs at h with c1 c2
    · simp only [Option.some.injEq, Prod.mk.injEq, true_and] at h
      subst h
      intro k hk
      simp only at hk ⊢
      by_cases hka : k = axis
      · subst hka
        rw [Function.update_self] at hk
        exact absurd (neg_eq_zero.mp hk) hne'
      · rw [Function.update_of_ne hka] at hk ⊢
        exact other k hka hk
    · simp at h
    · simp only [Option.some.injEq, Prod.mk.injEq, true_and] at h
      subst h
      intro k hk
      simp only at hk ⊢
      by_cases hka : k = axis
      · subst hka
        exact absurd hk hne'
      · rw [Function.update_of_ne hka, Function.update_of_ne hka]
        exact other k hka hk

lemma loopV_eq (E : V4Env K) (hE : E.Exact) (g : LGrid) (q : K) (fuel : ℕ) : ∀ s : MState K,
    NotOnFace E s.p.d s.disp → loopV E g q fuel s = loop g q fuel s := by
  induction fuel with
  | zero => intros; rfl
  | succ fuel ih =>
    intro s h0
    simp only [loopV, loop, passV_eq E hE g q s h0]
    cases hp : pass g q s with
    | none => rfl
    | some r =>
      obtain ⟨n, s'⟩ := r
      cases n
      · rfl
      · exact ih s' (pass_notOnFace E g q s s' hp h0)
      · rfl

lemma movePV_eq (E : V4Env K) (hE : E.Exact) (g : LGrid) (qsp : K) (fuel : ℕ) (s : MState K)
    (h0 : NotOnFace E s.p.d s.disp) : movePV E g qsp fuel s = moveP g qsp fuel s :=
  loopV_eq E hE g _ fuel s h0

end Verif.Simd
