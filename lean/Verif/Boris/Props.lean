import Verif.Boris.Model
import Mathlib.Tactic.FieldSimp
import Mathlib.Tactic.LinearCombination
import Mathlib.Analysis.Real.Sqrt

/-!
# C18, C19: momentum updates
-/
namespace Verif.Boris

open MoveP Distribute

variable {K : Type*} [Field K] [LinearOrder K] [IsStrictOrderedRing K]

/-! ## Specification -/

/-- Spec: scalar product. -/
def dot (u v : Fin 3 → K) : K := u 0 * v 0 + u 1 * v 1 + u 2 * v 2

/-- Spec: vector product. -/
def cross (u v : Fin 3 → K) : Fin 3 → K :=
  ![u 1 * v 2 - u 2 * v 1, u 2 * v 0 - u 0 * v 2, u 0 * v 1 - u 1 * v 0]

/-- Spec: the fifth-order approximation of the tangent of half the rotation angle, divided by `|b|`:
`tan x ≈ x + x³/3 + 2x⁵/15`, `x = h |b| / gamma`. -/
def tanHalf (h gamma b2 : K) : K :=
  h / gamma + (h / gamma) ^ 3 * b2 / 3 + 2 * (h / gamma) ^ 5 * b2 ^ 2 / 15

/-! ## Proofs -/

/-- Rotation with given `v3`. -/
def rotBy (t : K) (u b : Fin 3 → K) : Fin 3 → K :=
  let s := 2 * t / (1 + dot b b * t ^ 2)
  let w : Fin 3 → K := fun k => u k + t * cross u b k
  fun k => u k + s * cross w b k

lemma den_pos (t : K) (b : Fin 3 → K) : 0 < 1 + dot b b * t ^ 2 := by
  have : 0 ≤ dot b b := by unfold dot; nlinarith [sq_nonneg (b 0), sq_nonneg (b 1), sq_nonneg (b 2)]
  positivity

omit [LinearOrder K] [IsStrictOrderedRing K] in
lemma rotate_eq (rt : K → K) (h : K) (u b : Fin 3 → K) :
    rotate rt h u b = rotBy (tanHalf h (rt (1 + dot u u)) (dot b b)) u b := by
  have e : u 0 * u 0 + (u 1 * u 1 + u 2 * u 2) = dot u u := by unfold dot; ring
  have e' : b 0 * b 0 + (b 1 * b 1 + b 2 * b 2) = dot b b := by unfold dot; ring
  funext k
  unfold rotate rotBy
  simp only [e, e']
  have ht : ∀ x : K, x * (1 + x * x * dot b b * (1 / 3 + x * x * dot b b * (2 / 15))) =
      x + x ^ 3 * dot b b / 3 + 2 * x ^ 5 * dot b b ^ 2 / 15 := by intro x; ring
  simp only [ht]
  have ht2 : h / rt (1 + dot u u) + (h / rt (1 + dot u u)) ^ 3 * dot b b / 3 +
      2 * (h / rt (1 + dot u u)) ^ 5 * dot b b ^ 2 / 15 =
      tanHalf h (rt (1 + dot u u)) (dot b b) := rfl
  simp only [ht2]
  generalize tanHalf h (rt (1 + dot u u)) (dot b b) = t
  have hs : t / (1 + dot b b * (t * t)) + t / (1 + dot b b * (t * t)) =
      2 * t / (1 + dot b b * t ^ 2) := by
    rw [← add_div, ← two_mul, ← sq]
  rw [hs]
  fin_cases k <;> simp [cross]

lemma rotBy_norm (t : K) (u b : Fin 3 → K) : dot (rotBy t u b) (rotBy t u b) = dot u u := by
  have h := (den_pos t b).ne'
  simp only [rotBy]
  unfold dot at *
  simp only [cross, Matrix.cons_val_zero, Matrix.cons_val_one, Matrix.cons_val]
  field_simp
  ring

lemma rotBy_implicit (t : K) (u b : Fin 3 → K) (k : Fin 3) :
    rotBy t u b k - u k = t * cross (fun k => rotBy t u b k + u k) b k := by
  have h := (den_pos t b).ne'
  simp only [rotBy]
  unfold dot at *
  fin_cases k <;>
  · simp only [cross, Matrix.cons_val_zero, Matrix.cons_val_one, Matrix.cons_val, Fin.zero_eta,
      Fin.mk_one, Fin.reduceFinMk]
    field_simp
    ring

lemma rotBy_neg (t : K) (u b : Fin 3 → K) : rotBy (-t) (rotBy t u b) b = u := by
  have h := (den_pos t b).ne'
  funext k
  simp only [rotBy]
  unfold dot at *
  fin_cases k <;>
  · simp only [cross, Matrix.cons_val_zero, Matrix.cons_val_one, Matrix.cons_val, Fin.zero_eta,
      Fin.mk_one, Fin.reduceFinMk, neg_sq]
    field_simp
    ring

omit [LinearOrder K] [IsStrictOrderedRing K] in
lemma tanHalf_neg (h gamma b2 : K) : tanHalf (-h) gamma b2 = -tanHalf h gamma b2 := by
  unfold tanHalf; rw [neg_div]; ring

/-! ## C18 -/

/-- **C18.** The rotation leaves `|u|²` unchanged, for every field, momentum, factor and square root
function. -/
theorem rotation_preserves_norm (rt : K → K) (h : K) (u b : Fin 3 → K) :
    dot (rotate rt h u b) (rotate rt h u b) = dot u u := by
  rw [rotate_eq]; exact rotBy_norm _ _ _

/-- The rotation is the one it should be: `u⁺ - u⁻ = t (u⁺ + u⁻) × b`, i.e. a rotation about `b` by
the angle whose half has tangent `t |b|`, with `t` the documented approximation. -/
theorem rotation_is_boris (rt : K → K) (h : K) (u b : Fin 3 → K) (k : Fin 3) :
    rotate rt h u b k - u k = tanHalf h (rt (1 + dot u u)) (dot b b) *
      cross (fun k => rotate rt h u b k + u k) b k := by
  rw [rotate_eq]; exact rotBy_implicit _ _ _ _

/-- The momentum component along the field is unchanged. -/
theorem rotation_preserves_parallel (rt : K → K) (h : K) (u b : Fin 3 → K) :
    dot (rotate rt h u b) b = dot u b := by
  have e := rotation_is_boris rt h u b
  generalize rotate rt h u b = v at e
  have e0 := e 0; have e1 := e 1; have e2 := e 2
  simp only [cross, Matrix.cons_val_zero, Matrix.cons_val_one, Matrix.cons_val] at e0 e1 e2
  unfold dot
  linear_combination b 0 * e0 + b 1 * e1 + b 2 * e2

/-- Spec: the electric field vanishes in the voxel. -/
def NoE (f : Interp K) : Prop :=
  f.ex = 0 ∧ f.dexdy = 0 ∧ f.dexdz = 0 ∧ f.d2exdydz = 0 ∧ f.ey = 0 ∧ f.deydz = 0 ∧ f.deydx = 0 ∧
    f.d2eydzdx = 0 ∧ f.ez = 0 ∧ f.dezdx = 0 ∧ f.dezdy = 0 ∧ f.d2ezdxdy = 0

omit [LinearOrder K] [IsStrictOrderedRing K] in
lemma halfE_noE {f : Interp K} (hf : NoE f) (q : K) (d : Fin 3 → K) : halfE q f d = fun _ => 0 := by
  obtain ⟨h1, h2, h3, h4, h5, h6, h7, h8, h9, h10, h11, h12⟩ := hf
  funext k
  unfold halfE
  fin_cases k <;> simp [h1, h2, h3, h4, h5, h6, h7, h8, h9, h10, h11, h12]

/-- **C18.** In a voxel with a magnetic field only, `advance_p`, `center_p` and `uncenter_p` leave
`|u|²` (so the kinetic energy) of a particle unchanged. -/
theorem pure_magnetic_field_does_no_work (rt : K → K) (q : K) (f : Interp K) (hf : NoE f)
    (d u : Fin 3 → K) :
    dot (pushU rt q f d u) (pushU rt q f d u) = dot u u ∧
    dot (centerU rt q f d u) (centerU rt q f d u) = dot u u ∧
    dot (uncenterU rt q f d u) (uncenterU rt q f d u) = dot u u := by
  simp only [pushU, centerU, uncenterU, halfE_noE hf, add_zero, rotation_preserves_norm,
    and_self]

/-- A strong oblique field meets the hypotheses and does change the momentum. -/
example : NoE (⟨0, 0, 0, 0, 0, 0, 0, 0, 0, 0, 0, 0, 1, 0, 0, 2, -1, 0⟩ : Interp ℚ) ∧
    pushU (fun _ => 1) 1 (⟨0, 0, 0, 0, 0, 0, 0, 0, 0, 0, 0, 0, 1, 0, 0, 2, -1, 0⟩ : Interp ℚ)
      ![0, 1, 0] ![1, 0, 0] 1 ≠ 0 := by
  constructor
  · simp [NoE]
  · simp only [pushU, halfE, interpB, rotate, Matrix.cons_val_zero, Matrix.cons_val_one,
      Matrix.cons_val]
    norm_num

/-! ## C19 -/

/-- **C19**, one particle: uncentering undoes centering. -/
theorem uncenter_center (rt : K → K) (q : K) (f : Interp K) (d u : Fin 3 → K) :
    uncenterU rt q f d (centerU rt q f d u) = u := by
  simp only [uncenterU, centerU]
  have hn : -(1 / 2) * q = -(1 / 2 * q) := by ring
  rw [hn]
  set w : Fin 3 → K := fun k => u k + halfE q f d k with hw
  have h1 : rotate rt (-(1 / 2 * q)) (rotate rt (1 / 2 * q) w (interpB f d)) (interpB f d) = w := by
    rw [rotate_eq rt (-(1 / 2 * q)), rotation_preserves_norm, tanHalf_neg,
      rotate_eq rt (1 / 2 * q), rotBy_neg]
  rw [h1]
  funext k
  have h2 : halfE (-q) f d k = -halfE q f d k := by
    unfold halfE; fin_cases k <;> simp
  rw [h2, hw]; ring

/-- **C19**, one particle: centering undoes uncentering. -/
theorem center_uncenter (rt : K → K) (q : K) (f : Interp K) (d u : Fin 3 → K) :
    centerU rt q f d (uncenterU rt q f d u) = u := by
  simp only [uncenterU, centerU]
  have hn : -(1 / 2) * q = -(1 / 2 * q) := by ring
  rw [hn]
  have h2 : ∀ k, halfE (-q) f d k = -halfE q f d k := by
    intro k; unfold halfE; fin_cases k <;> simp
  have h3 : (fun k => rotate rt (-(1 / 2 * q)) u (interpB f d) k + halfE (-q) f d k + halfE q f d k)
      = rotate rt (-(1 / 2 * q)) u (interpB f d) := by
    funext k; rw [h2]; ring
  rw [h3, rotate_eq rt (1 / 2 * q), rotation_preserves_norm]
  rw [rotate_eq rt (-(1 / 2 * q)), tanHalf_neg]
  have := rotBy_neg (-tanHalf (1 / 2 * q) (rt (1 + dot u u)) (dot (interpB f d) (interpB f d))) u
    (interpB f d)
  rwa [neg_neg] at this

lemma shares_spec (R : Rounding) (hR : R.Accurate) (np P : ℕ) (hN : np < 2 ^ 31) (hP : 0 < P)
    (hP2 : P ≤ 2 ^ 16) : ∃ sh, shares R np P = some sh ∧ sh.flatten = upTo np := by
  have h := distribute_exact R hR np 16 P hN (by norm_num) hP hP2
  unfold allItems at h
  rw [Option.map_eq_some_iff] at h
  obtain ⟨sh, h1, h2⟩ := h
  exact ⟨sh, h1, h2⟩

omit [Field K] [LinearOrder K] [IsStrictOrderedRing K] in
/-- Every interleaving of the pipelines applies the update exactly once to each of the first `np`
particles and to nothing else. -/
theorem updates_each_once (R : Rounding) (hR : R.Accurate) (np P : ℕ) (hN : np < 2 ^ 31)
    (hP : 0 < P) (hP2 : P ≤ 2 ^ 16) (φ : MoveP.Part K → MoveP.Part K) (ps ps' : ℤ → MoveP.Part K)
    (h : Updates R np P φ ps ps') (i : ℤ) :
    ps' i = if 0 ≤ i ∧ i < np then φ (ps i) else ps i := by
  obtain ⟨sh, h1, h2⟩ := h
  obtain ⟨sh', h1', h3⟩ := shares_spec R hR np P hN hP hP2
  rw [h1, Option.some.injEq] at h1'
  subst h1'
  have hm : ∀ i, i ∈ sh.flatten ↔ 0 ≤ i ∧ i < np := by
    intro i
    rw [h3]
    simp only [upTo, List.mem_map, List.mem_range]
    constructor
    · rintro ⟨a, ha, rfl⟩; omega
    · rintro ⟨ha, hb⟩; exact ⟨i.toNat, by omega, by omega⟩
  rw [runs_map _ _ (by rw [h3]; unfold upTo; exact List.Nodup.map (fun a b h => by simpa using h) List.nodup_range) _ _ h2 i]
  simp only [hm]

/-- **C19.** `center_p` followed by `uncenter_p`, or the reverse, with any numbers of pipelines and
any interleavings, leaves every particle exactly as it was. -/
theorem center_uncenter_species (rt : K → K) (q : K) (f0 : ℤ → Interp K) (R : Rounding)
    (hR : R.Accurate) (np P P' : ℕ) (hN : np < 2 ^ 31) (hP : 0 < P) (hP2 : P ≤ 2 ^ 16)
    (hP' : 0 < P') (hP2' : P' ≤ 2 ^ 16) (ps ps1 ps2 : ℤ → MoveP.Part K) :
    (CenterP rt q f0 R np P ps ps1 → UncenterP rt q f0 R np P' ps1 ps2 → ps2 = ps) ∧
    (UncenterP rt q f0 R np P ps ps1 → CenterP rt q f0 R np P' ps1 ps2 → ps2 = ps) := by
  constructor <;> intro h1 h2 <;> funext i
  · rw [updates_each_once R hR np P' hN hP' hP2' _ _ _ h2 i,
      updates_each_once R hR np P hN hP hP2 _ _ _ h1 i]
    split
    · simp only [uncenterPart, centerPart, uncenter_center]
    · rfl
  · rw [updates_each_once R hR np P' hN hP' hP2' _ _ _ h2 i,
      updates_each_once R hR np P hN hP hP2 _ _ _ h1 i]
    split
    · simp only [uncenterPart, centerPart, center_uncenter]
    · rfl

/-- Runs exist for every species and pipeline count. -/
theorem updates_exist (R : Rounding) (hR : R.Accurate) (np P : ℕ) (hN : np < 2 ^ 31)
    (hP : 0 < P) (hP2 : P ≤ 2 ^ 16) (φ : MoveP.Part K → MoveP.Part K) (ps : ℤ → MoveP.Part K) :
    ∃ ps', Updates R np P φ ps ps' := by
  obtain ⟨sh, h1, -⟩ := shares_spec R hR np P hN hP hP2
  exact ⟨_, sh, h1, runs_seq _ _⟩

/-- 37 particles on 3 pipelines, real square root. -/
example (f0 : ℤ → Interp ℝ) (ps : ℤ → MoveP.Part ℝ) :
    ∃ ps1 ps2, CenterP Real.sqrt (1 / 2) f0 doubleRounding 37 3 ps ps1 ∧
      UncenterP Real.sqrt (1 / 2) f0 doubleRounding 37 3 ps1 ps2 ∧ ps2 = ps := by
  obtain ⟨ps1, h1⟩ := updates_exist doubleRounding doubleRounding_accurate 37 3 (by norm_num)
    (by norm_num) (by norm_num) (centerPart Real.sqrt (1 / 2) f0) ps
  obtain ⟨ps2, h2⟩ := updates_exist doubleRounding doubleRounding_accurate 37 3 (by norm_num)
    (by norm_num) (by norm_num) (uncenterPart Real.sqrt (1 / 2) f0) ps1
  exact ⟨ps1, ps2, h1, h2, (center_uncenter_species Real.sqrt (1 / 2) f0 doubleRounding
    doubleRounding_accurate 37 3 3 (by norm_num) (by norm_num) (by norm_num) (by norm_num)
    (by norm_num) ps ps1 ps2).1 h1 h2⟩

end Verif.Boris
