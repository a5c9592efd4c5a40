import Verif.Collision.Model
import Mathlib.Tactic.Ring
import Mathlib.Tactic.FieldSimp
import Mathlib.Tactic.Linarith
import Mathlib.Tactic.LinearCombination
import Mathlib.Tactic.Positivity
import Mathlib.Tactic.FinCases
import Mathlib.Data.Fintype.Basic
import Mathlib.Analysis.Real.Sqrt

/-!
# C55: collisions conserve momentum and energy
-/
namespace Verif.Collision

variable {K : Type*} [Field K] [LinearOrder K] [IsStrictOrderedRing K]

/-! ## Specification -/

/-- Momentum of a pair of equal weights, `m_i u_i + m_j u_j`. -/
def momentum (mi mj : K) (p : (Fin 3 → K) × (Fin 3 → K)) : Fin 3 → K := fun k => mi * p.1 k + mj * p.2 k

/-- Twice the kinetic energy of a pair of equal weights. -/
def energy (mi mj : K) (p : (Fin 3 → K) × (Fin 3 → K)) : K :=
  mi * (p.1 0 ^ 2 + p.1 1 ^ 2 + p.1 2 ^ 2) + mj * (p.2 0 ^ 2 + p.2 1 ^ 2 + p.2 2 ^ 2)

/-- A square root function. -/
def IsSqrt (rt : K → K) : Prop := ∀ x, 0 ≤ x → 0 ≤ rt x ∧ rt x * rt x = x

/-! ## The perpendicular vector -/

/-- Squared length of T, as a multiple of one. -/
def tlen (rt : K → K) (eps : K) (u : Fin 3 → K) : K := normSq (tvec rt eps u)

lemma axes_cases (u : Fin 3 → K) :
    (axes u = (0, 1, 2) ∧ u 0 * u 0 ≤ u 1 * u 1 ∧ u 0 * u 0 ≤ u 2 * u 2) ∨
    (axes u = (1, 2, 0) ∧ u 1 * u 1 ≤ u 0 * u 0 ∧ u 1 * u 1 ≤ u 2 * u 2) ∨
    (axes u = (2, 0, 1) ∧ u 2 * u 2 ≤ u 0 * u 0 ∧ u 2 * u 2 ≤ u 1 * u 1) := by
  unfold axes
  simp only
  by_cases h1 : u 1 * u 1 < u 0 * u 0
  · by_cases h2 : u 2 * u 2 < u 1 * u 1
    · right; right; simp only [if_pos h1, if_pos h2]; exact ⟨trivial, by linarith, by linarith⟩
    · right; left; simp only [if_pos h1, if_neg h2]; exact ⟨trivial, by linarith, by linarith⟩
  · by_cases h2 : u 2 * u 2 < u 0 * u 0
    · right; right; simp only [if_neg h1, if_pos h2]; exact ⟨trivial, by linarith, by linarith⟩
    · left; simp only [if_neg h1, if_neg h2]; exact ⟨trivial, by linarith, by linarith⟩

/-- T is perpendicular to `u`, whatever `rt` and `eps`. -/
lemma tvec_perp (rt : K → K) (eps : K) (u : Fin 3 → K) :
    u 0 * tvec rt eps u 0 + u 1 * tvec rt eps u 1 + u 2 * tvec rt eps u 2 = 0 := by
  rcases axes_cases u with ⟨h, -⟩ | ⟨h, -⟩ | ⟨h, -⟩ <;> simp [tvec, h] <;> ring

lemma normSq_nonneg (u : Fin 3 → K) : 0 ≤ normSq u := by
  unfold normSq
  have h0 := mul_self_nonneg (u 0)
  have h1 := mul_self_nonneg (u 1)
  have h2 := mul_self_nonneg (u 2)
  linarith

/-- Length of T: without regularisation it is one; `|u|²` times the deficit is at most `3/2 eps`. -/
lemma tvec_len (rt : K → K) (hrt : IsSqrt rt) (eps : K) (he : 0 ≤ eps) (u : Fin 3 → K) :
    0 ≤ normSq u * (1 - tlen rt eps u) ∧ normSq u * (1 - tlen rt eps u) ≤ 3 / 2 * eps := by
  have hn := normSq_nonneg u
  rcases hn.eq_or_lt with h0 | hpos
  · rw [← h0]; simp; positivity
  obtain ⟨ρ, hρ, hlen⟩ : ∃ ρ, 2 / 3 * normSq u ≤ ρ ∧ tlen rt eps u = ρ / (ρ + eps) := by
    have aux : ∀ a b : K, 0 < a * a + b * b →
        (1 / rt (a * a + b * b + eps) * b) * (1 / rt (a * a + b * b + eps) * b) +
        (1 / rt (a * a + b * b + eps) * a) * (1 / rt (a * a + b * b + eps) * a) = (a * a + b * b) / (a * a + b * b + eps) := by
      intro a b hab
      have h0 : 0 < a * a + b * b + eps := by linarith
      obtain ⟨h1, h2⟩ := hrt _ h0.le
      have h3 : rt (a * a + b * b + eps) ≠ 0 := by
        intro h; rw [h] at h2; simp at h2; exact h0.ne h2
      generalize rt (a * a + b * b + eps) = r at *
      rw [← h2]
      field_simp
      ring
    unfold normSq at hpos
    rcases axes_cases u with ⟨h, g1, g2⟩ | ⟨h, g1, g2⟩ | ⟨h, g1, g2⟩
    · refine ⟨u 1 * u 1 + u 2 * u 2, by unfold normSq; linarith, ?_⟩
      rw [← aux (u 1) (u 2) (by linarith)]
      simp [tlen, normSq, tvec, h]
    · refine ⟨u 2 * u 2 + u 0 * u 0, by unfold normSq; linarith, ?_⟩
      rw [← aux (u 2) (u 0) (by linarith)]
      simp [tlen, normSq, tvec, h]
      ring
    · refine ⟨u 0 * u 0 + u 1 * u 1, by unfold normSq; linarith, ?_⟩
      rw [← aux (u 0) (u 1) (by linarith)]
      simp [tlen, normSq, tvec, h]
  have hρ0 : 0 < ρ := by linarith
  have hd : 0 < ρ + eps := by linarith
  have h1 : 1 - tlen rt eps u = eps / (ρ + eps) := by rw [hlen]; field_simp; ring
  rw [h1]
  refine ⟨by positivity, ?_⟩
  rw [mul_div_assoc', div_le_iff₀ hd]
  have h2 : normSq u ≤ 3 / 2 * ρ := by linarith
  have h3 : normSq u * eps ≤ 3 / 2 * ρ * eps := mul_le_mul_of_nonneg_right h2 he
  have h4 : 0 ≤ 3 / 2 * eps * eps := by positivity
  nlinarith

/-! ## Scattering of the relative velocity -/

/-- A change of the relative velocity by `-2a` with `a = A u - B |u| T - C u x T`. -/
lemma scatter_norm (A B C R : K) (u t : Fin 3 → K) (hR : R * R = normSq u)
    (hs : u 0 * t 0 + u 1 * t 1 + u 2 * t 2 = 0) :
    normSq (fun i => u i - 2 * ((A * u i - B * R * t i) - C * cross u t i)) =
      normSq u * ((1 - 2 * A) ^ 2 + 4 * (B ^ 2 + C ^ 2) * normSq t) := by
  unfold normSq at *
  simp only [cross, Matrix.cons_val_zero, Matrix.cons_val_one, Matrix.cons_val]
  linear_combination (4 * (1 - 2 * A) * B * R - 4 * C ^ 2 * (u 0 * t 0 + u 1 * t 1 + u 2 * t 2)) * hs +
    4 * B ^ 2 * (t 0 * t 0 + t 1 * t 1 + t 2 * t 2) * hR

/-- With coefficients of a rotation the length is preserved up to `3/2 eps`. -/
lemma scatter_bounds (rt : K → K) (hrt : IsSqrt rt) (eps : K) (he : 0 ≤ eps) (A B C : K) (u : Fin 3 → K)
    (hABC : A ^ 2 - A + B ^ 2 + C ^ 2 = 0) :
    let v : Fin 3 → K := fun i => u i - 2 * ((A * u i - B * rt (normSq u) * tvec rt eps u i) - C * cross u (tvec rt eps u) i)
    normSq v ≤ normSq u ∧ normSq u - 3 / 2 * eps ≤ normSq v := by
  intro v
  have hv : normSq v = normSq u * ((1 - 2 * A) ^ 2 + 4 * (B ^ 2 + C ^ 2) * tlen rt eps u) :=
    scatter_norm A B C (rt (normSq u)) u (tvec rt eps u) (hrt _ (normSq_nonneg u)).2 (tvec_perp rt eps u)
  obtain ⟨h1, h2⟩ := tvec_len rt hrt eps he u
  have hv2 : normSq v = normSq u - 4 * (B ^ 2 + C ^ 2) * (normSq u * (1 - tlen rt eps u)) := by
    rw [hv]; linear_combination 4 * normSq u * hABC
  have hq0 : 0 ≤ 4 * (B ^ 2 + C ^ 2) := by positivity
  have hq1 : 4 * (B ^ 2 + C ^ 2) ≤ 1 := by
    have : B ^ 2 + C ^ 2 = A - A ^ 2 := by linear_combination hABC
    rw [this]; nlinarith [sq_nonneg (2 * A - 1)]
  generalize normSq u * (1 - tlen rt eps u) = D at *
  generalize 4 * (B ^ 2 + C ^ 2) = q at *
  rw [hv2]
  constructor
  · have := mul_nonneg hq0 h1; linarith
  · have : q * D ≤ 1 * D := mul_le_mul_of_nonneg_right hq1 h1
    linarith

/-- Momentum and energy of a pair whose members are changed in opposite directions by `2 mu/m a`. -/
lemma pair_balance (mi mj : K) (hM : mi + mj ≠ 0) (a ui uj : Fin 3 → K) :
    let p : (Fin 3 → K) × (Fin 3 → K) := (fun k => ui k - 2 * mj / (mi + mj) * a k, fun k => uj k + 2 * mi / (mi + mj) * a k)
    momentum mi mj p = momentum mi mj (ui, uj) ∧
    energy mi mj p = energy mi mj (ui, uj) +
      mi * mj / (mi + mj) * (normSq (fun k => (ui k - uj k) - 2 * a k) - normSq fun k => ui k - uj k) := by
  intro p
  constructor
  · funext k
    simp only [p, momentum]
    field_simp
    ring
  · simp only [p, energy, normSq]
    field_simp
    ring

/-- What conservation means for a collision of `(ui, uj)` into `p`: momentum exactly, energy up to
`3/2 mu eps`, and the energy never increases. -/
def Conserves (mi mj eps : K) (p : (Fin 3 → K) × (Fin 3 → K)) (ui uj : Fin 3 → K) : Prop :=
  momentum mi mj p = momentum mi mj (ui, uj) ∧ energy mi mj p ≤ energy mi mj (ui, uj) ∧
    energy mi mj (ui, uj) - mi * mj / (mi + mj) * (3 / 2 * eps) ≤ energy mi mj p

/-- Without the regularisation, conservation is exact. -/
theorem conserves_exact {mi mj : K} {p : (Fin 3 → K) × (Fin 3 → K)} {ui uj : Fin 3 → K}
    (h : Conserves mi mj 0 p ui uj) : momentum mi mj p = momentum mi mj (ui, uj) ∧ energy mi mj p = energy mi mj (ui, uj) := by
  obtain ⟨h1, h2, h3⟩ := h
  simp at h3
  exact ⟨h1, le_antisymm h2 h3⟩

lemma conserves_of_scatter (rt : K → K) (hrt : IsSqrt rt) (eps : K) (he : 0 ≤ eps) (mi mj : K) (hi : 0 < mi) (hj : 0 < mj)
    (A B C : K) (hABC : A ^ 2 - A + B ^ 2 + C ^ 2 = 0) (a ui uj : Fin 3 → K)
    (ha : ∀ k, a k = (A * (ui k - uj k) - B * rt (normSq fun k => ui k - uj k) * tvec rt eps (fun k => ui k - uj k) k)
      - C * cross (fun k => ui k - uj k) (tvec rt eps fun k => ui k - uj k) k) :
    Conserves mi mj eps (fun k => ui k - 2 * mj / (mi + mj) * a k, fun k => uj k + 2 * mi / (mi + mj) * a k) ui uj := by
  obtain ⟨h1, h2⟩ := pair_balance mi mj (by positivity) a ui uj
  obtain ⟨h3, h4⟩ := scatter_bounds rt hrt eps he A B C (fun k => ui k - uj k) hABC
  have hmu : 0 ≤ mi * mj / (mi + mj) := by positivity
  have e : (fun k => (ui k - uj k) - 2 * a k) = fun i => (ui i - uj i) -
      2 * ((A * (ui i - uj i) - B * rt (normSq fun k => ui k - uj k) * tvec rt eps (fun k => ui k - uj k) i) -
      C * cross (fun k => ui k - uj k) (tvec rt eps fun k => ui k - uj k) i) := by
    funext k; rw [ha]
  rw [e] at h2
  refine ⟨h1, ?_, ?_⟩
  · rw [h2]
    have := mul_nonpos_of_nonneg_of_nonpos hmu (sub_nonpos.mpr h3)
    linarith
  · rw [h2]
    have := mul_le_mul_of_nonneg_left (show -(3 / 2 * eps) ≤ _ from by linarith [h4] : -(3 / 2 * eps) ≤ normSq (fun i => (ui i - uj i) -
      2 * ((A * (ui i - uj i) - B * rt (normSq fun k => ui k - uj k) * tvec rt eps (fun k => ui k - uj k) i) -
      C * cross (fun k => ui k - uj k) (tvec rt eps fun k => ui k - uj k) i)) - normSq fun k => ui k - uj k) hmu
    linarith

/-! ## C55 -/

/-- C55: hard spheres.  `b²` is the squared impact parameter accepted by the sampling loop. -/
theorem hard_sphere_conserves (rt : K → K) (hrt : IsSqrt rt) (eps : K) (he : 0 ≤ eps) (mi mj : K) (hi : 0 < mi) (hj : 0 < mj)
    (bcs bsn : K) (hb : bcs * bcs + bsn * bsn < 1) (ui uj : Fin 3 → K) :
    Conserves mi mj eps (hardSphere rt eps mi mj bcs bsn 3 ui uj) ui uj := by
  have hsq : rt (1 - (bcs * bcs + bsn * bsn)) * rt (1 - (bcs * bcs + bsn * bsn)) = 1 - (bcs * bcs + bsn * bsn) :=
    (hrt _ (by linarith)).2
  have := conserves_of_scatter rt hrt eps he mi mj hi hj (1 - (bcs * bcs + bsn * bsn))
    (rt (1 - (bcs * bcs + bsn * bsn)) * bcs) (rt (1 - (bcs * bcs + bsn * bsn)) * bsn) (by
      linear_combination (bcs ^ 2 + bsn ^ 2) * hsq)
    (hsTransfer rt eps bcs bsn fun k => ui k - uj k) ui uj (fun k => rfl)
  exact this

/-- C55: large angle Coulomb collisions. -/
theorem large_angle_conserves (rt : K → K) (hrt : IsSqrt rt) (eps : K) (he : 0 ≤ eps) (mi mj : K) (hi : 0 < mi) (hj : 0 < mj)
    (cc bcs bsn : K) (ui uj : Fin 3 → K) :
    Conserves mi mj eps (largeAngle rt eps cc mi mj bcs bsn 3 ui uj) ui uj := by
  set u : Fin 3 → K := fun k => ui k - uj k with hu
  set s := cc * normSq u with hs
  have hden : (1 + (s * s) * (bcs * bcs + bsn * bsn)) ≠ 0 := by
    have : 0 ≤ (s * s) * (bcs * bcs + bsn * bsn) :=
      mul_nonneg (mul_self_nonneg _) (add_nonneg (mul_self_nonneg _) (mul_self_nonneg _))
    linarith
  have := conserves_of_scatter rt hrt eps he mi mj hi hj (1 / (1 + (s * s) * (bcs * bcs + bsn * bsn)))
    (1 / (1 + (s * s) * (bcs * bcs + bsn * bsn)) * s * bcs) (1 / (1 + (s * s) * (bcs * bcs + bsn * bsn)) * s * bsn) (by
      field_simp
      ring)
    (lacTransfer rt eps cc bcs bsn u) ui uj (fun k => rfl)
  exact this

/-- C55: Takizuka-Abe collisions of particles of equal weight. -/
theorem takizuka_abe_conserves (rt : K → K) (hrt : IsSqrt rt) (eps : K) (he : 0 ≤ eps) (mi mj : K) (hi : 0 < mi) (hj : 0 < mj)
    (std g cs sn r w : K) (hcs : cs ^ 2 + sn ^ 2 = 1) (ui uj : Fin 3 → K) :
    Conserves mi mj eps (takizukaAbe rt eps mi mj std g cs sn r w w ui uj) ui uj := by
  set u : Fin 3 → K := fun k => ui k - uj k with hu
  obtain ⟨dd, hdd⟩ : ∃ dd, dd = (if 1 < std * rt (1 / rt (normSq u)) * (1 / rt (normSq u)) then 1
    else std * rt (1 / rt (normSq u)) * (1 / rt (normSq u))) * g := ⟨_, rfl⟩
  have hden : (1 + dd * dd) ≠ 0 := by have := mul_self_nonneg dd; linarith
  have hden2 : (1 + dd ^ 2) ≠ 0 := by have := sq_nonneg dd; linarith
  have hM : mi + mj ≠ 0 := by positivity
  have := conserves_of_scatter rt hrt eps he mi mj hi hj (dd ^ 2 / (1 + dd * dd))
    ((dd / (1 + dd * dd) * cs)) ((dd / (1 + dd * dd) * sn)) (by
      field_simp
      linear_combination dd ^ 2 * hcs) _ ui uj (fun k => rfl)
  have e : takizukaAbe rt eps mi mj std g cs sn r w w ui uj = (fun k => ui k - 2 * mj / (mi + mj) *
      ((dd ^ 2 / (1 + dd * dd) * (ui k - uj k) - (dd / (1 + dd * dd) * cs) * rt (normSq fun k => ui k - uj k) *
        tvec rt eps (fun k => ui k - uj k) k) - (dd / (1 + dd * dd) * sn) * cross (fun k => ui k - uj k) (tvec rt eps fun k => ui k - uj k) k),
      fun k => uj k + 2 * mi / (mi + mj) *
      ((dd ^ 2 / (1 + dd * dd) * (ui k - uj k) - (dd / (1 + dd * dd) * cs) * rt (normSq fun k => ui k - uj k) *
        tvec rt eps (fun k => ui k - uj k) k) - (dd / (1 + dd * dd) * sn) * cross (fun k => ui k - uj k) (tvec rt eps fun k => ui k - uj k) k)) := by
    unfold takizukaAbe
    simp only [lt_irrefl, false_and, if_false]
    rw [← hu, ← hdd]
    generalize rt (normSq u) = R
    generalize tvec rt eps u = t
    refine Prod.ext ?_ ?_
    · funext k
      simp only
      generalize cross u t k = c
      show ui k + mj / (mi + mj) * _ = ui k - 2 * mj / (mi + mj) * _
      field_simp
      ring
    · funext k
      simp only
      generalize cross u t k = c
      field_simp
      ring
  rw [e]
  exact this

/-- The particle not selected by the update type is left alone. -/
theorem unselected_unchanged (rt : K → K) (eps cc mi mj bcs bsn : K) (ui uj : Fin 3 → K) :
    (hardSphere rt eps mi mj bcs bsn 1 ui uj).2 = uj ∧ (hardSphere rt eps mi mj bcs bsn 2 ui uj).1 = ui ∧
    (largeAngle rt eps cc mi mj bcs bsn 1 ui uj).2 = uj ∧ (largeAngle rt eps cc mi mj bcs bsn 2 ui uj).1 = ui := by
  simp [hardSphere, largeAngle, applyTransfer]

/-! ## Instance: the real numbers -/

lemma real_isSqrt : IsSqrt Real.sqrt := fun x hx => ⟨Real.sqrt_nonneg x, Real.mul_self_sqrt hx⟩

/-- In exact real arithmetic without regularisation all three kernels conserve momentum and energy. -/
theorem kernels_conserve_real (mi mj : ℝ) (hi : 0 < mi) (hj : 0 < mj) (bcs bsn cc std g r w : ℝ)
    (hb : bcs * bcs + bsn * bsn < 1) (cs sn : ℝ) (hcs : cs ^ 2 + sn ^ 2 = 1) (ui uj : Fin 3 → ℝ) :
    (∀ p ∈ [hardSphere Real.sqrt 0 mi mj bcs bsn 3 ui uj, largeAngle Real.sqrt 0 cc mi mj bcs bsn 3 ui uj,
        takizukaAbe Real.sqrt 0 mi mj std g cs sn r w w ui uj],
      momentum mi mj p = momentum mi mj (ui, uj) ∧ energy mi mj p = energy mi mj (ui, uj)) := by
  intro p hp
  simp only [List.mem_cons, List.not_mem_nil, or_false] at hp
  rcases hp with rfl | rfl | rfl
  · exact conserves_exact (hard_sphere_conserves _ real_isSqrt 0 le_rfl mi mj hi hj bcs bsn hb ui uj)
  · exact conserves_exact (large_angle_conserves _ real_isSqrt 0 le_rfl mi mj hi hj cc bcs bsn ui uj)
  · exact conserves_exact (takizuka_abe_conserves _ real_isSqrt 0 le_rfl mi mj hi hj std g cs sn r w hcs ui uj)

-- A head-on hard sphere collision reverses the velocities of equal masses.
example : (hardSphere Real.sqrt 0 1 1 0 0 3 ![1, 0, 0] ![-1, 0, 0]).1 0 = -1 := by
  norm_num [hardSphere, applyTransfer, hsTransfer]

end Verif.Collision
