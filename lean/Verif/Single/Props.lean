import Verif.Single.Lemmas
import Mathlib.Probability.Distributions.Gaussian.Real

/-!
# C89: collision operators that treat one particle at a time
-/
namespace Verif.Single

open Verif.Distribute

/-! ## Unary collisions -/

section Unary

variable {K G : Type} [Mul K] [LinearOrder K] [One K]

lemma unary_count (cm : Unary K G) (c0 : G → K × G) (dt : K) (l : List (MoveP.Part K)) (s : G × ℕ) :
    (treatAll (unaryTreat cm c0 dt) l s).2.2
      = s.2 + l.countP fun p => decide (1 < dt * cm.rate p) := by
  induction l generalizing s with
  | nil => simp [treatAll]
  | cons p l ih =>
    have e : (unaryTreat cm c0 dt p s).2.2
        = s.2 + if decide (1 < dt * cm.rate p) = true then 1 else 0 := by
      unfold unaryTreat
      by_cases h : 1 < dt * cm.rate p <;> by_cases h' : (c0 s.1).1 < dt * cm.rate p <;>
        simp [h, h']
    simp only [treatAll]
    rw [ih, e, List.countP_cons]
    omega

/-- **C89.** An application of a unary collision model, for every model, generator, number of
particles and pipelines and every schedule of the pipelines.  Nothing happens when the operator is
not due.  Otherwise each of the `np` particles is either left as it is or is the result of exactly
one call of the collision function on it; it is left as it is when its collision rate is not
positive, and it is collided when its probability is at least one; memory outside the particle list
and generators of no pipeline are untouched; and the number in the warning is the number of particles
whose probability exceeded one. -/
theorem unary_applied (R : Rounding) (hR : R.Accurate) (np P : ℕ) (hN : np < 2 ^ 31) (hP : 0 < P)
    (hP2 : P ≤ 2 ^ 16) [Zero K] (cm : Unary K G) (c0 : G → K × G) (gdt : K) (ofInt : ℤ → K)
    (h0 : ∀ g, 0 ≤ (c0 g).1) (h1 : ∀ g, (c0 g).1 < 1) (interval step : ℤ)
    (m m' : Mem K (G × ℕ)) (warn : ℕ)
    (h : ApplyUnary R np P cm c0 gdt ofInt interval step m m' warn) :
    ((interval < 1 ∨ ¬ interval ∣ step) → m' = m ∧ warn = 0) ∧
    (1 ≤ interval → interval ∣ step →
      (∀ i : ℤ, 0 ≤ i → i < np →
        (m' (.part i) = m (.part i) ∨ ∃ g, m' (.part i) = (cm.collision (m (.part i)) g).1) ∧
        (gdt * ofInt interval * cm.rate (m (.part i)) ≤ 0 → m' (.part i) = m (.part i)) ∧
        (1 ≤ gdt * ofInt interval * cm.rate (m (.part i)) →
          ∃ g, m' (.part i) = (cm.collision (m (.part i)) g).1)) ∧
      (∀ i : ℤ, i < 0 ∨ (np : ℤ) ≤ i → m' (.part i) = m (.part i)) ∧
      (∀ r, P ≤ r → m' (.gen r) = m (.gen r)) ∧
      warn = (upTo np).countP fun i =>
        decide (1 < gdt * ofInt interval * cm.rate (m (.part i)))) := by
  have hsk : skips interval step = true ↔ interval < 1 ∨ ¬ interval ∣ step := by
    unfold skips
    rw [Bool.or_eq_true, decide_eq_true_iff, decide_eq_true_iff, Int.dvd_iff_tmod_eq_zero]
  constructor
  · intro hs
    unfold ApplyUnary at h
    rw [if_pos (hsk.mpr hs)] at h
    exact h
  · intro hi hd
    have hns : ¬ skips interval step = true := by
      rw [hsk]; rintro (h | h)
      · omega
      · exact h hd
    unfold ApplyUnary at h
    rw [if_neg hns] at h
    obtain ⟨hx, hw⟩ := h
    obtain ⟨hsh, hout, hgen⟩ := exec_shares R hR np P hN hP hP2 _ _ m m' hx
    refine ⟨?_, hout, hgen, ?_⟩
    · intro i hi0 hi1
      obtain ⟨s, hs⟩ := exec_each R hR np P hN hP hP2 _ _ m m' hx i hi0 hi1
      rw [hs]
      unfold unaryTreat
      dsimp only
      by_cases hc : (c0 s.1).1 < gdt * ofInt interval * cm.rate (m (.part i))
      · rw [if_pos hc]
        refine ⟨Or.inr ⟨_, rfl⟩, fun hz => ?_, fun _ => ⟨_, rfl⟩⟩
        exact absurd ((h0 s.1).trans_lt hc) (not_lt.mpr hz)
      · rw [if_neg hc]
        refine ⟨Or.inl rfl, fun _ => rfl, fun hz => ?_⟩
        exact absurd ((h1 s.1).trans_le hz) hc
    · rw [hw, ← unary_split_exact R hR np P hN hP hP2, List.countP_flatten, List.map_map]
      congr 1
      apply List.map_congr_left
      intro r hr
      rw [(hsh r (List.mem_range.mp hr)).2, unary_count, List.countP_map]
      simp only [unaryStart, Nat.zero_add, Function.comp_def]

/-- A unary collision model exists only with a generator for every pipeline. -/
theorem unary_pool (n_rng P : ℕ) : unaryPoolAccepted n_rng P = true ↔ ∀ r < P, r < n_rng := by
  unfold unaryPoolAccepted
  rw [decide_eq_true_iff, not_lt]
  constructor
  · intro h r hr; omega
  · intro h
    by_contra hc
    exact absurd (h n_rng (by omega)) (lt_irrefl _)

end Unary

/-! ## The Langevin operator -/

section Langevin

variable {G : Type}

/-- Specification: the `k`-th normal number of a generator, … -/
def nth (nrm : G → ℝ × G) (g : G) : ℕ → ℝ
  | 0 => (nrm g).1
  | k + 1 => nth nrm (nrm g).2 k

/-- … and the generator after `k` of them. -/
def after (nrm : G → ℝ × G) (g : G) : ℕ → G
  | 0 => g
  | k + 1 => after nrm (nrm g).2 k

lemma langevin_treatAll (nrm : G → ℝ × G) (dc dr : ℝ) (l : List (MoveP.Part ℝ)) (g : G) :
    (∀ (j : ℕ) (p : MoveP.Part ℝ), l[j]? = some p →
      (treatAll (langevinTreat nrm dc dr) l g).1[j]?
        = some ⟨p.d, p.i, fun a => dc * p.u a + dr * nth nrm g (3 * j + a), p.w⟩) ∧
    (treatAll (langevinTreat nrm dc dr) l g).2 = after nrm g (3 * l.length) := by
  induction l generalizing g with
  | nil => simp [treatAll, after]
  | cons q l ih =>
    obtain ⟨i1, i2⟩ := ih (after nrm g 3)
    have e2 : (langevinTreat nrm dc dr q g).2 = after nrm g 3 := rfl
    constructor
    · intro j p hp
      cases j with
      | zero =>
        simp only [List.getElem?_cons_zero, Option.some.injEq] at hp
        subst hp
        simp only [treatAll, List.getElem?_cons_zero, Option.some.injEq, langevinTreat]
        congr 1
        funext a
        fin_cases a <;> rfl
      | succ j =>
        simp only [List.getElem?_cons_succ] at hp
        simp only [treatAll, List.getElem?_cons_succ, e2]
        rw [i1 j p hp]
        congr 2
        funext a
        have : nth nrm (after nrm g 3) (3 * j + a) = nth nrm g (3 * (j + 1) + a) := by
          rw [show 3 * (j + 1) + (a : ℕ) = (3 * j + a) + 3 by ring]
          rfl
        rw [this]
    · simp only [treatAll, e2]
      rw [i2, List.length_cons, Nat.mul_add]
      rfl

/-- **C89.** An application of the Langevin operator that is due, for every schedule.  Component `a`
of the momentum of the `j`-th particle of pipeline `r` becomes `decay u + drive z` with `z` the
number `3 j + a` of the generator of pipeline `r`, so that every number is used for one component of
one particle; nothing else changes. -/
theorem langevin_applied (R : Rounding) (hR : R.Accurate) (np P n_rng : ℕ) (hN : np < 2 ^ 31)
    (hP : 0 < P) (hP2 : P ≤ 2 ^ 16) (nrm : G → ℝ × G) (kT nu ms cvac dt : ℝ) (interval step : ℤ)
    (hpool : P ≤ n_rng) (m : Mem ℝ G) :
    ∃ out, ApplyLangevin R np P n_rng nrm kT nu ms cvac dt interval step m = some out ∧
    (∃ m', out m') ∧
    ∀ m', out m' →
      ((interval < 1 ∨ ¬ interval ∣ step) → m' = m) ∧
      (1 ≤ interval → interval ∣ step →
        (∀ r < P, ∀ (j : ℕ) (i : ℤ), (unaryItems R np P r)[j]? = some i →
          m' (.part i) = ⟨(m (.part i)).d, (m (.part i)).i,
            fun a => Real.exp (-(nu * interval * dt)) * (m (.part i)).u a
              + drive kT ms cvac (nu * interval * dt) * nth nrm (m (.gen r)) (3 * j + a),
            (m (.part i)).w⟩) ∧
        (∀ r < P, m' (.gen r) = after nrm (m (.gen r)) (3 * (unaryItems R np P r).length)) ∧
        (∀ i : ℤ, i < 0 ∨ (np : ℤ) ≤ i → m' (.part i) = m (.part i)) ∧
        ∀ r, P ≤ r → m' (.gen r) = m (.gen r)) := by
  have hsk : skips interval step = true ↔ interval < 1 ∨ ¬ interval ∣ step := by
    unfold skips
    rw [Bool.or_eq_true, decide_eq_true_iff, decide_eq_true_iff, Int.dvd_iff_tmod_eq_zero]
  unfold ApplyLangevin langevinPasses
  by_cases hs : skips interval step = true
  · rw [if_pos hs]
    refine ⟨_, rfl, ⟨m, rfl⟩, fun m' h => ⟨fun _ => h, fun h1 h2 => ?_⟩⟩
    rcases hsk.mp hs with h | h
    · omega
    · exact absurd h2 h
  · rw [if_neg hs]
    dsimp only
    rw [if_neg (by omega)]
    refine ⟨_, rfl, ⟨_, runs_seq _ m⟩, fun m' h => ⟨fun h1 => absurd (hsk.mpr h1) hs, fun _ _ => ?_⟩⟩
    obtain ⟨hsh, hout, hgen⟩ := exec_shares R hR np P hN hP hP2 _ _ m m' h
    refine ⟨?_, ?_, hout, hgen⟩
    · intro r hr j i hi
      obtain ⟨a, _⟩ := hsh r hr
      have hp : ((unaryItems R np P r).map fun i => m (.part i))[j]? = some (m (.part i)) := by
        simp [hi]
      have hs := (langevin_treatAll nrm (decay (nu * interval * dt))
        (drive kT ms cvac (nu * interval * dt)) _ (id (m (.gen r)))).1 j _ hp
      rw [← a] at hs
      simp only [List.getElem?_map, hi, Option.map_some, Option.some.injEq] at hs
      exact hs
    · intro r hr
      rw [(hsh r hr).2, (langevin_treatAll _ _ _ _ _).2, List.length_map]
      rfl

/-- Every particle has its number: the shares are the particle list. -/
theorem langevin_everyone (R : Rounding) (hR : R.Accurate) (np P : ℕ) (hN : np < 2 ^ 31)
    (hP : 0 < P) (hP2 : P ≤ 2 ^ 16) (i : ℤ) (h0 : 0 ≤ i) (h1 : i < np) :
    ∃ r < P, ∃ j : ℕ, (unaryItems R np P r)[j]? = some i := by
  obtain ⟨r, hr, hi⟩ := exists_share R hR np P hN hP hP2 i h0 h1
  obtain ⟨j, hj⟩ := List.getElem?_of_mem hi
  exact ⟨r, hr, j, hj⟩

/-- **Finding.** `langevin` accepts a pool with fewer generators than pipelines (the other collision
models refuse it), and the first application that is due then reads past the end of the pool. -/
theorem langevin_small_pool_undefined (R : Rounding) (np P n_rng : ℕ) (hsmall : n_rng < P)
    (nrm : G → ℝ × G) (kT nu ms cvac dt : ℝ) (hkT : 0 ≤ kT) (hnu : 0 ≤ nu) (interval step : ℤ)
    (hi : 1 ≤ interval) (hd : interval ∣ step) (m : Mem ℝ G) :
    langevinAccepted kT nu n_rng P ∧
    ApplyLangevin R np P n_rng nrm kT nu ms cvac dt interval step m = none := by
  constructor
  · unfold langevinAccepted; rintro (h | h) <;> linarith
  · unfold ApplyLangevin langevinPasses
    have : skips interval step = false := by
      unfold skips
      rw [Bool.or_eq_false_iff, decide_eq_false_iff_not, decide_eq_false_iff_not, not_not]
      exact ⟨by omega, Int.dvd_iff_tmod_eq_zero.mp hd⟩
    rw [this]
    simp [hsmall]

end Langevin

/-! ## What the Langevin operator does to the distribution of a momentum component -/

open MeasureTheory ProbabilityTheory

/-- The momentum after an application with a given momentum and normal number. -/
noncomputable def kick (kT ms cvac nudt u z : ℝ) : ℝ := decay nudt * u + drive kT ms cvac nudt * z

/-- Specification: the distribution of a momentum component after `n` applications with independent
standard normal numbers, from the distribution `μ`. -/
noncomputable def lawAfter (kT ms cvac nudt : ℝ) (μ : Measure ℝ) : ℕ → Measure ℝ
  | 0 => μ
  | n + 1 => ((lawAfter kT ms cvac nudt μ n).prod (gaussianReal 0 1)).map
      fun q => kick kT ms cvac nudt q.1 q.2

lemma drive_sq (kT ms cvac nudt : ℝ) (hkT : 0 ≤ kT) (hm : 0 < ms) (hc : 0 < cvac) (hn : 0 ≤ nudt) :
    drive kT ms cvac nudt ^ 2 = (1 - Real.exp (-2 * nudt)) * (kT / (ms * cvac)) := by
  unfold drive
  rw [Real.sq_sqrt]
  · field_simp; ring
  · have : Real.exp (-2 * nudt) ≤ 1 := Real.exp_le_one_iff.mpr (by linarith)
    have h1 : 0 ≤ -(Real.exp (-2 * nudt) - 1) * kT := by
      apply mul_nonneg _ hkT; linarith
    positivity

lemma gauss_step (a b μ : ℝ) (v : NNReal) :
    ((gaussianReal μ v).prod (gaussianReal 0 1)).map (fun q => a * q.1 + b * q.2)
      = gaussianReal (a * μ) (.mk (a ^ 2) (sq_nonneg _) * v + .mk (b ^ 2) (sq_nonneg _)) := by
  have h1 := gaussianReal_map_const_mul (μ := μ) (v := v) a
  have h2 := gaussianReal_map_const_mul (μ := 0) (v := 1) b
  rw [mul_zero, mul_one] at h2
  have h3 := gaussianReal_conv_gaussianReal (m₁ := a * μ) (m₂ := 0)
    (v₁ := .mk (a ^ 2) (sq_nonneg _) * v) (v₂ := .mk (b ^ 2) (sq_nonneg _))
  rw [← h1, ← h2, Measure.conv, Measure.map_prod_map _ _ (by fun_prop) (by fun_prop),
    Measure.map_map (by fun_prop) (by fun_prop), add_zero] at h3
  exact h3

/-- The distribution after `n` applications from a normal distribution. -/
lemma law_normal (kT ms cvac nudt : ℝ) (hkT : 0 ≤ kT) (hm : 0 < ms) (hc : 0 < cvac)
    (hn : 0 ≤ nudt) (μ : ℝ) (v : NNReal) (n : ℕ) :
    lawAfter kT ms cvac nudt (gaussianReal μ v) n
      = gaussianReal (Real.exp (-(n * nudt)) * μ)
          (.mk (Real.exp (-2 * (n * nudt))) (Real.exp_pos _).le * v
            + .mk (drive kT ms cvac (n * nudt) ^ 2) (sq_nonneg _)) := by
  induction n with
  | zero =>
    have h1 : (NNReal.mk (drive kT ms cvac ((0 : ℕ) * nudt) ^ 2) (sq_nonneg _)) = 0 := by
      ext; simp [drive]
    have h2 : (NNReal.mk (Real.exp (-2 * ((0 : ℕ) * nudt))) (Real.exp_pos _).le) = 1 := by
      ext; simp
    rw [h1, h2]
    simp [lawAfter]
  | succ n ih =>
    simp only [lawAfter, kick]
    rw [ih, gauss_step]
    have hnn : 0 ≤ (n : ℝ) * nudt := by positivity
    have hnn1 : 0 ≤ ((n + 1 : ℕ) : ℝ) * nudt := by positivity
    congr 1
    · unfold decay
      rw [← mul_assoc, ← Real.exp_add]
      push_cast
      ring_nf
    · ext
      push_cast
      rw [drive_sq kT ms cvac nudt hkT hm hc hn, drive_sq kT ms cvac _ hkT hm hc hnn,
        drive_sq kT ms cvac _ hkT hm hc (by push_cast at hnn1; exact hnn1)]
      unfold decay
      have e1 : Real.exp (-nudt) ^ 2 = Real.exp (-2 * nudt) := by
        rw [← Real.exp_nat_mul]; push_cast; ring_nf
      have e2 : Real.exp (-2 * (((n : ℝ) + 1) * nudt))
          = Real.exp (-2 * nudt) * Real.exp (-2 * (n * nudt)) := by
        rw [← Real.exp_add]; ring_nf
      rw [e1, e2]
      ring

/-- **C89.** The operator is exact: `n` applications of duration `nu dt` with independent normal
numbers have, from every momentum `u`, the distribution of one application of duration `n nu dt`
(so that the interval between applications does not matter). -/
theorem langevin_exact (kT ms cvac nudt : ℝ) (hkT : 0 ≤ kT) (hm : 0 < ms) (hc : 0 < cvac)
    (hn : 0 ≤ nudt) (u : ℝ) (n : ℕ) :
    lawAfter kT ms cvac nudt (Measure.dirac u) n
      = (gaussianReal 0 1).map (kick kT ms cvac (n * nudt) u) := by
  rw [← gaussianReal_zero_var, law_normal kT ms cvac nudt hkT hm hc hn]
  have h := gauss_step (decay (n * nudt)) (drive kT ms cvac (n * nudt)) u 0
  rw [mul_zero, zero_add] at h
  rw [mul_zero, zero_add]
  change gaussianReal (decay (n * nudt) * u) _ = _
  rw [← h, gaussianReal_zero_var, Measure.dirac_prod, Measure.map_map (by fun_prop) (by fun_prop)]
  rfl

/-- **C89.** The bath is stationary: the normal distribution of variance `kT / (m c)` is not changed
by an application of any duration. -/
theorem langevin_stationary (kT ms cvac nudt : ℝ) (hkT : 0 ≤ kT) (hm : 0 < ms) (hc : 0 < cvac)
    (hn : 0 ≤ nudt) (n : ℕ) :
    lawAfter kT ms cvac nudt (gaussianReal 0 (.mk (kT / (ms * cvac)) (by positivity))) n
      = gaussianReal 0 (.mk (kT / (ms * cvac)) (by positivity)) := by
  rw [law_normal kT ms cvac nudt hkT hm hc hn, mul_zero]
  congr 1
  ext
  have hnn : 0 ≤ (n : ℝ) * nudt := by positivity
  push_cast
  rw [drive_sq kT ms cvac _ hkT hm hc hnn]
  ring

/-- A bath with collision frequency 0 does nothing. -/
theorem langevin_no_collisions (kT ms cvac u z : ℝ) : kick kT ms cvac 0 u z = u := by
  simp [kick, decay, drive]

/-- **Finding.** With `kT` the temperature of the bath, the momenta (in units of `m c`) at
equilibrium have variance `kT / (m c²)`; this is what the hard sphere and Coulomb models use
(/repo/src/collision/hard_sphere.cc:390, large_angle_coulomb.cc:243).  The operator gives them this
variance only if `c = 1`. -/
theorem langevin_temperature (kT ms cvac nudt : ℝ) (hkT : 0 < kT) (hm : 0 < ms) (hc : 0 < cvac)
    (hn : 0 < nudt) :
    lawAfter kT ms cvac nudt (gaussianReal 0 (.mk (kT / (ms * cvac ^ 2)) (by positivity))) 1
      = gaussianReal 0 (.mk (kT / (ms * cvac ^ 2)) (by positivity)) ↔ cvac = 1 := by
  rw [law_normal kT ms cvac nudt hkT.le hm hc hn.le]
  have hnn : 0 ≤ ((1 : ℕ) : ℝ) * nudt := by push_cast; linarith
  constructor
  · intro h
    have hv := congrArg (fun μ => variance id μ) h
    simp only [variance_id_gaussianReal] at hv
    push_cast at hv
    push_cast at hnn
    rw [drive_sq kT ms cvac _ hkT.le hm hc hnn] at hv
    have hlt : Real.exp (-2 * (1 * nudt)) < 1 := Real.exp_lt_one_iff.mpr (by linarith)
    generalize Real.exp (-2 * (1 * nudt)) = e at *
    have h2 : (1 - e) * (kT / (ms * cvac)) = (1 - e) * (kT / (ms * cvac ^ 2)) := by linarith
    have h3 := mul_left_cancel₀ (by linarith : (1 - e) ≠ 0) h2
    field_simp at h3
    exact h3
  · rintro rfl
    rw [mul_zero]
    congr 1
    ext
    push_cast
    push_cast at hnn
    rw [drive_sq kT ms 1 _ hkT.le hm hc hnn]
    ring_nf

end Verif.Single
