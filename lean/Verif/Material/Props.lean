import Verif.Material.Model
import Mathlib.Analysis.Calculus.MeanValue
import Mathlib.Analysis.Calculus.Deriv.MeanValue

/-!
# Materials (C76)
-/
namespace Verif.Material

open Field (MC)

/-! ### Specification -/

/-- Spec: `E` follows Ampère's law in the material along axis `k` with a constant source `Q` (curl of the magnetic field less
the free current): `eps eps0 dE/dt + sigma E = Q`. -/
def Follows (g : GridPar) (m : Mat) (k : Fin 3) (Q : ℝ) (E : ℝ → ℝ) : Prop :=
  ∀ t, HasDerivAt E ((Q - m.sigma k * E t) / (m.eps k * g.eps0)) t

/-- Spec: a passive material. -/
structure Passive (m : Mat) : Prop where
  eps : ∀ k, 0 < m.eps k
  mu : ∀ k, 0 < m.mu k
  sigma : ∀ k, 0 ≤ m.sigma k

/-! ### Coefficients -/

lemma drive_eq {a eps : ℝ} (ha : a ≠ 0) : driveOf a eps = (1 - Real.exp (-a)) / (a * eps) := by
  unfold driveOf
  rw [if_neg ha, if_neg (Real.exp_pos _).ne']
  congr 1
  rw [Real.sinh_eq, mul_div_assoc', mul_sub, mul_assoc 2, mul_assoc 2, ← Real.exp_add, ← Real.exp_add]
  have e1 : -(1 / 2) * a + 1 / 2 * a = 0 := by ring
  have e2 : -(1 / 2) * a + -(1 / 2 * a) = -a := by ring
  rw [e1, e2, Real.exp_zero]
  ring

/-- **C76, the update of E.**  With the coefficients the program computes, one `advance_e` is exact: for every initial field and
every constant source there is one solution of Ampère's law with Ohm's current, and its value after a time step is
`decay E + drive (dt/eps0 Q)`, which is what `advance_e` stores.  Insulators and conductors. -/
theorem coefficients_exact (g : GridPar) (m : Mat) (k : Fin 3) (he : m.eps k ≠ 0) (h0 : g.eps0 ≠ 0) (E0 Q : ℝ) :
    (∃ E, E 0 = E0 ∧ Follows g m k Q E) ∧
    ∀ E, E 0 = E0 → Follows g m k Q E →
      E g.dt = (coefOf g m).decay k * E0 + (coefOf g m).drive k * (g.dt / g.eps0 * Q) := by
  have hee : m.eps k * g.eps0 ≠ 0 := mul_ne_zero he h0
  by_cases hs : m.sigma k = 0
  · have sol : ∀ E, E 0 = E0 → Follows g m k Q E → E g.dt = E0 + Q / (m.eps k * g.eps0) * g.dt := by
      intro E h1 h2
      have c : ∀ t, HasDerivAt (fun t => E t - Q / (m.eps k * g.eps0) * t) 0 t := by
        intro t
        have := (h2 t).sub ((hasDerivAt_id t).const_mul (Q / (m.eps k * g.eps0)))
        exact this.congr_deriv (by rw [hs]; ring)
      have := is_const_of_deriv_eq_zero (fun t => (c t).differentiableAt) (fun t => (c t).deriv) g.dt 0
      linarith
    refine ⟨⟨fun t => E0 + Q / (m.eps k * g.eps0) * t, by simp, fun t => ?_⟩, fun E h1 h2 => ?_⟩
    · have := ((hasDerivAt_id t).const_mul (Q / (m.eps k * g.eps0))).const_add E0
      exact this.congr_deriv (by rw [hs]; ring)
    · rw [sol E h1 h2]
      have : lossOf g m k = 0 := by simp [lossOf, hs]
      simp only [coefOf, this, driveOf, neg_zero, Real.exp_zero, if_true]
      field_simp
  · set r := m.sigma k / (m.eps k * g.eps0) with hr
    have hr0 : r ≠ 0 := div_ne_zero hs hee
    have ex : ∀ t, HasDerivAt (fun t => Real.exp (r * t)) (Real.exp (r * t) * r) t := by
      intro t
      have := ((hasDerivAt_id t).const_mul r).exp
      simpa using this
    have dv : ∀ y, (Q - m.sigma k * y) / (m.eps k * g.eps0) = -(r * (y - Q / m.sigma k)) := by
      intro y
      rw [hr]
      field_simp
      ring
    constructor
    · refine ⟨fun t => (E0 - Q / m.sigma k) * Real.exp (-r * t) + Q / m.sigma k, by simp, fun t => ?_⟩
      have e1 : HasDerivAt (fun t => Real.exp (-r * t)) (Real.exp (-r * t) * -r) t := by
        have := ((hasDerivAt_id t).const_mul (-r)).exp
        simpa using this
      have := (e1.const_mul (E0 - Q / m.sigma k)).add_const (Q / m.sigma k)
      exact this.congr_deriv (by rw [dv]; ring)
    · intro E h1 h2
      have c : ∀ t, HasDerivAt (fun t => (E t - Q / m.sigma k) * Real.exp (r * t)) 0 t := by
        intro t
        have := ((h2 t).sub_const (Q / m.sigma k)).mul (ex t)
        exact this.congr_deriv (by rw [dv]; ring)
      have := is_const_of_deriv_eq_zero (fun t => (c t).differentiableAt) (fun t => (c t).deriv) g.dt 0
      rw [h1, mul_zero, Real.exp_zero, mul_one] at this
      have ep : Real.exp (r * g.dt) ≠ 0 := (Real.exp_pos _).ne'
      have la : lossOf g m k = r * g.dt := by rw [hr, lossOf]; ring
      have val : E g.dt = (E0 - Q / m.sigma k) * Real.exp (-(r * g.dt)) + Q / m.sigma k := by
        rw [Real.exp_neg]
        field_simp
        field_simp at this
        linarith
      rw [val]
      simp only [coefOf, la]
      by_cases hd : g.dt = 0
      · simp [hd]
      · rw [drive_eq (mul_ne_zero hr0 hd)]
        have : (1 - Real.exp (-(r * g.dt))) / (r * g.dt * m.eps k) * (g.dt / g.eps0 * Q) =
            (1 - Real.exp (-(r * g.dt))) * (Q / m.sigma k) := by
          rw [hr]
          field_simp
        rw [this]
        ring

lemma half_coth {a : ℝ} (ha : 0 ≤ a) : 2 * (1 - Real.exp (-a)) ≤ a * (1 + Real.exp (-a)) := by
  have d : ∀ t, HasDerivAt (fun t => t * (1 + Real.exp (-t)) - 2 * (1 - Real.exp (-t))) (1 - Real.exp (-t) * (1 + t)) t := by
    intro t
    have e : HasDerivAt (fun t => Real.exp (-t)) (Real.exp (-t) * -1) t := (hasDerivAt_neg t).exp
    have := ((hasDerivAt_id t).mul (e.const_add 1)).sub ((e.const_sub 1).const_mul 2)
    exact this.congr_deriv (by simp only [id]; ring)
  have mono : MonotoneOn (fun t => t * (1 + Real.exp (-t)) - 2 * (1 - Real.exp (-t))) (Set.Ici 0) := by
    refine monotoneOn_of_deriv_nonneg (convex_Ici 0) (fun t _ => (d t).continuousAt.continuousWithinAt)
      (fun t _ => (d t).differentiableAt.differentiableWithinAt) (fun t ht => ?_)
    rw [(d t).deriv]
    have := Real.add_one_le_exp t
    have h2 : Real.exp (-t) * Real.exp t = 1 := by rw [← Real.exp_add]; simp
    nlinarith [Real.exp_pos (-t)]
  have := mono (Set.mem_Ici.mpr le_rfl) (Set.mem_Ici.mpr ha) ha
  simp at this
  linarith

/-- **C76, passive materials.**  The coefficients of a passive material never amplify: `0 < decay ≤ 1` and
`0 < drive ≤ 1/eps`, with equality for an insulator only, and the mean `(1+decay)/(2 drive)` of the two is at least `eps`. -/
theorem coefficients_passive (g : GridPar) (m : Mat) (hm : Passive m) (hd : 0 < g.dt) (h0 : 0 < g.eps0) (k : Fin 3) :
    (0 < (coefOf g m).decay k ∧ (coefOf g m).decay k ≤ 1) ∧
    (0 < (coefOf g m).drive k ∧ (coefOf g m).drive k * m.eps k ≤ 1) ∧
    ((coefOf g m).decay k = 1 ↔ m.sigma k = 0) ∧ ((coefOf g m).drive k * m.eps k = 1 ↔ m.sigma k = 0) ∧
    m.eps k ≤ (1 + (coefOf g m).decay k) / (2 * (coefOf g m).drive k) := by
  have he := hm.eps k
  have a0 : 0 ≤ lossOf g m k := by
    have := hm.sigma k
    unfold lossOf
    positivity
  have az : lossOf g m k = 0 ↔ m.sigma k = 0 := by
    unfold lossOf
    simp [hd.ne', h0.ne', he.ne']
  have d0 : 0 < (coefOf g m).decay k := Real.exp_pos _
  have d1 : (coefOf g m).decay k ≤ 1 := Real.exp_le_one_iff.mpr (by linarith)
  refine ⟨⟨d0, d1⟩, ?_⟩
  by_cases hz : lossOf g m k = 0
  · have e1 : (coefOf g m).decay k = 1 := by simp [coefOf, hz]
    have e2 : (coefOf g m).drive k = 1 / m.eps k := by simp [coefOf, hz, driveOf]
    have e3 : 1 / m.eps k * m.eps k = 1 := by field_simp
    rw [e1, e2, e3]
    refine ⟨⟨by positivity, le_rfl⟩, by simp [az.mp hz], by simp [az.mp hz], le_of_eq ?_⟩
    field_simp
    ring
  · have ap : 0 < lossOf g m k := lt_of_le_of_ne a0 (Ne.symm hz)
    have e2 : (coefOf g m).drive k = (1 - Real.exp (-lossOf g m k)) / (lossOf g m k * m.eps k) := drive_eq hz
    have ed : (coefOf g m).decay k = Real.exp (-lossOf g m k) := rfl
    have l1 : Real.exp (-lossOf g m k) < 1 := Real.exp_lt_one_iff.mpr (by linarith)
    have l2 : 1 - Real.exp (-lossOf g m k) < lossOf g m k := by
      have := Real.add_one_lt_exp (x := -lossOf g m k) (by simpa using hz)
      linarith
    have e3 : (coefOf g m).drive k * m.eps k = (1 - Real.exp (-lossOf g m k)) / lossOf g m k := by
      rw [e2]; field_simp
    have l3 : (coefOf g m).drive k * m.eps k < 1 := by rw [e3, div_lt_one ap]; exact l2
    have dp : 0 < (coefOf g m).drive k := by
      rw [e2]
      exact div_pos (by linarith) (by positivity)
    refine ⟨⟨dp, l3.le⟩, ⟨fun h => absurd h (by rw [ed]; exact l1.ne), fun h => absurd (az.mpr h) hz⟩,
      ⟨fun h => absurd h l3.ne, fun h => absurd (az.mpr h) hz⟩, ?_⟩
    rw [le_div_iff₀ (by positivity)]
    have := half_coth a0
    have e4 : m.eps k * (2 * (coefOf g m).drive k) = 2 * (1 - Real.exp (-lossOf g m k)) / lossOf g m k := by
      rw [e2]; field_simp
    rw [e4, ed, div_le_iff₀ ap]
    linarith

/-- **C76, divergence cleaning.**  The divergence of E is taken into account exactly in materials with no conductivity. -/
theorem nonconductive_spec (g : GridPar) (m : Mat) (he : ∀ k, m.eps k ≠ 0) (hd : g.dt ≠ 0) (h0 : g.eps0 ≠ 0) :
    (coefOf g m).nonconductive = if ∀ k, m.sigma k = 0 then 1 else 0 := by
  have az : ∀ k, lossOf g m k = 0 ↔ m.sigma k = 0 := fun k => by
    unfold lossOf
    simp [hd, h0, he k]
  simp only [coefOf, az, Fin.forall_fin_succ, Fin.isValue]
  simp

/-! ### The table -/

lemma fill_spec (g : GridPar) (size : ℕ) (l : List Mat) (hn : (l.map Mat.id).Nodup) (hs : ∀ m ∈ l, m.id < size)
    (t : ℕ → Option (MC ℝ)) : ∃ t', fill g size l t = .ok t' ∧ (∀ m ∈ l, t' m.id = some (coefOf g m)) ∧
      ∀ i, i ∉ l.map Mat.id → t' i = t i := by
  induction l generalizing t with
  | nil => exact ⟨t, rfl, by simp, by simp⟩
  | cons m l ih =>
    simp only [List.map_cons, List.nodup_cons] at hn
    obtain ⟨t', h1, h2, h3⟩ := ih hn.2 (fun x hx => hs x (by simp [hx])) (Function.update t m.id (some (coefOf g m)))
    refine ⟨t', by rw [fill, if_pos (hs m (by simp))]; exact h1, ?_, ?_⟩
    · intro x hx
      rcases List.mem_cons.mp hx with rfl | hx
      · rw [h3 _ hn.1, Function.update_self]
      · exact h2 x hx
    · intro i hi
      simp only [List.map_cons, List.mem_cons, not_or] at hi
      rw [h3 i hi.2, Function.update_of_ne hi.1]

lemma checkAll_ok (g : GridPar) (l : List Mat) (h : ∀ m ∈ l, (∀ k, m.eps k ≠ 0 ∧ m.mu k ≠ 0) ∧ ∀ k, m.zeta k = 0) :
    ∃ w, checkAll g l = .ok w ∧ ∀ x, x ∈ w ↔ ∃ m ∈ l, ∃ v, check g m = .ok v ∧ x ∈ v := by
  induction l with
  | nil => exact ⟨[], rfl, by simp⟩
  | cons m l ih =>
    obtain ⟨w, h1, h2⟩ := ih fun x hx => h x (by simp [hx])
    obtain ⟨e, z⟩ := h m (by simp)
    have c : ∃ v, check g m = .ok v := by
      unfold check
      rw [if_neg (by push Not; exact e), if_neg (by simp [z])]
      exact ⟨_, rfl⟩
    obtain ⟨v, hv⟩ := c
    refine ⟨v ++ w, ?_, fun x => ?_⟩
    · simp only [checkAll, hv, h1]
      rfl
    · rw [List.mem_append, h2]
      simp [hv]

/-- **C76, the table.**  For a list of materials numbered `0 … n-1`, as `append_material` numbers them (C52), with nonzero
`eps` and `mu` and no magnetic conductivity, the construction succeeds and entry `id` of the table holds the coefficients of
the material with that id. -/
theorem table_spec (g : GridPar) (h0 : g.eps0 ≠ 0) (l : List Mat) (damp : ℝ)
    (hid : l.map Mat.id = (List.range l.length).reverse)
    (h : ∀ m ∈ l, (∀ k, m.eps k ≠ 0 ∧ m.mu k ≠ 0) ∧ ∀ k, m.zeta k = 0) :
    ∃ w P, createSfaParams g l damp = .ok (w, P) ∧ P.n_mc = l.length ∧ P.damp = damp ∧
      (∀ m ∈ l, P.mc m.id = some (coefOf g m)) ∧ ∀ i < P.n_mc, (P.mc i).isSome := by
  obtain ⟨w, hw, -⟩ := checkAll_ok g l h
  obtain ⟨t, h1, h2, -⟩ := fill_spec g (l.length + 2) l (by rw [hid]; simpa using List.nodup_range)
    (fun m hm => by
      have : m.id ∈ l.map Mat.id := List.mem_map.mpr ⟨m, hm, rfl⟩
      rw [hid] at this
      simp at this
      omega) (fun _ => none)
  refine ⟨w, ⟨t, l.length, damp⟩, ?_, rfl, rfl, h2, fun i hi => ?_⟩
  · simp only [createSfaParams, if_neg h0, hw, h1]
    rfl
  · have : i ∈ l.map Mat.id := by rw [hid]; simpa using hi
    obtain ⟨m, hm, rfl⟩ := List.mem_map.mp this
    show (t m.id).isSome
    rw [h2 m hm]
    rfl

lemma mem_if {p : Prop} [Decidable p] {x y : Warn} : (x ∈ if p then [y] else []) ↔ p ∧ x = y := by
  by_cases h : p <;> simp [h]

/-- **C76, what the warnings say.** -/
theorem warnings_spec (g : GridPar) (m : Mat) (h : ∀ k, m.eps k ≠ 0 ∧ m.mu k ≠ 0) (hz : ∀ k, m.zeta k = 0) :
    ∃ w, check g m = .ok w ∧ (∀ k, .active k ∈ w ↔ m.sigma k / m.eps k < 0) ∧
      (∀ a e, .imaginary a e ∈ w ↔ ∃ b, b ≠ a ∧ b ≠ e ∧ a ≠ e ∧ m.eps e * m.mu b < 0) ∧
      (.courant ∈ w ↔ 1 ≤ cg2 g m) := by
  unfold check
  rw [if_neg (by push Not; exact h), if_neg (by simp [hz])]
  refine ⟨_, rfl, fun k => ?_, fun a e => ?_, ?_⟩
  · simp only [List.mem_append, mem_if]
    fin_cases k <;> simp
  · simp only [List.mem_append, mem_if]
    fin_cases a <;> fin_cases e <;> simp [Fin.exists_fin_succ]
  · simp only [List.mem_append, mem_if]
    simp

/-- Finding: for a material with magnetic conductivity the warning that this is not supported is printed with a format that
has a `%s` and no argument, which is undefined behaviour. -/
theorem magnetic_undefined (g : GridPar) (h0 : g.eps0 ≠ 0) (m : Mat) (damp : ℝ) (h : ∀ k, m.eps k ≠ 0 ∧ m.mu k ≠ 0) {k : Fin 3}
    (hz : m.zeta k ≠ 0) : createSfaParams g [m] damp = .error .undef := by
  have : check g m = .error .undef := by
    unfold check
    rw [if_neg (by push Not; exact h), if_pos]
    fin_cases k <;> simp_all
  simp only [createSfaParams, if_neg h0, checkAll, this]
  rfl

end Verif.Material
