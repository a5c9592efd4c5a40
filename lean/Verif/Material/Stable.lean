import Verif.Material.Props
import Verif.Torus.Ohmic
import Verif.Torus.Sample

/-!
# The Courant warning (C78)
-/
namespace Verif.Material

open Grid Torus
open Field (Pos FC FMem World MC EntOn InArray vox SameCells ranksOf dims)
open Charge (cellsOf siteAt)

/-! ### The curl in a material that is not isotropic -/

/-- The middle one of three numbers. -/
lemma exists_med (r : Fin 3 → ℝ) (hr : ∀ a, 0 < r a) : ∃ m, 0 < m ∧ ∀ a b, a ≠ b → min (r a) (r b) ≤ m ∧ m ≤ max (r a) (r b) := by
  have key : ∃ m, 0 < m ∧ (min (r 0) (r 1) ≤ m ∧ m ≤ max (r 0) (r 1)) ∧ (min (r 1) (r 2) ≤ m ∧ m ≤ max (r 1) (r 2)) ∧
      (min (r 0) (r 2) ≤ m ∧ m ≤ max (r 0) (r 2)) := by
    rcases le_total (r 0) (r 1) with h1 | h1 <;> rcases le_total (r 1) (r 2) with h2 | h2 <;>
      rcases le_total (r 0) (r 2) with h3 | h3
    · refine ⟨r 1, hr 1, ⟨?_, ?_⟩, ⟨?_, ?_⟩, ⟨?_, ?_⟩⟩ <;> simp only [min_le_iff, le_max_iff] <;>
        first | (left; linarith) | (right; linarith)
    · refine ⟨r 1, hr 1, ⟨?_, ?_⟩, ⟨?_, ?_⟩, ⟨?_, ?_⟩⟩ <;> simp only [min_le_iff, le_max_iff] <;>
        first | (left; linarith) | (right; linarith)
    · refine ⟨r 2, hr 2, ⟨?_, ?_⟩, ⟨?_, ?_⟩, ⟨?_, ?_⟩⟩ <;> simp only [min_le_iff, le_max_iff] <;>
        first | (left; linarith) | (right; linarith)
    · refine ⟨r 0, hr 0, ⟨?_, ?_⟩, ⟨?_, ?_⟩, ⟨?_, ?_⟩⟩ <;> simp only [min_le_iff, le_max_iff] <;>
        first | (left; linarith) | (right; linarith)
    · refine ⟨r 0, hr 0, ⟨?_, ?_⟩, ⟨?_, ?_⟩, ⟨?_, ?_⟩⟩ <;> simp only [min_le_iff, le_max_iff] <;>
        first | (left; linarith) | (right; linarith)
    · refine ⟨r 2, hr 2, ⟨?_, ?_⟩, ⟨?_, ?_⟩, ⟨?_, ?_⟩⟩ <;> simp only [min_le_iff, le_max_iff] <;>
        first | (left; linarith) | (right; linarith)
    · refine ⟨r 1, hr 1, ⟨?_, ?_⟩, ⟨?_, ?_⟩, ⟨?_, ?_⟩⟩ <;> simp only [min_le_iff, le_max_iff] <;>
        first | (left; linarith) | (right; linarith)
    · refine ⟨r 1, hr 1, ⟨?_, ?_⟩, ⟨?_, ?_⟩, ⟨?_, ?_⟩⟩ <;> simp only [min_le_iff, le_max_iff] <;>
        first | (left; linarith) | (right; linarith)
  obtain ⟨m, m0, h1, h2, h3⟩ := key
  refine ⟨m, m0, fun a b hab => ?_⟩
  fin_cases a <;> fin_cases b <;> first | exact absurd rfl hab | assumption | (rw [min_comm, max_comm]; assumption)

/-- The identity between the smaller of two numbers and the middle one. -/
lemma min_med {x y m : ℝ} (hx : 0 < x) (hm : 0 < m) (h1 : min x y ≤ m) (h2 : m ≤ max x y) :
    min y x / x = min 1 (m / x) * min 1 (y / m) := by
  rcases le_total x m with h | h <;> rcases le_total y m with h' | h'
  · have e : x = m ∨ y = m := by
      rcases le_max_iff.mp h2 with h3 | h3
      · exact .inl (le_antisymm h h3)
      · exact .inr (le_antisymm h' h3)
    have m1 : min 1 (m / x) = 1 := min_eq_left (by rw [le_div_iff₀ hx]; linarith)
    have m2 : min 1 (y / m) = y / m := min_eq_right (by rw [div_le_iff₀ hm]; linarith)
    rw [m1, m2, one_mul]
    rcases e with rfl | rfl
    · rw [min_eq_left h']
    · rw [min_eq_right h, div_self hx.ne', div_self hm.ne']
  · have m1 : min 1 (m / x) = 1 := min_eq_left (by rw [le_div_iff₀ hx]; linarith)
    have m2 : min 1 (y / m) = 1 := min_eq_left (by rw [le_div_iff₀ hm]; linarith)
    rw [m1, m2, min_eq_right (h.trans h'), div_self hx.ne', one_mul]
  · have m1 : min 1 (m / x) = m / x := min_eq_right (by rw [div_le_iff₀ hx]; linarith)
    have m2 : min 1 (y / m) = y / m := min_eq_right (by rw [div_le_iff₀ hm]; linarith)
    rw [m1, m2, min_eq_left (h'.trans h)]
    field_simp
  · have e : x = m ∨ y = m := by
      rcases min_le_iff.mp h1 with h3 | h3
      · exact .inl (le_antisymm h3 h)
      · exact .inr (le_antisymm h3 h')
    have m1 : min 1 (m / x) = m / x := min_eq_right (by rw [div_le_iff₀ hx]; linarith)
    have m2 : min 1 (y / m) = 1 := min_eq_left (by rw [le_div_iff₀ hm]; linarith)
    rw [m1, m2, mul_one]
    rcases e with rfl | rfl
    · rw [min_eq_right h']
    · rw [min_eq_left h]

/-- The curl in a uniform material with three permittivities and permeabilities. -/
lemma curl_bound_aniso (N : Pos) (C : Consts ℝ) (eps mu : Fin 3 → ℝ) (he : ∀ a, 0 < eps a) (hmu : ∀ a, 0 < mu a) (G : Fields ℝ) :
    ∑ s ∈ sites N, ∑ a, 1 / mu a * curlE N C G a s ^ 2 ≤
      4 * (∑ a, if 1 < N a then C.rd a ^ 2 / min (eps (a + 1) * mu (a + 2)) (eps (a + 2) * mu (a + 1)) else 0) *
        ∑ s ∈ sites N, ∑ a, eps a * G (.e a) s ^ 2 := by
  set r : Fin 3 → ℝ := fun a => mu a / eps a with hr
  have r0 : ∀ a, 0 < r a := fun a => div_pos (hmu a) (he a)
  have mur : ∀ a, mu a = r a * eps a := fun a => by rw [hr]; have := he a; field_simp
  obtain ⟨m, m0, hmed⟩ := exists_med r r0
  set t : Fin 3 → ℝ := fun a => min 1 (m / r a) with ht
  set f : Fin 3 → ℝ := fun a => min 1 (r a / m) with hf
  have t0 : ∀ a, 0 < t a := fun a => lt_min one_pos (div_pos m0 (r0 a))
  have t1 : ∀ a, t a ≤ 1 := fun a => min_le_left _ _
  have f0 : ∀ a, 0 < f a := fun a => lt_min one_pos (div_pos (r0 a) m0)
  have f1 : ∀ a, f a ≤ 1 := fun a => min_le_left _ _
  -- what `min` of the two products is
  have w0 : ∀ x y, 0 < eps x * eps y * min (r x) (r y) := fun x y => mul_pos (mul_pos (he x) (he y)) (lt_min (r0 x) (r0 y))
  have wmin : ∀ x y, min (eps x * mu y) (eps y * mu x) = eps x * eps y * min (r x) (r y) := by
    intro x y
    rw [mur x, mur y, mul_min_of_nonneg _ _ (mul_pos (he x) (he y)).le, min_comm]
    congr 1 <;> ring
  set C' : Consts ℝ := { C with rd := fun a => C.rd a / √(eps (a + 1) * eps (a + 2) * min (r (a + 1)) (r (a + 2))) } with hC'
  set G' : Fields ℝ := fun k s => match k with | .e a => √(f a * eps a) * G (.e a) s | k => G k s with hG'
  have co : ∀ a x, a ≠ x → √(1 / mu a) = √(t a) * (1 / √(eps x * eps a * min (r x) (r a))) * √(f x * eps x) := by
    intro a x hax
    rw [one_div (√_), ← Real.sqrt_inv, ← Real.sqrt_mul (t0 a).le, ← Real.sqrt_mul (mul_pos (t0 a) (inv_pos.mpr (w0 x a))).le]
    congr 1
    have h := min_med (r0 a) m0 (hmed a x hax).1 (hmed a x hax).2
    rw [mur a]
    have h2 : min (r x) (r a) = t a * f x * r a := by
      rw [div_eq_iff (r0 a).ne'] at h
      exact h
    rw [h2]
    have := (t0 a).ne'
    have := (f0 x).ne'
    have := (r0 a).ne'
    have := (he a).ne'
    have := (he x).ne'
    field_simp
  have cu : ∀ a s, 1 / mu a * curlE N C G a s ^ 2 = t a * curlE N C' G' a s ^ 2 := by
    intro a s
    obtain ⟨n1, n2, n3⟩ := Field.add_one_ne a
    have i1 : a + 1 + 1 = a + 2 := by fin_cases a <;> rfl
    have i2 : a + 1 + 2 = a := by fin_cases a <;> rfl
    have i3 : a + 2 + 1 = a := by fin_cases a <;> rfl
    have i4 : a + 2 + 2 = a + 1 := by fin_cases a <;> rfl
    have c1 := co a (a + 2) (by fin_cases a <;> decide)
    have c2 := co a (a + 1) (by fin_cases a <;> decide)
    have sm : √(1 / mu a) ^ 2 = 1 / mu a := Real.sq_sqrt (by have := hmu a; positivity)
    have st : √(t a) ^ 2 = t a := Real.sq_sqrt (t0 a).le
    have q : √(1 / mu a) * curlE N C G a s = √(t a) * curlE N C' G' a s := by
      show √(1 / mu a) * (C.rd (a + 1) * (G (.e (a + 2)) (next N (a + 1) s) - G (.e (a + 2)) s) -
          C.rd (a + 2) * (G (.e (a + 1)) (next N (a + 2) s) - G (.e (a + 1)) s)) =
        √(t a) * (C.rd (a + 1) / √(eps (a + 1 + 1) * eps (a + 1 + 2) * min (r (a + 1 + 1)) (r (a + 1 + 2))) *
            (√(f (a + 2) * eps (a + 2)) * G (.e (a + 2)) (next N (a + 1) s) - √(f (a + 2) * eps (a + 2)) * G (.e (a + 2)) s) -
          C.rd (a + 2) / √(eps (a + 2 + 1) * eps (a + 2 + 2) * min (r (a + 2 + 1)) (r (a + 2 + 2))) *
            (√(f (a + 1) * eps (a + 1)) * G (.e (a + 1)) (next N (a + 2) s) - √(f (a + 1) * eps (a + 1)) * G (.e (a + 1)) s))
      rw [i1, i2, i3, i4, mul_comm (eps a) (eps (a + 1)), min_comm (r a) (r (a + 1))]
      rw [mul_sub]
      nth_rw 1 [c1]
      rw [c2]
      ring
    rw [← sm, ← st, ← mul_pow, ← mul_pow, q]
  have b := curl_bound N C' G'
  have i' : invLen2 N C' = ∑ a, if 1 < N a then C.rd a ^ 2 / min (eps (a + 1) * mu (a + 2)) (eps (a + 2) * mu (a + 1)) else 0 := by
    unfold invLen2
    refine Finset.sum_congr rfl fun a _ => ?_
    congr 1
    show (C.rd a / √_) ^ 2 = _
    rw [div_pow, Real.sq_sqrt (w0 _ _).le, wmin]
  have in0 : 0 ≤ invLen2 N C' := Finset.sum_nonneg fun a _ => by split_ifs <;> positivity
  have ge : ∀ a s, G' (.e a) s ^ 2 ≤ eps a * G (.e a) s ^ 2 := by
    intro a s
    show (√(f a * eps a) * G (.e a) s) ^ 2 ≤ _
    rw [mul_pow, Real.sq_sqrt (mul_pos (f0 a) (he a)).le]
    refine mul_le_mul_of_nonneg_right ?_ (sq_nonneg _)
    have := mul_le_mul_of_nonneg_right (f1 a) (he a).le
    linarith
  rw [← i']
  calc ∑ s ∈ sites N, ∑ a, 1 / mu a * curlE N C G a s ^ 2
      = ∑ s ∈ sites N, ∑ a, t a * curlE N C' G' a s ^ 2 :=
        Finset.sum_congr rfl fun s _ => Finset.sum_congr rfl fun a _ => cu a s
    _ ≤ ∑ s ∈ sites N, ∑ a, curlE N C' G' a s ^ 2 := Finset.sum_le_sum fun s _ => Finset.sum_le_sum fun a _ => by
        have := mul_le_mul_of_nonneg_right (t1 a) (sq_nonneg (curlE N C' G' a s))
        linarith
    _ ≤ _ := b
    _ ≤ _ := mul_le_mul_of_nonneg_left (Finset.sum_le_sum fun s _ => Finset.sum_le_sum fun a _ => ge a s) (by positivity)

lemma minf_eq (a b : ℝ) : minf a b = min a b := by
  unfold minf
  rw [min_def_lt]

variable {n : ℕ} {D : Decomp} (hD : D.ok n = true) (t0 : ℕ → ℤ → ℤ) {F : World ℝ n}
  (hg : ∀ r : Fin n, gridOf D n t0 r = some (F r).g) (hS : SameCells F D)
  {C : Consts ℝ} (hC : SameConsts F C) {M : Medium ℝ} (hM : MadeOf D F M) (hR : Resolved D)
include hD hg hS hC hM hR

/-- **C78.**  A box filled with one passive material, insulating or not, isotropic or not: if the program prints no Courant
warning for it, the fields are stable.  Without free currents the energy of the fields, summed over all ranks, stays below
`1/(1-cg2)` times the initial one over any number of steps, `cg2` being the estimate the program computes (the initial energy
counted with the effective permittivity, which is the true one for an insulator). -/
theorem no_warning_stable {g : GridPar} {mat : Mat} (hp : Passive mat) (hz : ∀ k, mat.zeta k = 0) (hd : C.damp = 0)
    (hdt : 0 < g.dt) (h0 : 0 < g.eps0) (gn : g.n = cellsOf D) (gc : g.cvac = C.cvac) (gt : g.dt = C.dt) (grd : g.rd = C.rd)
    (he : ∀ a s, M.edge a s = coefOf g mat) (hf : ∀ a s, M.face a s = coefOf g mat) {w : List Warn}
    (hw : check g mat = .ok w) (hnw : .courant ∉ w) {m m' : Fin n → FMem ℝ} (h : Agreed D F m) (hj : NoCurrent F m)
    (hst : FieldSteps F m m') :
    cg2 g mat < 1 ∧
    ∑ r, rankEnergy (F r) (m' r) ≤ (1 / (1 - cg2 g mat)) * ∑ r, rankEnergy (effEnv (F r)) (m r) ∧
    ((∀ k, mat.sigma k = 0) → ∑ r, rankEnergy (effEnv (F r)) (m r) = ∑ r, rankEnergy (F r) (m r)) := by
  obtain ⟨w', e1, -, -, e2⟩ := warnings_spec g mat (fun k => ⟨(hp.eps k).ne', (hp.mu k).ne'⟩) hz
  rw [hw] at e1
  obtain rfl : w = w' := by injection e1
  have lt : cg2 g mat < 1 := not_le.mp fun hh => hnw (e2.mpr hh)
  have co := fun k => coefficients_passive g mat hp hdt h0 k
  -- axes of one cell
  have one : ∀ a, 1 < Torus.sizeOf D a ↔ g.n a > 1 := by
    intro a
    rw [gn]
    have h1 := hR a
    have h2 := Charge.cells_pos hD a
    have h3 : Torus.sizeOf D a = ranksOf D a * cellsOf D a := rfl
    rcases h1 with h1 | h1
    · have h4 : 0 < ranksOf D a := by
        have := (D.ok_iff n).mp hD
        fin_cases a
        · exact this.px
        · exact this.py
        · exact this.pz
      have : 1 * cellsOf D a ≤ ranksOf D a * cellsOf D a := mul_le_mul_of_nonneg_right (by omega) (by omega)
      constructor <;> intro <;> omega
    · rw [h3, h1, one_mul]
  have cg : cg2 g mat = (C.cvac * C.dt) ^ 2 * ∑ a, if 1 < Torus.sizeOf D a then
      C.rd a ^ 2 / min (mat.eps (a + 1) * mat.mu (a + 2)) (mat.eps (a + 2) * mat.mu (a + 1)) else 0 := by
    have ax : ∀ k (y : ℝ), cdt2 g k / y = (C.cvac * C.dt) ^ 2 * if 1 < Torus.sizeOf D k then C.rd k ^ 2 / y else 0 := by
      intro k y
      unfold cdt2
      rw [gc, gt, grd]
      by_cases hk : 1 < Torus.sizeOf D k
      · rw [if_pos hk, if_pos ((one k).mp hk)]; ring
      · rw [if_neg hk, if_neg (fun h => hk ((one k).mpr h))]; simp
    unfold cg2
    simp only [minf_eq, ax, Fin.sum_univ_three, Fin.isValue, Fin.reduceAdd, mul_add]
  have c0 : 0 ≤ cg2 g mat := by
    rw [cg]
    refine mul_nonneg (sq_nonneg _) (Finset.sum_nonneg fun a _ => ?_)
    split_ifs
    · exact div_nonneg (sq_nonneg _) (le_min (mul_pos (hp.eps _) (hp.mu _)).le (mul_pos (hp.eps _) (hp.mu _)).le)
    · exact le_rfl
  have eff : ∀ a s, mat.eps a ≤ ((effMed M).edge a s).eps a := by
    intro a s
    show _ ≤ (1 + (M.edge a s).decay a) / (2 * (M.edge a s).drive a)
    rw [he]
    exact (co a).2.2.2.2
  have cb : CurlBound (Torus.sizeOf D) C (effMed M) (cg2 g mat) := by
    intro G
    have b := curl_bound_aniso (Torus.sizeOf D) C mat.eps mat.mu hp.eps hp.mu G
    have e3 : ∑ s ∈ sites (Torus.sizeOf D), ∑ a, mat.eps a * G (.e a) s ^ 2 ≤
        ∑ s ∈ sites (Torus.sizeOf D), ∑ a, ((effMed M).edge a s).eps a * G (.e a) s ^ 2 :=
      Finset.sum_le_sum fun s _ => Finset.sum_le_sum fun a _ => mul_le_mul_of_nonneg_right (eff a s) (sq_nonneg _)
    have e4 : ∑ s ∈ sites (Torus.sizeOf D), ∑ a, ((effMed M).face a s).rmu a * curlE (Torus.sizeOf D) C G a s ^ 2 =
        ∑ s ∈ sites (Torus.sizeOf D), ∑ a, 1 / mat.mu a * curlE (Torus.sizeOf D) C G a s ^ 2 := by
      refine Finset.sum_congr rfl fun s _ => Finset.sum_congr rfl fun a _ => ?_
      show (M.face a s).rmu a * _ = _
      rw [hf]
      rfl
    rw [e4]
    refine (mul_le_mul_of_nonneg_left b (sq_nonneg _)).trans ?_
    refine le_trans (le_of_eq ?_) (mul_le_mul_of_nonneg_left e3 c0)
    rw [cg]
    ring
  have st := stable_passive hD t0 hg hS hC hM hR hd (fun a s => by rw [he]; exact ⟨(co a).2.1.1, (co a).1.2⟩)
    (fun a s => by rw [hf]; exact (one_div_pos.mpr (hp.mu a)).le) c0 lt cb h hj hst
  refine ⟨lt, le_trans ?_ st, fun hs => ?_⟩
  · refine Finset.sum_le_sum fun r _ => Finset.sum_le_sum fun c hc => Finset.sum_le_sum fun a _ => ?_
    refine add_le_add (mul_le_mul_of_nonneg_right ?_ (sq_nonneg _)) le_rfl
    have ia := (cell_on hD t0 hg hc).2.2.2.2
    show ((F r).mc _).eps a ≤ (effective ((F r).mc ((F r).emat a (vox (F r).g c)))).eps a
    rw [hM.edge r a c ia, he]
    exact (co a).2.2.2.2
  · refine Finset.sum_congr rfl fun r _ => Finset.sum_congr rfl fun c hc => Finset.sum_congr rfl fun a _ => ?_
    have ia := (cell_on hD t0 hg hc).2.2.2.2
    have e5 : ((effEnv (F r)).mc ((F r).emat a (vox (F r).g c))).eps a = ((F r).mc ((F r).emat a (vox (F r).g c))).eps a := by
      show (effective ((F r).mc ((F r).emat a (vox (F r).g c)))).eps a = _
      rw [hM.edge r a c ia, he]
      have l : lossOf g mat a = 0 := by simp [lossOf, hs]
      have := (hp.eps a).ne'
      simp only [effective, coefOf, l, driveOf, neg_zero, Real.exp_zero, if_true]
      field_simp
      norm_num
    rw [show (effEnv (F r)).emat = (F r).emat from rfl, show (effEnv (F r)).g = (F r).g from rfl, e5]
    rfl

end Verif.Material
