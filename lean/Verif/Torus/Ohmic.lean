import Verif.Torus.Courant

/-!
# Energy balance with conducting materials, and a general condition for stability (C77)
-/
namespace Verif.Torus

open Grid
open Field (Pos FC FMem World MC EntOn fieldExt InArray vox ranksOf coordOf SameCells dims up dn EdgeOn FaceOn NodeOn)
open Charge (cellsOf siteAt)

section
variable {K : Type} [Field K]

/-! ### Specification -/

/-- Spec: the coefficients of a material with the permittivity that goes with the energy stored over a step: the mean
`(1+decay)/2` over `drive`, which is `eps` for an insulator. -/
def effective (c : MC K) : MC K := { c with eps := fun a => (1 + c.decay a) / (2 * c.drive a) }

/-- Spec: a rank with these coefficients. -/
def effEnv (E : Field.Env K) : Field.Env K := { E with mc := fun i => effective (E.mc i) }

/-- Spec: the medium with these coefficients. -/
def effMed (M : Medium K) : Medium K :=
  ⟨fun a s => effective (M.edge a s), fun a s => effective (M.face a s), fun s => effective (M.node s)⟩

/-- Spec: the heat of Ohm's current during a step from `m` to `m'`, from the mean of the two electric fields. -/
noncomputable def rankOhm (E : Field.Env K) (m m' : FMem K) : K :=
  ∑ c ∈ rankCells E.g, ∑ a, (1 - (E.mc (E.emat a (vox E.g c))).decay a) / (2 * (E.mc (E.emat a (vox E.g c))).drive a) *
    (m (vox E.g c, .e a) + m' (vox E.g c, .e a)) ^ 2

/-- The same on the global mesh. -/
noncomputable def ohm (N : Pos) (M : Medium K) (G G' : Fields K) : K :=
  ∑ s ∈ sites N, ∑ a, (1 - (M.edge a s).decay a) / (2 * (M.edge a s).drive a) * (G (.e a) s + G' (.e a) s) ^ 2

variable [CharZero K]

/-- Poynting's theorem on the global mesh. -/
lemma poynting_lossy_global (N : Pos) (C : Consts K) (M : Medium K) (G : Fields K) (hd : C.damp = 0)
    (hM : ∀ a, ∀ s, Site N s → (M.edge a s).drive a ≠ 0) :
    leapEnergy N C (effMed M) (stepped N C M G) - leapEnergy N C (effMed M) G =
      - work N C G (stepped N C M G) - ohm N M G (stepped N C M G) := by
  set k := C.cvac * C.dt with hk
  set G1 := yeeB N C (1 / 2) G with hG1
  set G2 := yeeE N C M G1 with hG2
  set G' := stepped N C M G with hG'
  have e1 : ∀ a s, G1 (.e a) s = G (.e a) s := fun _ _ => rfl
  have e' : ∀ a s, G' (.e a) s = G2 (.e a) s := fun _ _ => rfl
  have j1 : ∀ a s, G1 (.jf a) s = G (.jf a) s := fun _ _ => rfl
  have b0 : ∀ a s, G (.cb a) s = G1 (.cb a) s + k / 2 * curlE N C G a s := by
    intro a s
    show _ = G (.cb a) s - 1 / 2 * C.cvac * C.dt * curlE N C G a s + _
    rw [hk]; ring
  have b' : ∀ a s, G' (.cb a) s = G1 (.cb a) s - k / 2 * curlE N C G' a s := by
    intro a s
    show G1 (.cb a) s - 1 / 2 * C.cvac * C.dt * curlE N C G2 a s = _
    rw [curlE_congr (H := G') (fun a s => (e' a s).symm), hk]; ring
  have ee : ∀ a s, G' (.e a) s = (M.edge a s).decay a * G (.e a) s + (M.edge a s).drive a *
      (k * curlH N C M G1 a s - C.dt / C.eps0 * G (.jf a) s) := by
    intro a s
    show (M.edge a s).decay a * G1 (.e a) s + (M.edge a s).drive a * (tcaNew N C M G1 a s - C.dt / C.eps0 * G1 (.jf a) s) = _
    rw [e1, j1, tcaNew, hd, hk]
    ring
  have adj := curl_adjoint N C M G1 (fun k s => G k s + G' k s)
  simp only [curlE_add] at adj
  unfold leapEnergy energy work ohm
  rw [← hk]
  have L : ∑ s ∈ sites N, ∑ a, (((effMed M).edge a s).eps a * (G' (.e a) s ^ 2 - G (.e a) s ^ 2)) =
      ∑ s ∈ sites N, ∑ a, (k * (curlH N C M G1 a s * (G (.e a) s + G' (.e a) s)) -
        C.dt / C.eps0 * (G (.jf a) s * (G (.e a) s + G' (.e a) s)) -
        (1 - (M.edge a s).decay a) / (2 * (M.edge a s).drive a) * (G (.e a) s + G' (.e a) s) ^ 2) := by
    refine Finset.sum_congr rfl fun s hs => Finset.sum_congr rfl fun a _ => ?_
    have h := ee a s
    have hr := hM a s (mem_sites.mp hs)
    show (1 + (M.edge a s).decay a) / (2 * (M.edge a s).drive a) * _ = _
    generalize G' (.e a) s = x at *
    have : k * (curlH N C M G1 a s * (G (.e a) s + x)) - C.dt / C.eps0 * (G (.jf a) s * (G (.e a) s + x)) =
        (x - (M.edge a s).decay a * G (.e a) s) / (M.edge a s).drive a * (G (.e a) s + x) := by
      have S : k * curlH N C M G1 a s - C.dt / C.eps0 * G (.jf a) s =
          (x - (M.edge a s).decay a * G (.e a) s) / (M.edge a s).drive a := by
        rw [eq_div_iff hr]
        linear_combination - h
      linear_combination (G (.e a) s + x) * S
    rw [this]
    field_simp
    ring
  have B : ∀ s a, (M.face a s).rmu a * G' (.cb a) s ^ 2 - (k / 2) ^ 2 * ((M.face a s).rmu a * curlE N C G' a s ^ 2) -
      ((M.face a s).rmu a * G (.cb a) s ^ 2 - (k / 2) ^ 2 * ((M.face a s).rmu a * curlE N C G a s ^ 2)) =
      - (k * (hOf M G1 a s * (curlE N C G a s + curlE N C G' a s))) := by
    intro s a
    rw [b0 a s, b' a s, hOf]
    ring
  have B' : ∑ s ∈ sites N, ∑ a, (((effMed M).face a s).rmu a * G' (.cb a) s ^ 2 -
      (k / 2) ^ 2 * (((effMed M).face a s).rmu a * curlE N C G' a s ^ 2) -
      (((effMed M).face a s).rmu a * G (.cb a) s ^ 2 - (k / 2) ^ 2 * (((effMed M).face a s).rmu a * curlE N C G a s ^ 2))) =
      ∑ s ∈ sites N, ∑ a, - (k * (hOf M G1 a s * (curlE N C G a s + curlE N C G' a s))) :=
    Finset.sum_congr rfl fun s _ => Finset.sum_congr rfl fun a _ => B s a
  simp only [mul_sub, Finset.sum_sub_distrib, Finset.sum_add_distrib, Finset.sum_neg_distrib, ← Finset.mul_sum] at L B' adj ⊢
  linear_combination L + B' + k * adj

end

section
variable {K : Type} [Field K] [LinearOrder K] [IsStrictOrderedRing K]

/-- Spec: `lam` bounds the part of the electric energy that half a step of Faraday's law can turn into magnetic energy. -/
def CurlBound (N : Pos) (C : Consts K) (M : Medium K) (lam : K) : Prop :=
  ∀ G : Fields K, (C.cvac * C.dt / 2) ^ 2 * ∑ s ∈ sites N, ∑ a, (M.face a s).rmu a * curlE N C G a s ^ 2 ≤
    lam * ∑ s ∈ sites N, ∑ a, (M.edge a s).eps a * G (.e a) s ^ 2

lemma curlBound_slow (N : Pos) (C : Consts K) (M : Medium K) (hs : Slow M) :
    CurlBound N C M ((C.cvac * C.dt) ^ 2 * invLen2 N C) := by
  intro G
  obtain ⟨κ, hκ⟩ := hs
  have k2 : 0 ≤ (C.cvac * C.dt / 2) ^ 2 := sq_nonneg _
  have κ0 : 0 ≤ κ := (hκ 0 0).1.trans (hκ 0 0).2.1
  have inv0 : 0 ≤ invLen2 N C := Finset.sum_nonneg fun a _ => by split_ifs <;> positivity
  have q1 : ∑ s ∈ sites N, ∑ a, (M.face a s).rmu a * curlE N C G a s ^ 2 ≤ κ * ∑ s ∈ sites N, ∑ a, curlE N C G a s ^ 2 := by
    simp only [Finset.mul_sum]
    exact Finset.sum_le_sum fun s _ => Finset.sum_le_sum fun a _ => mul_le_mul_of_nonneg_right (hκ a s).2.1 (sq_nonneg _)
  have q2 := mul_le_mul_of_nonneg_left (curl_bound N C G) κ0
  have q3 : κ * ∑ s ∈ sites N, ∑ a, G (.e a) s ^ 2 ≤ ∑ s ∈ sites N, ∑ a, (M.edge a s).eps a * G (.e a) s ^ 2 := by
    simp only [Finset.mul_sum]
    exact Finset.sum_le_sum fun s _ => Finset.sum_le_sum fun a _ => mul_le_mul_of_nonneg_right (hκ a s).2.2 (sq_nonneg _)
  have q4 := mul_le_mul_of_nonneg_left q3 (by positivity : 0 ≤ 4 * invLen2 N C)
  have := mul_le_mul_of_nonneg_left (q1.trans (q2.trans (le_trans (le_of_eq (by ring)) q4))) k2
  refine this.trans (le_of_eq ?_)
  ring

lemma leap_bounds {N : Pos} {C : Consts K} {M : Medium K} {lam : K} (hb : CurlBound N C M lam) (h0 : 0 ≤ lam)
    (hmu : ∀ a s, 0 ≤ (M.face a s).rmu a) (G : Fields K) :
    leapEnergy N C M G ≤ energy N M G ∧ (1 - lam) * energy N M G ≤ leapEnergy N C M G := by
  have q0 : 0 ≤ ∑ s ∈ sites N, ∑ a, (M.face a s).rmu a * curlE N C G a s ^ 2 :=
    Finset.sum_nonneg fun s _ => Finset.sum_nonneg fun a _ => mul_nonneg (hmu a s) (sq_nonneg _)
  have q4 : 0 ≤ ∑ s ∈ sites N, ∑ a, (M.face a s).rmu a * G (.cb a) s ^ 2 :=
    Finset.sum_nonneg fun s _ => Finset.sum_nonneg fun a _ => mul_nonneg (hmu a s) (sq_nonneg _)
  have en : energy N M G = ∑ s ∈ sites N, ∑ a, (M.edge a s).eps a * G (.e a) s ^ 2 +
      ∑ s ∈ sites N, ∑ a, (M.face a s).rmu a * G (.cb a) s ^ 2 := by
    simp only [energy, Finset.sum_add_distrib]
  have q5 := mul_nonneg (sq_nonneg (C.cvac * C.dt / 2)) q0
  have q6 := hb G
  have q7 := mul_nonneg h0 q4
  unfold leapEnergy
  rw [en]
  constructor
  · linarith
  · linarith

variable {n : ℕ} {D : Decomp} (hD : D.ok n = true) (t0 : ℕ → ℤ → ℤ) {F : World K n}
  (hg : ∀ r : Fin n, gridOf D n t0 r = some (F r).g) (hS : SameCells F D)
  {C : Consts K} (hC : SameConsts F C) {M : Medium K} (hM : MadeOf D F M) (hR : Resolved D)
include hD hg hC hM

omit hD hg hC in
lemma eff_made : MadeOf D (fun r => effEnv (F r)) (effMed M) :=
  ⟨fun r a c h => congrArg effective (hM.edge r a c h), fun r a c h => congrArg effective (hM.face r a c h),
    fun r c h => congrArg effective (hM.node r c h)⟩

omit hD hg hM in
lemma eff_consts : SameConsts (fun r => effEnv (F r)) C :=
  ⟨hC.cvac, hC.dt, hC.eps0, hC.damp, hC.rd⟩

omit hD hg hC hM in
lemma eff_holds {m : Fin n → FMem K} {G : Fields K} {k : FC} (h : Holds D F m G k) : Holds D (fun r => effEnv (F r)) m G k := h

omit hC in
lemma ohm_global {m m' : Fin n → FMem K} {G G' : Fields K} (h : ∀ k, Used k → Holds D F m G k)
    (h' : ∀ k, Used k → Holds D F m' G' k) :
    ∑ r, rankOhm (F r) (m r) (m' r) = ohm (sizeOf D) M G G' := by
  unfold ohm rankOhm
  rw [← sum_cells hD t0 hg]
  refine Finset.sum_congr rfl fun r _ => Finset.sum_congr rfl fun c hc => Finset.sum_congr rfl fun a _ => ?_
  obtain ⟨h1, -, -, -, h5⟩ := cell_on hD t0 hg hc
  rw [h _ (.inl ⟨a, rfl⟩) r c (h1 a), h' _ (.inl ⟨a, rfl⟩) r c (h1 a), hM.edge r a c h5]

include hS hR

/-- **C77.**  Poynting's theorem with conductors: a step changes the energy of the fields, summed over all ranks, by minus the
work of the free currents and minus the heat of Ohm's currents, which is not negative for passive materials. -/
theorem poynting_lossy (hd : C.damp = 0) (hi : ∀ a s, (M.edge a s).drive a ≠ 0) {m m' : Fin n → FMem K} (h : Agreed D F m)
    (hs : FieldStep F m m') : Agreed D F m' ∧
    ∑ r, rankLeap (effEnv (F r)) (m' r) - ∑ r, rankLeap (effEnv (F r)) (m r) =
      - ∑ r, rankWork (F r) (m r) (m' r) - ∑ r, rankOhm (F r) (m r) (m' r) := by
  obtain ⟨G, hG⟩ := h
  have hG' := step_global hD t0 hg hS hC hM hR hG hs
  refine ⟨⟨_, hG'⟩, ?_⟩
  have l := leap_global (F := fun r => effEnv (F r)) hD t0 hg (eff_consts hC) (eff_made hM) hG
  have l' := leap_global (F := fun r => effEnv (F r)) hD t0 hg (eff_consts hC) (eff_made hM) hG'
  rw [l, l', work_global hD t0 hg hC hG hG', ohm_global hD t0 hg hM hG hG', poynting_lossy_global _ _ _ _ hd fun a s _ => hi a s]

/-- **C77.**  Stability with conductors: without free currents the energy stays below a fixed multiple of the initial one, over
any number of steps. -/
theorem stable_passive (hd : C.damp = 0) (hp : ∀ a s, 0 < (M.edge a s).drive a ∧ (M.edge a s).decay a ≤ 1)
    (hmu : ∀ a s, 0 ≤ (M.face a s).rmu a) {lam : K} (h0 : 0 ≤ lam) (h1 : lam < 1)
    (hb : CurlBound (sizeOf D) C (effMed M) lam) {m m' : Fin n → FMem K} (h : Agreed D F m) (hj : NoCurrent F m)
    (hst : FieldSteps F m m') :
    ∑ r, rankEnergy (effEnv (F r)) (m' r) ≤ (1 / (1 - lam)) * ∑ r, rankEnergy (effEnv (F r)) (m r) := by
  have key : Agreed D F m' ∧ (∀ r c, c ∈ rankCells (F r).g → ∀ a, m' r (vox (F r).g c, .jf a) = 0) ∧
      ∑ r, rankLeap (effEnv (F r)) (m' r) ≤ ∑ r, rankLeap (effEnv (F r)) (m r) := by
    induction hst with
    | refl =>
      refine ⟨h, fun r c hc a => hj r a c ?_, le_rfl⟩
      exact Field.entOn_edge.2.2.mp ((cell_on hD t0 hg hc).2.2.1 a)
    | @step m1 m' _ h1 ih =>
      obtain ⟨i1, i2, i3⟩ := ih
      obtain ⟨p1, p2⟩ := poynting_lossy hD t0 hg hS hC hM hR hd (fun a s => (hp a s).1.ne') i1 h1
      obtain ⟨G, hG⟩ := i1
      have hG' := step_global hD t0 hg hS hC hM hR hG h1
      refine ⟨p1, fun r c hc a => ?_, ?_⟩
      · have on := (cell_on hD t0 hg hc).2.2.1 a
        rw [hG' _ (.inr (.inr (.inr ⟨a, rfl⟩))) r c on]
        show G (.jf a) _ = 0
        rw [← hG _ (.inr (.inr (.inr ⟨a, rfl⟩))) r c on]
        exact i2 r c hc a
      · have w : ∑ r, rankWork (F r) (m1 r) (m' r) = 0 := Finset.sum_eq_zero fun r _ => by
          unfold rankWork
          rw [Finset.sum_eq_zero fun c hc => Finset.sum_eq_zero fun a _ => by rw [i2 r c hc a, zero_mul], mul_zero]
        have o : 0 ≤ ∑ r, rankOhm (F r) (m1 r) (m' r) := Finset.sum_nonneg fun r _ => by
          unfold rankOhm
          refine Finset.sum_nonneg fun c hc => Finset.sum_nonneg fun a _ => mul_nonneg ?_ (sq_nonneg _)
          rw [hM.edge r a c (cell_on hD t0 hg hc).2.2.2.2]
          have := hp a (siteAt D r c)
          exact div_nonneg (by linarith [this.2]) (by linarith [this.1])
        rw [w] at p2
        linarith
  obtain ⟨⟨G', hG'⟩, -, e⟩ := key
  obtain ⟨G, hG⟩ := h
  have b1 := (leap_bounds hb h0 hmu G).1
  have b2 := (leap_bounds hb h0 hmu G').2
  have l := leap_global (F := fun r => effEnv (F r)) hD t0 hg (eff_consts hC) (eff_made hM) hG
  have l' := leap_global (F := fun r => effEnv (F r)) hD t0 hg (eff_consts hC) (eff_made hM) hG'
  have n1 := energy_global (F := fun r => effEnv (F r)) hD t0 hg (eff_made hM) hG
  have n2 := energy_global (F := fun r => effEnv (F r)) hD t0 hg (eff_made hM) hG'
  rw [l, l'] at e
  rw [n1, n2, one_div, inv_mul_eq_div, le_div_iff₀ (by linarith)]
  linarith

end

end Verif.Torus
