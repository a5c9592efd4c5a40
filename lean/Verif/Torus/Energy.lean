import Verif.Torus.GaussLemmas

/-!
# Energy of the fields on the global mesh (C74)
-/
namespace Verif.Torus

open Grid
open Field (Pos FC FMem World MC EntOn fieldExt InArray vox ranksOf coordOf SameCells dims up dn EdgeOn FaceOn NodeOn)
open Charge (cellsOf siteAt)

section
variable {K : Type} [Field K]

/-! ### Specification -/

/-- Spec: the places of the global mesh. -/
noncomputable def sites (N : Pos) : Finset Pos := Fintype.piFinset fun a => Finset.Ico 0 (N a)

/-- Spec: `curl E` on a face. -/
def curlE (N : Pos) (C : Consts K) (G : Fields K) (a : Fin 3) (s : Pos) : K :=
  C.rd (a + 1) * (G (.e (a + 2)) (next N (a + 1) s) - G (.e (a + 2)) s) -
    C.rd (a + 2) * (G (.e (a + 1)) (next N (a + 2) s) - G (.e (a + 1)) s)

/-- Spec: twice the energy of the fields, without the factor of the cell volume and `eps0`: `E·D + cB·cH`. -/
noncomputable def energy (N : Pos) (M : Medium K) (G : Fields K) : K :=
  ∑ s ∈ sites N, ∑ a, ((M.edge a s).eps a * G (.e a) s ^ 2 + (M.face a s).rmu a * G (.cb a) s ^ 2)

/-- Spec: the energy with the magnetic part taken half a step before times half a step after. -/
noncomputable def leapEnergy (N : Pos) (C : Consts K) (M : Medium K) (G : Fields K) : K :=
  energy N M G - (C.cvac * C.dt / 2) ^ 2 * ∑ s ∈ sites N, ∑ a, (M.face a s).rmu a * curlE N C G a s ^ 2

/-- Spec: the work of the current on the field, averaged between the two ends of the step. -/
noncomputable def work (N : Pos) (C : Consts K) (G G' : Fields K) : K :=
  C.dt / C.eps0 * ∑ s ∈ sites N, ∑ a, G (.jf a) s * (G (.e a) s + G' (.e a) s)

/-- Spec: the fields after a step. -/
def stepped (N : Pos) (C : Consts K) (M : Medium K) (G : Fields K) : Fields K :=
  yeeB N C (1 / 2) (yeeE N C M (yeeB N C (1 / 2) G))

/-! ### Sums over the global mesh -/

lemma mem_sites {N : Pos} {s : Pos} : s ∈ sites N ↔ Site N s := by
  simp [sites, Site, Fintype.mem_piFinset]

lemma next_site {N s : Pos} (h : Site N s) (a : Fin 3) : Site N (next N a s) := by
  intro b
  have hb := h b
  unfold next
  split
  · exact ⟨Int.emod_nonneg _ (by omega), Int.emod_lt_of_pos _ (by omega)⟩
  · exact hb

lemma prev_site {N s : Pos} (h : Site N s) (a : Fin 3) : Site N (prev N a s) := by
  intro b
  have hb := h b
  unfold prev
  split
  · exact ⟨Int.emod_nonneg _ (by omega), Int.emod_lt_of_pos _ (by omega)⟩
  · exact hb

lemma prev_of_next {N s : Pos} (h : Site N s) (a : Fin 3) : prev N a (next N a s) = s := by
  funext b
  have hb := h b
  unfold prev next
  split
  · subst_vars
    rw [Int.emod_sub_emod, add_sub_cancel_right, Int.emod_eq_of_lt hb.1 hb.2]
  · rfl

lemma next_of_prev {N s : Pos} (h : Site N s) (a : Fin 3) : next N a (prev N a s) = s := by
  funext b
  have hb := h b
  unfold next
  split
  · subst_vars
    unfold prev
    rw [if_pos rfl, Int.emod_add_emod, sub_add_cancel, Int.emod_eq_of_lt hb.1 hb.2]
  · rename_i e
    unfold prev
    rw [if_neg e]

lemma sum_next (N : Pos) (a : Fin 3) (f : Pos → K) : ∑ s ∈ sites N, f (next N a s) = ∑ s ∈ sites N, f s :=
  Finset.sum_nbij' (next N a) (prev N a) (fun s h => mem_sites.mpr (next_site (mem_sites.mp h) a))
    (fun s h => mem_sites.mpr (prev_site (mem_sites.mp h) a)) (fun s h => prev_of_next (mem_sites.mp h) a)
    (fun s h => next_of_prev (mem_sites.mp h) a) (fun _ _ => rfl)

/-- Summation by parts. -/
lemma sum_parts (N : Pos) (a : Fin 3) (f g : Pos → K) :
    ∑ s ∈ sites N, f s * (g (next N a s) - g s) = ∑ s ∈ sites N, (f (prev N a s) - f s) * g s := by
  have : ∑ s ∈ sites N, f s * g (next N a s) = ∑ s ∈ sites N, f (prev N a s) * g s := by
    rw [← sum_next N a fun s => f (prev N a s) * g s]
    refine Finset.sum_congr rfl fun s hs => ?_
    rw [prev_of_next (mem_sites.mp hs)]
  simp only [mul_sub, sub_mul, Finset.sum_sub_distrib, this]

/-- The two curls are adjoint. -/
lemma curl_adjoint (N : Pos) (C : Consts K) (M : Medium K) (G : Fields K) (H : Fields K) :
    ∑ s ∈ sites N, ∑ a, curlH N C M G a s * H (.e a) s = ∑ s ∈ sites N, ∑ a, hOf M G a s * curlE N C H a s := by
  have p := fun (a b c : Fin 3) => sum_parts N a (hOf M G b) (H (.e c))
  simp only [mul_sub, sub_mul, Finset.sum_sub_distrib] at p
  simp only [Fin.sum_univ_three, curlH, curlE, Finset.sum_add_distrib, Fin.isValue, Fin.reduceAdd]
  simp only [mul_sub, sub_mul, Finset.sum_sub_distrib, mul_assoc, mul_left_comm _ (C.rd _), ← Finset.mul_sum]
  linear_combination C.rd 0 * (p 0 1 2 - p 0 2 1) + C.rd 1 * (p 1 2 0 - p 1 0 2) + C.rd 2 * (p 2 0 1 - p 2 1 0)

/-- `curl E` of a sum. -/
lemma curlE_add (N : Pos) (C : Consts K) (G H : Fields K) (a : Fin 3) (s : Pos) :
    curlE N C (fun k s => G k s + H k s) a s = curlE N C G a s + curlE N C H a s := by
  unfold curlE; ring

lemma curlE_congr {N : Pos} {C : Consts K} {G H : Fields K} (h : ∀ a s, G (.e a) s = H (.e a) s) (a : Fin 3) (s : Pos) :
    curlE N C G a s = curlE N C H a s := by
  unfold curlE; simp only [h]

variable [CharZero K]

/-- Poynting's theorem on the global mesh. -/
lemma poynting_global (N : Pos) (C : Consts K) (M : Medium K) (G : Fields K) (hd : C.damp = 0)
    (hM : ∀ a, ∀ s, Site N s → Insulating (M.edge a s) a) :
    leapEnergy N C M (stepped N C M G) - leapEnergy N C M G = - work N C G (stepped N C M G) := by
  set k := C.cvac * C.dt with hk
  -- the fields half way and after the step
  set G1 := yeeB N C (1 / 2) G with hG1
  set G2 := yeeE N C M G1 with hG2
  set G' := stepped N C M G with hG'
  have e1 : ∀ a s, G1 (.e a) s = G (.e a) s := fun _ _ => rfl
  have e' : ∀ a s, G' (.e a) s = G2 (.e a) s := fun _ _ => rfl
  have j1 : ∀ a s, G1 (.jf a) s = G (.jf a) s := fun _ _ => rfl
  have b0 : ∀ a s, G (.cb a) s = G1 (.cb a) s + k / 2 * curlE N C G a s := by
    intro a s
    show _ = G (.cb a) s - 1 / 2 * C.cvac * C.dt * curlE N C G a s + _
    rw [hk]; ring
  have b' : ∀ a s, G' (.cb a) s = G1 (.cb a) s - k / 2 * curlE N C G' a s := by
    intro a s
    show G1 (.cb a) s - 1 / 2 * C.cvac * C.dt * curlE N C G2 a s = _
    rw [curlE_congr (H := G') (fun a s => (e' a s).symm), hk]; ring
  have ee : ∀ a s, Site N s → (M.edge a s).eps a * (G' (.e a) s - G (.e a) s) =
      k * curlH N C M G1 a s - C.dt / C.eps0 * G (.jf a) s := by
    intro a s hs
    have := insulating_step (N := N) (C := C) (G := G1) (hM a s hs)
    rw [← hG2] at this
    rw [e', mul_sub, this, e1, j1, tcaNew, hd, hk]
    ring
  have adj := curl_adjoint N C M G1 (fun k s => G k s + G' k s)
  simp only [curlE_add] at adj
  unfold leapEnergy energy work
  rw [← hk]
  -- everything under one sum
  have L : ∑ s ∈ sites N, ∑ a, ((M.edge a s).eps a * (G' (.e a) s ^ 2 - G (.e a) s ^ 2)) =
      ∑ s ∈ sites N, ∑ a, (k * (curlH N C M G1 a s * (G (.e a) s + G' (.e a) s)) -
        C.dt / C.eps0 * (G (.jf a) s * (G (.e a) s + G' (.e a) s))) := by
    refine Finset.sum_congr rfl fun s hs => Finset.sum_congr rfl fun a _ => ?_
    have := ee a s (mem_sites.mp hs)
    linear_combination (G (.e a) s + G' (.e a) s) * this
  have B : ∀ s a, (M.face a s).rmu a * G' (.cb a) s ^ 2 - (k / 2) ^ 2 * ((M.face a s).rmu a * curlE N C G' a s ^ 2) -
      ((M.face a s).rmu a * G (.cb a) s ^ 2 - (k / 2) ^ 2 * ((M.face a s).rmu a * curlE N C G a s ^ 2)) =
      - (k * (hOf M G1 a s * (curlE N C G a s + curlE N C G' a s))) := by
    intro s a
    rw [b0 a s, b' a s, hOf]
    ring
  have B' : ∑ s ∈ sites N, ∑ a, ((M.face a s).rmu a * G' (.cb a) s ^ 2 - (k / 2) ^ 2 * ((M.face a s).rmu a * curlE N C G' a s ^ 2) -
      ((M.face a s).rmu a * G (.cb a) s ^ 2 - (k / 2) ^ 2 * ((M.face a s).rmu a * curlE N C G a s ^ 2))) =
      ∑ s ∈ sites N, ∑ a, - (k * (hOf M G1 a s * (curlE N C G a s + curlE N C G' a s))) :=
    Finset.sum_congr rfl fun s _ => Finset.sum_congr rfl fun a _ => B s a
  simp only [mul_sub, Finset.sum_sub_distrib, Finset.sum_add_distrib, Finset.sum_neg_distrib, ← Finset.mul_sum] at L B' adj ⊢
  linear_combination L + B' + k * adj

end

section
variable {K : Type} [Field K] [LinearOrder K] [IsStrictOrderedRing K]

/-- The square of a difference along an axis. -/
lemma diff_bound (N : Pos) (a : Fin 3) (f : Pos → K) :
    ∑ s ∈ sites N, (f (next N a s) - f s) ^ 2 ≤ (if 1 < N a then 4 else 0) * ∑ s ∈ sites N, f s ^ 2 := by
  split
  · have h1 : ∑ s ∈ sites N, f (next N a s) ^ 2 = ∑ s ∈ sites N, f s ^ 2 := sum_next N a fun s => f s ^ 2
    have h2 : ∑ s ∈ sites N, (f (next N a s) - f s) ^ 2 ≤ ∑ s ∈ sites N, (2 * f (next N a s) ^ 2 + 2 * f s ^ 2) :=
      Finset.sum_le_sum fun s _ => by nlinarith [sq_nonneg (f (next N a s) + f s)]
    rw [Finset.sum_add_distrib, ← Finset.mul_sum, ← Finset.mul_sum, h1] at h2
    linarith
  · rename_i h
    rw [zero_mul]
    refine le_of_eq (Finset.sum_eq_zero fun s hs => ?_)
    have hs := mem_sites.mp hs
    have : next N a s = s := by
      funext b
      have hb := hs b
      unfold next
      split
      · subst_vars
        have e0 : s b = 0 := by omega
        have e1 : N b = 1 := by omega
        rw [e0, e1]; rfl
      · rfl
    rw [this, sub_self]
    ring

/-- Spec: the square of the largest inverse length the curl can give, over four: axes of one cell do not count. -/
def invLen2 (N : Pos) (C : Consts K) : K := ∑ a, if 1 < N a then C.rd a ^ 2 else 0

lemma sum_prev (N : Pos) (a : Fin 3) (f : Pos → K) : ∑ s ∈ sites N, f (prev N a s) = ∑ s ∈ sites N, f s :=
  Finset.sum_nbij' (prev N a) (next N a) (fun s h => mem_sites.mpr (prev_site (mem_sites.mp h) a))
    (fun s h => mem_sites.mpr (next_site (mem_sites.mp h) a)) (fun s h => next_of_prev (mem_sites.mp h) a)
    (fun s h => prev_of_next (mem_sites.mp h) a) (fun _ _ => rfl)

/-- Mixed differences. -/
lemma mixed (N : Pos) (a b : Fin 3) (f g : Pos → K) :
    ∑ s ∈ sites N, (f (next N a s) - f s) * (g (next N b s) - g s) =
      ∑ s ∈ sites N, (f s - f (prev N b s)) * (g s - g (prev N a s)) := by
  have q1 := sum_parts N b f g
  have q2 := sum_parts N a g f
  have q3 : ∑ s ∈ sites N, f (next N a s) * g (next N b s) = ∑ s ∈ sites N, f (prev N b s) * g (prev N a s) := by
    rw [← sum_prev N b fun s => f (next N a s) * g (next N b s),
      ← sum_prev N a fun s => f (next N a (prev N b s)) * g (next N b (prev N b s))]
    refine Finset.sum_congr rfl fun s hs => ?_
    have hs := mem_sites.mp hs
    rw [next_of_prev (prev_site hs a) b, prev_comm, next_of_prev (prev_site hs b) a]
  simp only [mul_sub, sub_mul, Finset.sum_sub_distrib] at q1 q2 ⊢
  simp only [mul_comm (g _) (f _)] at q1 q2
  linear_combination q3 - q1 - q2

/-- The curl of the electric field is bounded. -/
lemma curl_bound (N : Pos) (C : Consts K) (G : Fields K) :
    ∑ s ∈ sites N, ∑ a, curlE N C G a s ^ 2 ≤ 4 * invLen2 N C * ∑ s ∈ sites N, ∑ a, G (.e a) s ^ 2 := by
  -- differences of component `b` along axis `a`
  have bd : ∀ a b, C.rd a ^ 2 * ∑ s ∈ sites N, (G (.e b) (next N a s) - G (.e b) s) ^ 2 ≤
      4 * (if 1 < N a then C.rd a ^ 2 else 0) * ∑ s ∈ sites N, G (.e b) s ^ 2 := by
    intro a b
    have := mul_le_mul_of_nonneg_left (diff_bound N a (G (.e b))) (sq_nonneg (C.rd a))
    refine this.trans (le_of_eq ?_)
    split_ifs <;> ring
  have back : ∀ a, ∑ s ∈ sites N, (G (.e a) s - G (.e a) (prev N a s)) ^ 2 =
      ∑ s ∈ sites N, (G (.e a) (next N a s) - G (.e a) s) ^ 2 := by
    intro a
    rw [← sum_next N a fun s => (G (.e a) s - G (.e a) (prev N a s)) ^ 2]
    exact Finset.sum_congr rfl fun s hs => by rw [prev_of_next (mem_sites.mp hs)]
  have m := fun a b => mixed N a b (G (.e b)) (G (.e a))
  have div : 0 ≤ ∑ s ∈ sites N, (∑ a, C.rd a * (G (.e a) s - G (.e a) (prev N a s))) ^ 2 :=
    Finset.sum_nonneg fun s _ => sq_nonneg _
  have key : ∑ s ∈ sites N, ∑ a, curlE N C G a s ^ 2 +
      ∑ s ∈ sites N, (∑ a, C.rd a * (G (.e a) s - G (.e a) (prev N a s))) ^ 2 =
      ∑ a, ∑ b, C.rd a ^ 2 * ∑ s ∈ sites N, (G (.e b) (next N a s) - G (.e b) s) ^ 2 := by
    have pt : ∀ s, ∑ a, curlE N C G a s ^ 2 + (∑ a, C.rd a * (G (.e a) s - G (.e a) (prev N a s))) ^ 2 =
        C.rd 0 ^ 2 * ((G (.e 0) s - G (.e 0) (prev N 0 s)) ^ 2 + (G (.e 1) (next N 0 s) - G (.e 1) s) ^ 2 +
          (G (.e 2) (next N 0 s) - G (.e 2) s) ^ 2) +
        C.rd 1 ^ 2 * ((G (.e 1) s - G (.e 1) (prev N 1 s)) ^ 2 + (G (.e 0) (next N 1 s) - G (.e 0) s) ^ 2 +
          (G (.e 2) (next N 1 s) - G (.e 2) s) ^ 2) +
        C.rd 2 ^ 2 * ((G (.e 2) s - G (.e 2) (prev N 2 s)) ^ 2 + (G (.e 0) (next N 2 s) - G (.e 0) s) ^ 2 +
          (G (.e 1) (next N 2 s) - G (.e 1) s) ^ 2) +
        (2 * C.rd 0 * C.rd 1) * ((G (.e 1) s - G (.e 1) (prev N 1 s)) * (G (.e 0) s - G (.e 0) (prev N 0 s)) -
          (G (.e 1) (next N 0 s) - G (.e 1) s) * (G (.e 0) (next N 1 s) - G (.e 0) s)) +
        (2 * C.rd 0 * C.rd 2) * ((G (.e 2) s - G (.e 2) (prev N 2 s)) * (G (.e 0) s - G (.e 0) (prev N 0 s)) -
          (G (.e 2) (next N 0 s) - G (.e 2) s) * (G (.e 0) (next N 2 s) - G (.e 0) s)) +
        (2 * C.rd 1 * C.rd 2) * ((G (.e 2) s - G (.e 2) (prev N 2 s)) * (G (.e 1) s - G (.e 1) (prev N 1 s)) -
          (G (.e 2) (next N 1 s) - G (.e 2) s) * (G (.e 1) (next N 2 s) - G (.e 1) s)) := by
      intro s
      simp only [Fin.sum_univ_three, curlE, Fin.isValue, Fin.reduceAdd]
      ring
    rw [← Finset.sum_add_distrib, Finset.sum_congr rfl fun s _ => pt s]
    have m01 := m 0 1
    have m02 := m 0 2
    have m12 := m 1 2
    simp only [Finset.sum_add_distrib, ← Finset.mul_sum, Finset.sum_sub_distrib, back, ← m01, ← m02, ← m12, Fin.sum_univ_three]
    ring
  have tot : ∑ a, ∑ b, C.rd a ^ 2 * ∑ s ∈ sites N, (G (.e b) (next N a s) - G (.e b) s) ^ 2 ≤
      4 * invLen2 N C * ∑ s ∈ sites N, ∑ a, G (.e a) s ^ 2 := by
    refine (Finset.sum_le_sum fun a _ => Finset.sum_le_sum fun b _ => bd a b).trans (le_of_eq ?_)
    unfold invLen2
    rw [Finset.sum_comm (s := sites N)]
    simp only [← Finset.mul_sum, ← Finset.sum_mul]
  linarith

end

end Verif.Torus
