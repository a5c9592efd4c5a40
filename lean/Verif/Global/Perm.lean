import Verif.Global.Fork
import Mathlib.GroupTheory.Perm.Fin
import Mathlib.Logic.Equiv.Fin.Basic

/-!
# No axis of a periodic box is special (C107)
-/
namespace Verif.Global

open Grid MoveP Charge Torus Threads
open Field (Pos FC EntOn fieldExt vox MC)
open SfInterface (Scales unloadC)

/-- An exchange of axes: axis `a` becomes axis `σ a`. -/
abbrev Axes := Equiv.Perm (Fin 3)

section
variable {K : Type}

/-- Spec: three numbers, one per axis, after the exchange. -/
def moved {V : Type*} (σ : Axes) (s : Fin 3 → V) : Fin 3 → V := fun a => s (σ.symm a)

/-- Spec: the particle after the exchange. -/
def GPart.moved (σ : Axes) (p : GPart K) : GPart K := ⟨Global.moved σ p.cell, Global.moved σ p.d, Global.moved σ p.u, p.w⟩

/-- Spec: the member after the exchange. -/
def movedMember (σ : Axes) : FC → FC
  | .e a => .e (σ a)
  | .cb a => .cb (σ a)
  | .tca a => .tca (σ a)
  | .jf a => .jf (σ a)
  | k => k

/-- Spec: the material after the exchange. -/
def movedMC (σ : Axes) (m : MC K) : MC K := ⟨moved σ m.decay, moved σ m.drive, moved σ m.rmu, m.nonconductive, moved σ m.eps⟩

/-- Spec: the constants and materials after the exchange. -/
def Universe.moved (σ : Axes) (U : Universe K) : Universe K where
  N := Global.moved σ U.N
  C := { U.C with rd := Global.moved σ U.C.rd }
  M := ⟨fun a s => movedMC σ (U.M.edge (σ.symm a) (Global.moved σ.symm s)), fun a s => movedMC σ (U.M.face (σ.symm a) (Global.moved σ.symm s)),
    fun s => movedMC σ (U.M.node (Global.moved σ.symm s))⟩
  sc := { U.sc with rd := Global.moved σ U.sc.rd }
  nsp := U.nsp
  q := U.q

/-- Spec: the constants of the push after the exchange. -/
def driveMoved (σ : Axes) (V : Drive K) : Drive K := { V with cdt_d := moved σ V.cdt_d }

variable [Field K]

/-- Spec: the sign of an exchange: 1 if it is a rotation of the axes, -1 if it exchanges two. -/
def handed (σ : Axes) : K := if ∀ a, σ (a + 1) = σ a + 1 then 1 else -1

/-- Spec: fields after the exchange; the magnetic field is axial. -/
def movedFields (σ : Axes) (G : Fields K) : Fields K := fun k s =>
  (match k with | .cb _ => handed σ | _ => 1) * G (movedMember σ.symm k) (moved σ.symm s)

/-- Spec: all that a box contains after the exchange. -/
def Box.moved (σ : Axes) (x : Box K) : Box K := ⟨fun id => (x.parts id).map (GPart.moved σ), movedFields σ x.f⟩

/-! ### Axes -/

lemma axes_cases (σ : Axes) : ((∀ a, σ a + 1 = σ (a + 1) ∧ σ a + 2 = σ (a + 2)) ∧ ∀ a, σ (a + 1) = σ a + 1) ∨
    ((∀ a, σ a + 1 = σ (a + 2) ∧ σ a + 2 = σ (a + 1)) ∧ ¬ ∀ a, σ (a + 1) = σ a + 1) := by
  revert σ
  decide

lemma handed_cases (σ : Axes) : ((∀ a, σ a + 1 = σ (a + 1) ∧ σ a + 2 = σ (a + 2)) ∧ (handed σ : K) = 1) ∨
    ((∀ a, σ a + 1 = σ (a + 2) ∧ σ a + 2 = σ (a + 1)) ∧ (handed σ : K) = -1) := by
  rcases axes_cases σ with ⟨h, e⟩ | ⟨h, e⟩
  · exact .inl ⟨h, if_pos e⟩
  · exact .inr ⟨h, if_neg e⟩

lemma handed_sq (σ : Axes) : (handed σ : K) * handed σ = 1 := by
  rcases handed_cases (K := K) σ with ⟨-, e⟩ | ⟨-, e⟩ <;> rw [e] <;> ring

omit [Field K] in
@[simp] lemma moved_to {V : Type*} (σ : Axes) (s : Fin 3 → V) (a : Fin 3) : moved σ s (σ a) = s a := by
  simp [moved]

omit [Field K] in
@[simp] lemma moved_back {V : Type*} (σ : Axes) (s : Fin 3 → V) : moved σ.symm (moved σ s) = s := by
  funext a
  simp [moved]

omit [Field K] in
@[simp] lemma moved_forth {V : Type*} (σ : Axes) (s : Fin 3 → V) : moved σ (moved σ.symm s) = s := by
  funext a
  simp [moved]

omit [Field K] in
lemma moved_inj {V : Type*} (σ : Axes) {s t : Fin 3 → V} : moved σ s = moved σ t ↔ s = t :=
  ⟨fun h => by rw [← moved_back σ s, h, moved_back], fun h => by rw [h]⟩

omit [Field K] in
lemma next_moved (σ : Axes) (N : Pos) (b : Fin 3) (s : Pos) : moved σ.symm (next (moved σ N) (σ b) s) = next N b (moved σ.symm s) := by
  funext c
  simp [moved, next]

omit [Field K] in
lemma prev_moved (σ : Axes) (N : Pos) (b : Fin 3) (s : Pos) : moved σ.symm (prev (moved σ N) (σ b) s) = prev N b (moved σ.symm s) := by
  funext c
  simp [moved, prev]

/-! ### Fields -/

section
variable (σ : Axes) (G : Fields K)

lemma movedE (b : Fin 3) (s : Pos) : movedFields σ G (.e (σ b)) s = G (.e b) (moved σ.symm s) := by
  simp [movedFields, movedMember]
lemma movedB (b : Fin 3) (s : Pos) : movedFields σ G (.cb (σ b)) s = handed σ * G (.cb b) (moved σ.symm s) := by
  simp [movedFields, movedMember]
lemma movedT (b : Fin 3) (s : Pos) : movedFields σ G (.tca (σ b)) s = G (.tca b) (moved σ.symm s) := by
  simp [movedFields, movedMember]
lemma movedJ (b : Fin 3) (s : Pos) : movedFields σ G (.jf (σ b)) s = G (.jf b) (moved σ.symm s) := by
  simp [movedFields, movedMember]
lemma movedRho (s : Pos) : movedFields σ G .rhof s = G .rhof (moved σ.symm s) := by
  simp [movedFields, movedMember]
lemma movedRhob (s : Pos) : movedFields σ G .rhob s = G .rhob (moved σ.symm s) := by
  simp [movedFields, movedMember]
lemma movedDivE (s : Pos) : movedFields σ G .divE s = G .divE (moved σ.symm s) := by
  simp [movedFields, movedMember]
lemma movedDivB (s : Pos) : movedFields σ G .divB s = G .divB (moved σ.symm s) := by
  simp [movedFields, movedMember]

/-- Two fields agree if they agree after the exchange. -/
lemma moved_ext {F : Fields K} (he : ∀ b s, F (.e (σ b)) s = G (.e b) (moved σ.symm s))
    (hb : ∀ b s, F (.cb (σ b)) s = handed σ * G (.cb b) (moved σ.symm s)) (ht : ∀ b s, F (.tca (σ b)) s = G (.tca b) (moved σ.symm s))
    (hj : ∀ b s, F (.jf (σ b)) s = G (.jf b) (moved σ.symm s)) (h1 : ∀ s, F .rhof s = G .rhof (moved σ.symm s))
    (h2 : ∀ s, F .rhob s = G .rhob (moved σ.symm s)) (h3 : ∀ s, F .divE s = G .divE (moved σ.symm s))
    (h4 : ∀ s, F .divB s = G .divB (moved σ.symm s)) : F = movedFields σ G := by
  funext k s
  cases k with
  | e a => obtain ⟨b, rfl⟩ := σ.surjective a; rw [he, movedE]
  | cb a => obtain ⟨b, rfl⟩ := σ.surjective a; rw [hb, movedB]
  | tca a => obtain ⟨b, rfl⟩ := σ.surjective a; rw [ht, movedT]
  | jf a => obtain ⟨b, rfl⟩ := σ.surjective a; rw [hj, movedJ]
  | rhof => rw [h1, movedRho]
  | rhob => rw [h2, movedRhob]
  | divE => rw [h3, movedDivE]
  | divB => rw [h4, movedDivB]

variable (U : Universe K)

lemma yeeB_moved (frac : K) : yeeB (U.moved σ).N (U.moved σ).C frac (movedFields σ G) = movedFields σ (yeeB U.N U.C frac G) := by
  refine moved_ext σ _ (fun b s => movedE σ G b s) (fun b s => ?_) (fun b s => movedT σ G b s) (fun b s => movedJ σ G b s)
    (movedRho σ G) (movedRhob σ G) (movedDivE σ G) (movedDivB σ G)
  simp only [yeeB, Universe.moved]
  rcases handed_cases (K := K) σ with ⟨h, e⟩ | ⟨h, e⟩ <;>
    simp only [(h b).1, (h b).2, movedE, movedB, moved_to, next_moved, e] <;> ring

lemma hOf_moved (b : Fin 3) (s : Pos) : hOf (U.moved σ).M (movedFields σ G) (σ b) s = handed σ * hOf U.M G b (moved σ.symm s) := by
  unfold hOf
  rw [movedB]
  simp only [Universe.moved, movedMC, moved_to, Equiv.symm_apply_apply]
  ring

lemma curlH_moved (b : Fin 3) (s : Pos) :
    curlH (U.moved σ).N (U.moved σ).C (U.moved σ).M (movedFields σ G) (σ b) s = curlH U.N U.C U.M G b (moved σ.symm s) := by
  unfold curlH
  have hN : (U.moved σ).N = moved σ U.N := rfl
  have hC : (U.moved σ).C.rd = moved σ U.C.rd := rfl
  rcases handed_cases (K := K) σ with ⟨h, e⟩ | ⟨h, e⟩ <;>
    simp only [hN, hC, (h b).1, (h b).2, hOf_moved, moved_to, prev_moved, e] <;> ring

lemma tcaNew_moved (b : Fin 3) (s : Pos) :
    tcaNew (U.moved σ).N (U.moved σ).C (U.moved σ).M (movedFields σ G) (σ b) s = tcaNew U.N U.C U.M G b (moved σ.symm s) := by
  unfold tcaNew
  rw [curlH_moved, movedT]
  rfl

lemma yeeE_moved : yeeE (U.moved σ).N (U.moved σ).C (U.moved σ).M (movedFields σ G) = movedFields σ (yeeE U.N U.C U.M G) := by
  refine moved_ext σ _ (fun b s => ?_) (fun b s => movedB σ G b s) (fun b s => tcaNew_moved σ G U b s) (fun b s => movedJ σ G b s)
    (movedRho σ G) (movedRhob σ G) (movedDivE σ G) (movedDivB σ G)
  simp only [yeeE, tcaNew_moved, movedE, movedJ]
  simp only [Universe.moved, movedMC, moved_to, Equiv.symm_apply_apply]

lemma stepped_moved : stepped (U.moved σ).N (U.moved σ).C (U.moved σ).M (movedFields σ G) = movedFields σ (stepped U.N U.C U.M G) := by
  unfold stepped
  rw [yeeB_moved, yeeE_moved, yeeB_moved]

omit [Field K] in
lemma sum_moved [AddCommMonoid K] {f g : Fin 3 → K} (h : ∀ b, f (σ b) = g b) : ∑ a, f a = ∑ a, g a := by
  rw [← Equiv.sum_comp σ f]
  exact Finset.sum_congr rfl fun b _ => h b

lemma gaussErr_moved (s : Pos) :
    gaussErr (U.moved σ).N (U.moved σ).C (U.moved σ).M (movedFields σ G) s = gaussErr U.N U.C U.M G (moved σ.symm s) := by
  unfold gaussErr
  rw [movedRho, movedRhob, sum_moved (K := K) σ (g := fun a => U.C.rd a * ((U.M.edge a (moved σ.symm s)).eps a * G (.e a) (moved σ.symm s) -
    (U.M.edge a (prev U.N a (moved σ.symm s))).eps a * G (.e a) (prev U.N a (moved σ.symm s))))]
  · rfl
  · intro b
    have hN : (U.moved σ).N = moved σ U.N := rfl
    rw [movedE, movedE, hN, prev_moved]
    simp only [Universe.moved, movedMC, moved_to, Equiv.symm_apply_apply, prev_moved]

lemma divB_moved (s : Pos) : divBAt (U.moved σ).N (U.moved σ).C (movedFields σ G) s = handed σ * divBAt U.N U.C G (moved σ.symm s) := by
  unfold divBAt
  rw [Finset.mul_sum]
  refine sum_moved (K := K) σ fun b => ?_
  have hN : (U.moved σ).N = moved σ U.N := rfl
  have hC : (U.moved σ).C.rd = moved σ U.C.rd := rfl
  rw [movedB, movedB, hN, hC, next_moved, moved_to]
  ring

lemma pace_moved (b : Fin 3) : pace (U.moved σ).N (U.moved σ).C (σ b) = pace U.N U.C b := by
  unfold pace
  simp only [Universe.moved, moved_to]

lemma alpha_moved : marderAlpha (U.moved σ).N (U.moved σ).C = marderAlpha U.N U.C := by
  have e : ∀ N C, marderAlpha (K := K) N C = 3888889 / 10000000 / ∑ a, pace N C a * pace N C a := fun N C => by
    rw [Fin.sum_univ_three]
    rfl
  rw [e, e, sum_moved (K := K) σ fun b => by rw [pace_moved]]

lemma marderE_moved {E E' : Pos → K} (hE : ∀ s, E' s = E (moved σ.symm s)) (b : Fin 3) (s : Pos) :
    marderEOf (U.moved σ).N (U.moved σ).C (U.moved σ).M E' (movedFields σ G) (σ b) s = marderEOf U.N U.C U.M E G b (moved σ.symm s) := by
  unfold marderEOf
  rw [alpha_moved, pace_moved, movedE, hE, hE]
  simp only [Universe.moved, movedMC, moved_to, Equiv.symm_apply_apply, next_moved]

lemma marderB_moved (b : Fin 3) (s : Pos) :
    marderBOf (U.moved σ).N (U.moved σ).C (movedFields σ G) (σ b) s = handed σ * marderBOf U.N U.C G b (moved σ.symm s) := by
  unfold marderBOf
  rw [alpha_moved, pace_moved, movedB, divB_moved, divB_moved]
  have hN : (U.moved σ).N = moved σ U.N := rfl
  rw [hN, prev_moved]
  ring

variable {G}

lemma setJ_moved {J J' : Fin 3 → Pos → K} (h : ∀ b s, J' (σ b) s = J b (moved σ.symm s)) : setJ J' (movedFields σ G) = movedFields σ (setJ J G) :=
  moved_ext σ _ (movedE σ G) (movedB σ G) (movedT σ G) h (movedRho σ G) (movedRhob σ G) (movedDivE σ G) (movedDivB σ G)
lemma setE_moved {J J' : Fin 3 → Pos → K} (h : ∀ b s, J' (σ b) s = J b (moved σ.symm s)) : setE J' (movedFields σ G) = movedFields σ (setE J G) :=
  moved_ext σ _ h (movedB σ G) (movedT σ G) (movedJ σ G) (movedRho σ G) (movedRhob σ G) (movedDivE σ G) (movedDivB σ G)
lemma setB_moved {J J' : Fin 3 → Pos → K} (h : ∀ b s, J' (σ b) s = handed σ * J b (moved σ.symm s)) :
    setB J' (movedFields σ G) = movedFields σ (setB J G) :=
  moved_ext σ _ (movedE σ G) h (movedT σ G) (movedJ σ G) (movedRho σ G) (movedRhob σ G) (movedDivE σ G) (movedDivB σ G)
lemma setT_moved {J J' : Fin 3 → Pos → K} (h : ∀ b s, J' (σ b) s = J b (moved σ.symm s)) : setT J' (movedFields σ G) = movedFields σ (setT J G) :=
  moved_ext σ _ (movedE σ G) (movedB σ G) h (movedJ σ G) (movedRho σ G) (movedRhob σ G) (movedDivE σ G) (movedDivB σ G)
lemma setRho_moved {ρ ρ' : Pos → K} (h : ∀ s, ρ' s = ρ (moved σ.symm s)) : setRho ρ' (movedFields σ G) = movedFields σ (setRho ρ G) :=
  moved_ext σ _ (movedE σ G) (movedB σ G) (movedT σ G) (movedJ σ G) h (movedRhob σ G) (movedDivE σ G) (movedDivB σ G)
lemma setRhob_moved {ρ ρ' : Pos → K} (h : ∀ s, ρ' s = ρ (moved σ.symm s)) : setRhob ρ' (movedFields σ G) = movedFields σ (setRhob ρ G) :=
  moved_ext σ _ (movedE σ G) (movedB σ G) (movedT σ G) (movedJ σ G) (movedRho σ G) h (movedDivE σ G) (movedDivB σ G)

omit [Field K] in
lemma site_moved (N : Pos) (s : Pos) : Site (moved σ N) s ↔ Site N (moved σ.symm s) := by
  unfold Site
  constructor
  · intro h b
    have := h (σ b)
    rwa [moved_to] at this
  · intro h a
    obtain ⟨b, rfl⟩ := σ.surjective a
    rw [moved_to]
    exact h b

lemma rmsOf_moved (rt : K → K) {E E' : Pos → K} (h : ∀ s, E' s ^ 2 = E (moved σ.symm s) ^ 2) : rmsOf rt (U.moved σ) E' = rmsOf rt U E := by
  unfold rmsOf
  have e1 : ∑ s ∈ sites (U.moved σ).N, E' s ^ 2 = ∑ s ∈ sites U.N, E s ^ 2 := by
    refine Finset.sum_nbij' (moved σ.symm) (moved σ) (fun s hs => mem_sites.mpr ((site_moved σ U.N s).mp (mem_sites.mp hs)))
      (fun s hs => mem_sites.mpr ((site_moved σ U.N _).mpr (by rw [moved_back]; exact mem_sites.mp hs))) (fun s _ => moved_forth σ s)
      (fun s _ => moved_back σ s) (fun s _ => h s)
  have e2 : (U.moved σ).N 0 * (U.moved σ).N 1 * (U.moved σ).N 2 = U.N 0 * U.N 1 * U.N 2 := by
    have : ∏ a, moved σ U.N a = ∏ a, U.N a := Equiv.prod_comp σ.symm U.N
    rwa [Fin.prod_univ_three, Fin.prod_univ_three] at this
  rw [e1, e2]
  rfl

lemma roundsE_moved (rt : K → K) (R : ℤ) (k : ℕ) : ∀ (i : ℤ) (G : Fields K),
    roundsE (U.moved σ) rt R k i (movedFields σ G) = (movedFields σ (roundsE U rt R k i G).1, (roundsE U rt R k i G).2) := by
  induction k with
  | zero => exact fun i G => rfl
  | succ k ih =>
    intro i G
    have hE := gaussErr_moved σ G U
    have := ih (i + 1) (setE (marderEOf U.N U.C U.M (gaussErr U.N U.C U.M G) G) G)
    rw [← setE_moved σ (marderE_moved σ G U hE)] at this
    unfold roundsE
    simp only
    rw [rmsOf_moved σ U rt (E := gaussErr U.N U.C U.M G) (fun s => by rw [hE]), this]

lemma roundsB_moved (rt : K → K) (R : ℤ) (k : ℕ) : ∀ (i : ℤ) (G : Fields K),
    roundsB (U.moved σ) rt R k i (movedFields σ G) = (movedFields σ (roundsB U rt R k i G).1, (roundsB U rt R k i G).2) := by
  induction k with
  | zero => exact fun i G => rfl
  | succ k ih =>
    intro i G
    have hE := divB_moved σ G U
    have := ih (i + 1) (setB (marderBOf U.N U.C G) G)
    rw [← setB_moved σ (marderB_moved σ G U)] at this
    unfold roundsB
    simp only
    rw [rmsOf_moved σ U rt (E := divBAt U.N U.C G) (fun s => by rw [hE, mul_pow, sq (handed σ), handed_sq, one_mul]), this]

lemma fieldStep_moved (rt : K → K) (A : Settings) (step : ℤ) {J J' : Fin 3 → Pos → K} (hJ : ∀ b s, J' (σ b) s = J b (moved σ.symm s))
    {ρ ρ' : Pos → K} (hρ : ∀ s, ρ' s = ρ (moved σ.symm s)) (G : Fields K) :
    fieldStep (U.moved σ) rt A step J' ρ' (movedFields σ G) =
      (movedFields σ (fieldStep U rt A step J ρ G).1, (fieldStep U rt A step J ρ G).2) := by
  unfold fieldStep
  rw [setJ_moved σ hJ]
  simp only
  rw [stepped_moved, setRho_moved σ hρ]
  by_cases he : due A.clean_div_e_interval step <;> by_cases hb : due A.clean_div_b_interval step <;>
    simp only [he, hb, if_true, if_false]
  · rw [roundsE_moved, roundsB_moved]
  · rw [roundsE_moved]
  · rw [roundsB_moved]

lemma boundCharge_moved (G : Fields K) (s : Pos) : boundCharge (U.moved σ) (movedFields σ G) s = boundCharge U G (moved σ.symm s) := by
  unfold boundCharge
  rw [movedRho, sum_moved (K := K) σ (g := fun a => U.C.rd a * ((U.M.edge a (moved σ.symm s)).eps a * G (.e a) (moved σ.symm s) -
    (U.M.edge a (prev U.N a (moved σ.symm s))).eps a * G (.e a) (prev U.N a (moved σ.symm s))))]
  · rfl
  · intro b
    have hN : (U.moved σ).N = moved σ U.N := rfl
    rw [movedE, movedE, hN, prev_moved]
    simp only [Universe.moved, movedMC, moved_to, Equiv.symm_apply_apply, prev_moved]

lemma beginFields_moved {ρ ρ' : Pos → K} (h : ∀ s, ρ' s = ρ (moved σ.symm s)) (G : Fields K) :
    beginFields (U.moved σ) ρ' (movedFields σ G) = (movedFields σ (beginFields U ρ G).1, movedFields σ (beginFields U ρ G).2) := by
  unfold beginFields
  simp only
  rw [setB_moved σ (marderB_moved σ G U)]
  have e2 := setT_moved σ (G := setB (marderBOf U.N U.C G) G) (J := fun a s => U.C.cvac * U.C.dt * curlH U.N U.C U.M (setB (marderBOf U.N U.C G) G) a s)
    (J' := fun a s => (U.moved σ).C.cvac * (U.moved σ).C.dt * curlH (U.moved σ).N (U.moved σ).C (U.moved σ).M
      (movedFields σ (setB (marderBOf U.N U.C G) G)) a s)
    fun b s => by simp only [curlH_moved]; rfl
  rw [e2, setRho_moved σ h, setRhob_moved σ (boundCharge_moved σ U _), setE_moved σ (marderE_moved σ _ U (gaussErr_moved σ _ U))]

end

end

end Verif.Global
