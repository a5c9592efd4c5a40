import Verif.Global.RunProps

/-!
# Charge conjugation (C106)
-/
namespace Verif.Global

open Grid MoveP Charge Torus Threads
open Field (Pos FC EntOn fieldExt vox)
open SfInterface (Scales unloadC)

section
variable {K : Type} [Field K]

/-- Spec: all fields, charges and currents with the opposite sign, the particles as they are. -/
def Box.conj (x : Box K) : Box K := ⟨x.parts, fun k s => -x.f k s⟩

/-- Spec: the charges of all species with the opposite sign. -/
def Universe.conj (U : Universe K) : Universe K := { U with q := fun id => -U.q id }

/-- Spec: the constants of the push for the opposite charges. -/
def driveConj (V : Drive K) : Drive K := { V with qdt_2mc := fun id => -V.qdt_2mc id }

/-- The field inside a cell, with the opposite sign. -/
def interpNeg (f : Boris.Interp K) : Boris.Interp K where
  ex := -f.ex
  dexdy := -f.dexdy
  dexdz := -f.dexdz
  d2exdydz := -f.d2exdydz
  ey := -f.ey
  deydz := -f.deydz
  deydx := -f.deydx
  d2eydzdx := -f.d2eydzdx
  ez := -f.ez
  dezdx := -f.dezdx
  dezdy := -f.dezdy
  d2ezdxdy := -f.d2ezdxdy
  cbx := -f.cbx
  dcbxdx := -f.dcbxdx
  cby := -f.cby
  dcbydy := -f.dcbydy
  cbz := -f.cbz
  dcbzdz := -f.dcbzdz

/-- Fields with the opposite sign. -/
def fneg (G : Fields K) : Fields K := fun k s => -G k s

/-! ### Fields -/

section
variable (N : Pos) (C : Consts K) (M : Medium K) (G : Fields K)

lemma yeeB_conj (frac : K) : yeeB N C frac (fneg G) = fneg (yeeB N C frac G) := by
  funext k s
  cases k <;> simp only [yeeB, fneg]
  ring

lemma hOf_conj (b : Fin 3) (s : Pos) : hOf M (fneg G) b s = -hOf M G b s := by
  unfold hOf fneg
  ring

lemma curlH_conj (a : Fin 3) (s : Pos) : curlH N C M (fneg G) a s = -curlH N C M G a s := by
  unfold curlH
  simp only [hOf_conj]
  ring

lemma tcaNew_conj (a : Fin 3) (s : Pos) : tcaNew N C M (fneg G) a s = -tcaNew N C M G a s := by
  unfold tcaNew
  rw [curlH_conj]
  unfold fneg
  ring

lemma yeeE_conj : yeeE N C M (fneg G) = fneg (yeeE N C M G) := by
  funext k s
  cases k <;> simp only [yeeE, fneg]
  · rw [tcaNew_conj]
    ring
  · exact tcaNew_conj N C M G _ s

lemma stepped_conj : stepped N C M (fneg G) = fneg (stepped N C M G) := by
  unfold stepped
  rw [yeeB_conj, yeeE_conj, yeeB_conj]

lemma gaussErr_conj (s : Pos) : gaussErr N C M (fneg G) s = -gaussErr N C M G s := by
  unfold gaussErr fneg
  simp only [Fin.sum_univ_three]
  ring

lemma divB_conj (s : Pos) : divBAt N C (fneg G) s = -divBAt N C G s := by
  unfold divBAt fneg
  simp only [Fin.sum_univ_three]
  ring

lemma marderE_conj {E E' : Pos → K} (hE : ∀ s, E' s = -E s) (a : Fin 3) (s : Pos) :
    marderEOf N C M E' (fneg G) a s = -marderEOf N C M E G a s := by
  unfold marderEOf
  rw [hE, hE]
  unfold fneg
  ring

lemma marderB_conj (a : Fin 3) (s : Pos) : marderBOf N C (fneg G) a s = -marderBOf N C G a s := by
  unfold marderBOf
  rw [divB_conj, divB_conj]
  unfold fneg
  ring

variable {G}

lemma setJ_conj {J J' : Fin 3 → Pos → K} (h : ∀ a s, J' a s = -J a s) : setJ J' (fneg G) = fneg (setJ J G) := by
  funext k s
  cases k <;> first | exact h _ s | rfl
lemma setE_conj {J J' : Fin 3 → Pos → K} (h : ∀ a s, J' a s = -J a s) : setE J' (fneg G) = fneg (setE J G) := by
  funext k s
  cases k <;> first | exact h _ s | rfl
lemma setB_conj {J J' : Fin 3 → Pos → K} (h : ∀ a s, J' a s = -J a s) : setB J' (fneg G) = fneg (setB J G) := by
  funext k s
  cases k <;> first | exact h _ s | rfl
lemma setT_conj {J J' : Fin 3 → Pos → K} (h : ∀ a s, J' a s = -J a s) : setT J' (fneg G) = fneg (setT J G) := by
  funext k s
  cases k <;> first | exact h _ s | rfl
lemma setRho_conj {ρ ρ' : Pos → K} (h : ∀ s, ρ' s = -ρ s) : setRho ρ' (fneg G) = fneg (setRho ρ G) := by
  funext k s
  cases k <;> first | exact h s | rfl
lemma setRhob_conj {ρ ρ' : Pos → K} (h : ∀ s, ρ' s = -ρ s) : setRhob ρ' (fneg G) = fneg (setRhob ρ G) := by
  funext k s
  cases k <;> first | exact h s | rfl

lemma interp_conj (s : Pos) : interpOf N (fneg G) s = interpNeg (interpOf N G s) := by
  unfold interpOf interpNeg edge4 mean4 slope1 slope2 mixed fneg
  simp only [Boris.Interp.mk.injEq]
  refine ⟨?_, ?_, ?_, ?_, ?_, ?_, ?_, ?_, ?_, ?_, ?_, ?_, ?_, ?_, ?_, ?_, ?_, ?_⟩ <;> ring

end

section
variable (U : Universe K)

lemma rmsOf_conj (rt : K → K) {E E' : Pos → K} (h : ∀ s, E' s = -E s) : rmsOf rt U.conj E' = rmsOf rt U E := by
  unfold rmsOf
  simp only [h, neg_sq]
  rfl

lemma roundsE_conj (rt : K → K) (R : ℤ) (k : ℕ) : ∀ (i : ℤ) (G : Fields K),
    roundsE U.conj rt R k i (fneg G) = (fneg (roundsE U rt R k i G).1, (roundsE U rt R k i G).2) := by
  induction k with
  | zero => exact fun i G => rfl
  | succ k ih =>
    intro i G
    have hE := gaussErr_conj U.N U.C U.M G
    have := ih (i + 1) (setE (marderEOf U.N U.C U.M (gaussErr U.N U.C U.M G) G) G)
    rw [← setE_conj (marderE_conj U.N U.C U.M G hE)] at this
    unfold roundsE
    simp only
    rw [rmsOf_conj U rt (E := gaussErr U.N U.C U.M G) (by exact hE)]
    erw [this]

lemma roundsB_conj (rt : K → K) (R : ℤ) (k : ℕ) : ∀ (i : ℤ) (G : Fields K),
    roundsB U.conj rt R k i (fneg G) = (fneg (roundsB U rt R k i G).1, (roundsB U rt R k i G).2) := by
  induction k with
  | zero => exact fun i G => rfl
  | succ k ih =>
    intro i G
    have hE := divB_conj U.N U.C G
    have := ih (i + 1) (setB (marderBOf U.N U.C G) G)
    rw [← setB_conj (marderB_conj U.N U.C G)] at this
    unfold roundsB
    simp only
    rw [rmsOf_conj U rt (E := divBAt U.N U.C G) (by exact hE)]
    erw [this]

lemma fieldStep_conj (rt : K → K) (A : Settings) (step : ℤ) {J J' : Fin 3 → Pos → K} (hJ : ∀ a s, J' a s = -J a s)
    {ρ ρ' : Pos → K} (hρ : ∀ s, ρ' s = -ρ s) (G : Fields K) :
    fieldStep U.conj rt A step J' ρ' (fneg G) = (fneg (fieldStep U rt A step J ρ G).1, (fieldStep U rt A step J ρ G).2) := by
  unfold fieldStep
  rw [setJ_conj hJ]
  simp only [Universe.conj]
  rw [stepped_conj, setRho_conj hρ]
  by_cases he : due A.clean_div_e_interval step <;> by_cases hb : due A.clean_div_b_interval step <;>
    simp only [he, hb, if_true, if_false]
  · rw [show ({ N := U.N, C := U.C, M := U.M, sc := U.sc, nsp := U.nsp, q := fun id => -U.q id } : Universe K) = U.conj from rfl, roundsE_conj,
      roundsB_conj]
  · rw [show ({ N := U.N, C := U.C, M := U.M, sc := U.sc, nsp := U.nsp, q := fun id => -U.q id } : Universe K) = U.conj from rfl, roundsE_conj]
  · rw [show ({ N := U.N, C := U.C, M := U.M, sc := U.sc, nsp := U.nsp, q := fun id => -U.q id } : Universe K) = U.conj from rfl, roundsB_conj]

end

/-! ### Particles -/

lemma halfE_conj (h : K) (f : Boris.Interp K) (d : Fin 3 → K) : Boris.halfE (-h) (interpNeg f) d = Boris.halfE h f d := by
  unfold Boris.halfE interpNeg
  congr 1
  · ring
  congr 1
  · ring
  congr 1
  ring

lemma interpB_conj (f : Boris.Interp K) (d : Fin 3 → K) : Boris.interpB (interpNeg f) d = -Boris.interpB f d := by
  funext k
  unfold Boris.interpB interpNeg
  fin_cases k <;> simp [Matrix.cons_val_zero, Matrix.cons_val_one] <;> ring

lemma rotate_conj (rt : K → K) (h : K) (u b : Fin 3 → K) : Boris.rotate rt (-h) u (-b) = Boris.rotate rt h u b := by
  unfold Boris.rotate
  simp only [Pi.neg_apply, neg_mul_neg, neg_div, neg_mul, mul_neg, neg_neg]
  congr 1
  · ring
  congr 1
  · ring
  congr 1
  ring

lemma pushU_conj (rt : K → K) (h : K) (f : Boris.Interp K) (d u : Fin 3 → K) :
    Boris.pushU rt (-h) (interpNeg f) d u = Boris.pushU rt h f d u := by
  unfold Boris.pushU
  simp only [halfE_conj, interpB_conj, rotate_conj]

lemma uncenterU_conj (rt : K → K) (h : K) (f : Boris.Interp K) (d u : Fin 3 → K) :
    Boris.uncenterU rt (-h) (interpNeg f) d u = Boris.uncenterU rt h f d u := by
  unfold Boris.uncenterU
  simp only [halfE_conj, interpB_conj]
  rw [show -(1 / 2) * -h = -(-(1 / 2) * h) by ring, rotate_conj]

lemma streakJ_conj (q : K) (mid disp : Fin 3 → K) : streakJ (-q) mid disp = -streakJ q mid disp := by
  funext k
  unfold streakJ accumulateJ
  rw [Pi.neg_apply]
  fin_cases k <;> simp <;> ring

lemma inCellJ_conj (q : K) (mid disp : Fin 3 → K) : AdvanceP.inCellJ (-q) mid disp = -AdvanceP.inCellJ q mid disp := by
  funext k
  unfold AdvanceP.inCellJ accumulateJ
  rw [Pi.neg_apply]
  fin_cases k <;> simp <;> ring

lemma put_conj (s : Pos) (j : Fin 12 → K) : put s (-j) = -put s j := by
  funext t k
  unfold put
  rw [Pi.neg_apply, Pi.neg_apply, Pi.neg_apply]
  split_ifs
  · rfl
  · rw [neg_zero]

lemma triWeights_conj (d : Fin 3 → K) (w : K) (k : Fin 8) : Deposit.triWeights d (-w) k = -Deposit.triWeights d w k := by
  unfold Deposit.triWeights Deposit.FMA Deposit.FNMS
  fin_cases k <;> simp <;> ring

lemma share_conj (N : Pos) (q : K) (p : GPart K) (s : Pos) : share N (-q) p s = -share N q p s := by
  unfold share
  rw [← Finset.sum_neg_distrib]
  refine Finset.sum_congr rfl fun k _ => ?_
  rw [show p.w * -q = -(p.w * q) by ring, triWeights_conj]
  ring

lemma density_conj (U : Universe K) (P : ℕ → Multiset (GPart K)) (s : Pos) : density U.conj P s = -density U P s := by
  unfold density
  rw [← Finset.sum_neg_distrib]
  refine Finset.sum_congr rfl fun id _ => ?_
  rw [← Multiset.sum_map_neg]
  refine congrArg _ (Multiset.map_congr rfl fun p _ => ?_)
  show share U.N (-U.q id * U.sc.r8V) p s = _
  rw [neg_mul, share_conj]

lemma current_conj (N : Pos) (sc : Scales K) (A : GAccum K) (a : Fin 3) (s : Pos) : current N sc (-A) a s = -current N sc A a s := by
  unfold current
  simp only [Pi.neg_apply]
  ring

variable [LinearOrder K]

/-- A result with the opposite currents. -/
def flip (x : GPart K × GAccum K) : GPart K × GAccum K := (x.1, -x.2)

lemma walk_conj (N : Pos) (q : K) (fuel : ℕ) : ∀ (p : GPart K) (disp : Fin 3 → K),
    walk N (-q) fuel p disp = (walk N q fuel p disp).map flip := by
  induction fuel with
  | zero => exact fun p disp => rfl
  | succ fuel ih =>
    intro p disp
    unfold walk
    simp only [streakJ_conj, put_conj]
    rcases (streakOf p.d disp).2.1 with _ | a
    · rfl
    · simp only [ih, Option.map_map]
      congr 1
      funext x
      simp only [Function.comp, flip, neg_add]

lemma push_conj (N : Pos) (fi : Pos → Boris.Interp K) (L : Law K) (fuel : ℕ) (p : GPart K) :
    push N (fun s => interpNeg (fi s)) { L with qdt_2mc := -L.qdt_2mc, q := -L.q } fuel p = (push N fi L fuel p).map flip := by
  unfold push
  simp only [pushU_conj, mul_neg, neg_mul, inCellJ_conj, put_conj, walk_conj]
  split_ifs <;> rfl

/-! ### Runs -/

lemma boxCycle_conj {U : Universe K} {V : Drive K} {A : Settings} {step : ℤ} {x y : Box K} {l : List (Msg K)}
    (h : BoxCycle U V A step x y l) : BoxCycle U.conj (driveConj V) A step x.conj y.conj l := by
  obtain ⟨adv, a1, a2, a3⟩ := h.run
  refine ⟨h.go, fun id p => flip (adv id p), fun id hid p hp => ?_, a2, ?_⟩
  · have e : interpOf U.N (fneg x.f) = fun s => interpNeg (interpOf U.N x.f s) := funext fun s => interp_conj U.N s
    show push U.N (interpOf U.N (fneg x.f)) (lawAt (driveConj V) U.conj.q id) 4 p = _
    rw [e]
    exact (push_conj U.N (interpOf U.N x.f) (lawAt V U.q id) 4 p).trans (by rw [a1 id hid p hp]; rfl)
  · have e : (∑ id ∈ Finset.range U.nsp, ((x.parts id).map fun p => (flip (adv id p)).2).sum) =
        -∑ id ∈ Finset.range U.nsp, ((x.parts id).map fun p => (adv id p).2).sum := by
      rw [← Finset.sum_neg_distrib]
      refine Finset.sum_congr rfl fun id _ => ?_
      rw [← Multiset.sum_map_neg]
      rfl
    have := fieldStep_conj U V.rt A step (J := current U.N U.sc (∑ id ∈ Finset.range U.nsp, ((x.parts id).map fun p => (adv id p).2).sum))
      (current_conj U.N U.sc _) (density_conj U y.parts) x.f
    rw [← a3, ← e] at this
    exact this.symm

lemma boxCycles_conj {U : Universe K} {V : Drive K} {A : Settings} {i j : ℤ} {x y : Box K} {l : List (Msg K)}
    (h : BoxCycles U V A i x j y l) : BoxCycles U.conj (driveConj V) A i x.conj j y.conj l := by
  induction h with
  | refl => exact .refl _ _
  | step _ h2 ih => exact .step ih (boxCycle_conj h2)

omit [LinearOrder K] in
lemma boundCharge_conj (U : Universe K) (G : Fields K) (s : Pos) : boundCharge U.conj (fneg G) s = -boundCharge U G s := by
  unfold boundCharge fneg Universe.conj
  simp only [Fin.sum_univ_three]
  ring

omit [LinearOrder K] in
lemma beginFields_conj (U : Universe K) {ρ ρ' : Pos → K} (h : ∀ s, ρ' s = -ρ s) (G : Fields K) :
    beginFields U.conj ρ' (fneg G) = (fneg (beginFields U ρ G).1, fneg (beginFields U ρ G).2) := by
  unfold beginFields
  have e1 := setB_conj (G := G) (marderB_conj U.N U.C G)
  have e2 := setT_conj (G := setB (marderBOf U.N U.C G) G) (J := fun a s => U.C.cvac * U.C.dt * curlH U.N U.C U.M (setB (marderBOf U.N U.C G) G) a s)
    (J' := fun a s => U.C.cvac * U.C.dt * curlH U.N U.C U.M (fneg (setB (marderBOf U.N U.C G) G)) a s)
    fun a s => by simp only [curlH_conj]; ring
  show (let G1 := setB (marderBOf U.N U.C (fneg G)) (fneg G)
    let G2 := setT (fun a s => U.C.cvac * U.C.dt * curlH U.N U.C U.M G1 a s) G1
    let G3 := setRho ρ' G2
    let G4 := setRhob (boundCharge U.conj G3) G3
    ((G4, setE (marderEOf U.N U.C U.M (gaussErr U.N U.C U.M G4) G4) G4) : Fields K × Fields K)) = _
  simp only
  rw [e1, e2, setRho_conj h, setRhob_conj (boundCharge_conj U _), setE_conj (marderE_conj U.N U.C U.M _ (gaussErr_conj U.N U.C U.M _))]

omit [LinearOrder K] in
lemma boxBegin_conj (U : Universe K) (V : Drive K) (x : Box K) :
    boxBegin U.conj (driveConj V) x.conj = ((boxBegin U V x).1.conj, (boxBegin U V x).2) := by
  unfold boxBegin
  have e := beginFields_conj U (density_conj U x.parts) x.f
  simp only
  rw [show x.conj.f = fneg x.f from rfl, show x.conj.parts = x.parts from rfl, e]
  refine Prod.ext ?_ ?_
  · simp only [Box.conj, Box.mk.injEq]
    refine ⟨funext fun id => ?_, rfl⟩
    show (if id < U.nsp then _ else _) = _
    split_ifs
    · refine Multiset.map_congr rfl fun p _ => ?_
      unfold uncenter
      rw [interp_conj]
      exact congrArg (fun u => ({ p with u := u } : GPart K)) (uncenterU_conj V.rt _ _ _ _)
    · rfl
  · simp only
    rw [rmsOf_conj U _ (E := divBAt U.N U.C x.f) (by exact divB_conj U.N U.C x.f),
      rmsOf_conj U _ (E := gaussErr U.N U.C U.M (beginFields U (density U x.parts) x.f).1) (by exact gaussErr_conj U.N U.C U.M _)]
    rfl

end

end Verif.Global
