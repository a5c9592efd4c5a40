import Verif.Global.PermParts

/-!
# Left and right are alike (C108): fields
-/
namespace Verif.Global

open Grid MoveP Charge Torus Threads
open Field (Pos FC EntOn fieldExt vox MC)
open SfInterface (Scales unloadC)

section
variable {K : Type}

/-- Spec: where a member of the field array lies in its cell: 1 for the axes along which it is in the middle of the cell, 0 for those
along which it is at the low side. -/
def inside : FC → Fin 3 → ℤ
  | .e a, b => if b = a then 1 else 0
  | .tca a, b => if b = a then 1 else 0
  | .jf a, b => if b = a then 1 else 0
  | .cb a, b => if b = a then 0 else 1
  | .divB, _ => 1
  | .divE, _ => 0
  | .rhof, _ => 0
  | .rhob, _ => 0

/-- Spec: the mirror image, along the axes of `φ`, of a place in a periodic box, for members that lie at `h` in their cells. -/
def image (N : Pos) (φ : Fin 3 → Bool) (h : Fin 3 → ℤ) (s : Pos) : Pos := fun b => if φ b then (-s b - h b) % N b else s b

/-- The middle of a cell. -/
def middle : Fin 3 → ℤ := fun _ => 1

/-- Spec: the materials of a box after mirroring. -/
def Universe.mirrored (φ : Fin 3 → Bool) (U : Universe K) : Universe K :=
  { U with M := ⟨fun a s => U.M.edge a (image U.N φ (inside (.e a)) s), fun a s => U.M.face a (image U.N φ (inside (.cb a)) s),
    fun s => U.M.node (image U.N φ (inside .rhof) s)⟩ }

variable [Field K]

/-- Spec: -1 for the axes that are mirrored. -/
def turn (φ : Fin 3 → Bool) (a : Fin 3) : K := if φ a then -1 else 1

/-- Spec: the particle after mirroring. -/
def GPart.mirrored (N : Pos) (φ : Fin 3 → Bool) (p : GPart K) : GPart K :=
  ⟨image N φ middle p.cell, fun a => turn φ a * p.d a, fun a => turn φ a * p.u a, p.w⟩

/-- Spec: the sign of a member after mirroring: vectors along the axis change it, the magnetic field is axial. -/
def signOf (φ : Fin 3 → Bool) : FC → K
  | .e a => turn φ a
  | .tca a => turn φ a
  | .jf a => turn φ a
  | .cb a => turn φ (a + 1) * turn φ (a + 2)
  | .divB => turn φ 0 * turn φ 1 * turn φ 2
  | .divE => 1
  | .rhof => 1
  | .rhob => 1

/-- Spec: all that a box contains after mirroring. -/
def Box.mirrored (N : Pos) (φ : Fin 3 → Bool) (x : Box K) : Box K :=
  ⟨fun id => (x.parts id).map (GPart.mirrored N φ), fun k s => signOf φ k * x.f k (image N φ (inside k) s)⟩

lemma turn_sq (φ : Fin 3 → Bool) (a : Fin 3) : (turn φ a : K) * turn φ a = 1 := by
  unfold turn
  split_ifs <;> ring

/-! ### Places -/

omit [Field K] in
lemma image_site {N : Pos} {φ : Fin 3 → Bool} {h : Fin 3 → ℤ} {s : Pos} (hs : Site N s) : Site N (image N φ h s) := fun b => by
  unfold image
  have := hs b
  split_ifs
  · exact ⟨Int.emod_nonneg _ (by omega), Int.emod_lt_of_pos _ (by omega)⟩
  · exact this

omit [Field K] in
lemma image_image {N : Pos} (φ : Fin 3 → Bool) (h : Fin 3 → ℤ) {s : Pos} (hs : Site N s) : image N φ h (image N φ h s) = s := by
  funext b
  have hb := hs b
  unfold image
  split_ifs
  · have : (-((-s b - h b) % N b) - h b) % N b = s b % N b := by
      apply Int.ModEq.eq
      have h1 : (-s b - h b) % N b ≡ -s b - h b [ZMOD N b] := Int.mod_modEq _ _
      have h2 := (h1.neg).sub_right (h b)
      have e : -(-s b - h b) - h b = s b := by ring
      rwa [e] at h2
    rw [this, Int.emod_eq_of_lt hb.1 hb.2]
  · rfl

/-- `h1` is `h0`, half a cell further along `b`. -/
def Near (h0 h1 : Fin 3 → ℤ) (b : Fin 3) : Prop := h0 b = 0 ∧ h1 b = 1 ∧ ∀ c, c ≠ b → h0 c = h1 c

instance (h0 h1 : Fin 3 → ℤ) (b : Fin 3) : Decidable (Near h0 h1 b) := by unfold Near; infer_instance

section
omit [Field K]
variable {N : Pos} {φ : Fin 3 → Bool} {h0 h1 : Fin 3 → ℤ} {b : Fin 3} (hn : Near h0 h1 b) (s : Pos)
include hn

lemma image_low : image N φ h0 s = if φ b then next N b (image N φ h1 s) else image N φ h1 s := by
  obtain ⟨e0, e1, e⟩ := hn
  split_ifs with hf
  · funext c
    unfold next image
    by_cases hc : c = b
    · subst hc
      simp only [hf, if_true, e0, e1, Int.emod_add_emod]
      congr 1
      ring
    · simp only [hc, if_false, e c hc]
  · funext c
    unfold image
    by_cases hc : c = b
    · subst hc
      simp only [hf, Bool.false_eq_true, if_false]
    · simp only [e c hc]

lemma image_low_next : image N φ h0 (next N b s) = if φ b then image N φ h1 s else next N b (image N φ h1 s) := by
  obtain ⟨e0, e1, e⟩ := hn
  split_ifs with hf
  · funext c
    unfold next image
    by_cases hc : c = b
    · subst hc
      simp only [hf, if_true, e0, e1]
      apply Int.ModEq.eq
      have h1 : (s c + 1) % N c ≡ s c + 1 [ZMOD N c] := Int.mod_modEq _ _
      have h2 := (h1.neg).sub_right 0
      have e : -(s c + 1) - 0 = -s c - 1 := by ring
      rwa [e] at h2
    · simp only [hc, if_false, e c hc]
  · funext c
    unfold next image
    by_cases hc : c = b
    · subst hc
      simp only [hf, Bool.false_eq_true, if_false, if_true]
    · simp only [hc, if_false, e c hc]

lemma image_mid : image N φ h1 s = if φ b then prev N b (image N φ h0 s) else image N φ h0 s := by
  obtain ⟨e0, e1, e⟩ := hn
  split_ifs with hf
  · funext c
    unfold prev image
    by_cases hc : c = b
    · subst hc
      simp only [hf, if_true, e0, e1, Int.emod_sub_emod]
      congr 1
      ring
    · simp only [hc, if_false, e c hc]
  · funext c
    unfold image
    by_cases hc : c = b
    · subst hc
      simp only [hf, Bool.false_eq_true, if_false]
    · simp only [e c hc]

lemma image_mid_prev : image N φ h1 (prev N b s) = if φ b then image N φ h0 s else prev N b (image N φ h0 s) := by
  obtain ⟨e0, e1, e⟩ := hn
  split_ifs with hf
  · funext c
    unfold prev image
    by_cases hc : c = b
    · subst hc
      simp only [hf, if_true, e0, e1]
      apply Int.ModEq.eq
      have h1 : (s c - 1) % N c ≡ s c - 1 [ZMOD N c] := Int.mod_modEq _ _
      have h2 := (h1.neg).sub_right 1
      have e : -(s c - 1) - 1 = -s c - 0 := by ring
      rwa [e] at h2
    · simp only [hc, if_false, e c hc]
  · funext c
    unfold prev image
    by_cases hc : c = b
    · subst hc
      simp only [hf, Bool.false_eq_true, if_false, if_true]
    · simp only [hc, if_false, e c hc]

end

section
variable {N : Pos} {φ : Fin 3 → Bool} {h0 h1 : Fin 3 → ℤ} {b : Fin 3} (hn : Near h0 h1 b) (s : Pos) (g : Pos → K)
include hn

lemma diff_next : g (image N φ h0 (next N b s)) - g (image N φ h0 s) =
    turn φ b * (g (next N b (image N φ h1 s)) - g (image N φ h1 s)) := by
  rw [image_low_next hn s, image_low hn s]
  unfold turn
  split_ifs <;> ring

lemma diff_prev : g (image N φ h1 s) - g (image N φ h1 (prev N b s)) =
    turn φ b * (g (image N φ h0 s) - g (prev N b (image N φ h0 s))) := by
  rw [image_mid_prev hn s, image_mid hn s]
  unfold turn
  split_ifs <;> ring

end

omit [Field K] in
lemma near_eb1 (a : Fin 3) : Near (inside (.e (a + 2))) (inside (.cb a)) (a + 1) := by revert a; decide
omit [Field K] in
lemma near_eb2 (a : Fin 3) : Near (inside (.e (a + 1))) (inside (.cb a)) (a + 2) := by revert a; decide
omit [Field K] in
lemma near_be1 (a : Fin 3) : Near (inside (.e a)) (inside (.cb (a + 2))) (a + 1) := by revert a; decide
omit [Field K] in
lemma near_be2 (a : Fin 3) : Near (inside (.e a)) (inside (.cb (a + 1))) (a + 2) := by revert a; decide
omit [Field K] in
lemma near_ne (a : Fin 3) : Near (inside .rhof) (inside (.e a)) a := by revert a; decide
omit [Field K] in
lemma near_bc (a : Fin 3) : Near (inside (.cb a)) middle a := by revert a; decide

lemma sign_b2 (φ : Fin 3 → Bool) (a : Fin 3) : (signOf φ (.cb (a + 2)) : K) = turn φ a * turn φ (a + 1) := by
  fin_cases a <;> rfl
lemma sign_b1 (φ : Fin 3 → Bool) (a : Fin 3) : (signOf φ (.cb (a + 1)) : K) = turn φ (a + 2) * turn φ a := by
  fin_cases a <;> rfl
lemma sign_all (φ : Fin 3 → Bool) (a : Fin 3) : (turn φ 0 * turn φ 1 * turn φ 2 : K) = turn φ a * (turn φ (a + 1) * turn φ (a + 2)) := by
  fin_cases a
  · show (turn φ 0 * turn φ 1 * turn φ 2 : K) = turn φ 0 * (turn φ 1 * turn φ 2)
    ring
  · show (turn φ 0 * turn φ 1 * turn φ 2 : K) = turn φ 1 * (turn φ 2 * turn φ 0)
    ring
  · show (turn φ 0 * turn φ 1 * turn φ 2 : K) = turn φ 2 * (turn φ 0 * turn φ 1)
    ring

/-! ### Fields -/

/-- `f'` is the mirror image of `f`, with sign `ε`, for values that lie at `h` in their cells. -/
def Image (N : Pos) (φ : Fin 3 → Bool) (h : Fin 3 → ℤ) (ε : K) (f f' : Pos → K) : Prop := ∀ s, Site N s → f' s = ε * f (image N φ h s)

/-- Fields after mirroring. -/
def ImageF (N : Pos) (φ : Fin 3 → Bool) (G G' : Fields K) : Prop := ∀ k, Image N φ (inside k) (signOf φ k) (G k) (G' k)

section
variable {φ : Fin 3 → Bool} (U : Universe K) {G G' : Fields K} (hG : ImageF U.N φ G G')
include hG

lemma yeeB_image (frac : K) : ImageF U.N φ (yeeB U.N U.C frac G) (yeeB U.N U.C frac G') := by
  intro k s hs
  cases k
  case cb a =>
    simp only [yeeB]
    rw [hG _ s hs, hG _ s hs, hG _ s hs, hG _ _ (next_site hs _), hG _ _ (next_site hs _)]
    have d1 := diff_next (N := U.N) (φ := φ) (near_eb1 a) s (G (.e (a + 2)))
    have d2 := diff_next (N := U.N) (φ := φ) (near_eb2 a) s (G (.e (a + 1)))
    simp only [signOf]
    linear_combination (-(frac * U.C.cvac * U.C.dt) * U.C.rd (a + 1) * turn φ (a + 2)) * d1 +
      (frac * U.C.cvac * U.C.dt * U.C.rd (a + 2) * turn φ (a + 1)) * d2
  all_goals exact hG _ s hs

lemma hOf_image (b : Fin 3) : Image U.N φ (inside (.cb b)) (signOf φ (.cb b)) (hOf U.M G b) (hOf (U.mirrored φ).M G' b) := fun s hs => by
  unfold hOf
  rw [hG _ s hs]
  simp only [Universe.mirrored]
  ring

lemma curlH_image (a : Fin 3) : Image U.N φ (inside (.e a)) (turn φ a) (curlH U.N U.C U.M G a) (curlH U.N U.C (U.mirrored φ).M G' a) := fun s hs => by
  unfold curlH
  rw [hOf_image U hG _ s hs, hOf_image U hG _ s hs, hOf_image U hG _ _ (prev_site hs _), hOf_image U hG _ _ (prev_site hs _)]
  have d1 := diff_prev (N := U.N) (φ := φ) (near_be1 a) s (hOf U.M G (a + 2))
  have d2 := diff_prev (N := U.N) (φ := φ) (near_be2 a) s (hOf U.M G (a + 1))
  rw [sign_b1, sign_b2]
  linear_combination (U.C.rd (a + 1) * turn φ a * turn φ (a + 1)) * d1 - (U.C.rd (a + 2) * turn φ (a + 2) * turn φ a) * d2 +
    (U.C.rd (a + 1) * turn φ a * (hOf U.M G (a + 2) (image U.N φ (inside (.e a)) s) -
      hOf U.M G (a + 2) (prev U.N (a + 1) (image U.N φ (inside (.e a)) s)))) * turn_sq (K := K) φ (a + 1) -
    (U.C.rd (a + 2) * turn φ a * (hOf U.M G (a + 1) (image U.N φ (inside (.e a)) s) -
      hOf U.M G (a + 1) (prev U.N (a + 2) (image U.N φ (inside (.e a)) s)))) * turn_sq (K := K) φ (a + 2)

lemma tcaNew_image (a : Fin 3) : Image U.N φ (inside (.tca a)) (turn φ a) (tcaNew U.N U.C U.M G a) (tcaNew U.N U.C (U.mirrored φ).M G' a) :=
  fun s hs => by
    unfold tcaNew
    rw [curlH_image U hG a s hs, hG _ s hs]
    simp only [signOf]
    rw [show inside (.tca a) = inside (.e a) from rfl]
    ring

lemma yeeE_image : ImageF U.N φ (yeeE U.N U.C U.M G) (yeeE U.N U.C (U.mirrored φ).M G') := by
  intro k s hs
  cases k
  case tca a => exact tcaNew_image U hG a s hs
  case e a =>
    simp only [yeeE]
    rw [hG _ s hs, hG _ s hs, tcaNew_image U hG a s hs]
    rw [show inside (.tca a) = inside (.e a) from rfl, show inside (.jf a) = inside (.e a) from rfl]
    simp only [signOf, Universe.mirrored]
    ring
  all_goals exact hG _ s hs

lemma stepped_image : ImageF U.N φ (stepped U.N U.C U.M G) (stepped U.N U.C (U.mirrored φ).M G') :=
  yeeB_image U (yeeE_image U (yeeB_image U hG _)) _

/-- Sums of differences over the axes around a node. -/
lemma node_sum {D D' : Fin 3 → Pos → K} (hD : ∀ a, Image U.N φ (inside (.e a)) (turn φ a) (D a) (D' a)) {s : Pos} (hs : Site U.N s) :
    ∑ a, U.C.rd a * (D' a s - D' a (prev U.N a s)) =
      ∑ a, U.C.rd a * (D a (image U.N φ (inside .rhof) s) - D a (prev U.N a (image U.N φ (inside .rhof) s))) := by
  refine Finset.sum_congr rfl fun a _ => ?_
  rw [hD a s hs, hD a _ (prev_site hs a)]
  have d := diff_prev (N := U.N) (φ := φ) (near_ne a) s (D a)
  linear_combination (U.C.rd a * turn φ a) * d + (U.C.rd a * (D a (image U.N φ (inside .rhof) s) -
    D a (prev U.N a (image U.N φ (inside .rhof) s)))) * turn_sq (K := K) φ a

lemma eps_image (a : Fin 3) : Image U.N φ (inside (.e a)) (turn φ a) (fun s => (U.M.edge a s).eps a * G (.e a) s)
    (fun s => ((U.mirrored φ).M.edge a s).eps a * G' (.e a) s) := fun s hs => by
  simp only
  rw [hG _ s hs]
  simp only [signOf, Universe.mirrored]
  ring

lemma gaussErr_image : Image U.N φ (inside .rhof) 1 (gaussErr U.N U.C U.M G) (gaussErr U.N U.C (U.mirrored φ).M G') := fun s hs => by
  unfold gaussErr
  rw [node_sum U hG (eps_image U hG) hs, hG _ s hs, hG _ s hs]
  rw [show inside .rhob = inside .rhof from rfl]
  simp only [signOf, Universe.mirrored, one_mul]

lemma divB_image : Image U.N φ middle (turn φ 0 * turn φ 1 * turn φ 2) (divBAt U.N U.C G) (divBAt U.N U.C G') := fun s hs => by
  unfold divBAt
  rw [Finset.mul_sum]
  refine Finset.sum_congr rfl fun a _ => ?_
  rw [hG _ s hs, hG _ _ (next_site hs a), sign_all φ a]
  have d := diff_next (N := U.N) (φ := φ) (near_bc a) s (G (.cb a))
  simp only [signOf]
  linear_combination (U.C.rd a * (turn φ (a + 1) * turn φ (a + 2))) * d

lemma marderE_image {E E' : Pos → K} (hE : Image U.N φ (inside .rhof) 1 E E') (a : Fin 3) :
    Image U.N φ (inside (.e a)) (turn φ a) (marderEOf U.N U.C U.M E G a) (marderEOf U.N U.C (U.mirrored φ).M E' G' a) := fun s hs => by
  unfold marderEOf
  rw [hG _ s hs, hE s hs, hE _ (next_site hs a)]
  have d := diff_next (N := U.N) (φ := φ) (near_ne a) s E
  simp only [signOf, Universe.mirrored]
  linear_combination ((U.M.edge a (image U.N φ (inside (.e a)) s)).drive a * (marderAlpha U.N U.C * pace U.N U.C a)) * d

lemma marderB_image (a : Fin 3) : Image U.N φ (inside (.cb a)) (signOf φ (.cb a)) (marderBOf U.N U.C G a) (marderBOf U.N U.C G' a) := fun s hs => by
  unfold marderBOf
  rw [hG _ s hs, divB_image U hG s hs, divB_image U hG _ (prev_site hs a), sign_all φ a]
  have d := diff_prev (N := U.N) (φ := φ) (near_bc a) s (divBAt U.N U.C G)
  simp only [signOf]
  linear_combination (marderAlpha U.N U.C * pace U.N U.C a * (turn φ a * (turn φ (a + 1) * turn φ (a + 2)))) * d +
    (marderAlpha U.N U.C * pace U.N U.C a * (turn φ (a + 1) * turn φ (a + 2)) * (divBAt U.N U.C G (image U.N φ (inside (.cb a)) s) -
      divBAt U.N U.C G (prev U.N a (image U.N φ (inside (.cb a)) s)))) * turn_sq (K := K) φ a

lemma setJ_image {J J' : Fin 3 → Pos → K} (h : ∀ a, Image U.N φ (inside (.jf a)) (turn φ a) (J a) (J' a)) : ImageF U.N φ (setJ J G) (setJ J' G') :=
  fun k s hs => by cases k <;> first | exact h _ s hs | exact hG _ s hs
lemma setE_image {J J' : Fin 3 → Pos → K} (h : ∀ a, Image U.N φ (inside (.e a)) (turn φ a) (J a) (J' a)) : ImageF U.N φ (setE J G) (setE J' G') :=
  fun k s hs => by cases k <;> first | exact h _ s hs | exact hG _ s hs
lemma setB_image {J J' : Fin 3 → Pos → K} (h : ∀ a, Image U.N φ (inside (.cb a)) (signOf φ (.cb a)) (J a) (J' a)) :
    ImageF U.N φ (setB J G) (setB J' G') :=
  fun k s hs => by cases k <;> first | exact h _ s hs | exact hG _ s hs
lemma setT_image {J J' : Fin 3 → Pos → K} (h : ∀ a, Image U.N φ (inside (.tca a)) (turn φ a) (J a) (J' a)) : ImageF U.N φ (setT J G) (setT J' G') :=
  fun k s hs => by cases k <;> first | exact h _ s hs | exact hG _ s hs
lemma setRho_image {ρ ρ' : Pos → K} (h : Image U.N φ (inside .rhof) 1 ρ ρ') : ImageF U.N φ (setRho ρ G) (setRho ρ' G') :=
  fun k s hs => by cases k <;> first | exact h s hs | exact hG _ s hs
lemma setRhob_image {ρ ρ' : Pos → K} (h : Image U.N φ (inside .rhof) 1 ρ ρ') : ImageF U.N φ (setRhob ρ G) (setRhob ρ' G') :=
  fun k s hs => by cases k <;> first | exact h s hs | exact hG _ s hs

lemma boundCharge_image : Image U.N φ (inside .rhof) 1 (boundCharge U G) (boundCharge (U.mirrored φ) G') := fun s hs => by
  unfold boundCharge
  have e := node_sum U hG (eps_image U hG) hs
  rw [show (U.mirrored φ).N = U.N from rfl, show (U.mirrored φ).C = U.C from rfl, e, hG _ s hs]
  simp only [signOf, Universe.mirrored, one_mul]

end

/-- Sums over the box. -/
lemma image_sum {N : Pos} {φ : Fin 3 → Bool} {h : Fin 3 → ℤ} {f f' : Pos → K} (hf : ∀ s, Site N s → f' s = f (image N φ h s)) :
    ∑ s ∈ sites N, f' s = ∑ s ∈ sites N, f s :=
  Finset.sum_nbij' (image N φ h) (image N φ h) (fun s hs => mem_sites.mpr (image_site (mem_sites.mp hs)))
    (fun s hs => mem_sites.mpr (image_site (mem_sites.mp hs))) (fun s hs => image_image φ h (mem_sites.mp hs))
    (fun s hs => image_image φ h (mem_sites.mp hs)) (fun s hs => hf s (mem_sites.mp hs))

section
variable {φ : Fin 3 → Bool} (U : Universe K)

lemma rmsOf_image (rt : K → K) {h : Fin 3 → ℤ} {ε : K} (hε : ε * ε = 1) {E E' : Pos → K} (hE : Image U.N φ h ε E E') :
    rmsOf rt (U.mirrored φ) E' = rmsOf rt U E := by
  unfold rmsOf
  have : ∑ s ∈ sites U.N, E' s ^ 2 = ∑ s ∈ sites U.N, E s ^ 2 :=
    image_sum (φ := φ) (h := h) (f := fun s => E s ^ 2) (f' := fun s => E' s ^ 2) fun s hs => by
      simp only [hE s hs]
      linear_combination (E (image U.N φ h s) ^ 2) * hε
  rw [← this]
  rfl

lemma all_sq (φ : Fin 3 → Bool) : (turn φ 0 * turn φ 1 * turn φ 2 : K) * (turn φ 0 * turn φ 1 * turn φ 2) = 1 := by
  linear_combination (turn φ 1 * turn φ 1 * (turn φ 2 * turn φ 2)) * turn_sq (K := K) φ 0 + (turn φ 2 * turn φ 2) * turn_sq (K := K) φ 1 + turn_sq (K := K) φ 2

lemma roundsE_image (rt : K → K) (R : ℤ) (k : ℕ) : ∀ (i : ℤ) {G G' : Fields K}, ImageF U.N φ G G' →
    ImageF U.N φ (roundsE U rt R k i G).1 (roundsE (U.mirrored φ) rt R k i G').1 ∧
      (roundsE (U.mirrored φ) rt R k i G').2 = (roundsE U rt R k i G).2 := by
  induction k with
  | zero => exact fun i G G' h => ⟨h, rfl⟩
  | succ k ih =>
    intro i G G' h
    have hE := gaussErr_image U h
    obtain ⟨a, b⟩ := ih (i + 1) (setE_image U h (marderE_image U h hE))
    unfold roundsE
    simp only
    refine ⟨a, ?_⟩
    rw [show (U.mirrored φ).N = U.N from rfl, show (U.mirrored φ).C = U.C from rfl]
    rw [b, rmsOf_image U rt (one_mul 1) hE]

lemma roundsB_image (rt : K → K) (R : ℤ) (k : ℕ) : ∀ (i : ℤ) {G G' : Fields K}, ImageF U.N φ G G' →
    ImageF U.N φ (roundsB U rt R k i G).1 (roundsB (U.mirrored φ) rt R k i G').1 ∧
      (roundsB (U.mirrored φ) rt R k i G').2 = (roundsB U rt R k i G).2 := by
  induction k with
  | zero => exact fun i G G' h => ⟨h, rfl⟩
  | succ k ih =>
    intro i G G' h
    have hE := divB_image U h
    obtain ⟨a, b⟩ := ih (i + 1) (setB_image U h (marderB_image U h))
    unfold roundsB
    simp only
    refine ⟨a, ?_⟩
    rw [show (U.mirrored φ).N = U.N from rfl, show (U.mirrored φ).C = U.C from rfl]
    rw [b, rmsOf_image U rt (all_sq φ) hE]

lemma fieldStep_image (rt : K → K) (A : Settings) (step : ℤ) {J J' : Fin 3 → Pos → K} (hJ : ∀ a, Image U.N φ (inside (.jf a)) (turn φ a) (J a) (J' a))
    {ρ ρ' : Pos → K} (hρ : Image U.N φ (inside .rhof) 1 ρ ρ') {G G' : Fields K} (hG : ImageF U.N φ G G') :
    ImageF U.N φ (fieldStep U rt A step J ρ G).1 (fieldStep (U.mirrored φ) rt A step J' ρ' G').1 ∧
      (fieldStep (U.mirrored φ) rt A step J' ρ' G').2 = (fieldStep U rt A step J ρ G).2 := by
  have h1 := stepped_image U (setJ_image U hG hJ)
  have hx := roundsE_image U rt A.num_div_e_round A.num_div_e_round.toNat 0 (setRho_image U h1 hρ)
  unfold fieldStep
  rw [show (U.mirrored φ).N = U.N from rfl, show (U.mirrored φ).C = U.C from rfl]
  by_cases he : due A.clean_div_e_interval step <;> by_cases hb : due A.clean_div_b_interval step <;>
    simp only [he, hb, if_true, if_false]
  · have hy := roundsB_image U rt A.num_div_b_round A.num_div_b_round.toNat 0 hx.1
    exact ⟨hy.1, by rw [hy.2, hx.2]⟩
  · exact ⟨hx.1, by rw [hx.2]⟩
  · have hy := roundsB_image U rt A.num_div_b_round A.num_div_b_round.toNat 0 h1
    exact ⟨hy.1, by rw [hy.2]⟩
  · exact ⟨h1, trivial⟩

end

end

end Verif.Global
