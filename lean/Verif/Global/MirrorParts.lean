import Verif.Global.Mirror

/-!
# Left and right are alike (C108): particles and runs
-/
namespace Verif.Global

open Grid MoveP Charge Torus Threads
open Field (Pos FC EntOn fieldExt vox MC)
open SfInterface (Scales unloadC)

section
variable {K : Type} [Field K] {φ : Fin 3 → Bool}

/-- A vector after mirroring. -/
def turned (φ : Fin 3 → Bool) (u : Fin 3 → K) : Fin 3 → K := fun a => turn φ a * u a

/-! ### The push -/

/-- The four edges along `a` of a cell, in the mirror. -/
lemma edges_image (N : Pos) (a : Fin 3) (s : Pos) : let P := image N φ middle s
    image N φ (inside (.e a)) s = (if φ (a + 1) then next N (a + 1) (if φ (a + 2) then next N (a + 2) P else P) else
      (if φ (a + 2) then next N (a + 2) P else P)) ∧
    image N φ (inside (.e a)) (next N (a + 1) s) = (if φ (a + 1) then (if φ (a + 2) then next N (a + 2) P else P) else
      next N (a + 1) (if φ (a + 2) then next N (a + 2) P else P)) ∧
    image N φ (inside (.e a)) (next N (a + 2) s) = (if φ (a + 1) then next N (a + 1) (if φ (a + 2) then P else next N (a + 2) P) else
      (if φ (a + 2) then P else next N (a + 2) P)) ∧
    image N φ (inside (.e a)) (next N (a + 1) (next N (a + 2) s)) = (if φ (a + 1) then (if φ (a + 2) then P else next N (a + 2) P) else
      next N (a + 1) (if φ (a + 2) then P else next N (a + 2) P)) := by
  intro P
  have e1 := fun t => image_low (N := N) (φ := φ) (near_be1 a) t
  have e2 := fun t => image_low_next (N := N) (φ := φ) (near_be1 a) t
  have e3 := image_low (N := N) (φ := φ) (near_bc (a + 2)) s
  have e4 := image_low_next (N := N) (φ := φ) (near_bc (a + 2)) s
  exact ⟨by rw [e1, e3], by rw [e2, e3], by rw [e1, e4], by rw [e2, e4]⟩

/-- The cells around the edge `a`, in the mirror. -/
lemma cells_image (N : Pos) (a : Fin 3) (s : Pos) : let Q := image N φ (inside (.e a)) s
    image N φ middle s = (if φ (a + 2) then prev N (a + 2) (if φ (a + 1) then prev N (a + 1) Q else Q) else
      (if φ (a + 1) then prev N (a + 1) Q else Q)) ∧
    image N φ middle (prev N (a + 1) s) = (if φ (a + 2) then prev N (a + 2) (if φ (a + 1) then Q else prev N (a + 1) Q) else
      (if φ (a + 1) then Q else prev N (a + 1) Q)) ∧
    image N φ middle (prev N (a + 2) s) = (if φ (a + 2) then (if φ (a + 1) then prev N (a + 1) Q else Q) else
      prev N (a + 2) (if φ (a + 1) then prev N (a + 1) Q else Q)) ∧
    image N φ middle (prev N (a + 2) (prev N (a + 1) s)) = (if φ (a + 2) then (if φ (a + 1) then Q else prev N (a + 1) Q) else
      prev N (a + 2) (if φ (a + 1) then Q else prev N (a + 1) Q)) := by
  intro Q
  have e1 := fun t => image_mid (N := N) (φ := φ) (near_bc (a + 2)) t
  have e2 := fun t => image_mid_prev (N := N) (φ := φ) (near_bc (a + 2)) t
  have e3 := image_mid (N := N) (φ := φ) (near_be1 a) s
  have e4 := image_mid_prev (N := N) (φ := φ) (near_be1 a) s
  exact ⟨by rw [e1, e3], by rw [e1, e4], by rw [e2, e3], by rw [e2, e4]⟩

section
variable {N : Pos} {G G' : Fields K} (hG : ImageF N φ G G') {s : Pos} (hs : Site N s)
include hG hs

lemma halfE_image (h : K) (d : Fin 3 → K) :
    Boris.halfE h (interpOf N G' s) (turned φ d) = turned φ (Boris.halfE h (interpOf N G (image N φ middle s)) d) := by
  funext a
  unfold turned
  rw [halfE_axis, halfE_axis]
  unfold edge4
  rw [next_comm N (a + 2) (a + 1)] 
  rw [hG _ s hs, hG _ _ (next_site hs _), hG _ _ (next_site hs _), hG _ _ (next_site (next_site hs _) _)]
  obtain ⟨e1, e2, e3, e4⟩ := edges_image (φ := φ) N a s
  rw [e1, e2, e3, e4]
  simp only [signOf, next_comm N (a + 2) (a + 1)]
  unfold mean4 slope1 slope2 mixed
  generalize (turn φ a : K) = t
  unfold turn
  cases φ (a + 1) <;> cases φ (a + 2) <;> simp only [if_true, Bool.false_eq_true, if_false] <;> ring

lemma interpB_image (d : Fin 3 → K) : Boris.interpB (interpOf N G' s) (turned φ d) =
    fun a => signOf φ (.cb a) * Boris.interpB (interpOf N G (image N φ middle s)) d a := by
  funext a
  unfold turned
  rw [interpB_axis, interpB_axis, hG _ s hs, hG _ _ (next_site hs _), image_low_next (near_bc a) s, image_low (near_bc a) s]
  generalize (signOf φ (.cb a) : K) = t
  unfold turn
  cases φ a <;> simp only [if_true, Bool.false_eq_true, if_false] <;> ring

end

lemma norm2_turned (u : Fin 3 → K) : norm2 (turned φ u) = norm2 u := by
  unfold norm2 turned
  linear_combination (u 0 * u 0) * turn_sq (K := K) φ 0 + (u 1 * u 1) * turn_sq (K := K) φ 1 + (u 2 * u 2) * turn_sq (K := K) φ 2

lemma norm2_axial (u : Fin 3 → K) : norm2 (fun a => signOf φ (.cb a) * u a) = norm2 u := by
  unfold norm2
  have h : ∀ a, (signOf φ (.cb a) : K) * signOf φ (.cb a) = 1 := fun a => by
    simp only [signOf]
    linear_combination (turn φ (a + 2) * turn φ (a + 2)) * turn_sq (K := K) φ (a + 1) + turn_sq (K := K) φ (a + 2)
  linear_combination (u 0 * u 0) * h 0 + (u 1 * u 1) * h 1 + (u 2 * u 2) * h 2

lemma cross_turned (u b : Fin 3 → K) (a : Fin 3) : cross (turned φ u) (fun a => signOf φ (.cb a) * b a) a = turn φ a * cross u b a := by
  unfold cross turned
  simp only
  rw [sign_b1, sign_b2]
  linear_combination (turn φ a * u (a + 1) * b (a + 2)) * turn_sq (K := K) φ (a + 1) - (turn φ a * u (a + 2) * b (a + 1)) * turn_sq (K := K) φ (a + 2)

lemma rotate_turned (rt : K → K) (h : K) (u b : Fin 3 → K) :
    Boris.rotate rt h (turned φ u) (fun a => signOf φ (.cb a) * b a) = turned φ (Boris.rotate rt h u b) := by
  rw [rotate_axis, rotate_axis]
  simp only [norm2_turned, norm2_axial]
  have e : ∀ v : K, (fun a => turned φ u a + v * cross (turned φ u) (fun a => signOf φ (.cb a) * b a) a) = turned φ fun a => u a + v * cross u b a := by
    intro v
    funext a
    rw [cross_turned]
    unfold turned
    ring
  simp only [e]
  funext a
  rw [cross_turned]
  unfold turned
  ring

lemma turned_add (u h : Fin 3 → K) : (fun k => turned φ u k + turned φ h k) = turned φ fun k => u k + h k := by
  funext k
  unfold turned
  ring

section
variable {N : Pos} {G G' : Fields K} (hG : ImageF N φ G G') {s : Pos} (hs : Site N s)
include hG hs

lemma pushU_image (rt : K → K) (h : K) (d u : Fin 3 → K) :
    Boris.pushU rt h (interpOf N G' s) (turned φ d) (turned φ u) = turned φ (Boris.pushU rt h (interpOf N G (image N φ middle s)) d u) := by
  unfold Boris.pushU
  simp only [halfE_image hG hs, interpB_image hG hs, turned_add, rotate_turned]

lemma uncenterU_image (rt : K → K) (h : K) (d u : Fin 3 → K) :
    Boris.uncenterU rt h (interpOf N G' s) (turned φ d) (turned φ u) = turned φ (Boris.uncenterU rt h (interpOf N G (image N φ middle s)) d u) := by
  unfold Boris.uncenterU
  simp only [halfE_image hG hs, interpB_image hG hs, turned_add, rotate_turned]

end

/-! ### Currents -/

/-- The four currents along an axis in the mirror. -/
def flipFour (x y : Bool) : Fin 4 → Fin 4 := if x then (if y then ![3, 2, 1, 0] else ![1, 0, 3, 2]) else (if y then ![2, 3, 0, 1] else ![0, 1, 2, 3])

/-- Currents after mirroring. -/
def ImageA (N : Pos) (φ : Fin 3 → Bool) (A A' : GAccum K) : Prop :=
  ∀ s, Site N s → ∀ a i, A' s (slot12 a i) = turn φ a * A (image N φ middle s) (slot12 a (flipFour (φ (a + 1)) (φ (a + 2)) i))

lemma ImageA.add {N : Pos} {A A' B B' : GAccum K} (h : ImageA N φ A A') (h' : ImageA N φ B B') : ImageA N φ (A + B) (A' + B') := fun s hs a i => by
  show A' s _ + B' s _ = _ * (A _ _ + B _ _)
  rw [h s hs, h' s hs]
  ring

lemma ImageA.zero (N : Pos) : ImageA N φ (0 : GAccum K) 0 := fun s hs a i => by
  show (0 : K) = _ * 0
  ring

lemma ImageA.msum {N : Pos} {ι : Type*} {f f' : ι → GAccum K} (P : Multiset ι) (h : ∀ p ∈ P, ImageA N φ (f p) (f' p)) :
    ImageA N φ (P.map f).sum (P.map f').sum := by
  induction P using Multiset.induction_on with
  | empty => exact ImageA.zero N
  | cons p P ih =>
    rw [Multiset.map_cons, Multiset.map_cons, Multiset.sum_cons, Multiset.sum_cons]
    exact (h p (Multiset.mem_cons_self _ _)).add (ih fun q hq => h q (Multiset.mem_cons_of_mem hq))

lemma ImageA.fsum {N : Pos} {ι : Type*} [DecidableEq ι] {f f' : ι → GAccum K} (P : Finset ι) (h : ∀ p ∈ P, ImageA N φ (f p) (f' p)) :
    ImageA N φ (∑ p ∈ P, f p) (∑ p ∈ P, f' p) := by
  induction P using Finset.induction_on with
  | empty => exact ImageA.zero N
  | insert p P hp ih =>
    rw [Finset.sum_insert hp, Finset.sum_insert hp]
    exact (h p (Finset.mem_insert_self _ _)).add (ih fun q hq => h q (Finset.mem_insert_of_mem hq))

lemma streakJ_turned (q : K) (mid disp : Fin 3 → K) (a : Fin 3) (i : Fin 4) :
    streakJ q (turned φ mid) (turned φ disp) (slot12 a i) = turn φ a * streakJ q mid disp (slot12 a (flipFour (φ (a + 1)) (φ (a + 2)) i)) := by
  rw [streakJ_axis, streakJ_axis]
  have hq : q * turned φ disp 0 * turned φ disp 1 * turned φ disp 2 * (1 / 3) =
      turn φ a * (turn φ (a + 1) * turn φ (a + 2)) * (q * disp 0 * disp 1 * disp 2 * (1 / 3)) := by
    rw [← sign_all]
    unfold turned
    ring
  unfold fourJ
  simp only [hq]
  generalize q * disp 0 * disp 1 * disp 2 * (1 / 3) = v
  unfold accumulateJ turned flipFour
  generalize (turn φ a : K) = t
  unfold turn
  cases φ (a + 1) <;> cases φ (a + 2) <;> fin_cases i <;> simp <;> ring

lemma put_image {N : Pos} {s : Pos} (hs : Site N s) {j j' : Fin 12 → K}
    (h : ∀ a i, j' (slot12 a i) = turn φ a * j (slot12 a (flipFour (φ (a + 1)) (φ (a + 2)) i))) :
    ImageA N φ (put s j) (put (image N φ middle s) j') := fun t ht a i => by
  unfold put
  have : t = image N φ middle s ↔ image N φ middle t = s := by
    constructor
    · rintro rfl
      exact image_image φ middle hs
    · rintro rfl
      exact (image_image φ middle ht).symm
  simp only [this, h]
  split_ifs
  · rfl
  · ring

lemma current_image {N : Pos} (m : Scales K) {A A' : GAccum K} (hA : ImageA N φ A A') (a : Fin 3) :
    Image N φ (inside (.jf a)) (turn φ a) (current N m A a) (current N m A' a) := fun s hs => by
  unfold current
  rw [hA s hs, hA _ (prev_site hs _), hA _ (prev_site hs _), hA _ (prev_site (prev_site hs _) _)]
  obtain ⟨e1, e2, e3, e4⟩ := cells_image (φ := φ) N a s
  rw [e1, e2, e3, e4]
  rw [show inside (.jf a) = inside (.e a) from rfl]
  generalize (turn φ a : K) = t
  unfold flipFour
  cases φ (a + 1) <;> cases φ (a + 2) <;> simp <;> ring

/-! ### The charge density -/

/-- Corners in the mirror. -/
def flipBits (φ : Fin 3 → Bool) : (Fin 3 → Fin 2) ≃ (Fin 3 → Fin 2) := Equiv.piCongrRight fun a => if φ a then Fin.revPerm else Equiv.refl _

lemma emod_neg_iff {n x s : ℤ} (hs : 0 ≤ s ∧ s < n) : x % n = s ↔ (-x) % n = (-s) % n := by
  constructor
  · intro h
    have h1 : x ≡ s [ZMOD n] := by
      rw [← h]
      exact (Int.mod_modEq _ _).symm
    exact h1.neg
  · intro h
    have h1 : -x ≡ -s [ZMOD n] := h
    have h2 := h1.neg
    rw [neg_neg, neg_neg] at h2
    rw [show x % n = s % n from h2, Int.emod_eq_of_lt hs.1 hs.2]

lemma share_image {N : Pos} (q8V : K) (p : GPart K) {s : Pos} (hs : Site N s) :
    share N q8V (p.mirrored N φ) s = share N q8V p (image N φ (inside .rhof) s) := by
  rw [share_bits, share_bits]
  refine Fintype.sum_equiv (flipBits φ) _ _ fun β => ?_
  have e2 : bitCorner N (p.mirrored N φ).cell β = s ↔ bitCorner N p.cell (flipBits φ β) = image N φ (inside .rhof) s := by
    rw [funext_iff, funext_iff]
    refine forall_congr' fun a => ?_
    unfold bitCorner GPart.mirrored image flipBits
    simp only [Equiv.piCongrRight_apply, Pi.map_apply, middle, inside]
    by_cases hf : φ a = true
    · simp only [hf, if_true, Fin.revPerm_apply]
      rw [Int.emod_add_emod, emod_neg_iff (hs a)]
      have : (-(-p.cell a - 1 + ((β a : ℕ) : ℤ))) = p.cell a + (((β a).rev : ℕ) : ℤ) := by
        have h2 : ∀ b : Fin 2, ((b.rev : ℕ) : ℤ) = 1 - ((b : ℕ) : ℤ) := by decide
        rw [h2]
        ring
      rw [this, sub_zero]
    · simp only [hf, if_false, Bool.false_eq_true, Equiv.refl_apply]
  have e3 : (∏ a, (if β a = 0 then 1 - (p.mirrored N φ).d a else 1 + (p.mirrored N φ).d a)) =
      ∏ a, (if flipBits φ β a = 0 then 1 - p.d a else 1 + p.d a) := by
    refine Finset.prod_congr rfl fun a _ => ?_
    unfold GPart.mirrored flipBits turn
    simp only [Equiv.piCongrRight_apply, Pi.map_apply]
    by_cases hf : φ a = true
    · simp only [hf, if_true, Fin.revPerm_apply]
      generalize β a = b
      fin_cases b <;> simp
      ring
    · simp only [hf, if_false, Bool.false_eq_true, Equiv.refl_apply, one_mul]
  simp only [e2, e3]
  rfl

lemma density_image (U : Universe K) {P P' : ℕ → Multiset (GPart K)} (h : ∀ id < U.nsp, P' id = (P id).map (GPart.mirrored U.N φ)) :
    Image U.N φ (inside .rhof) 1 (density U P) (density (U.mirrored φ) P') := fun s hs => by
  unfold density
  rw [one_mul]
  refine Finset.sum_congr rfl fun id hid => ?_
  rw [h id (Finset.mem_range.mp hid), Multiset.map_map]
  exact congrArg _ (Multiset.map_congr rfl fun p _ => share_image _ p hs)

/-! ### Walks -/

variable [LinearOrder K] [IsStrictOrderedRing K]

lemma turn_ne (φ : Fin 3 → Bool) (a : Fin 3) : (turn φ a : K) ≠ 0 := fun h => by
  have := turn_sq (K := K) φ a
  rw [h, zero_mul] at this
  exact zero_ne_one this

lemma sdir_turned {x : K} (h : x ≠ 0) (a : Fin 3) : sdir (turn φ a * x) = turn φ a * sdir x := by
  unfold turn
  split_ifs
  · unfold sdir
    rcases lt_or_gt_of_ne h with h | h
    · rw [if_pos (by linarith), if_neg (by linarith)]
      ring
    · rw [if_neg (by linarith), if_pos h]
      ring
  · simp only [one_mul]

lemma frac_turned (N : Pos) (p : GPart K) (disp : Fin 3 → K) (a : Fin 3) : frac (p.mirrored N φ) (turned φ disp) a = frac p disp a := by
  unfold frac GPart.mirrored turned twiceFrac
  simp only
  by_cases h : disp a = 0
  · rw [if_pos (by rw [h, mul_zero]), if_pos h]
  · rw [if_neg (mul_ne_zero (turn_ne φ a) h), if_neg h, sdir_turned h, ← mul_sub, mul_div_mul_left _ _ (turn_ne φ a)]

lemma halfOf_turned (disp : Fin 3 → K) (v : K) : halfOf (turned φ disp) v = turned φ (halfOf disp v) := by
  funext k
  unfold halfOf turned
  ring

lemma streakAt_image {N : Pos} (q : K) (p : GPart K) (hp : Site N p.cell) (disp : Fin 3 → K) (v : K) :
    ImageA N φ (streakAt q p disp v) (streakAt q (p.mirrored N φ) (turned φ disp) v) :=
  put_image hp fun a i => by
    rw [halfOf_turned]
    have := streakJ_turned (φ := φ) q (fun k => p.d k + halfOf disp v k) (halfOf disp v) a i
    rw [← turned_add] at this
    exact this

omit [LinearOrder K] [IsStrictOrderedRing K] in
lemma middle_next (N : Pos) (a : Fin 3) (s : Pos) : image N φ middle (next N a s) = if φ a then prev N a (image N φ middle s) else next N a (image N φ middle s) := by
  funext c
  by_cases hc : c = a
  · subst hc
    by_cases hf : φ c = true
    · simp only [hf, if_true, image, prev, next, middle]
      rw [Int.emod_sub_emod]
      apply Int.ModEq.eq
      have h1 : (s c + 1) % N c ≡ s c + 1 [ZMOD N c] := Int.mod_modEq _ _
      have h2 := (h1.neg).sub_right 1
      have e : -(s c + 1) - 1 = -s c - 1 - 1 := by ring
      rwa [e] at h2
    · simp only [hf, Bool.false_eq_true, if_false, image, next, if_true]
  · split_ifs <;> simp only [image, next, prev, hc, if_false]

omit [LinearOrder K] [IsStrictOrderedRing K] in
lemma middle_prev (N : Pos) (a : Fin 3) (s : Pos) : image N φ middle (prev N a s) = if φ a then next N a (image N φ middle s) else prev N a (image N φ middle s) := by
  funext c
  by_cases hc : c = a
  · subst hc
    by_cases hf : φ c = true
    · simp only [hf, if_true, image, prev, next, middle]
      rw [Int.emod_add_emod]
      apply Int.ModEq.eq
      have h1 : (s c - 1) % N c ≡ s c - 1 [ZMOD N c] := Int.mod_modEq _ _
      have h2 := (h1.neg).sub_right 1
      have e : -(s c - 1) - 1 = -s c - 1 + 1 := by ring
      rwa [e] at h2
    · simp only [hf, Bool.false_eq_true, if_false, image, prev, if_true]
  · split_ifs <;> simp only [image, next, prev, hc, if_false]

lemma beyond_image (N : Pos) (a : Fin 3) {x : K} (hx : x ≠ 0) (s : Pos) :
    beyond N a (decide (0 < turn φ a * x)) (image N φ middle s) = image N φ middle (beyond N a (decide (0 < x)) s) := by
  unfold beyond turn
  by_cases hf : φ a = true
  · rcases lt_or_gt_of_ne hx with h | h
    · have h1 : (0 : K) < -1 * x := by linarith
      have h2 : ¬ 0 < x := by linarith
      simp only [hf, if_true, decide_true, h1, h2, decide_false, Bool.false_eq_true, if_false, middle_prev]
    · have h1 : ¬ (0 : K) < -1 * x := by linarith
      simp only [hf, if_true, decide_true, h1, decide_false, Bool.false_eq_true, if_false, middle_next, gt_iff_lt.mp h]
  · simp only [hf, Bool.false_eq_true, if_false, one_mul]
    split_ifs
    · rw [middle_next, if_neg (by simpa using hf)]
    · rw [middle_prev, if_neg (by simpa using hf)]

lemma crossed_image (N : Pos) (p : GPart K) (disp : Fin 3 → K) (a : Fin 3) (h : frac p disp a < 2) :
    crossed N (p.mirrored N φ) (turned φ disp) a = (crossed N p disp a).mirrored N φ := by
  unfold crossed
  simp only [frac_turned, halfOf_turned]
  have hx := disp_ne h
  unfold GPart.mirrored
  simp only [GPart.mk.injEq, and_true, true_and]
  refine ⟨beyond_image N a hx p.cell, ?_⟩
  funext b
  by_cases hb : b = a
  · subst hb
    simp only [Function.update_self]
    rw [show turned φ disp b = turn φ b * disp b from rfl, sdir_turned hx]
    ring
  · simp only [Function.update_of_ne hb]
    unfold turned
    ring

lemma rest_turned (N : Pos) (p : GPart K) (disp : Fin 3 → K) (a : Fin 3) : rest (p.mirrored N φ) (turned φ disp) a = turned φ (rest p disp a) := by
  unfold rest
  rw [frac_turned, halfOf_turned]
  funext k
  unfold turned
  ring

omit [IsStrictOrderedRing K] in
lemma crossed_site {N : Pos} {p : GPart K} (hp : Site N p.cell) (disp : Fin 3 → K) (a : Fin 3) : Site N (crossed N p disp a).cell := by
  show Site N (beyond N a _ p.cell)
  unfold beyond
  split_ifs
  · exact next_site hp a
  · exact prev_site hp a

lemma Walk.image {N : Pos} {q : K} {n : ℕ} {p p1 : GPart K} {disp : Fin 3 → K} {A : GAccum K} (h : Walk N q n p disp p1 A) (hp : Site N p.cell) :
    Site N p1.cell ∧ ∃ A', Walk N q n (p.mirrored N φ) (turned φ disp) (p1.mirrored N φ) A' ∧ ImageA N φ A A' := by
  induction h with
  | @stop p disp h =>
    refine ⟨hp, _, ?_, streakAt_image q p hp disp 2⟩
    have := Walk.stop (N := N) (q := q) (p := p.mirrored N φ) (disp := turned φ disp) fun k => by
      rw [frac_turned]
      exact h k
    rw [halfOf_turned] at this
    have e : ({ p.mirrored N φ with d := fun k => (p.mirrored N φ).d k + (turned φ (halfOf disp 2) k + turned φ (halfOf disp 2) k) } : GPart K) =
        GPart.mirrored N φ { p with d := fun k => p.d k + (halfOf disp 2 k + halfOf disp 2 k) } := by
      unfold GPart.mirrored turned
      simp only [GPart.mk.injEq, and_true, true_and]
      funext k
      ring
    rw [e] at this
    exact this
  | @go n p disp p1 A a h1 h2 _ ih =>
    obtain ⟨s1, A', w, hA⟩ := ih (crossed_site hp disp a)
    refine ⟨s1, _, .go a (fun k => by rw [frac_turned, frac_turned]; exact h1 k) (by rw [frac_turned]; exact h2) (A := A') ?_, ?_⟩
    · rw [crossed_image N p disp a h2, rest_turned]
      exact w
    · rw [frac_turned]
      exact (streakAt_image q p hp disp _).add hA

omit [IsStrictOrderedRing K] in
lemma inBounds_turned (d : Fin 3 → K) : AdvanceP.inBounds (turned φ d) = AdvanceP.inBounds d := by
  have e : ∀ d : Fin 3 → K, AdvanceP.inBounds d = true ↔ ∀ a, d a ≤ 1 ∧ -d a ≤ 1 := fun d => by
    unfold AdvanceP.inBounds
    rw [decide_eq_true_eq, Fin.forall_fin_succ, Fin.forall_fin_succ, Fin.forall_fin_succ]
    simp only [Fin.succ_zero_eq_one, Fin.succ_one_eq_two, IsEmpty.forall_iff, and_true]
    tauto
  rw [Bool.eq_iff_iff, e, e]
  refine forall_congr' fun a => ?_
  unfold turned turn
  split_ifs
  · rw [neg_one_mul, neg_neg]
    exact and_comm
  · rw [one_mul]

lemma carry_image {N : Pos} {L : Law K} {fuel : ℕ} {p : GPart K} {u half : Fin 3 → K} {x : GPart K × GAccum K} (hp : Site N p.cell)
    (h : carry N L fuel p u half = some x) : Site N x.1.cell ∧
    ∃ A', carry N L fuel (p.mirrored N φ) (turned φ u) (turned φ half) = some (x.1.mirrored N φ, A') ∧ ImageA N φ x.2 A' := by
  unfold carry at h ⊢
  have en : (fun k => (p.mirrored N φ).d k + turned φ half k + turned φ half k) = turned φ fun k => p.d k + half k + half k := by
    funext k
    unfold GPart.mirrored turned
    ring
  rw [en, inBounds_turned]
  by_cases hb : AdvanceP.inBounds (fun k => p.d k + half k + half k) = true
  · rw [if_pos hb, Option.some.injEq] at h
    rw [if_pos hb, ← h]
    refine ⟨hp, _, rfl, put_image hp fun a i => ?_⟩
    have := streakJ_turned (φ := φ) (p.w * L.q) (fun k => p.d k + half k) half a i
    rw [← turned_add] at this
    exact this
  · rw [if_neg hb] at h ⊢
    obtain ⟨n, hn, w⟩ := walk_some (p1 := x.1) (A := x.2) fuel h
    obtain ⟨s1, A', w', hA⟩ := w.image (φ := φ) hp
    exact ⟨s1, A', w'.walk fuel hn, hA⟩

omit [LinearOrder K] [IsStrictOrderedRing K] in
lemma halfStep_turned (L : Law K) (u : Fin 3 → K) : halfStep L (turned φ u) = turned φ (halfStep L u) := by
  unfold halfStep
  rw [norm2_turned]
  funext k
  unfold turned
  ring

lemma push_image {N : Pos} {G G' : Fields K} (hG : ImageF N φ G G') {L : Law K} {fuel : ℕ} {p : GPart K} {x : GPart K × GAccum K}
    (hp : Site N p.cell) (h : push N (interpOf N G) L fuel p = some x) : Site N x.1.cell ∧
    ∃ A', push N (interpOf N G') L fuel (p.mirrored N φ) = some (x.1.mirrored N φ, A') ∧ ImageA N φ x.2 A' := by
  rw [push_eq] at h
  rw [push_eq]
  have hu : Boris.pushU L.rt L.qdt_2mc (interpOf N G' (p.mirrored N φ).cell) (p.mirrored N φ).d (p.mirrored N φ).u =
      turned φ (Boris.pushU L.rt L.qdt_2mc (interpOf N G p.cell) p.d p.u) := by
    have := pushU_image hG (image_site (φ := φ) (h := middle) hp) L.rt L.qdt_2mc p.d p.u
    rw [image_image φ middle hp] at this
    exact this
  rw [hu, halfStep_turned]
  generalize Boris.pushU L.rt L.qdt_2mc (interpOf N G p.cell) p.d p.u = u at h
  exact carry_image hp h

/-! ### Runs -/

/-- `x'` is the mirror image of `x`, and the particles are inside. -/
structure ImageX (φ : Fin 3 → Bool) (U : Universe K) (x x' : Box K) : Prop where
  parts : ∀ id < U.nsp, x'.parts id = (x.parts id).map (GPart.mirrored U.N φ)
  inside : ∀ id < U.nsp, InBox U.N (x.parts id)
  fields : ImageF U.N φ x.f x'.f

variable {U : Universe K} {V V' : Drive K} (hV : ∀ id, lawAt V' U.q id = lawAt V U.q id) (hrt : V'.rt = V.rt)
include hV hrt

lemma boxCycle_image {A : Settings} {step : ℤ} {x x' y y' : Box K} {l l' : List (Msg K)} (hx : ImageX φ U x x')
    (h : BoxCycle U V A step x y l) (h' : BoxCycle (U.mirrored φ) V' A step x' y' l') : ImageX φ U y y' ∧ l' = l := by
  obtain ⟨adv, a1, a2, a3⟩ := h.run
  obtain ⟨adv', b1, b2, b3⟩ := h'.run
  rw [hrt] at b3
  rw [show (U.mirrored φ).nsp = U.nsp from rfl] at b1 b2 b3
  rw [show (U.mirrored φ).N = U.N from rfl] at b1 b3
  rw [show (U.mirrored φ).sc = U.sc from rfl] at b3
  rw [show (U.mirrored φ).q = U.q from rfl] at b1
  have key : ∀ id < U.nsp, ∀ p ∈ x.parts id, Site U.N (adv id p).1.cell ∧
      adv' id (p.mirrored U.N φ) = ((adv id p).1.mirrored U.N φ, (adv' id (p.mirrored U.N φ)).2) ∧
      ImageA U.N φ (adv id p).2 (adv' id (p.mirrored U.N φ)).2 := by
    intro id hid p hp
    obtain ⟨s1, A', e, hA⟩ := push_image hx.fields (hx.inside id hid p hp) (a1 id hid p hp)
    have e' := b1 id hid (p.mirrored U.N φ) (by rw [hx.parts id hid]; exact Multiset.mem_map_of_mem _ hp)
    rw [hV id, e, Option.some.injEq] at e'
    rw [← e']
    exact ⟨s1, rfl, hA⟩
  have hp : ∀ id < U.nsp, y'.parts id = (y.parts id).map (GPart.mirrored U.N φ) := fun id hid => by
    rw [a2, b2, if_pos hid, if_pos hid, hx.parts id hid, Multiset.map_map, Multiset.map_map]
    exact Multiset.map_congr rfl fun p hp => by
      show (adv' id (p.mirrored U.N φ)).1 = _
      rw [(key id hid p hp).2.1]
      rfl
  have hin : ∀ id < U.nsp, InBox U.N (y.parts id) := fun id hid p hp => by
    rw [a2, if_pos hid, Multiset.mem_map] at hp
    obtain ⟨p0, h0, rfl⟩ := hp
    exact (key id hid p0 h0).1
  have hA : ImageA U.N φ (∑ id ∈ Finset.range U.nsp, ((x.parts id).map fun p => (adv id p).2).sum)
      (∑ id ∈ Finset.range U.nsp, ((x'.parts id).map fun p => (adv' id p).2).sum) := by
    refine ImageA.fsum _ fun id hid => ?_
    have hid := Finset.mem_range.mp hid
    rw [hx.parts id hid, Multiset.map_map]
    exact ImageA.msum _ fun p hp => (key id hid p hp).2.2
  obtain ⟨f1, f2⟩ := fieldStep_image U V.rt A step (current_image U.sc hA) (density_image U hp) hx.fields
  rw [← a3, ← b3] at f1 f2
  exact ⟨⟨hp, hin, f1⟩, f2⟩

lemma boxCycles_image {A : Settings} {i j : ℤ} {x x' y y' : Box K} {l l' : List (Msg K)} (hx : ImageX φ U x x')
    (h : BoxCycles U V A i x j y l) (h' : BoxCycles (U.mirrored φ) V' A i x' j y' l') : ImageX φ U y y' ∧ l' = l := by
  induction h generalizing y' l' with
  | refl =>
    cases h' with
    | refl => exact ⟨hx, rfl⟩
    | step h1 h2 => have := boxCycles_le h1; omega
  | @step j y1 y2 l1 l2 h1 h2 ih =>
    generalize hj : j + 1 = j' at h'
    cases h' with
    | refl => have := boxCycles_le h1; omega
    | @step j2 z1 _ k1 k2 g1 g2 =>
      obtain rfl : j = j2 := by omega
      obtain ⟨s, rfl⟩ := ih g1
      obtain ⟨s', rfl⟩ := boxCycle_image hV hrt s h2 g2
      exact ⟨s', rfl⟩

lemma boxBegin_image {x x' : Box K} (hx : ImageX φ U x x') :
    ImageX φ U (boxBegin U V x).1 (boxBegin (U.mirrored φ) V' x').1 ∧ (boxBegin (U.mirrored φ) V' x').2 = (boxBegin U V x).2 := by
  have hd := density_image U hx.parts
  have g1 := setB_image U hx.fields (marderB_image U hx.fields)
  have g2 := setT_image U g1 (J := fun a s => U.C.cvac * U.C.dt * curlH U.N U.C U.M (setB (marderBOf U.N U.C x.f) x.f) a s)
    (J' := fun a s => U.C.cvac * U.C.dt * curlH U.N U.C (U.mirrored φ).M (setB (marderBOf U.N U.C x'.f) x'.f) a s)
    fun a s hs => by
      simp only [curlH_image U g1 a s hs]
      rw [show inside (.tca a) = inside (.e a) from rfl]
      ring
  have g3 := setRho_image U g2 hd
  have g4 := setRhob_image U g3 (boundCharge_image U g3)
  have hE := gaussErr_image U g4
  have g5 := setE_image U g4 (marderE_image U g4 hE)
  unfold boxBegin beginFields
  rw [show (U.mirrored φ).nsp = U.nsp from rfl, show (U.mirrored φ).N = U.N from rfl, show (U.mirrored φ).C = U.C from rfl,
    show (U.mirrored φ).q = U.q from rfl]
  simp only [hrt, hV]
  refine ⟨⟨fun id hid => ?_, fun id hid p hp => ?_, g5⟩, ?_⟩
  · simp only [if_pos hid]
    rw [hx.parts id hid, Multiset.map_map, Multiset.map_map]
    exact Multiset.map_congr rfl fun p hp => by
      have hs := hx.inside id hid p hp
      have := uncenterU_image g5 (image_site (φ := φ) (h := middle) hs) V.rt (lawAt V U.q id).qdt_2mc p.d p.u
      rw [image_image φ middle hs] at this
      simp only [Function.comp, uncenter, GPart.mirrored, GPart.mk.injEq, true_and, and_true]
      exact this
  · simp only [if_pos hid, Multiset.mem_map] at hp
    obtain ⟨p0, h0, rfl⟩ := hp
    exact hx.inside id hid p0 h0
  · rw [rmsOf_image U V.rt (all_sq φ) (divB_image U hx.fields), rmsOf_image U V.rt (one_mul 1) hE]

end

end Verif.Global
