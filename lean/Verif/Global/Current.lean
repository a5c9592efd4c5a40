import Verif.Global.Load

/-!
# The current density of the box
-/
namespace Verif.Global

open Grid MoveP Charge Torus Threads
open Field (Pos FC FMem World CellOn EdgeOn FaceOn EntOn NodeOn InArray fieldExt vox dims up dn copies ranksOf coordOf boxSet topOf
  mem_boxSet)
open Boundary (Rank Env Species live ids)
open SfInterface (Scales unloadC unloadAt)

section
variable {K : Type} {S : Type*} [Field K] [LinearOrder K] [IsStrictOrderedRing K]

/-- Steps back along some axes. -/
def back (N : Pos) (o : Pos) (s : Pos) : Pos := fun b => (s b - o b) % N b

variable {n : ℕ} {D : Decomp} (hD : D.ok n = true) (t0 : ℕ → ℤ → ℤ) {F : World K n}
  (hg : ∀ r : Fin n, gridOf D n t0 r = some (F r).g)
include hD hg

lemma site_of (x : Fin n × Pos) : Site (Torus.sizeOf D) (siteAt D x.1 x.2) := fun a => site_range hD x.1 x.2 a

open Classical in
/-- One of the four currents along an edge, summed over the copies of the edge on one rank. -/
lemma offset_sum (r : Fin n) {A : Accum K} (ht : Tidy (F r).g A) (a : Fin 3) (o : Pos) (ho : ∀ b, o b = 0 ∨ (o b = 1 ∧ b ≠ a))
    {s : Pos} (hs : Site (Torus.sizeOf D) s) (k : Fin 12) :
    ∑ c ∈ boxSet (fun _ => 1) (topOf (F r).g fieldExt (.jf a)),
      (if ∀ b, siteAt D r c b = s b then 1 else 0) * A (vox (F r).g fun b => c b - o b) k =
    spread D r (F r).g A (back (Torus.sizeOf D) o s) k := by
  have hdim : dims (F r).g = Charge.cellsOf D := dims_cells hD t0 hg r
  have hmem : ∀ c, c ∈ boxSet (fun _ => 1) (topOf (F r).g fieldExt (.jf a)) ↔ EdgeOn (F r).g a c := by
    intro c
    rw [mem_boxSet]
    refine forall_congr' fun b => ?_
    unfold topOf
    by_cases hb : b = a <;> simp [fieldExt, hb]
  have hcell : ∀ d, d ∈ boxSet (fun _ => 1) (dims (F r).g) ↔ CellOn (F r).g d := fun d => mem_boxSet
  have tidy : ∀ v, A v k ≠ 0 → ∃ d, CellOn (F r).g d ∧ v = vox (F r).g d := by
    intro v hv
    obtain ⟨c, ⟨b1, b2, b3, b4, b5, b6⟩, e⟩ := ht v k hv
    refine ⟨![c.x, c.y, c.z], fun b => ?_, e⟩
    fin_cases b <;> simp [dims] <;> omega
  have voxadd : ∀ d : Pos, vox (F r).g (fun b => d b + o b - o b) = vox (F r).g d := fun d => by
    congr 1; funext b; ring
  have sh : ∀ d : Pos, (∀ b, siteAt D r (fun b => d b + o b) b = s b) ↔ siteAt D r d = back (Torus.sizeOf D) o s := by
    intro d
    constructor
    · intro h
      funext b
      unfold back
      rw [← h b]
      unfold siteAt Torus.sizeOf
      rw [Int.emod_sub_emod]
      congr 1
      ring
    · intro h b
      have e := congrFun h b
      have hb := hs b
      unfold back at e
      have : siteAt D r (fun b => d b + o b) b = (siteAt D r d b + o b) % Torus.sizeOf D b := by
        unfold siteAt Torus.sizeOf
        rw [Int.emod_add_emod]
        congr 1
        ring
      rw [this, e, Int.emod_add_emod, sub_add_cancel, Int.emod_eq_of_lt hb.1 hb.2]
  have right : spread D r (F r).g A (back (Torus.sizeOf D) o s) k =
      ∑ d ∈ boxSet (fun _ => 1) (dims (F r).g), if siteAt D r d = back (Torus.sizeOf D) o s then A (vox (F r).g d) k else 0 := by
    unfold spread
    rw [sum_reindex (boxSet (fun _ => 1) (dims (F r).g)) (vox (F r).g)]
    · refine Finset.sum_congr rfl fun d hd => ?_
      have hd' := (hcell d).mp hd
      rw [posOf_vox hD t0 hg r hd'.inArray]
      refine if_congr ⟨fun h => h.2, fun h => ⟨fun b => ?_, h⟩⟩ rfl rfl
      rw [← hdim]
      exact hd' b
    · intro c hc d hd e
      exact Field.vox_inj ((hcell c).mp hc).inArray ((hcell d).mp hd).inArray e
    · intro c hc
      exact vox_range hD t0 hg r ((hcell c).mp hc).inArray
    · intro v _ _ hv
      have : A v k ≠ 0 := fun h => hv (by rw [h]; simp)
      obtain ⟨d, h1, h2⟩ := tidy v this
      exact ⟨d, (hcell d).mpr h1, h2⟩
  rw [right]
  have inj : Set.InjOn (fun d : Pos => (fun b => d b + o b : Pos)) (boxSet (fun _ => 1) (dims (F r).g)) := by
    intro c _ d _ e
    funext b
    have := congrFun e b
    simpa using this
  have sub : (boxSet (fun _ => 1) (dims (F r).g)).image (fun d : Pos => (fun b => d b + o b : Pos)) ⊆
      boxSet (fun _ => 1) (topOf (F r).g fieldExt (.jf a)) := by
    intro c hc
    obtain ⟨d, hd, rfl⟩ := Finset.mem_image.mp hc
    refine (hmem _).mpr fun b => ?_
    have := (hcell d).mp hd b
    rcases ho b with h | ⟨h, h'⟩
    · simp only [h]; split <;> omega
    · rw [if_neg h']; simp only [h]; omega
  rw [← Finset.sum_subset sub, Finset.sum_image inj]
  · refine Finset.sum_congr rfl fun d _ => ?_
    rw [voxadd]
    by_cases h : siteAt D r d = back (Torus.sizeOf D) o s
    · rw [if_pos ((sh d).mpr h), if_pos h, one_mul]
    · rw [if_neg (fun h' => h ((sh d).mp h')), if_neg h, zero_mul]
  · intro c hc hn
    by_contra hne
    obtain ⟨d, h1, h2⟩ := tidy _ (right_ne_zero_of_mul hne)
    refine hn (Finset.mem_image.mpr ⟨d, (hcell d).mpr h1, ?_⟩)
    have hc' := (hmem c).mp hc
    have arr : InArray (F r).g (fun b => c b - o b) := by
      intro b
      have := hc' b
      rcases ho b with h | ⟨h, h'⟩
      · simp only [h]; split at this <;> omega
      · rw [if_neg h'] at this; simp only [h]; omega
    have e := Field.vox_inj arr h1.inArray h2
    funext b
    have : c b - o b = d b := congrFun e b
    show d b + o b = c b
    omega

lemma back_prev {s : Pos} (hs : Site (Torus.sizeOf D) s) (b : Fin 3) :
    back (Torus.sizeOf D) (fun c => if c = b then 1 else 0) s = prev (Torus.sizeOf D) b s := by
  funext c
  have := hs c
  unfold back prev
  by_cases h : c = b
  · simp only [h, if_true]
  · simp only [h, if_false]
    rw [sub_zero, Int.emod_eq_of_lt this.1 this.2]

lemma back_zero {s : Pos} (hs : Site (Torus.sizeOf D) s) : back (Torus.sizeOf D) (fun _ => 0) s = s := by
  funext c
  have := hs c
  unfold back
  rw [sub_zero, Int.emod_eq_of_lt this.1 this.2]

lemma back_two {s : Pos} (hs : Site (Torus.sizeOf D) s) (b d : Fin 3) (hbd : b ≠ d) :
    back (Torus.sizeOf D) (fun c => if c = b ∨ c = d then 1 else 0) s = prev (Torus.sizeOf D) b (prev (Torus.sizeOf D) d s) := by
  funext c
  have := hs c
  unfold back prev
  by_cases h1 : c = b
  · subst h1
    simp [hbd]
  · by_cases h2 : c = d
    · subst h2
      simp [h1]
    · simp only [h1, h2, or_self, if_false]
      rw [sub_zero, Int.emod_eq_of_lt this.1 this.2]

/-- The current density of a rank on an edge. -/
lemma unload_offsets (r : Fin n) (sc : Scales K) (A : Accum K) (a : Fin 3) (c : Pos) :
    unloadAt (F r).g (unloadC sc) A (vox (F r).g c) a = unloadC sc a * (A (vox (F r).g fun b => c b - 0) (slot12 a 0) +
      A (vox (F r).g fun b => c b - if b = a + 1 then 1 else 0) (slot12 a 1) +
      A (vox (F r).g fun b => c b - if b = a + 2 then 1 else 0) (slot12 a 2) +
      A (vox (F r).g fun b => c b - if b = a + 2 ∨ b = a + 1 then 1 else 0) (slot12 a 3)) := by
  have e : ∀ (i j : ℤ) (k k' : Fin 12), i = j → k = k' → A i k = A j k' := by rintro i j k k' rfl rfl; rfl
  unfold unloadAt
  fin_cases a <;> simp only [Fin.isValue, Fin.mk_zero, Fin.mk_one, Fin.reduceFinMk, Matrix.cons_val_zero, Matrix.cons_val_one,
    Matrix.cons_val] <;> (congr 1; congr 1; congr 1; congr 1) <;>
    · apply e
      · unfold vox VOXEL
        simp (decide := true) only [Fin.isValue, if_true, if_false, sub_zero]
        try ring
      · rfl

/-- The current density that `unload_accumulator_array` and `synchronize_jf` make of the accumulators. -/
lemma current_global (hS : Field.SameCells F D) {Rd : Distribute.Rounding} (hRd : Rd.Accurate) {P : ℕ} (hP : 0 < P)
    (hP2 : P ≤ 2 ^ 16) {sc : Scales K} {A : Fin n → Accum K} (ht : ∀ r, Tidy (F r).g (A r)) {m m' : Fin n → FMem K}
    (h : CurrentPhase F Rd P sc A m m') :
    (∀ G : Fields K, ∀ a, Holds D F m' (setJ (current (Torus.sizeOf D) sc (∑ r, spread D r (F r).g (A r))) G) (.jf a)) ∧
    ∀ r x, (∀ a, x.2 ≠ .jf a) → m' r x = m r x := by
  classical
  refine ⟨fun G a r c hc => ?_, (current_holds hD t0 hg hS hRd hP hP2 h).2⟩
  have hc' := Field.entOn_edge.2.2.mp hc
  have hs : Site (Torus.sizeOf D) (siteAt D r c) := site_of hD t0 hg (r, c)
  rw [current_value hD t0 hg hS Rd hRd P hP hP2 sc A m m' h a (r, c) hc',
    copies_sum hD t0 hg (.jf a) (r, c) (fun r c => unloadAt (F r).g (unloadC sc) (A r) (vox (F r).g c) a)]
  show _ = current (Torus.sizeOf D) sc _ a (siteAt D r c)
  unfold current
  rw [← back_two hD t0 hg hs (a + 2) (a + 1) (by fin_cases a <;> decide), ← back_prev hD t0 hg hs (a + 1),
    ← back_prev hD t0 hg hs (a + 2)]
  simp only [unload_offsets hD t0 hg, Finset.sum_apply]
  have off := fun (r' : Fin n) (o : Pos) (ho : ∀ b, o b = 0 ∨ (o b = 1 ∧ b ≠ a)) (k : Fin 12) =>
    offset_sum hD t0 hg r' (ht r') a o ho hs k
  have o0 := fun r' k => off r' (fun _ => 0) (fun b => .inl rfl) k
  have o1 := fun r' k => off r' (fun b => if b = a + 1 then 1 else 0) (fun b => by
    by_cases h : b = a + 1
    · right; subst h; exact ⟨by simp, by fin_cases a <;> decide⟩
    · left; simp [h]) k
  have o2 := fun r' k => off r' (fun b => if b = a + 2 then 1 else 0) (fun b => by
    by_cases h : b = a + 2
    · right; subst h; exact ⟨by simp, by fin_cases a <;> decide⟩
    · left; simp [h]) k
  have o3 := fun r' k => off r' (fun b => if b = a + 2 ∨ b = a + 1 then 1 else 0) (fun b => by
    by_cases h : b = a + 2 ∨ b = a + 1
    · right; refine ⟨by simp [h], ?_⟩; rcases h with rfl | rfl <;> fin_cases a <;> decide
    · left; simp only [h, if_false]) k
  simp only [back_zero hD t0 hg hs] at o0
  simp only [← o0, ← o1, ← o2, ← o3, ← Finset.sum_add_distrib, Finset.mul_sum]
  refine Finset.sum_congr rfl fun r' _ => ?_
  refine Finset.sum_congr rfl fun d _ => ?_
  ring

end

end Verif.Global
