import Verif.Global.Perm

/-!
# No axis of a periodic box is special (C107): particles and runs
-/
namespace Verif.Global

open Grid MoveP Charge Torus Threads
open Field (Pos FC EntOn fieldExt vox MC)
open SfInterface (Scales unloadC)

section
variable {K : Type} [Field K]

/-! ### The push -/

lemma next_comm (N : Pos) (a b : Fin 3) (s : Pos) : next N a (next N b s) = next N b (next N a s) := by
  rcases eq_or_ne a b with rfl | h
  · rfl
  funext c
  unfold next
  rcases eq_or_ne c a with rfl | h1
  · simp [h]
  rcases eq_or_ne c b with rfl | h2
  · simp [h1]
  simp [h1, h2]

lemma prev_comm (N : Pos) (a b : Fin 3) (s : Pos) : prev N a (prev N b s) = prev N b (prev N a s) := by
  rcases eq_or_ne a b with rfl | h
  · rfl
  funext c
  unfold prev
  rcases eq_or_ne c a with rfl | h1
  · simp [h]
  rcases eq_or_ne c b with rfl | h2
  · simp [h1]
  simp [h1, h2]

lemma halfE_axis (N : Pos) (G : Fields K) (h : K) (s : Pos) (d : Fin 3 → K) (a : Fin 3) : Boris.halfE h (interpOf N G s) d a =
    h * ((edge4 N G a s mean4 + d (a + 1) * edge4 N G a s slope1) + d (a + 2) * (edge4 N G a s slope2 + d (a + 1) * edge4 N G a s mixed)) := by
  fin_cases a <;> rfl

lemma interpB_axis (N : Pos) (G : Fields K) (s : Pos) (d : Fin 3 → K) (a : Fin 3) : Boris.interpB (interpOf N G s) d a =
    1 / 2 * (G (.cb a) (next N a s) + G (.cb a) s) + d a * (1 / 2 * (G (.cb a) (next N a s) - G (.cb a) s)) := by
  fin_cases a <;> rfl

/-- The square of a vector. -/
def norm2 (u : Fin 3 → K) : K := u 0 * u 0 + (u 1 * u 1 + u 2 * u 2)

/-- The component along `a` of a vector product. -/
def cross (u b : Fin 3 → K) (a : Fin 3) : K := u (a + 1) * b (a + 2) - u (a + 2) * b (a + 1)

lemma rotate_axis (rt : K → K) (h : K) (u b : Fin 3 → K) : Boris.rotate rt h u b =
    let v0 := h / rt (1 + norm2 u)
    let v2 := (v0 * v0) * norm2 b
    let v3 := v0 * (1 + v2 * (1 / 3 + v2 * (2 / 15)))
    let v4 := v3 / (1 + norm2 b * (v3 * v3))
    fun a => u a + (v4 + v4) * cross (fun a => u a + v3 * cross u b a) b a := by
  funext a
  fin_cases a <;> rfl

variable (σ : Axes)

lemma norm2_moved (u : Fin 3 → K) : norm2 (moved σ u) = norm2 u := by
  have e : ∀ u : Fin 3 → K, norm2 u = ∑ a, u a * u a := fun u => by rw [Fin.sum_univ_three, norm2]; ring
  rw [e, e]
  exact sum_moved (K := K) σ fun b => by rw [moved_to]

lemma norm2_handed (u : Fin 3 → K) : norm2 (fun a => handed σ * u a) = norm2 u := by
  unfold norm2
  have := handed_sq (K := K) σ
  linear_combination (u 0 * u 0 + (u 1 * u 1 + u 2 * u 2)) * this

lemma cross_moved (u b : Fin 3 → K) (a : Fin 3) : cross (moved σ u) (fun a => handed σ * moved σ b a) (σ a) = cross u b a := by
  unfold cross
  rcases handed_cases (K := K) σ with ⟨h, e⟩ | ⟨h, e⟩ <;> simp only [(h a).1, (h a).2, moved_to, e] <;> ring

lemma moved_eq {V : Type*} {f : Fin 3 → V} {g : Fin 3 → V} (h : ∀ b, f (σ b) = g b) : f = moved σ g := by
  funext a
  obtain ⟨b, rfl⟩ := σ.surjective a
  rw [h, moved_to]

lemma rotate_moved (rt : K → K) (h : K) (u b : Fin 3 → K) :
    Boris.rotate rt h (moved σ u) (fun a => handed σ * moved σ b a) = moved σ (Boris.rotate rt h u b) := by
  refine moved_eq σ fun c => ?_
  rw [rotate_axis, rotate_axis]
  simp only [norm2_moved, norm2_handed, moved_to]
  congr 2
  rw [moved_eq σ (f := fun a => moved σ u a + _ * cross (moved σ u) (fun a => handed σ * moved σ b a) a) fun b' => by rw [moved_to, cross_moved],
    cross_moved]

lemma edge4_moved (N : Pos) (G : Fields K) (b : Fin 3) (s : Pos) :
    edge4 (moved σ N) (movedFields σ G) (σ b) s mean4 = edge4 N G b (moved σ.symm s) mean4 ∧
    edge4 (moved σ N) (movedFields σ G) (σ b) s mixed = edge4 N G b (moved σ.symm s) mixed ∧
    (((∀ a, σ a + 1 = σ (a + 1) ∧ σ a + 2 = σ (a + 2)) ∧
      edge4 (moved σ N) (movedFields σ G) (σ b) s slope1 = edge4 N G b (moved σ.symm s) slope1 ∧
      edge4 (moved σ N) (movedFields σ G) (σ b) s slope2 = edge4 N G b (moved σ.symm s) slope2) ∨
    ((∀ a, σ a + 1 = σ (a + 2) ∧ σ a + 2 = σ (a + 1)) ∧
      edge4 (moved σ N) (movedFields σ G) (σ b) s slope1 = edge4 N G b (moved σ.symm s) slope2 ∧
      edge4 (moved σ N) (movedFields σ G) (σ b) s slope2 = edge4 N G b (moved σ.symm s) slope1)) := by
  unfold edge4
  rcases handed_cases (K := K) σ with ⟨h, e⟩ | ⟨h, e⟩
  · simp only [(h b).1, (h b).2, movedE, next_moved]
    exact ⟨trivial, trivial, .inl ⟨h, trivial, trivial⟩⟩
  · simp only [(h b).1, (h b).2, movedE, next_moved]
    rw [next_comm N (b + 1) (b + 2)]
    unfold mean4 slope1 slope2 mixed
    exact ⟨by ring, by ring, .inr ⟨h, by ring, by ring⟩⟩

lemma halfE_moved (N : Pos) (G : Fields K) (h : K) (s : Pos) (d : Fin 3 → K) :
    Boris.halfE h (interpOf (moved σ N) (movedFields σ G) (moved σ s)) (moved σ d) = moved σ (Boris.halfE h (interpOf N G s) d) := by
  refine moved_eq σ fun b => ?_
  obtain ⟨e1, e2, e3⟩ := edge4_moved σ N G b (moved σ s)
  rw [moved_back] at e1 e2 e3
  rw [halfE_axis, halfE_axis, e1, e2]
  rcases e3 with ⟨g, e3, e4⟩ | ⟨g, e3, e4⟩ <;> rw [e3, e4, (g b).1, (g b).2, moved_to, moved_to] <;> ring

lemma interpB_moved (N : Pos) (G : Fields K) (s : Pos) (d : Fin 3 → K) :
    Boris.interpB (interpOf (moved σ N) (movedFields σ G) (moved σ s)) (moved σ d) =
      fun a => handed σ * moved σ (Boris.interpB (interpOf N G s) d) a := by
  funext a
  obtain ⟨b, rfl⟩ := σ.surjective a
  rw [moved_to, interpB_axis, interpB_axis, movedB, movedB, next_moved, moved_back, moved_to]
  ring

lemma moved_add (u h : Fin 3 → K) : (fun k => moved σ u k + moved σ h k) = moved σ fun k => u k + h k := rfl

lemma pushU_moved (N : Pos) (G : Fields K) (rt : K → K) (h : K) (s : Pos) (d u : Fin 3 → K) :
    Boris.pushU rt h (interpOf (moved σ N) (movedFields σ G) (moved σ s)) (moved σ d) (moved σ u) =
      moved σ (Boris.pushU rt h (interpOf N G s) d u) := by
  unfold Boris.pushU
  simp only [halfE_moved, interpB_moved, moved_add, rotate_moved]

lemma uncenterU_moved (N : Pos) (G : Fields K) (rt : K → K) (h : K) (s : Pos) (d u : Fin 3 → K) :
    Boris.uncenterU rt h (interpOf (moved σ N) (movedFields σ G) (moved σ s)) (moved σ d) (moved σ u) =
      moved σ (Boris.uncenterU rt h (interpOf N G s) d u) := by
  unfold Boris.uncenterU
  simp only [halfE_moved, interpB_moved, moved_add, rotate_moved]

/-! ### Currents -/

/-- The four currents along an axis after the exchange. -/
def movedFour (i : Fin 4) : Fin 4 := if ∀ a, σ (a + 1) = σ a + 1 then i else ![0, 2, 1, 3] i

/-- The twelve currents of a cell after the exchange. -/
def movedSlot (k : Fin 12) : Fin 12 := slot12 (σ.symm ⟨k.1 / 4, by omega⟩) (movedFour σ ⟨k.1 % 4, by omega⟩)

/-- Currents after the exchange. -/
def movedAccum (A : GAccum K) : GAccum K := fun s k => A (moved σ.symm s) (movedSlot σ k)

lemma slot_cases (k : Fin 12) : ∃ a i, k = slot12 a i := by
  revert k
  decide

lemma movedSlot_to (a : Fin 3) (i : Fin 4) : movedSlot σ (slot12 (σ a) i) = slot12 a (movedFour σ i) := by
  unfold movedSlot
  have h1 : (⟨(slot12 (σ a) i).1 / 4, by have := (slot12 (σ a) i).2; omega⟩ : Fin 3) = σ a := by
    ext
    show (4 * (σ a).1 + i.1) / 4 = _
    omega
  have h2 : (⟨(slot12 (σ a) i).1 % 4, by omega⟩ : Fin 4) = i := by
    ext
    show (4 * (σ a).1 + i.1) % 4 = _
    omega
  rw [h1, h2, Equiv.symm_apply_apply]

/-- The four currents along `a` of a streak. -/
def fourJ (q : K) (mid disp : Fin 3 → K) (a : Fin 3) : Fin 4 → K :=
  let r := accumulateJ q (disp a) (mid (a + 1)) (mid (a + 2)) (q * disp 0 * disp 1 * disp 2 * (1 / 3))
  ![r.1, r.2.1, r.2.2.1, r.2.2.2]

lemma streakJ_axis (q : K) (mid disp : Fin 3 → K) (a : Fin 3) (i : Fin 4) : streakJ q mid disp (slot12 a i) = fourJ q mid disp a i := by
  fin_cases a <;> fin_cases i <;> rfl

lemma inCellJ_streakJ (q : K) (mid disp : Fin 3 → K) : AdvanceP.inCellJ q mid disp = streakJ q mid disp := rfl

lemma streakJ_moved (q : K) (mid disp : Fin 3 → K) (k : Fin 12) : streakJ q (moved σ mid) (moved σ disp) k = streakJ q mid disp (movedSlot σ k) := by
  obtain ⟨c, i, rfl⟩ := slot_cases k
  obtain ⟨a, rfl⟩ := σ.surjective c
  rw [movedSlot_to, streakJ_axis, streakJ_axis]
  have hp : moved σ disp 0 * moved σ disp 1 * moved σ disp 2 = disp 0 * disp 1 * disp 2 := by
    have : ∏ a, moved σ disp a = ∏ a, disp a := Equiv.prod_comp σ.symm disp
    rwa [Fin.prod_univ_three, Fin.prod_univ_three] at this
  have hq : q * moved σ disp 0 * moved σ disp 1 * moved σ disp 2 * (1 / 3) = q * disp 0 * disp 1 * disp 2 * (1 / 3) := by
    linear_combination (q * (1 / 3)) * hp
  unfold fourJ movedFour
  simp only [hq, moved_to]
  rcases axes_cases σ with ⟨h, e⟩ | ⟨h, e⟩
  · simp only [(h a).1, (h a).2, moved_to, if_pos e]
  · simp only [(h a).1, (h a).2, moved_to, if_neg e]
    unfold accumulateJ
    fin_cases i <;> simp <;> ring

lemma put_moved (s : Pos) {j j' : Fin 12 → K} (h : ∀ k, j' k = j (movedSlot σ k)) : put (moved σ s) j' = movedAccum σ (put s j) := by
  funext t k
  unfold put movedAccum
  have : t = moved σ s ↔ moved σ.symm t = s := by
    rw [← moved_inj σ.symm, moved_back]
  simp only [this, h]

lemma unloadC_axis (m : Scales K) (a : Fin 3) : unloadC m a = 1 / 4 * m.rd (a + 1) * m.rd (a + 2) / m.dt := by
  fin_cases a <;> rfl

lemma current_moved (U : Universe K) (A : GAccum K) (b : Fin 3) (s : Pos) :
    current (U.moved σ).N (U.moved σ).sc (movedAccum σ A) (σ b) s = current U.N U.sc A b (moved σ.symm s) := by
  unfold current
  rw [unloadC_axis, unloadC_axis]
  have hN : (U.moved σ).N = moved σ U.N := rfl
  have hS : (U.moved σ).sc.rd = moved σ U.sc.rd := rfl
  have hS' : (U.moved σ).sc.dt = U.sc.dt := rfl
  rw [hN, hS, hS']
  unfold movedAccum
  simp only [movedSlot_to]
  unfold movedFour
  rcases axes_cases σ with ⟨h, e⟩ | ⟨h, e⟩
  · simp only [(h b).1, (h b).2, moved_to, if_pos e, prev_moved]
  · simp only [(h b).1, (h b).2, moved_to, if_neg e, prev_moved]
    rw [prev_comm U.N (b + 1) (b + 2)]
    simp
    ring

/-! ### The charge density -/

/-- Corner of a cell, one bit per axis. -/
def bitCorner (N s : Pos) (β : Fin 3 → Fin 2) : Pos := fun a => (s a + ((β a : ℕ) : ℤ)) % N a

lemma share_bits (N : Pos) (q8V : K) (p : GPart K) (s : Pos) : share N q8V p s =
    ∑ β : Fin 3 → Fin 2, (if bitCorner N p.cell β = s then 1 else 0) * (p.w * q8V * ∏ a, (if β a = 0 then 1 - p.d a else 1 + p.d a)) := by
  unfold share
  symm
  refine Fintype.sum_equiv finFunctionFinEquiv _ _ fun β => ?_
  have hb : ∀ β : Fin 3 → Fin 2, ∀ a : Fin 3, (finFunctionFinEquiv β).1 / 2 ^ a.1 % 2 = (β a).1 := by decide
  have hc : corner N p.cell (finFunctionFinEquiv β) = bitCorner N p.cell β := by
    funext a
    unfold corner bitCorner
    rw [hb]
  rw [hc]
  congr 1
  rw [Fin.prod_univ_three]
  have hβ : β = ![β 0, β 1, β 2] := by funext a; fin_cases a <;> rfl
  generalize β 0 = x at hβ
  generalize β 1 = y at hβ
  generalize β 2 = z at hβ
  subst hβ
  unfold Deposit.triWeights Deposit.FMA Deposit.FNMS
  have e : ∀ x y z : Fin 2, finFunctionFinEquiv (![x, y, z] : Fin 3 → Fin 2) = (⟨x.1 + 2 * y.1 + 4 * z.1, by omega⟩ : Fin 8) := by decide
  rw [e]
  fin_cases x <;> fin_cases y <;> fin_cases z <;> simp <;> ring

lemma share_moved (N : Pos) (q8V : K) (p : GPart K) (s : Pos) : share (moved σ N) q8V (p.moved σ) s = share N q8V p (moved σ.symm s) := by
  rw [share_bits, share_bits]
  refine Fintype.sum_equiv (Equiv.arrowCongr σ.symm (Equiv.refl _)) _ _ fun β => ?_
  have e1 : ((Equiv.arrowCongr σ.symm (Equiv.refl (Fin 2))) β) = moved σ.symm β := by
    funext a
    simp [moved, Equiv.arrowCongr]
  rw [e1]
  have e2 : bitCorner (moved σ N) (p.moved σ).cell β = s ↔ bitCorner N p.cell (moved σ.symm β) = moved σ.symm s := by
    rw [← moved_inj σ.symm]
    have : moved σ.symm (bitCorner (moved σ N) (p.moved σ).cell β) = bitCorner N p.cell (moved σ.symm β) := by
      funext a
      simp [moved, bitCorner, GPart.moved]
    rw [this]
  have e3 : (∏ a, (if β a = 0 then 1 - (p.moved σ).d a else 1 + (p.moved σ).d a)) =
      ∏ a, (if moved σ.symm β a = 0 then 1 - p.d a else 1 + p.d a) := by
    rw [← Equiv.prod_comp σ]
    refine Finset.prod_congr rfl fun a _ => ?_
    simp only [moved, GPart.moved, Equiv.symm_apply_apply, Equiv.symm_symm]
    congr
  simp only [e2, e3]
  rfl

lemma density_moved (U : Universe K) (P : ℕ → Multiset (GPart K)) (s : Pos) :
    density (U.moved σ) (fun id => (P id).map (GPart.moved σ)) s = density U P (moved σ.symm s) := by
  unfold density
  refine Finset.sum_congr rfl fun id _ => ?_
  rw [Multiset.map_map]
  exact congrArg _ (Multiset.map_congr rfl fun p _ => share_moved σ U.N _ p s)

/-! ### Walks -/

variable [LinearOrder K]

lemma frac_moved (p : GPart K) (disp : Fin 3 → K) (a : Fin 3) : frac (p.moved σ) (moved σ disp) (σ a) = frac p disp a := by
  unfold frac GPart.moved
  simp only [moved_to]

lemma halfOf_moved (disp : Fin 3 → K) (v : K) : halfOf (moved σ disp) v = moved σ (halfOf disp v) := rfl

lemma streakAt_moved (q : K) (p : GPart K) (disp : Fin 3 → K) (v : K) :
    streakAt q (p.moved σ) (moved σ disp) v = movedAccum σ (streakAt q p disp v) :=
  put_moved σ _ fun k => by
    rw [halfOf_moved]
    exact streakJ_moved σ q (fun k => p.d k + halfOf disp v k) (halfOf disp v) k

lemma beyond_moved (N : Pos) (a : Fin 3) (up : Bool) (s : Pos) : beyond (moved σ N) (σ a) up (moved σ s) = moved σ (beyond N a up s) := by
  unfold beyond
  rw [← moved_inj σ.symm, moved_back]
  split_ifs
  · rw [next_moved, moved_back]
  · rw [prev_moved, moved_back]

lemma crossed_moved (N : Pos) (p : GPart K) (disp : Fin 3 → K) (a : Fin 3) :
    crossed (moved σ N) (p.moved σ) (moved σ disp) (σ a) = (crossed N p disp a).moved σ := by
  unfold crossed
  simp only [frac_moved, moved_to, halfOf_moved]
  unfold GPart.moved
  simp only [GPart.mk.injEq, beyond_moved, true_and, and_true]
  refine moved_eq σ fun b => ?_
  by_cases h : b = a
  · subst h
    simp only [Function.update_self]
  · rw [Function.update_of_ne h, Function.update_of_ne (fun e => h (σ.injective e))]
    simp only [moved_to]

lemma rest_moved (p : GPart K) (disp : Fin 3 → K) (a : Fin 3) : rest (p.moved σ) (moved σ disp) (σ a) = moved σ (rest p disp a) := by
  unfold rest
  rw [frac_moved, halfOf_moved]
  rfl

lemma movedAccum_add (A B : GAccum K) : movedAccum σ (A + B) = movedAccum σ A + movedAccum σ B := rfl

lemma Walk.moved {N : Pos} {q : K} {n : ℕ} {p p1 : GPart K} {disp : Fin 3 → K} {A : GAccum K} (h : Walk N q n p disp p1 A) :
    Walk (Global.moved σ N) q n (p.moved σ) (Global.moved σ disp) (p1.moved σ) (movedAccum σ A) := by
  induction h with
  | @stop p disp h =>
    have := Walk.stop (N := Global.moved σ N) (q := q) (p := p.moved σ) (disp := Global.moved σ disp) fun k => by
      obtain ⟨a, rfl⟩ := σ.surjective k
      rw [frac_moved]
      exact h a
    rw [streakAt_moved] at this
    exact this
  | @go n p disp p1 A a h1 h2 _ ih =>
    rw [movedAccum_add, ← streakAt_moved, ← frac_moved σ]
    refine .go (σ a) (fun k => ?_) (by rw [frac_moved]; exact h2) ?_
    · obtain ⟨b, rfl⟩ := σ.surjective k
      rw [frac_moved, frac_moved]
      exact h1 b
    · rw [crossed_moved, rest_moved]
      exact ih

/-- The constants of the push of one species after the exchange. -/
def Law.moved (L : Law K) : Law K := { L with cdt_d := Global.moved σ L.cdt_d }

/-- What one particle does, after the exchange. -/
def movedResult (x : GPart K × GAccum K) : GPart K × GAccum K := (x.1.moved σ, movedAccum σ x.2)

lemma inBounds_moved (d : Fin 3 → K) : AdvanceP.inBounds (moved σ d) = AdvanceP.inBounds d := by
  have e : ∀ d : Fin 3 → K, AdvanceP.inBounds d = true ↔ ∀ a, d a ≤ 1 ∧ -d a ≤ 1 := fun d => by
    unfold AdvanceP.inBounds
    rw [decide_eq_true_eq, Fin.forall_fin_succ, Fin.forall_fin_succ, Fin.forall_fin_succ]
    simp only [Fin.succ_zero_eq_one, Fin.succ_one_eq_two, IsEmpty.forall_iff, and_true]
    tauto
  rw [Bool.eq_iff_iff, e, e]
  constructor
  · intro h a
    have := h (σ a)
    rwa [moved_to] at this
  · intro h a
    exact h (σ.symm a)

/-- Half the displacement of a step, in units of half cells. -/
def halfStep (L : Law K) (u : Fin 3 → K) : Fin 3 → K := fun k => u k * L.cdt_d k * (1 / L.rt (1 + norm2 u))

/-- The motion of a particle with the new momentum `u` over twice `half`. -/
def carry (N : Pos) (L : Law K) (fuel : ℕ) (p : GPart K) (u half : Fin 3 → K) : Option (GPart K × GAccum K) :=
  if AdvanceP.inBounds (fun k => p.d k + half k + half k) then
    some ({ p with d := fun k => p.d k + half k + half k, u := u }, put p.cell (AdvanceP.inCellJ (p.w * L.q) (fun k => p.d k + half k) half))
  else walk N (L.q * p.w) fuel { p with u := u } half

variable [IsStrictOrderedRing K]

lemma walk_moved {N : Pos} {q : K} {fuel : ℕ} {p : GPart K} {disp : Fin 3 → K} {x : GPart K × GAccum K} (h : walk N q fuel p disp = some x) :
    walk (moved σ N) q fuel (p.moved σ) (moved σ disp) = some (movedResult σ x) := by
  obtain ⟨n, hn, w⟩ := walk_some (p1 := x.1) (A := x.2) fuel h
  exact (w.moved σ).walk fuel hn

omit [IsStrictOrderedRing K] in
/-- What `push` does once the momentum is known. -/
lemma push_eq (N : Pos) (fi : Pos → Boris.Interp K) (L : Law K) (fuel : ℕ) (p : GPart K) : push N fi L fuel p =
    carry N L fuel p (Boris.pushU L.rt L.qdt_2mc (fi p.cell) p.d p.u) (halfStep L (Boris.pushU L.rt L.qdt_2mc (fi p.cell) p.d p.u)) := rfl

lemma carry_moved {N : Pos} {L : Law K} {fuel : ℕ} {p : GPart K} {u half : Fin 3 → K} {x : GPart K × GAccum K}
    (h : carry N L fuel p u half = some x) :
    carry (moved σ N) (L.moved σ) fuel (p.moved σ) (moved σ u) (moved σ half) = some (movedResult σ x) := by
  unfold carry at h ⊢
  have en : (fun k => (p.moved σ).d k + moved σ half k + moved σ half k) = moved σ fun k => p.d k + half k + half k := rfl
  rw [en, inBounds_moved]
  by_cases hb : AdvanceP.inBounds (fun k => p.d k + half k + half k) = true
  · rw [if_pos hb, Option.some.injEq] at h
    rw [if_pos hb, ← h]
    refine congrArg some (Prod.ext rfl (put_moved σ p.cell fun k => ?_))
    exact streakJ_moved σ (p.w * L.q) (fun k => p.d k + half k) half k
  · rw [if_neg hb] at h ⊢
    exact walk_moved σ h

lemma push_moved {N : Pos} {G : Fields K} {L : Law K} {fuel : ℕ} {p : GPart K} {x : GPart K × GAccum K}
    (h : push N (interpOf N G) L fuel p = some x) :
    push (moved σ N) (interpOf (moved σ N) (movedFields σ G)) (L.moved σ) fuel (p.moved σ) = some (movedResult σ x) := by
  rw [push_eq] at h ⊢
  have hu : Boris.pushU (L.moved σ).rt (L.moved σ).qdt_2mc (interpOf (moved σ N) (movedFields σ G) (p.moved σ).cell) (p.moved σ).d (p.moved σ).u =
    moved σ (Boris.pushU L.rt L.qdt_2mc (interpOf N G p.cell) p.d p.u) := pushU_moved σ N G L.rt L.qdt_2mc p.cell p.d p.u
  rw [hu]
  generalize Boris.pushU L.rt L.qdt_2mc (interpOf N G p.cell) p.d p.u = u at h
  have hh : halfStep (L.moved σ) (moved σ u) = moved σ (halfStep L u) := by
    unfold halfStep
    rw [norm2_moved]
    rfl
  rw [hh]
  exact carry_moved σ h

/-! ### Runs -/

lemma boxCycle_moved {U : Universe K} {V : Drive K} {A : Settings} {step : ℤ} {x y : Box K} {l : List (Msg K)}
    (h : BoxCycle U V A step x y l) : BoxCycle (U.moved σ) (driveMoved σ V) A step (x.moved σ) (y.moved σ) l := by
  obtain ⟨adv, a1, a2, a3⟩ := h.run
  have hid : ∀ p : GPart K, (p.moved σ).moved σ.symm = p := fun p => by unfold GPart.moved; simp only [moved_back]
  refine ⟨h.go, fun id p => movedResult σ (adv id (p.moved σ.symm)), fun id hd p hp => ?_, fun id => ?_, ?_⟩
  · obtain ⟨p, hp', rfl⟩ := Multiset.mem_map.mp hp
    have e := push_moved σ (a1 id hd p hp')
    rw [show (U.moved σ).N = moved σ U.N from rfl, show (x.moved σ).f = movedFields σ x.f from rfl,
      show lawAt (driveMoved σ V) (U.moved σ).q id = (lawAt V U.q id).moved σ from rfl, e]
    simp only [hid]
  · show (y.parts id).map _ = _
    rw [a2 id]
    show _ = if id < U.nsp then _ else _
    split_ifs
    · unfold Box.moved
      simp only [Multiset.map_map]
      exact Multiset.map_congr rfl fun p _ => by simp only [Function.comp, hid]; rfl
    · rfl
  · have e : (∑ id ∈ Finset.range U.nsp, (((x.moved σ).parts id).map fun p => (movedResult σ (adv id (p.moved σ.symm))).2).sum) =
        movedAccum σ (∑ id ∈ Finset.range U.nsp, ((x.parts id).map fun p => (adv id p).2).sum) := by
      let φ : GAccum K →+ GAccum K := ⟨⟨movedAccum σ, rfl⟩, fun A B => rfl⟩
      show _ = φ (∑ id ∈ Finset.range U.nsp, ((x.parts id).map fun p => (adv id p).2).sum)
      rw [map_sum]
      refine Finset.sum_congr rfl fun id _ => ?_
      rw [map_multiset_sum, Multiset.map_map]
      unfold Box.moved
      rw [Multiset.map_map]
      exact congrArg _ (Multiset.map_congr rfl fun p _ => by simp only [Function.comp, hid]; rfl)
    have := fieldStep_moved σ U V.rt A step (J := current U.N U.sc (∑ id ∈ Finset.range U.nsp, ((x.parts id).map fun p => (adv id p).2).sum))
      (current_moved σ U _) (density_moved σ U y.parts) x.f
    rw [← a3, ← e] at this
    exact this.symm

lemma boxCycles_moved {U : Universe K} {V : Drive K} {A : Settings} {i j : ℤ} {x y : Box K} {l : List (Msg K)}
    (h : BoxCycles U V A i x j y l) : BoxCycles (U.moved σ) (driveMoved σ V) A i (x.moved σ) j (y.moved σ) l := by
  induction h with
  | refl => exact .refl _ _
  | step _ h2 ih => exact .step ih (boxCycle_moved σ h2)

omit [LinearOrder K] [IsStrictOrderedRing K] in
lemma boxBegin_moved (U : Universe K) (V : Drive K) (x : Box K) :
    boxBegin (U.moved σ) (driveMoved σ V) (x.moved σ) = ((boxBegin U V x).1.moved σ, (boxBegin U V x).2) := by
  unfold boxBegin
  have e := beginFields_moved σ U (density_moved σ U x.parts) x.f
  simp only
  rw [show (x.moved σ).f = movedFields σ x.f from rfl, show (x.moved σ).parts = fun id => (x.parts id).map (GPart.moved σ) from rfl, e]
  refine Prod.ext ?_ ?_
  · simp only [Box.moved, Box.mk.injEq, and_true]
    refine funext fun id => ?_
    show (if id < U.nsp then _ else _) = _
    split_ifs
    · rw [Multiset.map_map, Multiset.map_map]
      refine Multiset.map_congr rfl fun p _ => ?_
      unfold uncenter GPart.moved
      simp only [Function.comp, GPart.mk.injEq, true_and, and_true]
      exact uncenterU_moved σ U.N _ V.rt _ p.cell p.d p.u
    · rfl
  · simp only
    rw [rmsOf_moved σ U _ (E := divBAt U.N U.C x.f) fun s => by rw [divB_moved, mul_pow, sq (handed σ), handed_sq, one_mul],
      rmsOf_moved σ U _ (E := gaussErr U.N U.C U.M (beginFields U (density U x.parts) x.f).1) fun s => by rw [gaussErr_moved]]
    rfl

end

end Verif.Global
