import Verif.AdvanceP.Props

/-!
# A whole `advance_p` conserves charge

The charge density of all particles before and after `advance_p`, and the current unloaded from the
sum of all pipelines' accumulators, satisfy the discrete continuity equation.
-/
namespace Verif.AdvanceP

open MoveP Boris Grid Distribute Deposit SfInterface

/-! ## One particle -/

section One
variable {K : Type*} [Field K] [LinearOrder K] [IsStrictOrderedRing K]

lemma push_charge (A : Args K) (h : LocalMesh A.g) (m : Scales K) (hdt : m.dt ≠ 0)
    (hV : m.r8V = m.rd 0 * m.rd 1 * m.rd 2 * (1 / 8)) {J : Fin 3 → Bool} (hJ : JoinedOn A.g J)
    (p : MoveP.Part K) (c : Cell) (hc : c.Interior A.g.nx A.g.ny A.g.nz)
    (hi : p.i = VOXEL A.g.nx A.g.ny c.x c.y c.z) (hd : ∀ k, -1 ≤ p.d k ∧ p.d k ≤ 1)
    (p' : MoveP.Part K) (da : Accum K) (left : Option (Fin 3 → K))
    (hp : pushOne A p (fun _ _ => 0) = some (p', da, left)) :
    ∃ c' : Cell, c'.Interior A.g.nx A.g.ny A.g.nz ∧
      (if left.isSome then p'.i / 8 else p'.i) = VOXEL A.g.nx A.g.ny c'.x c'.y c'.z ∧
      p'.w = p.w ∧
      ∀ N, balance A.g m J N (VOXEL A.g.nx A.g.ny c'.x c'.y c'.z)
          (triWeights p'.d (p.w * (A.qsp * m.r8V))) da =
        balance A.g m J N p.i (triWeights p.d (p.w * (A.qsp * m.r8V))) fun _ _ => 0 := by
  unfold pushOne at hp
  by_cases hr : p.i < 0 ∨ nvox A.g ≤ p.i
  · rw [if_pos hr] at hp; cases hp
  rw [if_neg hr] at hp
  simp only at hp
  split_ifs at hp with hb
  · simp only [Option.some.injEq, Prod.mk.injEq] at hp
    obtain ⟨rfl, rfl, rfl⟩ := hp
    refine ⟨c, hc, by simpa using hi, rfl, fun N => ?_⟩
    rw [← hi]
    have := balance_streak A.g m hdt hV J N p.i A.qsp p.w p.d
      (normDisp A (pushU A.rt A.qdt_2mc (A.f0 p.i) p.d p.u)) fun _ _ => 0
    rw [← this]
    have e : (fun k => p.d k + normDisp A (pushU A.rt A.qdt_2mc (A.f0 p.i) p.d p.u) k +
        normDisp A (pushU A.rt A.qdt_2mc (A.f0 p.i) p.d p.u) k) = fun k => p.d k + 2 *
        normDisp A (pushU A.rt A.qdt_2mc (A.f0 p.i) p.d p.u) k := by funext k; ring
    rw [e, mul_comm p.w A.qsp]
    rfl
  · revert hp
    cases hm : moveP A.g A.qsp A.fuel ⟨{ p with u := pushU A.rt A.qdt_2mc (A.f0 p.i) p.d p.u },
        normDisp A (pushU A.rt A.qdt_2mc (A.f0 p.i) p.d p.u), fun _ _ => 0⟩ with
    | none => intro hp; cases hp
    | some r =>
      obtain ⟨b, s'⟩ := r
      intro hp
      obtain ⟨c', k1, k2, k3, k4⟩ := loop_charge h m hdt hV hJ A.qsp A.fuel _ c hc hi hd b s' hm
      rw [hi]
      cases b <;>
      · simp only [Option.some.injEq, Prod.mk.injEq] at hp
        obtain ⟨rfl, rfl, rfl⟩ := hp
        exact ⟨c', k1, by simpa using k2, k3, k4⟩

/-- A sufficient condition for a push to stay inside of the arrays and to terminate: the particle is
in an interior cell, and the displacement is at most `n` cells. -/
theorem push_ok (A : Args K) (h : LocalMesh A.g) (p : MoveP.Part K) (c : Cell)
    (hc : c.Interior A.g.nx A.g.ny A.g.nz) (hi : p.i = VOXEL A.g.nx A.g.ny c.x c.y c.z)
    (hd : ∀ k, -1 ≤ p.d k ∧ p.d k ≤ 1) (n : Fin 3 → ℕ)
    (hn : ∀ k, |normDisp A (pushU A.rt A.qdt_2mc (A.f0 p.i) p.d p.u) k| ≤ n k)
    (hf : n 0 + n 1 + n 2 < A.fuel) : ∃ p' left a', pushOne A p (fun _ _ => 0) = some (p', a', left) ∧
      ∀ k, -1 ≤ p'.d k ∧ p'.d k ≤ 1 := by
  have hrange := voxel_range h hc.inMesh
  rw [← hi] at hrange
  have hr : ¬ (p.i < 0 ∨ nvox A.g ≤ p.i) := by omega
  unfold pushOne
  rw [if_neg hr]
  simp only
  split_ifs with hb
  · refine ⟨_, _, _, rfl, ?_⟩
    simp only [inBounds, decide_eq_true_eq] at hb
    intro k
    fin_cases k
    · exact ⟨neg_le.mp hb.2.2.2.1, hb.1⟩
    · exact ⟨neg_le.mp hb.2.2.2.2.1, hb.2.1⟩
    · exact ⟨neg_le.mp hb.2.2.2.2.2, hb.2.2.1⟩
  · obtain ⟨b, s', C', walls, t, e, hm⟩ := move_p_trajectory A.g _ _ (localMesh_covers A.g h) A.qsp
      ⟨{ p with u := pushU A.rt A.qdt_2mc (A.f0 p.i) p.d p.u },
        normDisp A (pushU A.rt A.qdt_2mc (A.f0 p.i) p.d p.u), fun _ _ => 0⟩
      ![c.x - 1, c.y - 1, c.z - 1] trivial (by rw [wrappedVoxel_self hc]; exact hi) hd n hn A.fuel hf
    rw [e]
    cases b
    · exact ⟨_, _, _, rfl, hm.inCell⟩
    · exact ⟨_, _, _, rfl, hm.inCell⟩

/-- With a true square root no particle moves by more than `c dt / dx` cells (it is slower than
light), so the displacement bound of `push_ok` follows from the Courant numbers. -/
theorem normDisp_le (A : Args K) (hrt : ∀ x, 0 ≤ x → 0 ≤ A.rt x ∧ A.rt x * A.rt x = x)
    (u : Fin 3 → K) (k : Fin 3) : |normDisp A u k| ≤ |A.cdt_d k| := by
  have hx : (1 : K) ≤ 1 + (u 0 * u 0 + (u 1 * u 1 + u 2 * u 2)) := by
    nlinarith [mul_self_nonneg (u 0), mul_self_nonneg (u 1), mul_self_nonneg (u 2)]
  obtain ⟨h1, h2⟩ := hrt (1 + (u 0 * u 0 + (u 1 * u 1 + u 2 * u 2))) (by linarith)
  simp only [normDisp]
  set s := A.rt (1 + (u 0 * u 0 + (u 1 * u 1 + u 2 * u 2)))
  have hs : 0 < s := by
    rcases h1.lt_or_eq with h | h
    · exact h
    · rw [← h] at h2; linarith
  have hu : |u k| ≤ s := by
    apply abs_le_of_sq_le_sq _ h1
    have : u k ^ 2 ≤ u 0 * u 0 + (u 1 * u 1 + u 2 * u 2) := by
      fin_cases k <;> simp only [Fin.zero_eta, Fin.mk_one, Fin.reduceFinMk] <;>
        nlinarith [mul_self_nonneg (u 0), mul_self_nonneg (u 1), mul_self_nonneg (u 2)]
    rw [sq s, h2]; linarith
  rw [abs_mul, abs_mul, abs_div, abs_one, abs_of_pos hs, mul_one_div, div_le_iff₀ hs, mul_comm]
  exact mul_le_mul_of_nonneg_left hu (abs_nonneg _)

end One

/-! ## All particles -/

section All
variable {K : Type*} [Field K] [LinearOrder K] [IsStrictOrderedRing K]

/-- Charge density of one particle at node `n`. -/
def partCharge (g : LGrid) (q8V : K) (p : MoveP.Part K) (n : ℤ) : K :=
  nodeCharge g p.i (triWeights p.d (p.w * q8V)) n

lemma accumulateRhoP_eq (g : LGrid) (r8V q : K) (ps : List (MoveP.Part K))
    (h : ∀ p ∈ ps, 0 ≤ p.i ∧ p.i + nodeOff g 7 < nvox g) : ∀ r : ℤ → K,
    accumulateRhoP g r8V q ps r =
      some fun n => r n + (ps.map fun p => partCharge g (q * r8V) p n).sum := by
  induction ps with
  | nil => intro r; simp [accumulateRhoP]
  | cons p ps ih =>
    intro r
    simp only [accumulateRhoP, rhoP]
    rw [addNodes_eq _ _ (h p (by simp)), Option.bind_some, ih fun p hp => h p (by simp [hp])]
    congr 1
    funext n
    simp only [List.map_cons, List.sum_cons, partCharge]; ring

omit [LinearOrder K] [IsStrictOrderedRing K] in
lemma divJ_add (g : LGrid) (m : Scales K) (a b : Accum K) (n : ℤ) :
    divJ g m (addAcc a b) n = divJ g m a n + divJ g m b n := by
  simp only [divJ, unloadAt, addAcc, Matrix.cons_val_zero, Matrix.cons_val_one, Matrix.cons_val]
  ring

omit [LinearOrder K] [IsStrictOrderedRing K] in
lemma divJ_zero (g : LGrid) (m : Scales K) (n : ℤ) :
    divJ g m (fun _ _ => 0) n = 0 := by
  simp [divJ, unloadAt]

lemma divJ_sumAcc {K : Type} [Field K] (g : LGrid) (m : Scales K) (da : ℤ → Accum K) (l : List ℤ) (n : ℤ) :
    divJ g m (sumAcc da l) n = (l.map fun i => divJ g m (da i) n).sum := by
  induction l with
  | nil =>
    have : sumAcc da [] = fun _ _ => 0 := by funext v k; simp [sumAcc]
    rw [this, divJ_zero]; simp
  | cons i l ih =>
    have : sumAcc da (i :: l) = addAcc (da i) (sumAcc da l) := by
      funext v k; simp [sumAcc, addAcc]
    rw [this, divJ_add, ih]; simp

lemma sum_balance {ι : Type*} (S : Finset ℤ) (dt : K) (f f' d : ι → ℤ → K) (l : List ι)
    (h : ∀ i ∈ l, ∑ n ∈ S, ((f' i n - f i n) / dt + d i n) = 0) :
    ∑ n ∈ S, (((l.map fun i => f' i n).sum - (l.map fun i => f i n).sum) / dt +
      (l.map fun i => d i n).sum) = 0 := by
  induction l with
  | nil => simp
  | cons i l ih =>
    have h1 := h i (by simp)
    have h2 := ih fun i hi => h i (by simp [hi])
    refine Eq.trans ?_ ((congrArg₂ (· + ·) h1 h2).trans (add_zero (0 : K)))
    rw [← Finset.sum_add_distrib]
    refine Finset.sum_congr rfl fun n _ => ?_
    simp only [List.map_cons, List.sum_cons]; ring

end All

variable {K : Type} [Field K] [LinearOrder K] [IsStrictOrderedRing K]

/-- Spec: the sum of the accumulators of the host and of all pipelines. -/
def totalAcc (g : LGrid) (P : ℕ) (m : Mem K) : Accum K := fun v k =>
  if 0 ≤ v ∧ v < nvox g then ((List.range (P + 1)).map fun r => m.acc (accBase g P r + v) k).sum
  else 0

/-- Spec: the particles as boundary processing sees them: those with a mover have their voxel
decoded. -/
def placed (movers : List (Mover K)) (m : Mem K) (i : ℤ) : MoveP.Part K :=
  if i ∈ movers.map Mover.i then { m.part i with i := (m.part i).i / 8 } else m.part i

/-- Spec: all particles are inside interior cells. -/
def WellPlaced (A : Args K) (m : Mem K) : Prop :=
  ∀ i : ℤ, 0 ≤ i → i < A.np → (∃ c : Cell, c.Interior A.g.nx A.g.ny A.g.nz ∧
    (m.part i).i = VOXEL A.g.nx A.g.ny c.x c.y c.z) ∧
    (∀ k, -1 ≤ (m.part i).d k ∧ (m.part i).d k ≤ 1)

/-- **C16 for `advance_p` as a whole.** For every number of pipelines and interleaving, let `ρ` be
the charge density of all particles before, `ρ'` the one after the push (unfinished particles where
they stopped), then `(ρ'-ρ)/dt + div J = 0` with `J` unloaded from the sum of all accumulators; nodes
identified by a mesh joined to itself are added up. -/
theorem advance_p_conserves_charge (R : Rounding) (hR : R.Accurate) (A : Args K) (P : ℕ)
    (hP : 0 < P) (hP2 : P ≤ 2 ^ 16) (hN : A.np < 2 ^ 31) (hM : A.max_nm < 2 ^ 31)
    (h : LocalMesh A.g) (sc : Scales K) (hdt : sc.dt ≠ 0)
    (hV : sc.r8V = sc.rd 0 * sc.rd 1 * sc.rd 2 * (1 / 8)) (J : Fin 3 → Bool) (hJ : JoinedOn A.g J)
    (m m' : Mem K) (hw : WellPlaced A m)
    (hok : ∀ i : ℤ, 0 ≤ i → i < A.np → PushOk A (m.part i))
    (res : Option ((ℤ → Mover K) × ℕ)) (hadv : Advance R A P m m' res) :
    ∃ pm nm ρ ρ', res = some (pm, nm) ∧
      accumulateRhoP A.g sc.r8V A.qsp ((upTo A.np).map m.part) (fun _ => 0) = some ρ ∧
      accumulateRhoP A.g sc.r8V A.qsp ((upTo A.np).map (placed (moverList pm nm) m'))
        (fun _ => 0) = some ρ' ∧
      ∀ N : ℤ × ℤ × ℤ,
        ∑ n ∈ (Finset.Ico 0 (nvox A.g)).filter (fun n => nodeClass A.g J n = N),
          ((ρ' n - ρ n) / sc.dt +
            (divJ A.g sc (totalAcc A.g P m') n - divJ A.g sc (totalAcc A.g P m) n)) = 0 := by
  classical
  have hv : 0 ≤ nvox A.g := by
    have := h.nx; have := h.ny; have := h.nz
    unfold nvox; positivity
  obtain ⟨pm, nm, e1, e2, e3, e4, ⟨D, d1, d2, d3, d4⟩, e6⟩ :=
    advance_p_movers R hR A P hP hP2 hN hM hv m m' hok res hadv
  have hrange : ∀ i, i ∈ upTo A.np ↔ 0 ≤ i ∧ i < A.np := by
    intro i
    simp only [upTo, List.mem_map, List.mem_range]
    constructor
    · rintro ⟨a, ha, rfl⟩; omega
    · rintro ⟨h0, h1⟩; exact ⟨i.toNat, by omega, by omega⟩
  -- results of the individual pushes
  have hx : ∀ i : ℤ, ∃ x : MoveP.Part K × Accum K × Option (Fin 3 → K), 0 ≤ i → i < A.np →
      pushOne A (m.part i) (fun _ _ => 0) = some x := by
    intro i
    by_cases hi : 0 ≤ i ∧ i < A.np
    · obtain ⟨p', left, a', h⟩ := hok i hi.1 hi.2
      exact ⟨_, fun _ _ => h⟩
    · exact ⟨⟨m.part i, fun _ _ => 0, none⟩, fun h0 h1 => absurd ⟨h0, h1⟩ hi⟩
  choose x hx using hx
  have hp : ∀ i : ℤ, 0 ≤ i → i < A.np → pushOne A (m.part i) (fun _ _ => 0) =
    some ((fun i => (x i).1) i, (fun i => (x i).2.1) i, (fun i => (x i).2.2) i) := hx
  -- where the particles end up
  have hplaced : ∀ i : ℤ, 0 ≤ i → i < A.np → placed (moverList pm nm) m' i =
      { (x i).1 with i := if (x i).2.2.isSome then (x i).1.i / 8 else (x i).1.i } := by
    intro i h0 h1
    have hxi := hx i h0 h1
    by_cases hu : Unfinished A (m.part i)
    · have hs : (x i).2.2.isSome = true := by
        obtain ⟨q, disp, a', hq⟩ := hu
        rw [hq, Option.some.injEq] at hxi
        rw [← hxi]; rfl
      rw [hs, if_pos rfl]
      rcases d4 i h0 h1 hu with ⟨hm, -⟩ | ⟨hm, hD⟩
      · obtain ⟨mv, hmv, rfl⟩ := List.mem_map.mp hm
        obtain ⟨-, -, q, ⟨a', hq⟩, hq2⟩ := e4 mv hmv
        rw [hq, Option.some.injEq] at hxi
        rw [placed, if_pos hm, hq2, ← hxi]
      · obtain ⟨-, -, q, disp, ⟨a', hq⟩, hq2⟩ := d3 i hD
        rw [hq, Option.some.injEq] at hxi
        rw [placed, if_neg hm, hq2, ← hxi]
    · obtain ⟨a', hq⟩ := e6 i h0 h1 hu
      have hm : i ∉ (moverList pm nm).map Mover.i := by
        intro hm
        obtain ⟨mv, hmv, rfl⟩ := List.mem_map.mp hm
        obtain ⟨-, -, q, hq1, hq2⟩ := e4 mv hmv
        exact hu ⟨q, mv.disp, hq1⟩
      rw [hq, Option.some.injEq] at hxi
      rw [placed, if_neg hm, ← hxi]
      simp
  have hch : ∀ i : ℤ, 0 ≤ i → i < A.np → ∃ c' : Cell, c'.Interior A.g.nx A.g.ny A.g.nz ∧
      (placed (moverList pm nm) m' i).i = VOXEL A.g.nx A.g.ny c'.x c'.y c'.z ∧
      ∀ N, ∑ n ∈ (Finset.Ico 0 (nvox A.g)).filter (fun n => nodeClass A.g J n = N),
        ((partCharge A.g (A.qsp * sc.r8V) (placed (moverList pm nm) m' i) n -
          partCharge A.g (A.qsp * sc.r8V) (m.part i) n) / sc.dt + divJ A.g sc (x i).2.1 n) = 0 := by
    intro i h0 h1
    obtain ⟨⟨c, hc, hi⟩, hd⟩ := hw i h0 h1
    obtain ⟨c', k1, k2, k3, k4⟩ := push_charge A h sc hdt hV hJ (m.part i) c hc hi hd _ _ _
      (hx i h0 h1)
    rw [hplaced i h0 h1]
    refine ⟨c', k1, k2, fun N => ?_⟩
    have := k4 N
    unfold balance classSum at this
    rw [← sub_eq_zero, ← Finset.sum_sub_distrib] at this
    rw [← this]
    refine Finset.sum_congr rfl fun n _ => ?_
    simp only [partCharge, divJ_zero, k2, k3]; ring
  have hin : ∀ c : Cell, c.Interior A.g.nx A.g.ny A.g.nz → 0 ≤ VOXEL A.g.nx A.g.ny c.x c.y c.z ∧
      VOXEL A.g.nx A.g.ny c.x c.y c.z + nodeOff A.g 7 < nvox A.g := fun c hc =>
    ⟨(voxel_range h hc.inMesh).1, (nodes_range h hc 7).2⟩
  refine ⟨pm, nm, _, _, e1, accumulateRhoP_eq _ _ _ _ ?_ _, accumulateRhoP_eq _ _ _ _ ?_ _, ?_⟩
  · intro p hp
    obtain ⟨i, hi, rfl⟩ := List.mem_map.mp hp
    obtain ⟨h0, h1⟩ := (hrange i).mp hi
    obtain ⟨⟨c, hc, hi⟩, -⟩ := hw i h0 h1
    rw [hi]; exact hin c hc
  · intro p hp
    obtain ⟨i, hi, rfl⟩ := List.mem_map.mp hp
    obtain ⟨h0, h1⟩ := (hrange i).mp hi
    obtain ⟨c', k1, k2, -⟩ := hch i h0 h1
    rw [k2]; exact hin c' k1
  intro N
  have hsum := sum_balance ((Finset.Ico 0 (nvox A.g)).filter (fun n => nodeClass A.g J n = N)) sc.dt
    (fun i n => partCharge A.g (A.qsp * sc.r8V) (m.part i) n)
    (fun i n => partCharge A.g (A.qsp * sc.r8V) (placed (moverList pm nm) m' i) n)
    (fun i n => divJ A.g sc (x i).2.1 n) (upTo A.np) (fun i hi => by
      obtain ⟨h0, h1⟩ := (hrange i).mp hi
      obtain ⟨c', k1, k2, k3⟩ := hch i h0 h1
      exact k3 N)
  refine Eq.trans (Finset.sum_congr rfl fun n _ => ?_) hsum
  -- the accumulators
  have hacc : totalAcc A.g P m' = addAcc (totalAcc A.g P m) (sumAcc (fun i => (x i).2.1) (upTo A.np)) := by
    obtain ⟨ts, h1, h2, -⟩ := hadv
    obtain ⟨hr, -⟩ := advance_run R hR A P hP hP2 hN hM hv m m' _ _ _ hp ts h1 h2
    funext v k
    unfold totalAcc addAcc
    by_cases hvr : 0 ≤ v ∧ v < nvox A.g
    · simp only [if_pos hvr]
      rw [← items_flatten R hR A P hP hP2 hN]
      have hmem : ∀ r ∈ List.range (P + 1), r ≤ P := fun r hr => by
        have := List.mem_range.mp hr; omega
      have : ∀ rs : List ℕ, (∀ r ∈ rs, r ≤ P) →
          (rs.map fun r => m'.acc (accBase A.g P r + v) k).sum =
          (rs.map fun r => m.acc (accBase A.g P r + v) k).sum +
            sumAcc (fun i => (x i).2.1) (rs.map (itemsOf R A P)).flatten v k := by
        intro rs
        induction rs with
        | nil => intro _; simp [sumAcc]
        | cons r rs ih =>
          intro hrs
          simp only [List.map_cons, List.sum_cons, List.flatten_cons]
          rw [ih fun r hr => hrs r (by simp [hr]), (hr r (hrs r (by simp))).2.2.1 v hvr.1 hvr.2 k]
          simp only [sumAcc, List.map_append, List.sum_append]; ring
      exact this _ hmem
    · simp only [if_neg hvr]
      have : sumAcc (fun i => (x i).2.1) (upTo A.np) v k = 0 := by
        unfold sumAcc
        apply List.sum_eq_zero
        intro y hy
        obtain ⟨i, hi, rfl⟩ := List.mem_map.mp hy
        obtain ⟨h0, h1⟩ := (hrange i).mp hi
        have := pushOne_frame A _ _ _ _ _ (hx i h0 h1) v (by omega)
        show (x i).2.1 v k = 0
        rw [this]
      rw [this]; simp
  rw [hacc, divJ_add, divJ_sumAcc]
  simp only [List.map_map, Function.comp_def]
  ring

end Verif.AdvanceP
