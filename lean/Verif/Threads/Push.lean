import Verif.Charge.Accum
import Verif.Charge.Step

/-!
# C86: `advance_p` gives the same result with any number of threads

Two calls of `advance_p` (/repo/src/species_advance/standard/pipeline/advance_p_pipeline.cc:252-340) on the same particles,
with different numbers of pipelines, different roundings of the work distribution and different interleavings.
-/
namespace Verif.Threads

open Grid MoveP Charge
open AdvanceP (Args Mem pushOne PushOk PushEnds Advance moverList unf sumAcc itemsOf nMover advance_run advance_movers
  items_flatten items_iff accBase)
open Distribute (upTo Rounding)

variable {K : Type} [Field K] [LinearOrder K] [IsStrictOrderedRing K]

/-- Spec: no pipeline ran out of room for movers, so that no warning is printed
(/repo/src/species_advance/standard/pipeline/advance_p_pipeline.cc:317-321). -/
def Quiet (P : ℕ) (m : Mem K) : Prop := ∀ r ≤ P, (m.segm r).ign = 0

/-- What one call leaves, in terms of the pushes of the single particles. -/
lemma advance_result (R : Rounding) (hR : R.Accurate) (A : Args K) (P : ℕ) (hP : 0 < P) (hP2 : P ≤ 2 ^ 16)
    (hN : A.np < 2 ^ 31) (hM : A.max_nm < 2 ^ 31) (hv : 0 ≤ nvox A.g) (m m' : Mem K) (p' : ℤ → MoveP.Part K)
    (da : ℤ → Accum K) (left : ℤ → Option (Fin 3 → K))
    (hp : ∀ i : ℤ, 0 ≤ i → i < A.np → pushOne A (m.part i) (fun _ _ => 0) = some (p' i, da i, left i))
    (res : Option ((ℤ → Mover K) × ℕ)) (h : Advance R A P m m' res) :
    (∀ i : ℤ, i < 0 ∨ A.np ≤ i → m'.part i = m.part i) ∧
    (∀ v k, totalOf A.g P m'.acc v k = totalOf A.g P m.acc v k +
      if 0 ≤ v ∧ v < nvox A.g then sumAcc da (upTo A.np) v k else 0) ∧
    (Quiet P m' → (∀ i : ℤ, 0 ≤ i → i < A.np → m'.part i = p' i) ∧
      ∃ pm nm, res = some (pm, nm) ∧ nm ≤ A.max_nm ∧
        (moverList pm nm).map (fun mv => (mv.i, some mv.disp)) = (unf left (upTo A.np)).map fun i => (i, left i)) := by
  obtain ⟨pm, nm, e1, e2, e3⟩ := advance_movers R hR A P hP hP2 hN hM hv m m' p' da left hp res h
  obtain ⟨ts, h1, h2, -⟩ := h
  obtain ⟨hr, ho⟩ := advance_run R hR A P hP hP2 hN hM hv m m' p' da left hp ts h1 h2
  have hmem : ∀ r ∈ List.range (P + 1), r ≤ P := fun r hr => by
    have := List.mem_range.mp hr; omega
  refine ⟨ho, ?_, fun hq => ⟨?_, pm, nm, e1, e2, ?_⟩⟩
  · intro v k
    unfold totalOf
    by_cases hvr : 0 ≤ v ∧ v < nvox A.g
    · simp only [if_pos hvr]
      rw [← items_flatten R hR A P hP hP2 hN]
      have : ∀ rs : List ℕ, (∀ r ∈ rs, r ≤ P) →
          (rs.map fun r => m'.acc (accBase A.g P r + v) k).sum =
          (rs.map fun r => m.acc (accBase A.g P r + v) k).sum +
            sumAcc da (rs.map (itemsOf R A P)).flatten v k := by
        intro rs
        induction rs with
        | nil => intro _; simp [sumAcc]
        | cons r rs ih =>
          intro hrs
          simp only [List.map_cons, List.sum_cons, List.flatten_cons]
          rw [ih fun r hr => hrs r (by simp [hr]), (hr r (hrs r (by simp))).2.2.1 v hvr.1 hvr.2 k]
          simp only [sumAcc, List.map_append, List.sum_append]; ring
      exact this _ hmem
    · simp only [if_neg hvr, add_zero]
  · intro i h0 h1
    obtain ⟨r, hrP, hi⟩ := (items_iff R hR A P hP hP2 hN i).mpr ⟨h0, h1⟩
    obtain ⟨g1, g2, -⟩ := hr r hrP
    have hz := hq r hrP
    rw [g1] at hz
    rw [g2 i hi, List.drop_eq_nil_of_le (Nat.sub_eq_zero_iff_le.mp hz), if_neg (by simp)]
  · rw [e3, ← items_flatten R hR A P hP hP2 hN]
    congr 1
    have : ∀ rs : List ℕ, (∀ r ∈ rs, r ≤ P) →
        (rs.map fun r => (unf left (itemsOf R A P r)).take (nMover R A P r)).flatten =
          unf left (rs.map (itemsOf R A P)).flatten := by
      intro rs
      induction rs with
      | nil => intro _; rfl
      | cons r rs ih =>
        intro hrs
        have hz := hq r (hrs r (by simp))
        rw [(hr r (hrs r (by simp))).1] at hz
        simp only [List.map_cons, List.flatten_cons]
        rw [ih fun r hr => hrs r (by simp [hr]), List.take_of_length_le (Nat.sub_eq_zero_iff_le.mp hz)]
        simp only [unf, List.filter_append]
    exact this _ hmem

omit [Field K] [LinearOrder K] [IsStrictOrderedRing K] in
/-- Movers with the same contents. -/
lemma movers_eq {pm pm2 : ℤ → Mover K} {nm nm2 : ℕ}
    (h : (moverList pm nm).map (fun mv => (mv.i, some mv.disp)) =
      (moverList pm2 nm2).map (fun mv => (mv.i, some mv.disp))) :
    nm = nm2 ∧ ∀ k : ℤ, 0 ≤ k → k < nm → pm k = pm2 k := by
  have hl := congrArg List.length h
  simp only [moverList, List.length_map, List.length_range] at hl
  subst hl
  refine ⟨rfl, fun k h0 h1 => ?_⟩
  have := congrArg (fun l => l[k.toNat]?) h
  have hk : k.toNat < nm := by omega
  simp only [moverList, List.getElem?_map, List.getElem?_range hk, Option.map_some, Option.some.injEq, Prod.mk.injEq] at this
  rw [Int.toNat_of_nonneg h0] at this
  cases h1 : pm k; cases h2 : pm2 k
  rw [h1, h2] at this
  simp_all

/-- **C86.** Two calls of `advance_p` on the same particles, with any two numbers of pipelines, any two accurate roundings of
the work distribution and any two interleavings, neither of them warning about ignored movers: the same particles, the same
number of movers and the same movers, and the same total currents. -/
theorem advance_p_any_threads (R R' : Rounding) (hR : R.Accurate) (hR' : R'.Accurate) (A : Args K) (P P' : ℕ) (hP : 0 < P)
    (hP2 : P ≤ 2 ^ 16) (hP' : 0 < P') (hP2' : P' ≤ 2 ^ 16) (hN : A.np < 2 ^ 31) (hM : A.max_nm < 2 ^ 31)
    (hv : 0 ≤ nvox A.g) (m1 m1' m2 m2' : Mem K) (hsame : ∀ i : ℤ, 0 ≤ i → i < A.np → m2.part i = m1.part i)
    (hok : ∀ i : ℤ, 0 ≤ i → i < A.np → PushOk A (m1.part i)) (res1 res2 : Option ((ℤ → Mover K) × ℕ))
    (h1 : Advance R A P m1 m1' res1) (h2 : Advance R' A P' m2 m2' res2) (q1 : Quiet P m1') (q2 : Quiet P' m2') :
    ∃ pm1 pm2 nm, res1 = some (pm1, nm) ∧ res2 = some (pm2, nm) ∧ nm ≤ A.max_nm ∧
      (∀ k : ℤ, 0 ≤ k → k < nm → pm1 k = pm2 k) ∧
      (∀ i : ℤ, 0 ≤ i → i < A.np → m2'.part i = m1'.part i) ∧
      ∀ v k, totalOf A.g P' m2'.acc v k - totalOf A.g P' m2.acc v k =
        totalOf A.g P m1'.acc v k - totalOf A.g P m1.acc v k := by
  classical
  have hx : ∀ i : ℤ, ∃ x : MoveP.Part K × Accum K × Option (Fin 3 → K), 0 ≤ i → i < A.np →
      pushOne A (m1.part i) (fun _ _ => 0) = some x := by
    intro i
    by_cases hi : 0 ≤ i ∧ i < A.np
    · obtain ⟨p', left, a', h⟩ := hok i hi.1 hi.2
      exact ⟨_, fun _ _ => h⟩
    · exact ⟨⟨m1.part i, fun _ _ => 0, none⟩, fun h0 h1 => absurd ⟨h0, h1⟩ hi⟩
  choose x hx using hx
  obtain ⟨-, a2, a3⟩ := advance_result R hR A P hP hP2 hN hM hv m1 m1' (fun i => (x i).1) (fun i => (x i).2.1)
    (fun i => (x i).2.2) hx res1 h1
  obtain ⟨-, b2, b3⟩ := advance_result R' hR' A P' hP' hP2' hN hM hv m2 m2' (fun i => (x i).1) (fun i => (x i).2.1)
    (fun i => (x i).2.2) (fun i h0 h1 => by rw [hsame i h0 h1]; exact hx i h0 h1) res2 h2
  obtain ⟨a4, pm1, nm, a5, a6, a7⟩ := a3 q1
  obtain ⟨b4, pm2, nm2, b5, b6, b7⟩ := b3 q2
  obtain ⟨rfl, hmv⟩ := movers_eq (a7.trans b7.symm)
  refine ⟨pm1, pm2, nm, a5, b5, a6, hmv, fun i h0 h1 => by rw [a4 i h0 h1, b4 i h0 h1], fun v k => ?_⟩
  rw [a2, b2]; ring

/-! ### When there is room for every mover -/

/-- Cutting is accurate to a little more than half a block. -/
lemma cut_near (R : Rounding) (hR : R.Accurate) (B P p : ℕ) (hP : 0 < P) (hp : p ≤ P) (hB : B < 2 ^ 31) :
    (B : ℚ) * p / P - 1 / 2 - 1 / 2 ^ 18 < Distribute.cut R B P p ∧
      (Distribute.cut R B P p : ℚ) ≤ (B : ℚ) * p / P + 1 / 2 + 1 / 2 ^ 18 := by
  have h := abs_le.mp (Distribute.arg_err R hR B P p hP hp hB)
  have h0 : (0 : ℚ) ≤ (B : ℚ) * p / P := by positivity
  unfold Distribute.cut
  generalize R.fa (R.fm (R.fd ((B : ℚ) / P) * p) + 1 / 2) = y at h
  generalize (B : ℚ) * p / P = z at h h0
  have l := h.1; have r := h.2
  norm_num at l r
  rw [Distribute.cInt_of_nonneg (by linarith)]
  have f1 := Int.floor_le y
  have f2 := Int.lt_floor_add_one y
  norm_num
  constructor <;> linarith

/-- With room for 24 movers per pipeline more than there are particles, every pipeline has room for all its particles. -/
lemma room_share (R : Rounding) (hR : R.Accurate) (A : Args K) (P : ℕ) (hP : 0 < P) (hP2 : P ≤ 2 ^ 16) (hN : A.np < 2 ^ 31)
    (hM : A.max_nm < 2 ^ 31) (hroom : A.np + 24 * P ≤ A.max_nm) (r : ℕ) (hr : r ≤ P) :
    (itemsOf R A P r).length ≤ nMover R A P r := by
  have hlen : (itemsOf R A P r).length = AdvanceP.nPart R A P r := by simp [itemsOf, Distribute.iota]
  rw [hlen]
  by_cases hrP : r = P
  · have := (AdvanceP.moverSegs R hR A P hP hP2 hM).host (by have := Nat.mod_lt A.np (by norm_num : 16 > 0); omega)
    rw [hrP]
    simpa [AdvanceP.nPart] using this
  · have hlt : r < P := by omega
    simp only [AdvanceP.nPart, nMover, if_neg hrP, AdvanceP.firstPart, AdvanceP.firstMover]
    set B := A.np / 16 with hB
    set C := (A.max_nm - A.np % 16) / 8 with hC
    have hBC : 2 * B + 3 * P ≤ C := by omega
    have hBC' : (2 : ℚ) * B + 3 * P ≤ C := by exact_mod_cast hBC
    have a1 := cut_near R hR B P r hP hr (by omega)
    have a2 := cut_near R hR B P (r + 1) hP hlt (by omega)
    have b1 := cut_near R hR C P r hP hr (by omega)
    have b2 := cut_near R hR C P (r + 1) hP hlt (by omega)
    have hPq : (0 : ℚ) < P := by exact_mod_cast hP
    have gap : ∀ D : ℕ, (D : ℚ) * ((r + 1 : ℕ) : ℚ) / P = (D : ℚ) * r / P + D / P := by
      intro D; push_cast; field_simp
    rw [gap] at a2 b2
    have hq : (2 : ℚ) * (B / P) + 3 ≤ C / P := by
      have := div_le_div_of_nonneg_right hBC' hPq.le
      have e : ((2 : ℚ) * B + 3 * P) / P = 2 * (B / P) + 3 := by field_simp
      linarith
    have key : (2 : ℚ) * (Distribute.cut R B P (r + 1) - Distribute.cut R B P r) <
        (Distribute.cut R C P (r + 1) - Distribute.cut R C P r) + 1 := by
      have c1 := a1.1; have c2 := a2.2; have c3 := b1.2; have c4 := b2.1
      norm_num at c1 c2 c3 c4
      linarith
    have key' : 2 * (Distribute.cut R B P (r + 1) - Distribute.cut R B P r) <
        (Distribute.cut R C P (r + 1) - Distribute.cut R C P r) + 1 := by exact_mod_cast key
    push_cast
    omega

/-- With that much room no warning is printed. -/
theorem room_quiet (R : Rounding) (hR : R.Accurate) (A : Args K) (P : ℕ) (hP : 0 < P) (hP2 : P ≤ 2 ^ 16) (hN : A.np < 2 ^ 31)
    (hM : A.max_nm < 2 ^ 31) (hv : 0 ≤ nvox A.g) (hroom : A.np + 24 * P ≤ A.max_nm) (m m' : Mem K)
    (hok : ∀ i : ℤ, 0 ≤ i → i < A.np → PushOk A (m.part i)) (res : Option ((ℤ → Mover K) × ℕ))
    (h : Advance R A P m m' res) : Quiet P m' := by
  classical
  have hx : ∀ i : ℤ, ∃ x : MoveP.Part K × Accum K × Option (Fin 3 → K), 0 ≤ i → i < A.np →
      pushOne A (m.part i) (fun _ _ => 0) = some x := by
    intro i
    by_cases hi : 0 ≤ i ∧ i < A.np
    · obtain ⟨p', left, a', h⟩ := hok i hi.1 hi.2
      exact ⟨_, fun _ _ => h⟩
    · exact ⟨⟨m.part i, fun _ _ => 0, none⟩, fun h0 h1 => absurd ⟨h0, h1⟩ hi⟩
  choose x hx using hx
  obtain ⟨ts, h1, h2, -⟩ := h
  obtain ⟨hr, -⟩ := advance_run R hR A P hP hP2 hN hM hv m m' (fun i => (x i).1) (fun i => (x i).2.1) (fun i => (x i).2.2) hx
    ts h1 h2
  intro r hrP
  rw [(hr r hrP).1]
  have l1 := room_share R hR A P hP hP2 hN hM hroom r hrP
  have l2 : (unf (fun i => (x i).2.2) (itemsOf R A P r)).length ≤ (itemsOf R A P r).length := List.length_filter_le _ _
  show _ - _ = 0
  omega

end Verif.Threads
