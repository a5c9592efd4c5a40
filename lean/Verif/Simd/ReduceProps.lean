import Verif.Simd.ReduceModel
import Verif.Simd.PartsLemmas
import Verif.SfInterface.ReduceProps

/-!
# Properties: vector builds reduce the private arrays and load the interpolators like the scalar build (C85)
-/
namespace Verif.Simd

open SfInterface
open Distribute (Rounding distribute items iota cut cut_mono)

variable {K : Type*} [Field K]

lemma lanes_pos (W : Width) : 0 < W.lanes := by cases W <;> decide

/-- The shares of the vector pipelines, with their stragglers dropped. -/
lemma shareV_spec (W : Width) (R : Rounding) (hR : R.Accurate) (n P : ℕ) (hN : n < 2 ^ 31) (hP : 0 < P)
    (hP2 : P ≤ 2 ^ 16) : ∃ (first : ℕ → ℤ) (l : ℕ → ℕ),
      (∀ p < P, distribute R n W.lanes p P = some (first p, ((W.lanes * l p : ℕ) : ℤ)) ∧
        distribute R (n / W.lanes * W.lanes) W.lanes p P = some (first p, ((W.lanes * l p : ℕ) : ℤ))) ∧
      ∃ v, distribute R (n / W.lanes * W.lanes) W.lanes P P = some (v, 0) := by
  have hw := lanes_pos W
  have hq : n / W.lanes * W.lanes / W.lanes = n / W.lanes := Nat.mul_div_cancel _ hw
  have h : ¬ (W.lanes = 0 ∨ P = 0) := by omega
  refine ⟨fun r => (W.lanes : ℕ) * cut R (n / W.lanes) P r, fun r =>
    (cut R (n / W.lanes) P (r + 1) - cut R (n / W.lanes) P r).toNat, ?_, ?_⟩
  · intro r hr
    have hlt : n / W.lanes < 2 ^ 31 := lt_of_le_of_lt (Nat.div_le_self _ _) hN
    have hm := cut_mono R hR (n / W.lanes) P r hP (by omega) (by omega) hP2
    simp only [distribute, if_neg h, if_neg (show r ≠ P by omega), hq, and_self]
    congr 2
    push_cast
    rw [Int.toNat_of_nonneg (by omega), mul_sub]
  · refine ⟨(W.lanes : ℕ) * cut R (n / W.lanes) P P, ?_⟩
    simp only [distribute, if_neg h, hq]
    simp

lemma loopStarts_eq (W : Width) (first : ℤ) (l : ℕ) :
    loopStarts W first ((W.lanes * l : ℕ) : ℤ) = blockStarts W first ((W.lanes * l : ℕ) : ℤ) := by
  have hw := lanes_pos W
  unfold loopStarts blockStarts
  congr 3
  push_cast
  rw [Int.mul_ediv_cancel_left _ (by omega)]
  have : (W.lanes : ℤ) * l + W.lanes - 1 = (W.lanes - 1) + l * W.lanes := by ring
  rw [this, Int.add_mul_ediv_right _ _ (by omega), Int.ediv_eq_zero_of_lt (by omega) (by omega), zero_add]

/-- A block whose private copies are elsewhere is the sequence of its elements. -/
lemma redOpV_eq (W : Width) (a sr r0 : ℤ) (c : ℕ) (j : ℤ) (n : ℤ) (hr : -1 ≤ r0) (hj : 0 ≤ j)
    (hjn : j + W.lanes ≤ n) (hn : n ≤ sr) (m : ℤ → K) :
    redOpV W a sr r0 c j m = runSeq ((blockItems W j).map (redOp a sr r0 c)) m := by
  unfold redOpV blockItems
  rw [List.map_map]
  have hs : 0 ≤ sr := by have := lanes_pos W; omega
  have key : ∀ (l : List (Fin W.lanes)) (hl : l.Nodup) (m' : ℤ → K)
      (_ : ∀ x, (∀ k : Fin W.lanes, k ∉ l → x ≠ a + j + ((k : ℕ) : ℤ)) → m' x = m x),
      l.foldl (fun m' (k : Fin W.lanes) => put m' (a + j + ((k : ℕ) : ℤ)) (opSum c fun r =>
        if r = 0 then m (a + j + ((k : ℕ) : ℤ)) else m (a + sr + bIndex sr r0 j r + ((k : ℕ) : ℤ)))) m' =
      runSeq (l.map (redOp a sr r0 c ∘ fun (k : Fin W.lanes) => j + ((k : ℕ) : ℤ))) m' := by
    intro l
    induction l with
    | nil => intro _ m' _; rfl
    | cons k l ih =>
      intro hl m' hm
      rw [List.nodup_cons] at hl
      rw [List.foldl_cons, List.map_cons, runSeq_cons]
      have e : redOp a sr r0 c (j + ((k : ℕ) : ℤ)) m' = put m' (a + j + ((k : ℕ) : ℤ)) (opSum c fun r =>
          if r = 0 then m (a + j + ((k : ℕ) : ℤ)) else m (a + sr + bIndex sr r0 j r + ((k : ℕ) : ℤ))) := by
        unfold redOp
        rw [← add_assoc]
        congr 1
        congr 1
        funext r
        split
        · refine hm _ fun k' hk' => ?_
          intro e
          have : k = k' := Fin.ext (by omega)
          subst this
          exact hk' List.mem_cons_self
        · rename_i h0
          have e2 : a + sr + bIndex sr r0 (j + ((k : ℕ) : ℤ)) r = a + sr + bIndex sr r0 j r + ((k : ℕ) : ℤ) := by
            unfold bIndex; ring
          rw [e2]
          refine hm _ fun k' _ => ?_
          unfold bIndex
          have l1 : 0 ≤ ((r : ℤ) + r0) * sr := mul_nonneg (by omega) hs
          have := k'.2
          have := k.2
          omega
      rw [Function.comp_apply, e]
      refine ih hl.2 _ fun x hx => ?_
      rw [put_ne _ _ (hx k hl.1)]
      refine hm x fun k' hk' => hx k' fun h => hk' (List.mem_cons_of_mem _ h)
  exact key _ (List.nodup_finRange _) m fun _ _ => rfl

/-- The arguments without the elements after the last whole vector. -/
def whole (W : Width) (A : RedArgs) : RedArgs := { A with n := A.n / W.lanes * W.lanes }

lemma whole_ok (W : Width) {A : RedArgs} (hA : A.Ok) : (whole W A).Ok := by
  have h := Nat.div_mul_le_self A.n W.lanes
  have := hA.disj
  have := hA.fits
  refine ⟨hA.arr, hA.base, ?_, ?_⟩
  · show ((A.n / W.lanes * W.lanes : ℕ) : ℤ) ≤ A.sArray
    omega
  · show A.a + ((A.nArray : ℤ) - 1) * A.sArray + ((A.n / W.lanes * W.lanes : ℕ) : ℤ) ≤ A.size
    omega

lemma whole_fits (W : Width) {A : RedArgs} (hF : A.Fits) : (whole W A).Fits := by
  have h := Nat.div_mul_le_self A.n W.lanes
  unfold RedArgs.Fits at hF ⊢
  show ((A.nArray : ℤ) - 2) * A.sArray + ((A.n / W.lanes * W.lanes : ℕ) : ℤ) ≤ 2 ^ 31
  omega

lemma blockStarts_mem (W : Width) (first : ℤ) (l : ℕ) {j : ℤ}
    (hj : j ∈ blockStarts W first ((W.lanes * l : ℕ) : ℤ)) :
    j ∈ iota first (W.lanes * l) ∧ j + W.lanes - 1 ∈ iota first (W.lanes * l) := by
  have hw := lanes_pos W
  rw [← blocks_items W first _ (Dvd.intro _ rfl)]
  have hb : ∀ k : ℕ, k < W.lanes → j + (k : ℤ) ∈ blockItems W j := by
    intro k hk
    unfold blockItems
    exact List.mem_map.mpr ⟨⟨k, hk⟩, List.mem_finRange _, rfl⟩
  refine ⟨List.mem_flatMap.mpr ⟨j, hj, by simpa using hb 0 hw⟩, List.mem_flatMap.mpr ⟨j, hj, ?_⟩⟩
  have := hb (W.lanes - 1) (by omega)
  rwa [Nat.cast_sub (by omega), Nat.cast_one, ← add_sub_assoc] at this

/-- In a vector build, too, the reduction is defined, and what it does is a scalar reduction of the
elements up to the last whole vector. -/
lemma reduceV_whole (W : Width) (R : Rounding) (hR : R.Accurate) (A : RedArgs) (hA : A.Ok) (hF : A.Fits)
    (P : ℕ) (hn : A.n < 2 ^ 31) (hP : 0 < P) (hP2 : P ≤ 2 ^ 16) (m : ℤ → K) :
    (∃ m', ReduceV W R A P m m') ∧
      ∀ m', ReduceV W R A P m m' → ReduceB W.lanes R (whole W A) P m m' := by
  have hw := lanes_pos W
  have hle := Nat.div_mul_le_self A.n W.lanes
  have hn' : (whole W A).n < 2 ^ 31 := lt_of_le_of_lt hle hn
  obtain ⟨first, l, hsh, v, hv⟩ := shareV_spec W R hR A.n P hn hP hP2
  obtain ⟨js, hjs, hfl⟩ := items_split R hR (whole W A).n W.lanes P hn' hw hP hP2
  have hjsP : js P = [] := by
    have := hjs P
    rw [show (whole W A).n = A.n / W.lanes * W.lanes from rfl, hv] at this
    simpa [items] using this.symm
  have hjsp : ∀ p < P, js p = iota (first p) (W.lanes * l p) := by
    intro p hp
    have := hjs p
    rw [show (whole W A).n = A.n / W.lanes * W.lanes from rfl, (hsh p hp).2, items_iota] at this
    exact (Option.some.inj this).symm
  have hmem : ∀ p < P + 1, ∀ j ∈ js p, 0 ≤ j ∧ j < (whole W A).n := by
    intro p hp j hj
    rw [← upTo_mem, ← hfl]
    exact List.mem_flatten.mpr ⟨_, List.mem_map.mpr ⟨p, List.mem_range.mpr hp, rfl⟩, hj⟩
  have hst : ∀ p < P, ∀ j ∈ loopStarts W (first p) ((W.lanes * l p : ℕ) : ℤ),
      0 ≤ j ∧ j + W.lanes ≤ A.n := by
    intro p hp j hj
    rw [loopStarts_eq] at hj
    obtain ⟨h1, h2⟩ := blockStarts_mem W _ _ hj
    rw [← hjsp p hp] at h1 h2
    have a1 := hmem p (by omega) _ h1
    have a2 := hmem p (by omega) _ h2
    have : (((whole W A).n : ℕ) : ℤ) ≤ A.n := by exact_mod_cast hle
    omega
  set prog : ℕ → List (ℤ × ℕ × ℤ) := fun p => if p = P then [] else
    (passes (A.nArray - 1) (-1)).flatMap fun rc =>
      (loopStarts W (first p) ((W.lanes * l p : ℕ) : ℤ)).map fun j => (rc.1, rc.2, j) with hprog
  have hin : ∀ p < P + 1, ∀ x ∈ prog p, -1 ≤ x.1 ∧ x.1 + x.2.1 ≤ -1 + ((A.nArray - 1 : ℕ) : ℤ) ∧
      0 ≤ x.2.2 ∧ x.2.2 + W.lanes ≤ A.n := by
    intro p hp x hx
    simp only [hprog] at hx
    split at hx
    · simp at hx
    · obtain ⟨rc, hrc, hx⟩ := List.mem_flatMap.mp hx
      obtain ⟨j, hj, rfl⟩ := List.mem_map.mp hx
      have hb := mem_passes _ _ (by omega) rc hrc
      exact ⟨hb.2.1, hb.2.2, hst p (by omega) j hj⟩
  have h1 := hA.arr
  have h2 := hA.base
  have h3 := hA.disj
  have h4 := hA.fits
  have h5 := hF
  unfold RedArgs.Fits at h5
  have hs0 : 0 ≤ A.sArray := by omega
  have hok : ∀ p < P + 1, ((prog p).all fun x => redOkV W A.size A.a A.sArray x.1 x.2.1 x.2.2) = true := by
    intro p hp
    rw [List.all_eq_true]
    rintro ⟨r0, c, j⟩ hx
    obtain ⟨b1, b2, b3, b4⟩ := hin p hp _ hx
    simp only at b1 b2 b3 b4
    unfold redOkV
    simp only [Bool.and_eq_true, List.all_eq_true, List.mem_range, decide_eq_true_eq]
    have hN : 0 ≤ ((A.nArray : ℤ) - 1) * A.sArray := mul_nonneg (by omega) hs0
    refine ⟨by omega, fun r hr => ?_⟩
    unfold bIndex
    have l1 : 0 ≤ ((↑(r + 1) : ℤ) + r0) * A.sArray := mul_nonneg (by push_cast; omega) hs0
    have l2 : A.sArray + ((↑(r + 1) : ℤ) + r0) * A.sArray ≤ ((A.nArray : ℤ) - 1) * A.sArray := by
      have : (1 + ((↑(r + 1) : ℤ) + r0)) * A.sArray ≤ ((A.nArray : ℤ) - 1) * A.sArray :=
        mul_le_mul_of_nonneg_right (by push_cast; omega) hs0
      linarith
    have l3 : ((A.nArray : ℤ) - 2) * A.sArray = ((A.nArray : ℤ) - 1) * A.sArray - A.sArray := by ring
    rw [l3] at h5
    generalize ((↑(r + 1) : ℤ) + r0) * A.sArray = y at *
    generalize ((A.nArray : ℤ) - 1) * A.sArray = z at *
    refine ⟨by omega, by omega, by omega, by omega⟩
  have hrank : ∀ p < P + 1, reduceRankV (K := K) W R A p P =
      some ((prog p).map fun x => redOpV W A.a A.sArray x.1 x.2.1 x.2.2) := by
    intro p hp
    have hok := hok p hp
    unfold reduceRankV
    simp only [hprog] at hok ⊢
    split
    · rename_i he
      subst he
      have hd : distribute R A.n 1 p p = some (1 * cut R (A.n / 1) p p, 0) := by
        simp [distribute, hP.ne', Nat.mod_one]
      unfold reduceRank reduceRankB
      rw [hd]
      simp [items]
    · rename_i he
      rw [if_neg he] at hok
      rw [(hsh p (by omega)).1]
      exact if_pos hok
  have htsV : (List.range (P + 1)).mapM (fun p => reduceRankV (K := K) W R A p P) =
      some ((List.range (P + 1)).map fun p => (prog p).map fun x => redOpV W A.a A.sArray x.1 x.2.1 x.2.2) :=
    Distribute.mapM_some _ _ _ fun p hp => hrank p (List.mem_range.mp hp)
  refine ⟨⟨_, _, htsV, runs_seq _ _⟩, ?_⟩
  rintro m' ⟨ts, e, hrun⟩
  obtain rfl := Option.some.inj (htsV.symm.trans e)
  obtain ⟨_, ts, hts, _⟩ := (reduceB_sums W.lanes hw R hR (whole W A) (whole_ok W hA) (whole_fits W hF) P hn' hP hP2 m).1
  have hts' := Distribute.mapM_some (List.range (P + 1)) (fun p => reduceRankB (K := K) W.lanes R (whole W A) p P)
    (fun p => ((passes (A.nArray - 1) (-1)).flatMap fun rc => (js p).map fun j => (rc.1, rc.2, j)).map
      fun x => redOp A.a A.sArray x.1 x.2.1 x.2.2) (by
    intro p hp
    obtain ⟨t, ht⟩ := (Field.mapM_exists _ _ _ hts).1 p hp
    rw [ht]
    unfold reduceRankB at ht
    rw [hjs, Option.bind_some] at ht
    dsimp only at ht
    split at ht
    · exact ht.symm
    · simp at ht)
  refine ⟨_, hts', ?_⟩
  let lab : ℕ → List (((ℤ → K) → ℤ → K) × List ((ℤ → K) → ℤ → K)) := fun p => (prog p).map fun x =>
    (redOpV W A.a A.sArray x.1 x.2.1 x.2.2, (blockItems W x.2.2).map (redOp A.a A.sArray x.1 x.2.1))
  have e1 : ((List.range (P + 1)).map fun p => (prog p).map fun x => redOpV (K := K) W A.a A.sArray x.1 x.2.1 x.2.2) =
      ((List.range (P + 1)).map lab).map (List.map Prod.fst) := by
    rw [List.map_map]
    refine List.map_congr_left fun p _ => ?_
    simp only [Function.comp_apply, lab, List.map_map]
    rfl
  have e2 : ((List.range (P + 1)).map fun p => ((passes (A.nArray - 1) (-1)).flatMap fun rc =>
      (js p).map fun j => (rc.1, rc.2, j)).map fun x => redOp (K := K) A.a A.sArray x.1 x.2.1 x.2.2) =
      ((List.range (P + 1)).map lab).map (List.flatMap Prod.snd) := by
    rw [List.map_map]
    refine List.map_congr_left fun p hp => ?_
    simp only [Function.comp_apply, lab, List.flatMap_map, List.map_flatMap, List.map_map, hprog]
    split
    · rename_i he
      rw [he, hjsP]
      simp
    · rename_i he
      have hp' : p < P := by have := List.mem_range.mp hp; omega
      rw [hjsp p hp', ← blocks_items W _ _ (Dvd.intro _ rfl), List.flatMap_assoc]
      simp only [List.map_flatMap, List.flatMap_map, loopStarts_eq, List.map_map]
      rfl
  rw [e1] at hrun
  rw [e2]
  refine runs_coarse _ ?_ m m' hrun
  intro t ht s hs m
  obtain ⟨p, hp, rfl⟩ := List.mem_map.mp ht
  obtain ⟨x, hx, rfl⟩ := List.mem_map.mp hs
  obtain ⟨b1, b2, b3, b4⟩ := hin p (List.mem_range.mp hp) x hx
  exact redOpV_eq W _ _ _ _ _ A.n b1 b3 b4 h3 m

/-- C85: what the reduction of a vector build does, for any number of elements.  It is always defined
under the same conditions as the scalar one; the elements up to the last whole vector become the sum over
all private copies, and everything else (in particular the last `n % W` elements, which neither a vector
pipeline nor the scalar code on the host takes) is left as it is. -/
theorem vector_reduce_result (W : Width) (R : Rounding) (hR : R.Accurate) (A : RedArgs) (hA : A.Ok)
    (hF : A.Fits) (P : ℕ) (hn : A.n < 2 ^ 31) (hP : 0 < P) (hP2 : P ≤ 2 ^ 16) (m : ℤ → K) :
    (∃ m', ReduceV W R A P m m') ∧ ∀ m', ReduceV W R A P m m' → ∀ x,
      m' x = if A.a ≤ x ∧ x < A.a + ((A.n - A.n % W.lanes : ℕ) : ℤ) then
        ∑ r ∈ Finset.range A.nArray, m (x + r * A.sArray) else m x := by
  obtain ⟨h1, h2⟩ := reduceV_whole W R hR A hA hF P hn hP hP2 m
  refine ⟨h1, fun m' hm' x => ?_⟩
  have hle := Nat.div_mul_le_self A.n W.lanes
  have e : A.n - A.n % W.lanes = A.n / W.lanes * W.lanes := by
    have := Nat.div_add_mod' A.n W.lanes
    omega
  rw [e]
  exact (reduceB_sums W.lanes (lanes_pos W) R hR (whole W A) (whole_ok W hA) (whole_fits W hF) P
    (lt_of_le_of_lt hle hn) hP hP2 m).2 m' (h2 m' hm') x

/-- C85: when the number of elements is a multiple of the vector length, a reduction of a vector build and
one of the scalar build, with any numbers of pipelines and any schedules, leave the same storage. -/
theorem vector_reduce_eq_scalar (W : Width) (R R' : Rounding) (hR : R.Accurate) (hR' : R'.Accurate)
    (A : RedArgs) (hA : A.Ok) (hF : A.Fits) (hW : W.lanes ∣ A.n) (P P' : ℕ) (hn : A.n < 2 ^ 31)
    (hP : 0 < P) (hP2 : P ≤ 2 ^ 16) (hP' : 0 < P') (hP2' : P' ≤ 2 ^ 16) (m m' m'' : ℤ → K)
    (hV : ReduceV W R A P m m') (hS : Reduce R' A P' m m'') : m' = m'' := by
  funext x
  rw [(vector_reduce_result W R hR A hA hF P hn hP hP2 m).2 m' hV,
    (reduce_sums R' hR' A hA hF P' hn hP' hP2' m).2 m'' hS, Nat.mod_eq_zero_of_dvd hW, Nat.sub_zero]

/-- Elements after the last whole vector are lost: their private copies are never added.  (No caller in
the code passes such a number of elements, see `acc_whole` and `hydro_whole`.) -/
theorem vector_reduce_stragglers (W : Width) (R : Rounding) (hR : R.Accurate) (A : RedArgs) (hA : A.Ok)
    (hF : A.Fits) (P : ℕ) (hn : A.n < 2 ^ 31) (hP : 0 < P) (hP2 : P ≤ 2 ^ 16) (m m' : ℤ → K)
    (hV : ReduceV W R A P m m') (x : ℤ) (hx : A.a + ((A.n - A.n % W.lanes : ℕ) : ℤ) ≤ x) : m' x = m x := by
  rw [(vector_reduce_result W R hR A hA hF P hn hP hP2 m).2 m' hV, if_neg (by omega)]

/-- The accumulators are whole vectors, whatever the mesh: an even number of voxels of 12 or 16 floats. -/
theorem acc_whole (W : Width) (nx ny nz : ℤ) (np : ℕ) :
    W.lanes ∣ (accArgs nx ny nz W.accFloats np).n := by
  show W.lanes ∣ (_ / 2 * 2 : ℤ).toNat * W.accFloats
  cases W
  · exact Dvd.dvd.mul_left (by decide) _
  · exact Dvd.dvd.mul_left (by decide) _
  · exact Dvd.dvd.mul_left (by decide) _

/-- `sizeof(hydro_t)/sizeof(float)`: 14 moments and `PAD_SIZE_HYDRO`,
/repo/src/sf_interface/sf_interface.h:27-53, 178-192. -/
def hydroFloats : ℕ := 16

/-- The moments are whole vectors, whatever the mesh. -/
theorem hydro_whole (W : Width) (nx ny nz : ℤ) (np : ℕ) :
    W.lanes ∣ (hydroArgs nx ny nz hydroFloats np).n := by
  show W.lanes ∣ _ * 16
  exact Dvd.dvd.mul_left (by cases W <;> decide) _

section arrays
variable {nx ny nz : ℤ} (hx : 1 ≤ nx) (hy : 1 ≤ ny) (hz : 1 ≤ nz)
include hx hy hz

/-- C85 for the accumulators: `reduce_accumulator_array` of a vector build is defined, and leaves exactly
what that of a scalar build with the same layout leaves. -/
theorem vector_reduce_accumulators (W : Width) (R R' : Rounding) (hR : R.Accurate) (hR' : R'.Accurate)
    (np P P' : ℕ) (hP : 0 < P) (hP2 : P ≤ 2 ^ 16) (hP' : 0 < P') (hP2' : P' ≤ 2 ^ 16)
    (hint : (np : ℤ) * (pow2Ceil2 (nvOf nx ny nz) * W.accFloats) < 2 ^ 31)
    (hint' : (accArgs nx ny nz W.accFloats np).n < 2 ^ 31) (m : ℤ → K) :
    (∃ m', ReduceV W R (accArgs nx ny nz W.accFloats np) P m m') ∧
      ∀ m' m'', ReduceV W R (accArgs nx ny nz W.accFloats np) P m m' →
        Reduce R' (accArgs nx ny nz W.accFloats np) P' m m'' → m' = m'' :=
  ⟨(vector_reduce_result W R hR _ (accArgs_ok hx hy hz _ np) (accArgs_fits hx hy hz _ np hint) P hint' hP hP2 m).1,
    fun m' m'' => vector_reduce_eq_scalar W R R' hR hR' _ (accArgs_ok hx hy hz _ np)
      (accArgs_fits hx hy hz _ np hint) (acc_whole W nx ny nz np) P P' hint' hP hP2 hP' hP2' m m' m''⟩

/-- C85 for the moments. -/
theorem vector_reduce_hydro (W : Width) (R R' : Rounding) (hR : R.Accurate) (hR' : R'.Accurate)
    (np P P' : ℕ) (hP : 0 < P) (hP2 : P ≤ 2 ^ 16) (hP' : 0 < P') (hP2' : P' ≤ 2 ^ 16)
    (hint : (np : ℤ) * (pow2Ceil2 (nvOf nx ny nz) * hydroFloats) < 2 ^ 31)
    (hint' : (hydroArgs nx ny nz hydroFloats np).n < 2 ^ 31) (m : ℤ → K) :
    (∃ m', ReduceV W R (hydroArgs nx ny nz hydroFloats np) P m m') ∧
      ∀ m' m'', ReduceV W R (hydroArgs nx ny nz hydroFloats np) P m m' →
        Reduce R' (hydroArgs nx ny nz hydroFloats np) P' m m'' → m' = m'' :=
  ⟨(vector_reduce_result W R hR _ (hydroArgs_ok hx hy hz _ np) (hydroArgs_fits hx hy hz _ np hint) P hint' hP hP2 m).1,
    fun m' m'' => vector_reduce_eq_scalar W R R' hR hR' _ (hydroArgs_ok hx hy hz _ np)
      (hydroArgs_fits hx hy hz _ np hint) (hydro_whole W nx ny nz np) P P' hint' hP hP2 hP' hP2' m m' m''⟩

end arrays

/-! ## Interpolators -/

open Interp in
lemma coefficientsV_eq (f : Field.FMem K) (s : Stencil) : coefficientsV f s = coefficients f s := by
  simp only [coefficientsV, coefficients, eCoeffV, toggle, merge, splat, sgn12, sgn23, sgn13, sel01,
    Pi.mul_apply, Pi.add_apply, Matrix.cons_val, Matrix.cons_val_zero, Matrix.cons_val_one, if_true, if_false,
    Bool.false_eq_true]
  congr 1 <;> ring

open Interp in
/-- C85 for the interpolators: loading them in a v4 build does exactly what the scalar build does,
schedule by schedule. -/
theorem vector_load_interpolator (R : Rounding) (g : Grid.LGrid) (P : ℕ) (f : Field.FMem K) (m m' : IMem K) :
    LoadInterpolatorV R g P f m m' ↔ LoadInterpolator R g P f m m' := by
  have e : loadOneV (K := K) f = loadOne f := by
    funext s m
    unfold loadOneV loadOne
    rw [coefficientsV_eq]
  unfold LoadInterpolatorV LoadInterpolator
  rw [e]

/-! ## Concrete cases -/

/-- A mesh of 64 by 32 by 3 cells with 16 pipelines meets the hypotheses in every vector build. -/
example (W : Width) : (16 : ℤ) * (pow2Ceil2 (nvOf 64 32 3) * W.accFloats) < 2 ^ 31 ∧
    (accArgs 64 32 3 W.accFloats 16).n < 2 ^ 31 ∧
    (16 : ℤ) * (pow2Ceil2 (nvOf 64 32 3) * hydroFloats) < 2 ^ 31 ∧
    (hydroArgs 64 32 3 hydroFloats 16).n < 2 ^ 31 := by
  cases W <;> decide

/-- Two arrays of five numbers, all one, in a 4-lane build: the first four numbers become two, the fifth
stays one, while the scalar build makes it two. -/
theorem vector_reduce_stragglers_case : ∃ A : RedArgs, A.Ok ∧ A.Fits ∧
    ∀ m' m'' : ℤ → ℚ, ReduceV .v4 Distribute.doubleRounding A 3 (fun _ => 1) m' →
      Reduce Distribute.doubleRounding A 3 (fun _ => 1) m'' →
      m' 3 = 2 ∧ m' 4 = 1 ∧ m'' 3 = 2 ∧ m'' 4 = 2 := by
  have hA : (⟨10, 0, 5, 2, 5, 1⟩ : RedArgs).Ok := ⟨by norm_num, by norm_num, by norm_num, by norm_num⟩
  have hF : (⟨10, 0, 5, 2, 5, 1⟩ : RedArgs).Fits := by unfold RedArgs.Fits; norm_num
  refine ⟨_, hA, hF, fun m' m'' hV hS => ?_⟩
  have h1 := (vector_reduce_result .v4 _ Distribute.doubleRounding_accurate _ hA hF 3 (by norm_num) (by norm_num)
    (by norm_num) (fun _ => (1 : ℚ))).2 m' hV
  have h2 := (reduce_sums _ Distribute.doubleRounding_accurate _ hA hF 3 (by norm_num) (by norm_num)
    (by norm_num) (fun _ => (1 : ℚ))).2 m'' hS
  refine ⟨?_, ?_, ?_, ?_⟩
  · rw [h1]; norm_num
  · rw [h1]; norm_num
  · rw [h2]; norm_num
  · rw [h2]; norm_num

end Verif.Simd
