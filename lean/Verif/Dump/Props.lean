import Verif.Dump.Model
import Verif.Util.Props
import Mathlib.Data.List.Basic
import Mathlib.Data.List.Nodup
import Mathlib.Data.List.Range
import Mathlib.Data.List.Sort
import Mathlib.Tactic.Ring
import Mathlib.Tactic.Linarith
import Mathlib.Data.Fin.VecNotation
import Mathlib.Algebra.Field.Rat

/-!
Dumps of fields and moments (C61).
-/

namespace Verif.Dump

/-! ## Specification -/

/-- The indices written along an axis of `n` cells with stride `s`: the two boundary indices and every
`s`-th index between them. -/
def kept (n s : ℕ) : List ℕ :=
  (List.range (n + 2)).filter fun c => c == 0 || c == n + 1 || decide (s ∣ c + 1)

/-- The mesh cells written, x fastest. -/
def cells {K : Type} (g : Mesh K) (s : Fin 3 → ℕ) : List (ℕ × ℕ × ℕ) :=
  (kept (g.n 2) (s 2)).flatMap fun k => (kept (g.n 1) (s 1)).flatMap fun j =>
    (kept (g.n 0) (s 0)).map fun i => (i, j, k)

/-- The array holds the words `val voxel word` for the cells of the mesh, and `extra` further words. -/
def Holds {K W : Type} (a : Arr W) (g : Mesh K) (val : ℕ → ℕ → W) : Prop :=
  ∀ v < (g.n 0 + 2) * (g.n 1 + 2) * (g.n 2 + 2), ∀ w < a.size, a.words[v * a.size + w]? = some (val v w)

/-- The selected variables among the first `total`. -/
def selected (vars : BitVec 32) (total : ℕ) : List ℕ := (List.range total).filter fun b => vars.getLsbD b

/-- Banded file: one block for each selected variable. -/
def banded {K W : Type} (g : Mesh K) (s : Fin 3 → ℕ) (val : ℕ → ℕ → W) (vs : List ℕ) : List W :=
  vs.flatMap fun b => (cells g s).map fun c => val (g.voxel c.1 c.2.1 c.2.2) b

/-- Interleaved file: the complete elements of the cells. -/
def interleaved {K W : Type} (g : Mesh K) (s : Fin 3 → ℕ) (val : ℕ → ℕ → W) (size : ℕ) : List W :=
  (cells g s).flatMap fun c => (List.range size).map fun w => val (g.voxel c.1 c.2.1 c.2.2) w

/-- The strides divide the mesh. -/
def Divides {K : Type} (g : Mesh K) (s : Fin 3 → ℕ) : Prop := ∀ c, 0 < s c ∧ s c ∣ g.n c

/-- Either every axis is written in full or none is. -/
def Uniform (s : Fin 3 → ℕ) : Prop := (∀ c, s c = 1) ∨ ∀ c, 1 < s c

/-- The header describes the strided mesh. -/
def HeaderOf {K W : Type} [Mul K] [NatCast K] (F : File K W) (g : Mesh K) (s : Fin 3 → ℕ) (size : ℕ) : Prop :=
  F.nout = (fun c => g.n c / s c) ∧ F.dout = (fun c => g.d c * (s c : K)) ∧ F.elem = 4 * size ∧
    F.dim = fun c => g.n c / s c + 2

/-! ## Lemmas -/

lemma cRemainder_zero (n s : ℕ) : cRemainder n s = some 0 ↔ 0 < s ∧ s ∣ n := by
  unfold cRemainder
  rcases Nat.eq_zero_or_pos s with rfl | hs
  · simp
  rw [if_neg (by omega)]
  have hlt := Nat.mod_lt n hs
  rw [Nat.dvd_iff_mod_eq_zero]
  split
  · simp only [Option.some.injEq, hs, true_and]; omega
  · rename_i h
    constructor
    · intro h'
      simp only [Option.some.injEq] at h'
      omega
    · intro ⟨_, h'⟩
      exfalso; apply h; left; omega

lemma badStride_false (n s : ℕ) : badStride n s = false ↔ 0 < s ∧ s ∣ n := by
  unfold badStride
  simp [cRemainder_zero]

lemma unit3_iff (P : Params) : unit3 P = true ↔ ∀ c, P.stride c = 1 := by
  unfold unit3
  simp only [Bool.and_eq_true, beq_iff_eq]
  constructor
  · rintro ⟨⟨h0, h1⟩, h2⟩ c
    match c with
    | 0 => exact h0
    | 1 => exact h1
    | 2 => exact h2
  · intro h; exact ⟨⟨h 0, h 1⟩, h 2⟩

lemma mapM_ok {α β : Type} (l : List α) (f : α → Except Fault β) (h : α → β)
    (hf : ∀ x ∈ l, f x = .ok (h x)) : l.mapM f = .ok (l.map h) := by
  induction l with
  | nil => rfl
  | cons x l ih =>
    rw [List.mapM_cons, hf x (by simp), ih fun y hy => hf y (by simp [hy])]
    rfl

lemma loop3_ok {W : Type} (nx ny nz : ℕ) (f : ℕ → ℕ → ℕ → Except Fault (List W))
    (h : ℕ → ℕ → ℕ → List W) (hf : ∀ k < nz, ∀ j < ny, ∀ i < nx, f i j k = .ok (h i j k)) :
    loop3 nx ny nz f = .ok ((List.range nz).flatMap fun k => (List.range ny).flatMap fun j =>
      (List.range nx).flatMap fun i => h i j k) := by
  unfold loop3
  rw [mapM_ok _ _ fun k => (List.range ny).flatMap fun j => (List.range nx).flatMap fun i => h i j k]
  · simp [List.flatMap]
  intro k hk
  rw [mapM_ok _ _ fun j => (List.range nx).flatMap fun i => h i j k]
  · simp [List.flatMap]
  intro j hj
  rw [mapM_ok _ _ fun i => h i j k]
  · simp [List.flatMap]
  intro i hi
  exact hf k (List.mem_range.mp hk) j (List.mem_range.mp hj) i (List.mem_range.mp hi)

lemma mem_kept (n s c : ℕ) : c ∈ kept n s ↔ c < n + 2 ∧ (c = 0 ∨ c = n + 1 ∨ s ∣ c + 1) := by
  simp [kept, or_assoc]

/-- The indices of the loop of a stride of at least two are those kept. -/
lemma kept_stride (n s : ℕ) (hs : 1 < s) (hd : s ∣ n) :
    (List.range (n / s + 2)).map (off n (n / s) s) = kept n s := by
  obtain ⟨m, rfl⟩ := hd
  rw [Nat.mul_div_cancel_left _ (by omega)]
  have key : ∀ k, 0 < k → k ≤ m → s ≤ s * k ∧ s * k ≤ s * m := fun k h1 h2 =>
    ⟨Nat.le_mul_of_pos_right _ h1, Nat.mul_le_mul_left _ h2⟩
  have hmono : ∀ a b, a < b → b < m + 2 → off (s * m) m s a < off (s * m) m s b := by
    intro a b hab hb
    unfold off
    rw [if_neg (show b ≠ 0 by omega), if_neg (show a ≠ m + 1 by omega)]
    rw [Nat.mul_comm a, Nat.mul_comm b]
    by_cases ha : a = 0
    · rw [if_pos ha]
      split
      · omega
      · have := key b (by omega) (by omega); omega
    · rw [if_neg ha]
      have h1 := key a (by omega) (by omega)
      split
      · omega
      · have h2 := key b (by omega) (by omega)
        have : s * a < s * b := Nat.mul_lt_mul_of_pos_left hab (by omega)
        omega
  apply List.Pairwise.eq_of_mem_iff (r := (· < ·))
  · rw [List.pairwise_map]
    refine List.Pairwise.imp_of_mem ?_ (List.pairwise_lt_range (n := m + 2))
    intro a b ha hb hab
    exact hmono a b hab (List.mem_range.mp hb)
  · exact List.Pairwise.filter _ List.pairwise_lt_range
  · intro c
    rw [mem_kept, List.mem_map]
    constructor
    · rintro ⟨k, hk, rfl⟩
      rw [List.mem_range] at hk
      unfold off
      split
      · exact ⟨by omega, .inl rfl⟩
      split
      · exact ⟨by omega, .inr (.inl rfl)⟩
      have := key k (by omega) (by omega)
      rw [Nat.mul_comm]
      refine ⟨by omega, .inr (.inr ⟨k, by omega⟩)⟩
    · rintro ⟨h1, h⟩
      by_cases hc : c = s * m + 1
      · exact ⟨m + 1, by simp, by simp [off, hc]⟩
      rcases h with rfl | h | ⟨k, hk⟩
      · exact ⟨0, by simp, by simp [off]⟩
      · exact absurd h hc
      · have hk0 : 0 < k := by
          rcases Nat.eq_zero_or_pos k with rfl | h
          · simp at hk
          · exact h
        have hkm : k ≤ m := by
          by_contra h
          have : s * (m + 1) ≤ s * k := Nat.mul_le_mul_left _ (by omega)
          rw [Nat.mul_add] at this
          by_cases h3 : k = m + 1
          · omega
          · have : s * (m + 2) ≤ s * k := Nat.mul_le_mul_left _ (by omega)
            rw [Nat.mul_add] at this
            omega
        refine ⟨k, by rw [List.mem_range]; omega, ?_⟩
        unfold off
        rw [if_neg (by omega), if_neg (by omega), Nat.mul_comm]
        omega

lemma kept_one (n : ℕ) : kept n 1 = List.range (n + 2) := by
  unfold kept
  rw [List.filter_eq_self]
  simp

/-- The indices read along an axis. -/
def offs {K : Type} (g : Mesh K) (P : Params) (c : Fin 3) (k : ℕ) : ℕ :=
  if unit3 P then k else off (g.n c) (g.n c / P.stride c) (P.stride c) k

lemma kept_offs {K : Type} (g : Mesh K) (P : Params) (hd : Divides g P.stride) (hu : Uniform P.stride)
    (c : Fin 3) : (List.range (g.n c / P.stride c + 2)).map (offs g P c) = kept (g.n c) (P.stride c) := by
  rcases hu with hu | hu
  · rw [hu c, kept_one, Nat.div_one]
    have : offs g P c = id := by funext k; simp [offs, (unit3_iff P).2 hu]
    rw [this, List.map_id]
  · have h : ¬ unit3 P = true := by
      rw [unit3_iff]; intro h; have := hu 0; have := h 0; omega
    rw [← kept_stride _ _ (hu c) (hd c).2]
    apply List.map_congr_left
    intro k _
    simp only [offs, if_neg h]

lemma voxel_lt {K : Type} (g : Mesh K) (x y z : ℕ) (hx : x < g.n 0 + 2) (hy : y < g.n 1 + 2)
    (hz : z < g.n 2 + 2) : g.voxel x y z < (g.n 0 + 2) * (g.n 1 + 2) * (g.n 2 + 2) := by
  unfold Mesh.voxel
  have h1 : y + (g.n 1 + 2) * z + 1 ≤ (g.n 1 + 2) * (g.n 2 + 2) := by nlinarith
  have h2 : (g.n 0 + 2) * (y + (g.n 1 + 2) * z + 1) ≤ (g.n 0 + 2) * ((g.n 1 + 2) * (g.n 2 + 2)) :=
    Nat.mul_le_mul_left _ h1
  rw [Nat.mul_assoc]
  rw [Nat.mul_add] at h2
  omega

lemma offs_lt {K : Type} (g : Mesh K) (P : Params) (hd : Divides g P.stride) (hu : Uniform P.stride)
    (c : Fin 3) (k : ℕ) (hk : k < g.n c / P.stride c + 2) : offs g P c k < g.n c + 2 := by
  have h : offs g P c k ∈ kept (g.n c) (P.stride c) := by
    rw [← kept_offs g P hd hu c]
    exact List.mem_map.2 ⟨k, List.mem_range.2 hk, rfl⟩
  exact ((mem_kept _ _ _).1 h).1

lemma word_ok {K W : Type} (a : Arr W) (g : Mesh K) (val : ℕ → ℕ → W) (h : Holds a g val) (v w : ℕ)
    (hv : v < (g.n 0 + 2) * (g.n 1 + 2) * (g.n 2 + 2)) (hw : w < a.size) : a.word v w = .ok (val v w) := by
  simp only [Arr.word, Arr.read, h v hv w hw]

lemma write1_ok {K W : Type} (a : Arr W) (g : Mesh K) (val : ℕ → ℕ → W) (h : Holds a g val) (v : ℕ)
    (hv : v < (g.n 0 + 2) * (g.n 1 + 2) * (g.n 2 + 2)) :
    a.write v 1 = .ok ((List.range a.size).map (val v)) := by
  unfold Arr.write
  rw [Nat.one_mul]
  exact mapM_ok _ _ _ fun w hw => word_ok a g val h v w hv (List.mem_range.1 hw)

/-- `n` elements from the start. -/
lemma write_ok {K W : Type} (a : Arr W) (g : Mesh K) (val : ℕ → ℕ → W) (h : Holds a g val) (n : ℕ)
    (hn : n ≤ (g.n 0 + 2) * (g.n 1 + 2) * (g.n 2 + 2)) :
    a.write 0 n = .ok ((List.range n).flatMap fun v => (List.range a.size).map (val v)) := by
  unfold Arr.write
  rcases Nat.eq_zero_or_pos a.size with h0 | h0
  · simp [h0, List.flatMap]; rfl
  rw [mapM_ok _ _ fun w => val (w / a.size) (w % a.size)]
  · congr 1
    clear hn
    induction n with
    | zero => simp
    | succ n ih =>
      rw [Nat.succ_mul, List.range_add, List.map_append, ih, List.range_succ, List.flatMap_append]
      congr 1
      simp only [List.map_map, List.flatMap_cons, List.flatMap_nil, List.append_nil]
      apply List.map_congr_left
      intro w hw
      have := List.mem_range.1 hw
      simp only [Function.comp]
      rw [Nat.mul_comm n, Nat.mul_add_div h0, Nat.mul_add_mod, Nat.div_eq_of_lt this, Nat.mod_eq_of_lt this,
        Nat.add_zero]
  · intro w hw
    have hw := List.mem_range.1 hw
    have h1 : w / a.size < n := (Nat.div_lt_iff_lt_mul h0).2 hw
    have h2 := h (w / a.size) (by omega) (w % a.size) (Nat.mod_lt _ h0)
    rw [Nat.mul_comm, Nat.div_add_mod] at h2
    simp only [Arr.read, Nat.zero_mul, Nat.zero_add, h2]

lemma cells_eq {K : Type} (g : Mesh K) (P : Params) (hd : Divides g P.stride) (hu : Uniform P.stride) :
    cells g P.stride = (List.range (g.n 2 / P.stride 2 + 2)).flatMap fun k =>
      (List.range (g.n 1 / P.stride 1 + 2)).flatMap fun j =>
        (List.range (g.n 0 / P.stride 0 + 2)).map fun i => (offs g P 0 i, offs g P 1 j, offs g P 2 k) := by
  unfold cells
  simp only [← kept_offs g P hd hu, List.flatMap_map, List.map_map]
  rfl

/-- All voxels in order. -/
lemma range_voxels (nx ny nz : ℕ) : List.range (nx * ny * nz) =
    (List.range nz).flatMap fun k => (List.range ny).flatMap fun j =>
      (List.range nx).map fun i => i + nx * (j + ny * k) := by
  have row : ∀ n c, List.range (c * n) = (List.range n).flatMap fun j => (List.range c).map fun i => i + c * j := by
    intro n c
    induction n with
    | zero => simp
    | succ n ih =>
      rw [Nat.mul_succ, List.range_add, ih, List.range_succ, List.flatMap_append]
      simp [Nat.add_comm]
  rw [row nz (nx * ny)]
  congr 1
  funext k
  rw [row ny nx, List.map_flatMap]
  congr 1
  funext j
  rw [List.map_map]
  apply List.map_congr_left
  intro i _
  simp only [Function.comp]
  ring

lemma bands_ok {K W : Type} (a : Arr W) (g : Mesh K) (P : Params) (val : ℕ → ℕ → W) (h : Holds a g val)
    (hd : Divides g P.stride) (hu : Uniform P.stride) (vs : List ℕ) (hv : ∀ w ∈ vs, w < a.size) :
    bands a g (fun c => g.n c / P.stride c) (vs.map some) (offs g P) = .ok (banded g P.stride val vs) := by
  unfold bands
  rw [mapM_ok _ _ (fun o : Option ℕ => (cells g P.stride).map fun c => val (g.voxel c.1 c.2.1 c.2.2) (o.getD 0))]
  · show Except.ok _ = Except.ok _
    congr 1
    simp [banded, List.flatMap, List.map_map, Function.comp_def]
  · intro o ho
    obtain ⟨w, hw, rfl⟩ := List.mem_map.1 ho
    rw [loop3_ok _ _ _ _ fun i j k => [val (g.voxel (offs g P 0 i) (offs g P 1 j) (offs g P 2 k)) w]]
    · rw [cells_eq g P hd hu]
      simp only [List.map_flatMap, List.map_map, Option.getD_some]
      congr 1
      congr 1; funext k; congr 1; funext j
      rw [List.map_eq_flatMap]
      rfl
    · intro k hk j hj i hi
      simp only [putWord, entry]
      show (do let x ← a.word _ w; pure [x]) = _
      rw [word_ok a g val h _ _ (voxel_lt g _ _ _ (offs_lt g P hd hu 0 i hi) (offs_lt g P hd hu 1 j hj)
        (offs_lt g P hd hu 2 k hk)) (hv w hw)]
      rfl

lemma bitset_filter (vars : BitVec 32) (total : ℕ) (ht : total ≤ 32) :
    ((List.range total).filter fun i => Util.bitset vars i == some true) = selected vars total := by
  unfold selected
  apply List.filter_congr
  intro i hi
  rw [Util.bitset_eq _ _ (by have := List.mem_range.1 hi; omega)]
  simp

/-- The variable list is exact when no bit above the known variables is selected, or every known one is. -/
lemma varlist_ok (vars : BitVec 32) (total : ℕ) (ht : total ≤ 32)
    (hv : (∀ b, total ≤ b → vars.getLsbD b = false) ∨ ∀ b < total, vars.getLsbD b = true) :
    varlist vars total = .ok ((selected vars total).map some) := by
  unfold varlist
  have h1 : Util.bitsum vars = some ((selected vars 32).length) := by
    rw [Util.bitsum, Util.bitsumOf_eq _ _ fun i hi => List.mem_range.mp hi, Nat.zero_add,
      List.countP_eq_length_filter]
    rfl
  rw [h1]
  dsimp only
  rw [bitset_filter vars total ht]
  have hle : (selected vars total).length ≤ total := by
    unfold selected
    calc _ ≤ (List.range total).length := List.length_filter_le _ _
      _ = total := by simp
  have hsplit : (selected vars 32).length = (selected vars total).length +
      ((List.range (32 - total)).filter fun b => vars.getLsbD (total + b)).length := by
    unfold selected
    have hr : List.range 32 = List.range total ++ (List.range (32 - total)).map (total + ·) := by
      rw [← List.range_add]; congr 1; omega
    rw [hr, List.filter_append, List.length_append, List.filter_map, List.length_map]
    rfl
  have : min (selected vars 32).length total = (selected vars total).length := by
    rcases hv with hv | hv
    · have : ((List.range (32 - total)).filter fun b => vars.getLsbD (total + b)) = [] := by
        rw [List.filter_eq_nil_iff]
        intro b _
        simp [hv (total + b) (by omega)]
      rw [this] at hsplit
      simp only [List.length_nil, Nat.add_zero] at hsplit
      omega
    · have : (selected vars total).length = total := by
        unfold selected
        rw [List.filter_eq_self.2]
        · simp
        · intro b hb; exact hv b (List.mem_range.1 hb)
      omega
  rw [this]
  simp

/-! ## Theorems -/

/-- What is written along an axis: exactly the two boundary indices and every `s`-th cell; with stride one
every index. Each is written once, in order, and there are `n/s+2`. -/
theorem kept_spec (n s : ℕ) (hs : 0 < s) (hd : s ∣ n) :
    (∀ c, c ∈ kept n s ↔ c = 0 ∨ c = n + 1 ∨ (c ≤ n ∧ s ∣ c + 1)) ∧
    (kept n s).Pairwise (· < ·) ∧ (kept n s).length = n / s + 2 ∧ (s = 1 → ∀ c ≤ n + 1, c ∈ kept n s) := by
  refine ⟨fun c => ?_, List.Pairwise.filter _ List.pairwise_lt_range, ?_, ?_⟩
  · rw [mem_kept]
    constructor
    · rintro ⟨h1, h | h | h⟩
      · exact .inl h
      · exact .inr (.inl h)
      · by_cases hc : c = n + 1
        · exact .inr (.inl hc)
        · exact .inr (.inr ⟨by omega, h⟩)
    · rintro (h | h | h)
      · exact ⟨by omega, .inl h⟩
      · exact ⟨by omega, .inr (.inl h)⟩
      · exact ⟨by omega, .inr (.inr h.2)⟩
  · by_cases h1 : s = 1
    · rw [h1, kept_one]; simp
    · rw [← kept_stride n s (by omega) hd]; simp
  · rintro rfl c hc
    rw [kept_one, List.mem_range]; omega

/-- The number of cells written. -/
theorem cells_length {K : Type} (g : Mesh K) (s : Fin 3 → ℕ) (hd : Divides g s) :
    (cells g s).length = (g.n 0 / s 0 + 2) * (g.n 1 / s 1 + 2) * (g.n 2 / s 2 + 2) := by
  have h := fun c => (kept_spec (g.n c) (s c) (hd c).1 (hd c).2).2.2.1
  unfold cells
  simp only [List.length_flatMap, List.length_map, h, List.map_const', List.sum_replicate, smul_eq_mul]
  ring

/-- **C61**, rejection: a dump whose strides do not all divide the mesh, or are zero, is refused. -/
theorem bad_stride_refused {K W : Type} [Mul K] [NatCast K] (a : Arr W) (g : Mesh K) (P : Params)
    (h : ¬ Divides g P.stride) :
    fieldDump a g P = .error .error ∧ hydroDump a g P = .error .error := by
  have hb : (badStride (g.n 0) (P.stride 0) || badStride (g.n 1) (P.stride 1) ||
      badStride (g.n 2) (P.stride 2)) = true := by
    by_contra hn
    rw [Bool.not_eq_true, Bool.or_eq_false_iff, Bool.or_eq_false_iff, badStride_false, badStride_false,
      badStride_false] at hn
    apply h
    intro c
    match c with
    | 0 => exact hn.1.1
    | 1 => exact hn.1.2
    | 2 => exact hn.2
  exact ⟨by unfold fieldDump; rw [if_pos hb], by unfold hydroDump; rw [if_pos hb]⟩

lemma stride_good {K : Type} (g : Mesh K) (P : Params) (hd : Divides g P.stride) :
    ¬ (badStride (g.n 0) (P.stride 0) || badStride (g.n 1) (P.stride 1) ||
      badStride (g.n 2) (P.stride 2)) = true := by
  rw [Bool.not_eq_true, Bool.or_eq_false_iff, Bool.or_eq_false_iff, badStride_false, badStride_false,
      badStride_false]
  exact ⟨⟨hd 0, hd 1⟩, hd 2⟩

lemma whole_cells {K W : Type} (g : Mesh K) (s : Fin 3 → ℕ) (hs : ∀ c, s c = 1) (val : ℕ → ℕ → W) (size : ℕ) :
    ((List.range ((g.n 0 + 2) * (g.n 1 + 2) * (g.n 2 + 2))).flatMap fun v => (List.range size).map (val v)) =
      interleaved g s val size := by
  rw [range_voxels]
  unfold interleaved cells
  simp only [hs, kept_one, List.flatMap_assoc, List.flatMap_map]
  rfl

/-- **C61**, fields: with strides that divide the mesh, all one or all larger, the dump of fields succeeds,
its header describes the strided mesh, and the array holds exactly the boundary and every stride-th cell,
each once, x fastest; block by block of the selected variables, or element by element.

Partial: mixed strides lose a plane of cells (`mixed_stride_wrong`), and selecting the materials in a
banded dump (words 20 to 23, which `field_t` does not have) reads beyond the record and the array
(`field_materials_undefined`). -/
theorem field_dump_partial {K W : Type} [Mul K] [NatCast K] (a : Arr W) (g : Mesh K) (P : Params)
    (val : ℕ → ℕ → W) (h : Holds a g val) (ha : a.size = 20) (hd : Divides g P.stride)
    (hu : Uniform P.stride) (hv : P.fmt = .band → ∀ b, 20 ≤ b → P.vars.getLsbD b = false) :
    ∃ F, fieldDump a g P = .ok F ∧ HeaderOf F g P.stride 20 ∧
      F.data = match P.fmt with
        | .band => banded g P.stride val (selected P.vars 20)
        | .bandInterleave => interleaved g P.stride val 20 := by
  unfold fieldDump
  rw [if_neg (stride_good g P hd)]
  dsimp only
  cases hf : P.fmt with
  | band =>
    have hv' := hv hf
    have hsel : selected P.vars 24 = selected P.vars 20 := by
      unfold selected
      rw [show (24 : ℕ) = 20 + 4 from rfl, List.range_add, List.filter_append]
      have : (List.map (fun x => 20 + x) (List.range 4)).filter (fun b => P.vars.getLsbD b) = [] := by
        rw [List.filter_eq_nil_iff]
        intro b hb
        obtain ⟨x, _, rfl⟩ := List.mem_map.1 hb
        simp [hv' (20 + x) (by omega)]
      rw [this, List.append_nil]
    have hb : bands a g (fun c => g.n c / P.stride c) ((selected P.vars 20).map some)
        (fun c k => if unit3 P = true then k else off (g.n c) (g.n c / P.stride c) (P.stride c) k) =
        .ok (banded g P.stride val (selected P.vars 20)) :=
      bands_ok a g P val h hd hu _ fun w hw => by
        unfold selected at hw
        rw [List.mem_filter, List.mem_range] at hw
        rw [ha]; exact hw.1
    dsimp only
    rw [varlist_ok P.vars 24 (by norm_num) (.inl fun b hb => hv' b (by omega)), hsel]
    simp only [bind, Except.bind]
    rw [hb]
    exact ⟨_, rfl, ⟨rfl, rfl, by rw [ha], rfl⟩, rfl⟩
  | bandInterleave =>
    dsimp only
    by_cases h1 : unit3 P = true
    · rw [if_pos h1]
      rw [unit3_iff] at h1
      have hw := write_ok a g val h _ le_rfl
      rw [ha, whole_cells g P.stride h1] at hw
      simp only [h1, Nat.div_one, hw]
      refine ⟨_, rfl, ⟨?_, ?_, by rw [ha], ?_⟩, ?_⟩
      · simp [h1]
      · simp [h1]
      · simp [h1]
      · rfl
    · rw [if_neg h1]
      have hl : (loop3 (g.n 0 / P.stride 0 + 2) (g.n 1 / P.stride 1 + 2) (g.n 2 / P.stride 2 + 2) fun i j k =>
          a.write (g.voxel (if unit3 P = true then i else off (g.n 0) (g.n 0 / P.stride 0) (P.stride 0) i)
            (if unit3 P = true then j else off (g.n 1) (g.n 1 / P.stride 1) (P.stride 1) j)
            (if unit3 P = true then k else off (g.n 2) (g.n 2 / P.stride 2) (P.stride 2) k)) 1) =
          .ok (interleaved g P.stride val 20) := by
        rw [loop3_ok _ _ _ _ fun i j k => (List.range 20).map
          (val (g.voxel (offs g P 0 i) (offs g P 1 j) (offs g P 2 k)))]
        · unfold interleaved
          rw [cells_eq g P hd hu]
          simp only [List.flatMap_assoc, List.flatMap_map]
        · intro k hk j hj i hi
          have := write1_ok a g val h _ (voxel_lt g _ _ _ (offs_lt g P hd hu 0 i hi) (offs_lt g P hd hu 1 j hj)
            (offs_lt g P hd hu 2 k hk))
          rw [ha] at this
          exact this
      rw [hl]
      exact ⟨_, rfl, ⟨rfl, rfl, by rw [ha], rfl⟩, rfl⟩

/-- **C61**, moments in bands: likewise. Partial: the interleaved format leaves the boundary out and with
stride one writes other cells than it declares (`hydro_interleave_wrong`); mixed strides as for fields;
bits above the fourteen moments must not be selected unless all moments are
(`spare_bit_undefined`). -/
theorem hydro_dump_partial {K W : Type} [Mul K] [NatCast K] (a : Arr W) (g : Mesh K) (P : Params)
    (val : ℕ → ℕ → W) (h : Holds a g val) (ha : a.size = 16) (hd : Divides g P.stride)
    (hu : Uniform P.stride) (hf : P.fmt = .band)
    (hv : (∀ b, 14 ≤ b → P.vars.getLsbD b = false) ∨ ∀ b < 14, P.vars.getLsbD b = true) :
    ∃ F, hydroDump a g P = .ok F ∧ HeaderOf F g P.stride 16 ∧
      F.data = banded g P.stride val (selected P.vars 14) := by
  unfold hydroDump
  rw [if_neg (stride_good g P hd), hf]
  dsimp only
  rw [varlist_ok P.vars 14 (by norm_num) hv]
  have hb : bands a g (fun c => g.n c / P.stride c) ((selected P.vars 14).map some)
      (fun c k => if unit3 P = true then k else off (g.n c) (g.n c / P.stride c) (P.stride c) k) =
      .ok (banded g P.stride val (selected P.vars 14)) :=
    bands_ok a g P val h hd hu _ fun w hw => by
      unfold selected at hw
      rw [List.mem_filter, List.mem_range] at hw
      rw [ha]; omega
  simp only [bind, Except.bind]
  rw [hb]
  exact ⟨_, rfl, ⟨rfl, rfl, by rw [ha], rfl⟩, rfl⟩

/-- **C61**, the plain dumps of fields and moments write the whole array. -/
theorem dump_whole {K W : Type} (a : Arr W) (g : Mesh K) (val : ℕ → ℕ → W) (h : Holds a g val) :
    ∃ F, dumpWhole a g = .ok F ∧ F.nout = g.n ∧ F.dout = g.d ∧ F.elem = 4 * a.size ∧
      (F.dim = fun c => g.n c + 2) ∧ F.data = interleaved g (fun _ => 1) val a.size := by
  unfold dumpWhole
  dsimp only
  rw [write_ok a g val h _ le_rfl, whole_cells g (fun _ => 1) fun _ => rfl]
  exact ⟨_, rfl, rfl, rfl, rfl, rfl, rfl⟩

end Verif.Dump
