import Verif.Region.Model

/-! # Lemmas on the loops over regions -/
namespace Verif.Region

open Grid (LGrid VOXEL BOUNDARY fromTo)
open Field (Pos FC FMem vox box mem_box box_nodup dims InArray vox_inj)
open Inject (Geom)

lemma fromTo_succ {a b : ℤ} (h : a ≤ b) : fromTo a b = a :: fromTo (a + 1) b := by
  unfold fromTo
  have : (b - a + 1).toNat = (b - (a + 1) + 1).toNat + 1 := by omega
  rw [this, List.range_succ_eq_map, List.map_cons, List.map_map]
  congr 1
  · simp
  · refine List.map_congr_left fun k _ => ?_
    simp only [Function.comp, Nat.succ_eq_add_one]
    push_cast
    ring

lemma fromTo_nil {a b : ℤ} (h : b < a) : fromTo a b = [] := by
  unfold fromTo
  have : (b - a + 1).toNat = 0 := by omega
  rw [this]
  rfl

lemma count_eq {σ : Type*} (body : ℤ → σ → σ) (n : ℕ) (i : ℤ) (s : σ) :
    count body n i s = (fromTo i (i + n - 1)).foldl (fun s x => body x s) s := by
  induction n generalizing i s with
  | zero => rw [fromTo_nil (by push_cast; omega)]; rfl
  | succ n ih =>
    rw [fromTo_succ (by push_cast; omega), List.foldl_cons, count, ih]
    congr 2
    push_cast
    ring

lemma row_eq {σ : Type*} (st : ℤ) (body : ℤ → ℤ → σ → σ) (n : ℕ) (i f : ℤ) (s : σ) :
    row st body n i f s = (fromTo i (i + n - 1)).foldl (fun s x => body x (f + st * (x - i)) s) s := by
  induction n generalizing i f s with
  | zero => rw [fromTo_nil (by push_cast; omega)]; rfl
  | succ n ih =>
    rw [fromTo_succ (by push_cast; omega), List.foldl_cons, row, ih]
    have e1 : i + 1 + (n : ℤ) - 1 = i + ((n + 1 : ℕ) : ℤ) - 1 := by push_cast; ring
    have e2 : ∀ x, f + st + st * (x - (i + 1)) = f + st * (x - i) := fun x => by ring
    have e3 : f + st * (i - i) = f := by ring
    rw [e1, e3]
    simp only [e2]

lemma box_foldl {σ : Type*} (lo hi : Pos) (h : ℤ → ℤ → ℤ → σ → σ) (s : σ) :
    (box lo hi).foldl (fun s c => h (c 0) (c 1) (c 2) s) s =
      (fromTo (lo 2) (hi 2)).foldl (fun s k => (fromTo (lo 1) (hi 1)).foldl (fun s j =>
        (fromTo (lo 0) (hi 0)).foldl (fun s i => h i j k s) s) s) s := by
  unfold box Grid.cellsOf
  simp only [List.foldl_map, List.foldl_flatMap]
  rfl

/-- The loop over all voxels, without the running pointer. -/
lemma sweepAll_eq {σ : Type*} {g : LGrid} (hg : ∀ a, 0 ≤ dims g a) (body : ℤ → ℤ → ℤ → ℤ → σ → σ) (s : σ) :
    sweepAll g body s = (box (fun _ => 0) (fun a => dims g a + 1)).foldl (fun s c => body (c 0) (c 1) (c 2) (vox g c) s) s := by
  have h0 : 0 ≤ g.nx := hg 0
  have h1 : 0 ≤ g.ny := hg 1
  have h2 : 0 ≤ g.nz := hg 2
  have := box_foldl (fun _ => 0) (fun a => dims g a + 1) (fun i j k s => body i j k (VOXEL g.nx g.ny i j k) s) s
  simp only [vox]
  rw [this]
  unfold sweepAll
  simp only [count_eq, row_eq]
  have e : ∀ n : ℤ, 0 ≤ n → 0 + ((n + 2).toNat : ℤ) - 1 = n + 1 := fun n hn => by omega
  rw [e _ h0, e _ h1, e _ h2]
  have d0 : dims g 0 = g.nx := rfl
  have d1 : dims g 1 = g.ny := rfl
  have d2 : dims g 2 = g.nz := rfl
  rw [d0, d1, d2]
  have ev : ∀ i j k, VOXEL g.nx g.ny 0 j k + 1 * (i - 0) = VOXEL g.nx g.ny i j k := fun i j k => by unfold VOXEL; ring
  simp only [ev]

/-- The loop over the cells, without the running pointer. -/
lemma sweepSix_eq {σ : Type*} {g : LGrid} (hg : ∀ a, 0 ≤ dims g a) (body : ℤ → ℤ → ℤ → ℤ → σ → σ) (s : σ) :
    sweepSix g body s = (box (fun _ => 1) (dims g)).foldl (fun s c => body (c 0) (c 1) (c 2) (6 * vox g c) s) s := by
  have h0 : 0 ≤ g.nx := hg 0
  have h1 : 0 ≤ g.ny := hg 1
  have h2 : 0 ≤ g.nz := hg 2
  have := box_foldl (fun _ => 1) (dims g) (fun i j k s => body i j k (6 * VOXEL g.nx g.ny i j k) s) s
  simp only [vox]
  rw [this]
  unfold sweepSix
  simp only [count_eq, row_eq]
  have e : ∀ n : ℤ, 0 ≤ n → 1 + (n.toNat : ℤ) - 1 = n := fun n hn => by omega
  rw [e _ h0, e _ h1, e _ h2]
  have ev : ∀ i j k, 6 * VOXEL g.nx g.ny 1 j k + 6 * (i - 1) = 6 * VOXEL g.nx g.ny i j k := fun i j k => by unfold VOXEL; ring
  simp only [ev]
  rfl

lemma sweepCells_eq {σ : Type*} {g : LGrid} (hg : ∀ a, 0 ≤ dims g a) (body : ℤ → ℤ → ℤ → σ → σ) (s : σ) :
    sweepCells g body s = (box (fun _ => 1) (dims g)).foldl (fun s c => body (c 0) (c 1) (c 2) s) s := by
  have h0 : 0 ≤ g.nx := hg 0
  have h1 : 0 ≤ g.ny := hg 1
  have h2 : 0 ≤ g.nz := hg 2
  rw [box_foldl (fun _ => 1) (dims g) body s]
  unfold sweepCells
  simp only [count_eq]
  have e : ∀ n : ℤ, 0 ≤ n → 1 + (n.toNat : ℤ) - 1 = n := fun n hn => by omega
  rw [e _ h0, e _ h1, e _ h2]
  rfl

lemma setIf_apply {A V : Type*} [DecidableEq A] (b : Bool) (x : A) (v : V) (m : A → V) (y : A) :
    setIf b x v m y = if b = true ∧ y = x then v else m y := by
  unfold setIf
  cases b
  · simp
  · simp only [if_true, Function.update_apply, true_and]

/-- Steps that each change only addresses of their own: the result at an address of a step is what that step makes of the initial
memory. -/
lemma foldl_own {A V ι : Type*} (step : ι → (A → V) → A → V) (own : ι → A → Prop) (l : List ι) (hl : l.Nodup)
    (h1 : ∀ c m y, ¬ own c y → step c m y = m y) (h2 : ∀ c m m' y, m y = m' y → step c m y = step c m' y)
    (h3 : ∀ c ∈ l, ∀ d ∈ l, ∀ y, own c y → own d y → c = d) (m : A → V) :
    (∀ y, (∀ c ∈ l, ¬ own c y) → l.foldl (fun m c => step c m) m y = m y) ∧
    ∀ c ∈ l, ∀ y, own c y → l.foldl (fun m c => step c m) m y = step c m y := by
  induction l generalizing m with
  | nil => exact ⟨fun y _ => rfl, fun c hc => by simp at hc⟩
  | cons a l ih =>
    obtain ⟨na, nl⟩ := List.nodup_cons.1 hl
    obtain ⟨i1, i2⟩ := ih nl (fun c hc d hd => h3 c (List.mem_cons_of_mem _ hc) d (List.mem_cons_of_mem _ hd)) (step a m)
    refine ⟨fun y hy => ?_, fun c hc y hy => ?_⟩
    · rw [List.foldl_cons, i1 y fun c hc => hy c (List.mem_cons_of_mem _ hc), h1 _ _ _ (hy a List.mem_cons_self)]
    · rw [List.foldl_cons]
      rcases List.mem_cons.1 hc with rfl | hc'
      · refine i1 y fun d hd hod => na ?_
        rw [h3 c List.mem_cons_self d (List.mem_cons_of_mem _ hd) y hy hod]
        exact hd
      · rw [i2 c hc' y hy]
        refine h2 _ _ _ _ (h1 _ _ _ fun ho => na ?_)
        rw [h3 a List.mem_cons_self c (List.mem_cons_of_mem _ hc') y ho hy]
        exact hc'

/-- A loop over all voxels that sets members of the voxel at hand. -/
lemma sweepAll_local {C V : Type*} {g : LGrid} (hg : ∀ a, 0 ≤ dims g a) (body : ℤ → ℤ → ℤ → ℤ → (ℤ × C → V) → ℤ × C → V)
    (val : Pos → C → V → V) (hb : ∀ c f m y, body (c 0) (c 1) (c 2) f m y = if y.1 = f then val c y.2 (m y) else m y)
    (m : ℤ × C → V) :
    (∀ c, InArray g c → ∀ k, sweepAll g body m (vox g c, k) = val c k (m (vox g c, k))) ∧
    ∀ v k, (∀ c, InArray g c → v ≠ vox g c) → sweepAll g body m (v, k) = m (v, k) := by
  rw [sweepAll_eq hg]
  have hm : ∀ c, c ∈ box (fun _ => 0) (fun a => dims g a + 1) ↔ InArray g c := fun c => mem_box
  obtain ⟨k1, k2⟩ := foldl_own (fun c m => body (c 0) (c 1) (c 2) (vox g c) m) (fun c (y : ℤ × C) => y.1 = vox g c)
    (box (fun _ => 0) (fun a => dims g a + 1)) (box_nodup _ _) (fun c m y h => by rw [hb, if_neg h])
    (fun c m m' y h => by rw [hb, hb, h])
    (fun c hc d hd y h h' => vox_inj ((hm c).1 hc) ((hm d).1 hd) (h.symm.trans h')) m
  refine ⟨fun c hc k => ?_, fun v k h => k1 _ fun c hc => h c ((hm c).1 hc)⟩
  rw [k2 c ((hm c).2 hc) (vox g c, k) rfl, hb, if_pos rfl]

end Verif.Region
