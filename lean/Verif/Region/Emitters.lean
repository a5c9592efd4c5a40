import Verif.Region.Bc

/-! # Emitters of regions -/
namespace Verif.Region

open Grid (LGrid VOXEL BOUNDARY Cell stepCell face_cases)
open Field (Pos vox box mem_box box_nodup dims InArray vox_inj CellOn)
open Inject (Geom)

variable {K : Type*} [Field K]

/-- Append a list, a store for each element. -/
def pushAll (l : List ℤ) (s : Option Filling) : Option Filling := l.foldl (fun s v => pushIf true v s) s

lemma pushIf_eq (b : Bool) (v : ℤ) (s : Option Filling) : pushIf b v s = pushAll (if b then [v] else []) s := by
  cases b <;> rfl

lemma pushAll_append (l l' : List ℤ) (s : Option Filling) : pushAll l' (pushAll l s) = pushAll (l ++ l') s := by
  unfold pushAll
  rw [List.foldl_append]

lemma pushAll_some (xs l : List ℤ) (n : ℕ) (h : l.length + xs.length ≤ n) : pushAll xs (some ⟨n, l⟩) = some ⟨n, l ++ xs⟩ := by
  induction xs generalizing l with
  | nil => simp [pushAll]
  | cons x xs ih =>
    have h1 : l.length < n := by simp at h; omega
    have : pushAll (x :: xs) (some ⟨n, l⟩) = pushAll xs (some ⟨n, l ++ [x]⟩) := by
      simp [pushAll, pushIf, h1]
    rw [this, ih _ (by simp at h ⊢; omega)]
    simp

lemma foldl_pushAll {ι : Type*} (cs : List ι) (items : ι → List ℤ) (s : Option Filling) :
    cs.foldl (fun s c => pushAll (items c) s) s = pushAll (cs.flatMap items) s := by
  induction cs generalizing s with
  | nil => rfl
  | cons c cs ih => rw [List.foldl_cons, ih, List.flatMap_cons, pushAll_append]

lemma foldl_count {ι : Type*} (cs : List ι) (items : ι → List ℤ) (n : ℕ) :
    cs.foldl (fun n c => n + (items c).length) n = n + (cs.flatMap items).length := by
  induction cs generalizing n with
  | nil => simp
  | cons c cs ih => rw [List.foldl_cons, ih, List.flatMap_cons, List.length_append]; omega

lemma countIf_eq (b : Bool) (v : ℤ) (n : ℕ) : countIf b n = n + (if b then [v] else []).length := by
  cases b <;> simp [countIf]

/-- Spec: the kinds of the six faces, `BOUNDARY(-1,0,0)` … `BOUNDARY(0,0,1)`. -/
def faceKind : Fin 6 → ℤ := ![12, 10, 4, 14, 16, 22]

/-- Counting, then filling: the array has exactly the right size. -/
lemma count_then_fill {g : LGrid} (hg : ∀ a, 0 ≤ dims g a) (items : Pos → List ℤ) (cnt : ℤ → ℤ → ℤ → ℕ → ℕ)
    (psh : ℤ → ℤ → ℤ → Option Filling → Option Filling) (h1 : ∀ i j k n, cnt i j k n = n + (items ![i, j, k]).length)
    (h2 : ∀ i j k s, psh i j k s = pushAll (items ![i, j, k]) s) :
    sized (sweepCells g psh (some ⟨sweepCells g cnt 0, []⟩)) =
      some ⟨((box (fun _ => 1) (dims g)).flatMap items).length, (box (fun _ => 1) (dims g)).flatMap items⟩ := by
  rw [sweepCells_eq hg, sweepCells_eq hg]
  have e : ∀ c : Pos, ![c 0, c 1, c 2] = c := fun c => by funext a; fin_cases a <;> rfl
  simp only [h1, h2, e]
  rw [foldl_count, foldl_pushAll, pushAll_some _ _ _ (by simp)]
  simp [sized]

lemma component_inj {g : LGrid} {c d : Cell} (hc : c.Interior g.nx g.ny g.nz) (hd : d.Interior g.nx g.ny g.nz) {k l : ℤ}
    (hk : 0 ≤ k ∧ k < 32) (hl : 0 ≤ l ∧ l < 32)
    (h : componentId (VOXEL g.nx g.ny c.x c.y c.z) k = componentId (VOXEL g.nx g.ny d.x d.y d.z) l) : c = d ∧ k = l := by
  unfold componentId at h
  have hv : VOXEL g.nx g.ny c.x c.y c.z = VOXEL g.nx g.ny d.x d.y d.z := by omega
  obtain ⟨a1, a2, a3, a4, a5, a6⟩ := hc
  obtain ⟨b1, b2, b3, b4, b5, b6⟩ := hd
  obtain ⟨h0, h1, h2⟩ := Grid.VOXEL_inj (by omega) (by omega : c.x ≤ g.nx + 1) (by omega) (by omega : c.y ≤ g.ny + 1) (by omega)
    (by omega : d.x ≤ g.nx + 1) (by omega) (by omega : d.y ≤ g.ny + 1) hv
  refine ⟨?_, by omega⟩
  cases c
  cases d
  simp_all

/-- **C100.** `define_volume_emitter` lists the cells of the region, each once, in storage of exactly the size asked for. -/
theorem volume_emitter_lists [CharZero K] {g : LGrid} (hg : ∀ a, 0 ≤ dims g a) (G : Geom K) (rgn : (Fin 3 → K) → Bool) :
    ∃ e, defineVolumeEmitter g G rgn = some e ∧ e.nComponent = e.component.length ∧ e.component.Nodup ∧
      ∀ x, x ∈ e.component ↔ ∃ c : Cell, c.Interior g.nx g.ny g.nz ∧ CellIn G rgn c ∧
        x = componentId (VOXEL g.nx g.ny c.x c.y c.z) 13 := by
  have hin : ∀ c : Cell, rgn ![axisAt G 0 c.x (1 / 2), axisAt G 1 c.y (1 / 2), axisAt G 2 c.z (1 / 2)] = true ↔ CellIn G rgn c :=
    fun c => (seven_eq G rgn c).1
  have hm : ∀ c : Pos, c ∈ box (fun _ => 1) (dims g) ↔ (⟨c 0, c 1, c 2⟩ : Cell).Interior g.nx g.ny g.nz := fun c => by
    rw [mem_box]
    constructor
    · intro h
      exact ⟨(h 0).1, (h 0).2, (h 1).1, (h 1).2, (h 2).1, (h 2).2⟩
    · rintro ⟨a1, a2, a3, a4, a5, a6⟩ a
      fin_cases a
      exacts [⟨a1, a2⟩, ⟨a3, a4⟩, ⟨a5, a6⟩]
  refine ⟨_, count_then_fill hg (fun c => if rgn ![axisAt G 0 (c 0) (1 / 2), axisAt G 1 (c 1) (1 / 2), axisAt G 2 (c 2) (1 / 2)] then
    [componentId (VOXEL g.nx g.ny (c 0) (c 1) (c 2)) (BOUNDARY 0 0 0)] else []) _ _ (fun i j k n => ?_) (fun i j k s => ?_), rfl, ?_, ?_⟩
  · exact countIf_eq _ _ _
  · exact pushIf_eq _ _ _
  · rw [List.nodup_flatMap]
    refine ⟨fun c _ => by split_ifs <;> simp, ?_⟩
    refine (box_nodup _ _).pairwise_of_forall_ne fun c hc d hd hcd x hx hx' => ?_
    simp only at hx hx'
    split_ifs at hx hx'
    · rw [List.mem_singleton] at hx hx'
      obtain ⟨e, -⟩ := component_inj (c := ⟨c 0, c 1, c 2⟩) (d := ⟨d 0, d 1, d 2⟩) ((hm c).1 hc) ((hm d).1 hd) (by decide) (by decide) (hx.symm.trans hx')
      simp only [Cell.mk.injEq] at e
      exact hcd (Field.pos_ext e.1 e.2.1 e.2.2)
    all_goals simp at hx hx'
  · intro x
    simp only [List.mem_flatMap]
    constructor
    · rintro ⟨c, hc, hx⟩
      split_ifs at hx with h
      · exact ⟨⟨c 0, c 1, c 2⟩, (hm c).1 hc, (hin _).1 h, List.mem_singleton.1 hx⟩
      · simp at hx
    · rintro ⟨c, hc, hi, rfl⟩
      refine ⟨![c.x, c.y, c.z], (hm _).2 hc, ?_⟩
      show _ ∈ if rgn ![axisAt G 0 c.x (1 / 2), axisAt G 1 c.y (1 / 2), axisAt G 2 c.z (1 / 2)] = true then
        [componentId (VOXEL g.nx g.ny c.x c.y c.z) (BOUNDARY 0 0 0)] else []
      rw [if_pos ((hin c).2 hi)]
      exact List.mem_singleton.2 rfl

/-- **C100.** `define_surface_emitter` lists the faces of cells outside of the region towards cells of the region, each once, in
storage of exactly the size asked for. -/
theorem surface_emitter_lists [CharZero K] {g : LGrid} (hg : ∀ a, 0 ≤ dims g a) (G : Geom K) (rgn : (Fin 3 → K) → Bool) :
    ∃ e, defineSurfaceEmitter g G rgn = some e ∧ e.nComponent = e.component.length ∧ e.component.Nodup ∧
      ∀ x, x ∈ e.component ↔ ∃ (c : Cell) (f : Fin 6), c.Interior g.nx g.ny g.nz ∧ ¬ CellIn G rgn c ∧
        CellIn G rgn (stepCell c (f : ℕ)) ∧ x = componentId (VOXEL g.nx g.ny c.x c.y c.z) (faceKind f) := by
  have hm : ∀ c : Pos, c ∈ box (fun _ => 1) (dims g) ↔ (⟨c 0, c 1, c 2⟩ : Cell).Interior g.nx g.ny g.nz := fun c => by
    rw [mem_box]
    constructor
    · intro h
      exact ⟨(h 0).1, (h 0).2, (h 1).1, (h 1).2, (h 2).1, (h 2).2⟩
    · rintro ⟨a1, a2, a3, a4, a5, a6⟩ a
      fin_cases a
      exacts [⟨a1, a2⟩, ⟨a3, a4⟩, ⟨a5, a6⟩]
  let R := fun c : Pos => sevenOf G rgn (c 0) (c 1) (c 2)
  let V := fun c : Pos => VOXEL g.nx g.ny (c 0) (c 1) (c 2)
  have hk : ∀ f : Fin 6, 0 ≤ faceKind f ∧ faceKind f < 32 := by decide
  have hki : ∀ f f' : Fin 6, faceKind f = faceKind f' → f = f' := by decide
  let one := fun (c : Pos) (f : Fin 6) => if (!(R c).1 && (R c).2 f) = true then [componentId (V c) (faceKind f)] else []
  have hone : ∀ c f x, x ∈ one c f ↔ (R c).1 = false ∧ (R c).2 f = true ∧ x = componentId (V c) (faceKind f) := fun c f x => by
    simp only [one]
    cases (R c).1 <;> cases (R c).2 f <;> simp
  refine ⟨_, count_then_fill hg (fun c => (List.finRange 6).flatMap (one c)) _ _ (fun i j k n => ?_) (fun i j k s => ?_), rfl, ?_, ?_⟩
  · have e : List.finRange 6 = [0, 1, 2, 3, 4, 5] := by decide
    rw [e]
    simp only [List.flatMap_cons, List.flatMap_nil, List.length_append, List.length_nil]
    simp only [countIf_eq _ (componentId 0 0)]
    have el : ∀ f, (one ![i, j, k] f).length = (if (!(sevenOf G rgn i j k).1 && (sevenOf G rgn i j k).2 f) = true then
        [componentId 0 0] else []).length := fun f => by
      show (if (!(sevenOf G rgn i j k).1 && (sevenOf G rgn i j k).2 f) = true then [_] else []).length = _
      split_ifs <;> rfl
    rw [el, el, el, el, el, el]
    omega
  · have e : List.finRange 6 = [0, 1, 2, 3, 4, 5] := by decide
    rw [e]
    simp only [List.flatMap_cons, List.flatMap_nil, List.append_nil]
    simp only [pushIf_eq, pushAll_append, List.append_assoc]
    rfl
  · rw [List.nodup_flatMap]
    refine ⟨fun c _ => ?_, ?_⟩
    · rw [List.nodup_flatMap]
      refine ⟨fun f _ => by simp only [one]; split_ifs <;> simp, ?_⟩
      refine (List.nodup_finRange 6).pairwise_of_forall_ne fun f _ f' _ hne x hx hx' => ?_
      have h1 := ((hone c f x).1 hx).2.2
      have h2 := ((hone c f' x).1 hx').2.2
      rw [h1] at h2
      unfold componentId at h2
      exact hne (hki f f' (by omega))
    · refine (box_nodup _ _).pairwise_of_forall_ne fun c hc d hd hcd x hx hx' => ?_
      obtain ⟨f, -, hx⟩ := List.mem_flatMap.1 hx
      obtain ⟨f', -, hx'⟩ := List.mem_flatMap.1 hx'
      have h1 := ((hone c f x).1 hx).2.2
      have h2 := ((hone d f' x).1 hx').2.2
      obtain ⟨e, -⟩ := component_inj (c := ⟨c 0, c 1, c 2⟩) (d := ⟨d 0, d 1, d 2⟩) ((hm c).1 hc) ((hm d).1 hd) (hk f) (hk f') (h1.symm.trans h2)
      simp only [Cell.mk.injEq] at e
      exact hcd (Field.pos_ext e.1 e.2.1 e.2.2)
  · intro x
    simp only [List.mem_flatMap]
    constructor
    · rintro ⟨c, hc, f, -, hx⟩
      obtain ⟨h1, h2, rfl⟩ := (hone c f x).1 hx
      obtain ⟨s1, s2⟩ := seven_eq G rgn ⟨c 0, c 1, c 2⟩
      refine ⟨⟨c 0, c 1, c 2⟩, f, (hm c).1 hc, fun h => ?_, (s2 f).1 h2, rfl⟩
      have := s1.2 h
      rw [show (R c).1 = (sevenOf G rgn (c 0) (c 1) (c 2)).1 from rfl] at h1
      simp only at this
      rw [h1] at this
      exact Bool.noConfusion this
    · rintro ⟨c, f, hc, h1, h2, rfl⟩
      obtain ⟨s1, s2⟩ := seven_eq G rgn c
      refine ⟨![c.x, c.y, c.z], (hm _).2 hc, f, List.mem_finRange f, (hone _ _ _).2 ⟨?_, (s2 f).2 h2, rfl⟩⟩
      have : ¬ (sevenOf G rgn c.x c.y c.z).1 = true := fun h => h1 (s1.1 h)
      exact Bool.eq_false_iff.2 this

end Verif.Region
