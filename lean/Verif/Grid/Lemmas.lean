import Verif.Grid.Model
import Mathlib.Tactic.Positivity

namespace Verif.Grid

/-! ## Lists of integers and stores -/

lemma mem_fromTo (a b x : ℤ) : x ∈ fromTo a b ↔ a ≤ x ∧ x ≤ b := by
  simp only [fromTo, List.mem_map, List.mem_range]
  constructor
  · rintro ⟨k, hk, rfl⟩; omega
  · rintro ⟨h1, h2⟩; exact ⟨(x - a).toNat, by omega, by omega⟩

lemma mem_cellsOf (x0 x1 y0 y1 z0 z1 : ℤ) (c : Cell) :
    c ∈ cellsOf x0 x1 y0 y1 z0 z1 ↔
      x0 ≤ c.x ∧ c.x ≤ x1 ∧ y0 ≤ c.y ∧ c.y ≤ y1 ∧ z0 ≤ c.z ∧ c.z ≤ z1 := by
  simp only [cellsOf, List.mem_flatMap, List.mem_map, mem_fromTo]
  constructor
  · rintro ⟨z, hz, y, hy, x, hx, rfl⟩; exact ⟨hx.1, hx.2, hy.1, hy.2, hz.1, hz.2⟩
  · rintro ⟨h1, h2, h3, h4, h5, h6⟩
    exact ⟨c.z, ⟨h5, h6⟩, c.y, ⟨h3, h4⟩, c.x, ⟨h1, h2⟩, rfl⟩

lemma stores_not_mem (t : ℤ → ℤ) (w : List (ℤ × ℤ)) (i : ℤ) (h : ∀ p ∈ w, p.1 ≠ i) :
    stores t w i = t i := by
  induction w generalizing t with
  | nil => rfl
  | cons p w ih =>
    rw [stores, List.foldl_cons, ← stores, ih _ (fun q hq => h q (by simp [hq]))]
    have := h p (by simp)
    simp [store, Ne.symm this]

lemma stores_mem (t : ℤ → ℤ) (w : List (ℤ × ℤ)) (i v : ℤ) (hm : (i, v) ∈ w)
    (hf : ∀ p ∈ w, p.1 = i → p.2 = v) : stores t w i = v := by
  induction w generalizing t with
  | nil => simp at hm
  | cons p w ih =>
    rw [stores, List.foldl_cons, ← stores]
    by_cases hw : (i, v) ∈ w
    · exact ih _ hw (fun q hq => hf q (by simp [hq]))
    · by_cases hall : ∀ q ∈ w, q.1 ≠ i
      · rw [stores_not_mem _ _ _ hall]
        rcases List.mem_cons.mp hm with h | h
        · subst h; simp [store]
        · exact absurd h hw
      · push Not at hall
        obtain ⟨q, hq, hqi⟩ := hall
        have := hf q (by simp [hq]) hqi
        exact absurd (by rw [← hqi, ← this]; exact hq) hw

/-! ## Voxel numbering -/

/-- A cell of the local mesh including ghosts. -/
def Cell.InMesh (nx ny nz : ℤ) (c : Cell) : Prop :=
  0 ≤ c.x ∧ c.x ≤ nx + 1 ∧ 0 ≤ c.y ∧ c.y ≤ ny + 1 ∧ 0 ≤ c.z ∧ c.z ≤ nz + 1

/-- A non-ghost cell. -/
def Cell.Interior (nx ny nz : ℤ) (c : Cell) : Prop :=
  1 ≤ c.x ∧ c.x ≤ nx ∧ 1 ≤ c.y ∧ c.y ≤ ny ∧ 1 ≤ c.z ∧ c.z ≤ nz

lemma Cell.Interior.inMesh {nx ny nz : ℤ} {c : Cell} (h : c.Interior nx ny nz) :
    c.InMesh nx ny nz := by
  obtain ⟨a, b, c, d, e, f⟩ := h
  refine ⟨?_, ?_, ?_, ?_, ?_, ?_⟩ <;> omega

/-- Mixed radix digits are unique. -/
lemma digit_unique {n a b q r : ℤ} (ha : 0 ≤ a) (ha' : a < n) (hb : 0 ≤ b) (hb' : b < n)
    (h : a + n * q = b + n * r) : a = b ∧ q = r := by
  have hn : n ≠ 0 := by omega
  have e1 : (a + n * q) / n = q := by
    rw [Int.add_mul_ediv_left _ _ hn, Int.ediv_eq_zero_of_lt ha ha', zero_add]
  have e2 : (b + n * r) / n = r := by
    rw [Int.add_mul_ediv_left _ _ hn, Int.ediv_eq_zero_of_lt hb hb', zero_add]
  have : q = r := by rw [← e1, h, e2]
  subst this
  exact ⟨by omega, rfl⟩

lemma VOXEL_inj {nx ny x y z x' y' z' : ℤ} (h1 : 0 ≤ x) (h2 : x ≤ nx + 1) (h3 : 0 ≤ y)
    (h4 : y ≤ ny + 1) (h1' : 0 ≤ x') (h2' : x' ≤ nx + 1) (h3' : 0 ≤ y') (h4' : y' ≤ ny + 1)
    (h : VOXEL nx ny x y z = VOXEL nx ny x' y' z') : x = x' ∧ y = y' ∧ z = z' := by
  unfold VOXEL at h
  obtain ⟨a, b⟩ := digit_unique h1 (by omega) h1' (by omega) h
  obtain ⟨c, d⟩ := digit_unique h3 (by omega) h3' (by omega) b
  exact ⟨a, c, d⟩

lemma VOXEL_nonneg {nx ny x y z : ℤ} (h0 : -2 ≤ nx) (h0' : -2 ≤ ny) (h1 : 0 ≤ x) (h3 : 0 ≤ y)
    (h5 : 0 ≤ z) : 0 ≤ VOXEL nx ny x y z := by
  unfold VOXEL
  have := mul_nonneg (show 0 ≤ ny + 2 by omega) h5
  have := mul_nonneg (show 0 ≤ nx + 2 by omega) (show 0 ≤ y + (ny + 2) * z by omega)
  omega

lemma VOXEL_lt {nx ny nz x y z : ℤ} (h0 : 0 ≤ nx) (h0' : 0 ≤ ny) (h2 : x ≤ nx + 1)
    (h4 : y ≤ ny + 1) (h6 : z ≤ nz + 1) :
    VOXEL nx ny x y z < (nx + 2) * (ny + 2) * (nz + 2) := by
  unfold VOXEL
  have a1 : y + (ny + 2) * z + 1 ≤ (ny + 2) * (nz + 2) := by
    have : (ny + 2) * z ≤ (ny + 2) * (nz + 1) := mul_le_mul_of_nonneg_left h6 (by omega)
    linarith [mul_add (ny + 2) (nz + 1) 1]
  have a2 : (nx + 2) * (y + (ny + 2) * z + 1) ≤ (nx + 2) * ((ny + 2) * (nz + 2)) :=
    mul_le_mul_of_nonneg_left a1 (by omega)
  linarith [mul_add (nx + 2) (y + (ny + 2) * z) 1, mul_assoc (nx + 2) (ny + 2) (nz + 2)]

/-- Flat neighbour index is injective. -/
lemma flat_inj {nx ny nz : ℤ} {c d : Cell} (hc : c.InMesh nx ny nz) (hd : d.InMesh nx ny nz)
    {f f' : ℤ} (hf : 0 ≤ f ∧ f < 6) (hf' : 0 ≤ f' ∧ f' < 6)
    (h : 6 * VOXEL nx ny c.x c.y c.z + f = 6 * VOXEL nx ny d.x d.y d.z + f') : c = d ∧ f = f' := by
  have h1 : VOXEL nx ny c.x c.y c.z = VOXEL nx ny d.x d.y d.z := by omega
  obtain ⟨a1, a2, a3, a4, -, -⟩ := hc
  obtain ⟨b1, b2, b3, b4, -, -⟩ := hd
  obtain ⟨e1, e2, e3⟩ := VOXEL_inj a1 a2 a3 a4 b1 b2 b3 b4 h1
  refine ⟨?_, by omega⟩
  cases c; cases d; simp_all

/-! ## The neighbour table after each construction step -/

/-- Entry of the neighbour table for cell `c` and face `f`. -/
def LGrid.T (g : LGrid) (c : Cell) (f : ℤ) : ℤ := g.neighbor (6 * VOXEL g.nx g.ny c.x c.y c.z + f)

/-- Local neighbour id through face `f` when both cells are on this rank. -/
def stepCell (c : Cell) (f : ℤ) : Cell :=
  if f = 0 then { c with x := c.x - 1 } else if f = 1 then { c with y := c.y - 1 }
  else if f = 2 then { c with z := c.z - 1 } else if f = 3 then { c with x := c.x + 1 }
  else if f = 4 then { c with y := c.y + 1 } else { c with z := c.z + 1 }

/-- At the local domain boundary through face `f`. -/
def atWall (nx ny nz : ℤ) (c : Cell) (f : ℤ) : Prop :=
  (f = 0 ∧ c.x = 1) ∨ (f = 1 ∧ c.y = 1) ∨ (f = 2 ∧ c.z = 1) ∨ (f = 3 ∧ c.x = nx) ∨
  (f = 4 ∧ c.y = ny) ∨ (f = 5 ∧ c.z = nz)

instance (nx ny nz : ℤ) (c : Cell) (f : ℤ) : Decidable (atWall nx ny nz c f) := by
  unfold atWall; infer_instance

lemma face_cases {f : ℤ} (h : 0 ≤ f ∧ f < 6) :
    f = 0 ∨ f = 1 ∨ f = 2 ∨ f = 3 ∨ f = 4 ∨ f = 5 := by omega

lemma sizeGrid_T {nvs : ℕ → ℤ} {rank : ℕ} {t0 : ℤ → ℤ} {lnx lny lnz : ℤ} {g : LGrid}
    (h : sizeGrid nvs rank t0 lnx lny lnz = some g) :
    g.nx = lnx ∧ g.ny = lny ∧ g.nz = lnz ∧ g.rangel = rangeOf nvs rank ∧
    g.rangeh = rangeOf nvs (rank + 1) - 1 ∧
    g.range = (fun i => rangeOf nvs i.toNat) ∧
    (g.bc = fun p => if p = BOUNDARY 0 0 0 then (rank : ℤ) else -1) ∧
    ∀ c, c.Interior lnx lny lnz → ∀ f, 0 ≤ f ∧ f < 6 →
      g.T c f = if atWall lnx lny lnz c f then -1 else
        rangeOf nvs rank + VOXEL lnx lny (stepCell c f).x (stepCell c f).y (stepCell c f).z := by
  unfold sizeGrid at h
  split at h
  · simp at h
  rename_i hn
  simp only [Option.some.injEq] at h
  subst h
  refine ⟨rfl, rfl, rfl, rfl, rfl, rfl, rfl, ?_⟩
  intro c hc f hf
  have hcm := hc.inMesh
  simp only [LGrid.T]
  have key : ∀ d ∈ cellsOf 0 (lnx + 1) 0 (lny + 1) 0 (lnz + 1),
      ∀ p ∈ sizeStores (rangeOf nvs rank) lnx lny lnz d,
        p.1 = 6 * VOXEL lnx lny c.x c.y c.z + f → d = c ∧ p.1 - 6 * VOXEL lnx lny d.x d.y d.z = f := by
    intro d hd p hp hpe
    have hdm : d.InMesh lnx lny lnz := by
      rw [mem_cellsOf] at hd; exact hd
    have hr : ∃ f', (0 ≤ f' ∧ f' < 6) ∧ p.1 = 6 * VOXEL lnx lny d.x d.y d.z + f' := by
      simp only [sizeStores, List.mem_cons, List.not_mem_nil, or_false] at hp
      rcases hp with h | h | h | h | h | h <;> (rw [h]; exact ⟨_, by norm_num, rfl⟩)
    obtain ⟨f', hf', he⟩ := hr
    obtain ⟨e1, e2⟩ := flat_inj hdm hcm hf' hf (he.symm.trans hpe)
    exact ⟨e1, by omega⟩
  have hnotghost : ¬ (c.x = 0 ∨ c.x = lnx + 1 ∨ c.y = 0 ∨ c.y = lny + 1 ∨ c.z = 0 ∨ c.z = lnz + 1) := by
    obtain ⟨a, b, c', d, e, f'⟩ := hc
    omega
  set v := if atWall lnx lny lnz c f then -1 else
        rangeOf nvs rank + VOXEL lnx lny (stepCell c f).x (stepCell c f).y (stepCell c f).z with hv
  have hcl : c ∈ cellsOf 0 (lnx + 1) 0 (lny + 1) 0 (lnz + 1) := by rw [mem_cellsOf]; exact hcm
  have hval : ∀ p ∈ sizeStores (rangeOf nvs rank) lnx lny lnz c,
      p.1 - 6 * VOXEL lnx lny c.x c.y c.z = f → p.2 = v := by
    intro p hp hpf
    simp only [sizeStores, List.mem_cons, List.not_mem_nil, or_false, hnotghost, decide_false,
      Bool.false_eq_true, if_false, decide_eq_true_eq] at hp
    rcases hp with h | h | h | h | h | h <;> subst h <;>
      simp only [add_sub_cancel_left] at hpf <;> subst hpf <;>
      simp [hv, atWall, stepCell, reflectParticles]
  apply stores_mem
  · rw [List.mem_flatMap]
    refine ⟨c, hcl, ?_⟩
    have : ∃ p ∈ sizeStores (rangeOf nvs rank) lnx lny lnz c,
        p.1 - 6 * VOXEL lnx lny c.x c.y c.z = f := by
      rcases face_cases hf with h | h | h | h | h | h <;> subst h
      · exact ⟨_, List.mem_cons_self, by simp⟩
      · exact ⟨_, List.mem_cons_of_mem _ List.mem_cons_self, by simp⟩
      · exact ⟨_, List.mem_cons_of_mem _ (List.mem_cons_of_mem _ List.mem_cons_self), by simp⟩
      · exact ⟨_, List.mem_cons_of_mem _ (List.mem_cons_of_mem _ (List.mem_cons_of_mem _
          List.mem_cons_self)), by simp⟩
      · exact ⟨_, List.mem_cons_of_mem _ (List.mem_cons_of_mem _ (List.mem_cons_of_mem _
          (List.mem_cons_of_mem _ List.mem_cons_self))), by simp⟩
      · exact ⟨_, List.mem_cons_of_mem _ (List.mem_cons_of_mem _ (List.mem_cons_of_mem _
          (List.mem_cons_of_mem _ (List.mem_cons_of_mem _ List.mem_cons_self)))), by simp⟩
    obtain ⟨p, hp, hpf⟩ := this
    have h2 := hval p hp hpf
    have h1 : p.1 = 6 * VOXEL lnx lny c.x c.y c.z + f := by omega
    rw [← h1, ← h2]
    exact hp
  · intro p hp hpe
    rw [List.mem_flatMap] at hp
    obtain ⟨d, hd, hpd⟩ := hp
    obtain ⟨e1, e2⟩ := key d hd p hpd hpe
    subst e1
    exact hval p hpd e2

/-- Stores into one face plane of the table. -/
lemma plane_stores (nx ny nz : ℤ) (t : ℤ → ℤ) (w : List (ℤ × ℤ)) (tag : ℤ)
    (htag : 0 ≤ tag ∧ tag < 6) (S : Cell → Prop) [DecidablePred S] (val : Cell → ℤ)
    (hS : ∀ c, S c → c.InMesh nx ny nz)
    (hw : ∀ p, p ∈ w ↔ ∃ c, S c ∧ p = (6 * VOXEL nx ny c.x c.y c.z + tag, val c))
    (c : Cell) (hc : c.InMesh nx ny nz) (f : ℤ) (hf : 0 ≤ f ∧ f < 6) :
    stores t w (6 * VOXEL nx ny c.x c.y c.z + f) =
      if f = tag ∧ S c then val c else t (6 * VOXEL nx ny c.x c.y c.z + f) := by
  have hu : ∀ p ∈ w, p.1 = 6 * VOXEL nx ny c.x c.y c.z + f → f = tag ∧ S c ∧ p.2 = val c := by
    intro p hp he
    obtain ⟨d, hd, rfl⟩ := (hw p).mp hp
    obtain ⟨e1, e2⟩ := flat_inj (hS d hd) hc htag hf he
    subst e1
    exact ⟨e2.symm, hd, rfl⟩
  split
  · rename_i h
    obtain ⟨rfl, h⟩ := h
    apply stores_mem
    · rw [hw]; exact ⟨c, h, rfl⟩
    · intro p hp he; exact (hu p hp he).2.2
  · rename_i h
    apply stores_not_mem
    intro p hp he
    obtain ⟨h1, h2, -⟩ := hu p hp he
    exact h ⟨h1, h2⟩

end Verif.Grid
