import Verif.Global.PermProps
import Verif.Global.ConjProps
import Verif.Global.MirrorProps
import Verif.Global.Sample

/-!
# Concrete cases for C106, C107 and C108
-/
namespace Verif.Global

open Grid MoveP Charge Torus Threads
open Boundary (Rank Species Env live fitsMsg grow sampleD)
open Field (Pos FC FMem World EntOn fieldExt vox)
open Distribute (doubleRounding doubleRounding_accurate)

/-- Where a particle of a rank is in the box. -/
lemma lift_box {n : ℕ} {D : Decomp} {g : Fin n → LGrid} (hg : ∀ r : Fin n, gridOf D n (fun _ _ => 77) r = some (g r) ∧
    (g r).nx = D.lx ∧ (g r).ny = D.ly ∧ (g r).nz = D.lz) (r : Fin n) (hD : D.ok n = true) (c : Cell) (i : ℤ) (d u : Fin 3 → ℝ)
    (hc : c.Interior D.lx D.ly D.lz) (hi : i = VOXEL D.lx D.ly c.x c.y c.z) :
    lift D r (g r) (boxPart i d u) = ⟨siteAt D r ![c.x, c.y, c.z], d, u, 7⟩ := by
  have hm := grid_mesh hD (fun _ _ => 77) (G := g) (fun r => (hg r).1) r
  obtain ⟨q1, q2, q3, q4, q5, q6⟩ := hc
  unfold lift boxPart
  have : posOf (g r) i = ![c.x, c.y, c.z] := by
    rw [hi, ← (hg r).2.1, ← (hg r).2.2.1]
    exact posOf_voxel hm (x := c.x) (y := c.y) (z := c.z) ⟨by omega, by rw [(hg r).2.1]; omega⟩ ⟨by omega, by rw [(hg r).2.2.1]; omega⟩
  rw [this]

/-- The particles of a box on one rank. -/
lemma gather_one {D : Decomp} {g : Fin 1 → LGrid} (hg : ∀ r : Fin 1, gridOf D 1 (fun _ _ => 77) r = some (g r) ∧
    (g r).nx = D.lx ∧ (g r).ny = D.ly ∧ (g r).nz = D.lz) (hD : D.ok 1 = true) (c1 c2 : Cell) (i1 i2 : ℤ) (q : ℝ) (d u : Fin 3 → ℝ)
    (h1 : c1.Interior D.lx D.ly D.lz) (h2 : c2.Interior D.lx D.ly D.lz) (e1 : i1 = VOXEL D.lx D.ly c1.x c1.y c1.z)
    (e2 : i2 = VOXEL D.lx D.ly c2.x c2.y c2.z) :
    gather D (boxEnv 1 g) (fun _ => boxRank (fun j => if j = 0 then i1 else i2) 2 q d u) 0 =
      {⟨siteAt D (0 : Fin 1) ![c1.x, c1.y, c1.z], d, u, 7⟩, ⟨siteAt D (0 : Fin 1) ![c2.x, c2.y, c2.z], d, u, 7⟩} := by
  unfold gather
  rw [Fin.sum_univ_one]
  have e : live (((boxRank (fun j => if j = 0 then i1 else i2) 2 q d u).sp 0).p) ((boxRank (fun j => if j = 0 then i1 else i2) 2 q d u).sp 0).np =
      [boxPart i1 d u, boxPart i2 d u] := by
    simp [live, boxRank, Distribute.upTo, List.range_succ]
  rw [e]
  show (([lift D 0 (g 0) (boxPart i1 d u), lift D 0 (g 0) (boxPart i2 d u)] : List (GPart ℝ)) : Multiset (GPart ℝ)) = _
  rw [lift_box hg 0 hD c1 i1 d u h1 e1, lift_box hg 0 hD c2 i2 d u h2 e2]
  rfl

/-- The particles of the box of `oneD` on two ranks. -/
lemma gather_two {g : Fin 2 → LGrid} (hg : ∀ r : Fin 2, gridOf sampleD 2 (fun _ _ => 77) r = some (g r) ∧
    (g r).nx = sampleD.lx ∧ (g r).ny = sampleD.ly ∧ (g r).nz = sampleD.lz) :
    gather sampleD (boxEnv 2 g) (fun _ => boxRank (fun _ => 26) 1) 0 =
      {⟨![1, 0, 0], ![9 / 10, 1 / 2, 0], ![3 / 4, 0, 0], 7⟩, ⟨![3, 0, 0], ![9 / 10, 1 / 2, 0], ![3 / 4, 0, 0], 7⟩} := by
  unfold gather
  rw [Fin.sum_univ_two]
  have s0 : siteAt sampleD (0 : Fin 2) ![2, 1, 1] = ![1, 0, 0] := by decide
  have s1 : siteAt sampleD (1 : Fin 2) ![2, 1, 1] = ![3, 0, 0] := by decide
  have a0 := lift_box hg 0 (by decide) ⟨2, 1, 1⟩ 26 ![9 / 10, 1 / 2, 0] ![3 / 4, 0, 0] (by unfold Cell.Interior; decide) (by decide)
  have a1 := lift_box hg 1 (by decide) ⟨2, 1, 1⟩ 26 ![9 / 10, 1 / 2, 0] ![3 / 4, 0, 0] (by unfold Cell.Interior; decide) (by decide)
  simp only [s0, s1] at a0 a1
  have e : live (((boxRank (fun _ => 26) 1).sp 0).p) ((boxRank (fun _ => 26) 1).sp 0).np = [boxPart 26] := by
    simp [live, boxRank, Distribute.upTo]
  rw [e]
  show ({lift sampleD 0 (g 0) (boxPart 26)} : Multiset _) + {lift sampleD 1 (g 1) (boxPart 26)} = _
  rw [a0, a1]
  rfl

/-- The hypotheses of `charge_conjugation` hold together: a box on two ranks with one thread and sorting in every step, and the same
with the opposite charges and fields on one rank with three threads and no sorting; two particles about to cross into other cells; any
fields; cleaning in the step. -/
example (G : Fields ℝ) : ∃ (Z1 : Setup ℝ Unit 2) (Z2 : Setup ℝ Unit 1) (V : Drive ℝ) (si : ℕ → ℤ) (A : Settings) (q : ℕ → ℝ)
    (x0 : Box ℝ) (μ0 μ1 μ2 : Machine ℝ Unit 2) (ν0 ν1 ν2 : Machine ℝ Unit 1) (l1 l2 k1 k2 : List (Msg ℝ)),
    Cut Z1 V ∧ Cut Z2 { V with qdt_2mc := fun id => -V.qdt_2mc id, sort_interval := si } ∧ universeOf Z2 (fun id => -q id) = { universeOf Z1 q with q := fun id => -q id } ∧ Z1.P = 1 ∧ Z2.P = 3 ∧
    V.sort_interval 0 = 1 ∧ si 0 = 0 ∧ x0.f = G ∧ Multiset.card (x0.parts 0) = 2 ∧
    Fit Z1 μ0 ∧ Fit Z2 ν0 ∧ Holding Z1 q μ0 x0 ∧ Holding Z2 (fun id => -q id) ν0 x0.conj ∧
    Begin Z1 V μ0 μ1 l1 ∧ Cycles Z1 V A 0 μ1 1 μ2 l2 ∧
    Begin Z2 { V with qdt_2mc := fun id => -V.qdt_2mc id, sort_interval := si } ν0 ν1 k1 ∧ Cycles Z2 { V with qdt_2mc := fun id => -V.qdt_2mc id, sort_interval := si } A 0 ν1 1 ν2 k2 ∧
    due A.clean_div_e_interval 0 ∧ due A.clean_div_b_interval 0 := by
  obtain ⟨g, hg⟩ := grids sampleD 2 (by decide)
  obtain ⟨h, hh⟩ := grids oneD 1 (by decide)
  have g1 : Good sampleD 2 g 1 fun _ => boxRank (fun _ => 26) 1 :=
    good (by decide) hg (by decide) ⟨by norm_num, by norm_num⟩ (by decide) (by decide) (by unfold Resolved; decide) (by norm_num) (by norm_num)
      (fun j _ _ => ⟨⟨2, 1, 1⟩, by unfold Cell.Interior; decide, by decide⟩) (fun k => by fin_cases k <;> norm_num)
  have g2 : Good oneD 1 h 3 fun _ => boxRank (fun j => if j = 0 then 38 else 40) 2 1 ![9 / 10, 1 / 2, 0] ![3 / 4, 0, 0] :=
    good (by decide) hh (by decide) ⟨by norm_num, by norm_num⟩ (by decide) (by decide) (by unfold Resolved; decide) (by norm_num) (by norm_num)
      (fun j h0 h1 => by
        have h1 : j < 2 := h1
        rcases (by omega : j = 0 ∨ j = 1) with rfl | rfl
        · exact ⟨⟨2, 1, 1⟩, by unfold Cell.Interior; decide, by decide⟩
        · exact ⟨⟨4, 1, 1⟩, by unfold Cell.Interior; decide, by decide⟩)
      (fun k => by fin_cases k <;> norm_num)
  obtain ⟨m1, e1⟩ := holds_exists (by decide) (fun _ _ => 77) (F := boxWorld 2 g) (D := sampleD) (fun r => (hg r).1) G
  obtain ⟨m2, e2⟩ := holds_exists (by decide) (fun _ _ => 77) (F := boxWorld 1 h) (D := oneD) (fun r => (hh r).1) fun k s => -G k s
  obtain ⟨μ1, μ2, l1, l2, b1, c1⟩ := g1.runs (fun _ => 1) m1 fun _ _ => ⟨0, 0, 0, 0, 0, 0, 0, 0, 0, 0, 0, 0, 0, 0, 0, 0, 0, 0⟩
  obtain ⟨ν1, ν2, k1, k2, b2, c2⟩ := g2.runs (fun _ => 0) m2 (fun _ _ => ⟨0, 0, 0, 0, 0, 0, 0, 0, 0, 0, 0, 0, 0, 0, 0, 0, 0, 0⟩) (-1)
  have p1 := gather_two hg
  have p2 := gather_one hh (by decide) ⟨2, 1, 1⟩ ⟨4, 1, 1⟩ 38 40 1 ![9 / 10, 1 / 2, 0] ![3 / 4, 0, 0]
    (by unfold Cell.Interior; decide) (by unfold Cell.Interior; decide) (by decide) (by decide)
  refine ⟨_, _, boxDrive fun _ => 1, fun _ => 0, _, fun _ => -1,
    ⟨fun _ => {⟨![1, 0, 0], ![9 / 10, 1 / 2, 0], ![3 / 4, 0, 0], 7⟩, ⟨![3, 0, 0], ![9 / 10, 1 / 2, 0], ![3 / 4, 0, 0], 7⟩}, G⟩, _, μ1, μ2, _, ν1, ν2,
    l1, l2, k1, k2, g1.cut _, g2.cut _ (-1), ?_, rfl, rfl, rfl, rfl, rfl, rfl, g1.fit _ _, g2.fit _ _, ⟨fun id hid => ?_, fun _ _ _ => rfl, fun k _ => e1 k⟩,
    ⟨fun id hid => ?_, fun _ _ _ => (neg_neg (1 : ℝ)).symm, fun k _ => e2 k⟩, b1, c1, b2, c2, by simp [due], by simp [due]⟩
  · have : Torus.sizeOf oneD = Torus.sizeOf sampleD := by decide
    show (⟨Torus.sizeOf oneD, _, _, _, _, _⟩ : Universe ℝ) = ⟨Torus.sizeOf sampleD, _, _, _, _, _⟩
    rw [this]
    rfl
  · obtain rfl : id = 0 := Nat.lt_one_iff.mp hid
    exact p1
  · obtain rfl : id = 0 := Nat.lt_one_iff.mp hid
    refine p2.trans ?_
    have s1 : siteAt oneD (0 : Fin 1) ![2, 1, 1] = ![1, 0, 0] := by decide
    have s2 : siteAt oneD (0 : Fin 1) ![4, 1, 1] = ![3, 0, 0] := by decide
    simp only [s1, s2]
    rfl

/-- The box of `oneD` with the first two axes exchanged. -/
def swapD : Decomp := ⟨3, 4, 2, 1, 1, 1⟩

/-- The hypotheses of `run_any_axes` hold together: a box on two ranks with one thread and sorting in every step, and the same
with x and y exchanged on one rank with three threads and no sorting; two particles about to cross into other cells; any
fields; cleaning in the step. -/
example (G : Fields ℝ) : ∃ (Z1 : Setup ℝ Unit 2) (Z2 : Setup ℝ Unit 1) (V : Drive ℝ) (si : ℕ → ℤ) (A : Settings) (q : ℕ → ℝ)
    (x0 : Box ℝ) (μ0 μ1 μ2 : Machine ℝ Unit 2) (ν0 ν1 ν2 : Machine ℝ Unit 1) (l1 l2 k1 k2 : List (Msg ℝ)),
    Cut Z1 V ∧ Cut Z2 { V with cdt_d := moved (Equiv.swap 0 1) V.cdt_d, sort_interval := si } ∧ universeOf Z2 q = (universeOf Z1 q).moved (Equiv.swap 0 1) ∧ Z1.P = 1 ∧ Z2.P = 3 ∧
    V.sort_interval 0 = 1 ∧ si 0 = 0 ∧ x0.f = G ∧ Multiset.card (x0.parts 0) = 2 ∧
    Fit Z1 μ0 ∧ Fit Z2 ν0 ∧ Holding Z1 q μ0 x0 ∧ Holding Z2 q ν0 (x0.moved (Equiv.swap 0 1)) ∧
    Begin Z1 V μ0 μ1 l1 ∧ Cycles Z1 V A 0 μ1 1 μ2 l2 ∧
    Begin Z2 { V with cdt_d := moved (Equiv.swap 0 1) V.cdt_d, sort_interval := si } ν0 ν1 k1 ∧ Cycles Z2 { V with cdt_d := moved (Equiv.swap 0 1) V.cdt_d, sort_interval := si } A 0 ν1 1 ν2 k2 ∧
    due A.clean_div_e_interval 0 ∧ due A.clean_div_b_interval 0 := by
  obtain ⟨g, hg⟩ := grids sampleD 2 (by decide)
  obtain ⟨h, hh⟩ := grids swapD 1 (by decide)
  have g1 : Good sampleD 2 g 1 fun _ => boxRank (fun _ => 26) 1 :=
    good (by decide) hg (by decide) ⟨by norm_num, by norm_num⟩ (by decide) (by decide) (by unfold Resolved; decide) (by norm_num) (by norm_num)
      (fun j _ _ => ⟨⟨2, 1, 1⟩, by unfold Cell.Interior; decide, by decide⟩) (fun k => by fin_cases k <;> norm_num)
  have g2 : Good swapD 1 h 3 fun _ => boxRank (fun j => if j = 0 then 41 else 51) 2 (-1) ![1 / 2, 9 / 10, 0] ![0, 3 / 4, 0] :=
    good (by decide) hh (by decide) ⟨by norm_num, by norm_num⟩ (by decide) (by decide) (by unfold Resolved; decide) (by norm_num) (by norm_num)
      (fun j h0 h1 => by
        have h1 : j < 2 := h1
        rcases (by omega : j = 0 ∨ j = 1) with rfl | rfl
        · exact ⟨⟨1, 2, 1⟩, by unfold Cell.Interior; decide, by decide⟩
        · exact ⟨⟨1, 4, 1⟩, by unfold Cell.Interior; decide, by decide⟩)
      (fun k => by fin_cases k <;> norm_num)
  obtain ⟨m1, e1⟩ := holds_exists (by decide) (fun _ _ => 77) (F := boxWorld 2 g) (D := sampleD) (fun r => (hg r).1) G
  obtain ⟨m2, e2⟩ := holds_exists (by decide) (fun _ _ => 77) (F := boxWorld 1 h) (D := swapD) (fun r => (hh r).1) (movedFields (Equiv.swap 0 1) G)
  obtain ⟨μ1, μ2, l1, l2, b1, c1⟩ := g1.runs (fun _ => 1) m1 fun _ _ => ⟨0, 0, 0, 0, 0, 0, 0, 0, 0, 0, 0, 0, 0, 0, 0, 0, 0, 0⟩
  obtain ⟨ν1, ν2, k1, k2, b2, c2⟩ := g2.runs (fun _ => 0) m2 (fun _ _ => ⟨0, 0, 0, 0, 0, 0, 0, 0, 0, 0, 0, 0, 0, 0, 0, 0, 0, 0⟩) 1
  have p1 := gather_two hg
  have p2 := gather_one hh (by decide) ⟨1, 2, 1⟩ ⟨1, 4, 1⟩ 41 51 (-1) ![1 / 2, 9 / 10, 0] ![0, 3 / 4, 0]
    (by unfold Cell.Interior; decide) (by unfold Cell.Interior; decide) (by decide) (by decide)
  refine ⟨_, _, boxDrive fun _ => 1, fun _ => 0, _, fun _ => -1,
    ⟨fun _ => {⟨![1, 0, 0], ![9 / 10, 1 / 2, 0], ![3 / 4, 0, 0], 7⟩, ⟨![3, 0, 0], ![9 / 10, 1 / 2, 0], ![3 / 4, 0, 0], 7⟩}, G⟩, _, μ1, μ2, _, ν1, ν2,
    l1, l2, k1, k2, g1.cut _, g2.cut _ 1, ?_, rfl, rfl, rfl, rfl, rfl, rfl, g1.fit _ _, g2.fit _ _, ⟨fun id hid => ?_, fun _ _ _ => rfl, fun k _ => e1 k⟩,
    ⟨fun id hid => ?_, fun _ _ _ => rfl, fun k _ => e2 k⟩, b1, c1, b2, c2, by simp [due], by simp [due]⟩
  · have : Torus.sizeOf swapD = moved (Equiv.swap 0 1) (Torus.sizeOf sampleD) := by decide
    show (⟨Torus.sizeOf swapD, _, _, _, _, _⟩ : Universe ℝ) = ⟨moved (Equiv.swap 0 1) (Torus.sizeOf sampleD), _, _, _, _, _⟩
    rw [this]
    rfl
  · obtain rfl : id = 0 := Nat.lt_one_iff.mp hid
    exact p1
  · obtain rfl : id = 0 := Nat.lt_one_iff.mp hid
    refine p2.trans ?_
    have s1 : siteAt swapD (0 : Fin 1) ![1, 2, 1] = ![0, 1, 0] := by decide
    have s2 : siteAt swapD (0 : Fin 1) ![1, 4, 1] = ![0, 3, 0] := by decide
    simp only [s1, s2]
    have w : ∀ {V : Type} (a b c : V), moved (Equiv.swap 0 1) ![a, b, c] = ![b, a, c] := fun a b c => by
      funext k
      fin_cases k <;> rfl
    show _ = Multiset.map (GPart.moved (Equiv.swap 0 1)) {_, _}
    simp only [Multiset.insert_eq_cons, Multiset.map_cons, Multiset.map_singleton, GPart.moved, w]

/-- The hypotheses of `run_in_mirror` hold together: a box on two ranks with one thread and sorting in every step, and the same
mirrored along x on one rank with three threads and no sorting; two particles about to cross into other cells; any
fields; cleaning in the step. -/
example (G : Fields ℝ) : ∃ (Z1 : Setup ℝ Unit 2) (Z2 : Setup ℝ Unit 1) (V : Drive ℝ) (si : ℕ → ℤ) (A : Settings) (q : ℕ → ℝ)
    (x0 : Box ℝ) (μ0 μ1 μ2 : Machine ℝ Unit 2) (ν0 ν1 ν2 : Machine ℝ Unit 1) (l1 l2 k1 k2 : List (Msg ℝ)),
    Cut Z1 V ∧ Cut Z2 { V with sort_interval := si } ∧ universeOf Z2 q = (universeOf Z1 q).mirrored ![true, false, false] ∧ Z1.P = 1 ∧ Z2.P = 3 ∧
    V.sort_interval 0 = 1 ∧ si 0 = 0 ∧ x0.f = G ∧ Multiset.card (x0.parts 0) = 2 ∧
    Fit Z1 μ0 ∧ Fit Z2 ν0 ∧ Holding Z1 q μ0 x0 ∧ Holding Z2 q ν0 (x0.mirrored (Torus.sizeOf Z1.D) ![true, false, false]) ∧
    Begin Z1 V μ0 μ1 l1 ∧ Cycles Z1 V A 0 μ1 1 μ2 l2 ∧
    Begin Z2 { V with sort_interval := si } ν0 ν1 k1 ∧ Cycles Z2 { V with sort_interval := si } A 0 ν1 1 ν2 k2 ∧
    due A.clean_div_e_interval 0 ∧ due A.clean_div_b_interval 0 := by
  obtain ⟨g, hg⟩ := grids sampleD 2 (by decide)
  obtain ⟨h, hh⟩ := grids oneD 1 (by decide)
  have g1 : Good sampleD 2 g 1 fun _ => boxRank (fun _ => 26) 1 :=
    good (by decide) hg (by decide) ⟨by norm_num, by norm_num⟩ (by decide) (by decide) (by unfold Resolved; decide) (by norm_num) (by norm_num)
      (fun j _ _ => ⟨⟨2, 1, 1⟩, by unfold Cell.Interior; decide, by decide⟩) (fun k => by fin_cases k <;> norm_num)
  have g2 : Good oneD 1 h 3 fun _ => boxRank (fun j => if j = 0 then 39 else 37) 2 (-1) ![-(9 / 10), 1 / 2, 0] ![-(3 / 4), 0, 0] :=
    good (by decide) hh (by decide) ⟨by norm_num, by norm_num⟩ (by decide) (by decide) (by unfold Resolved; decide) (by norm_num) (by norm_num)
      (fun j h0 h1 => by
        have h1 : j < 2 := h1
        rcases (by omega : j = 0 ∨ j = 1) with rfl | rfl
        · exact ⟨⟨3, 1, 1⟩, by unfold Cell.Interior; decide, by decide⟩
        · exact ⟨⟨1, 1, 1⟩, by unfold Cell.Interior; decide, by decide⟩)
      (fun k => by fin_cases k <;> norm_num)
  obtain ⟨m1, e1⟩ := holds_exists (by decide) (fun _ _ => 77) (F := boxWorld 2 g) (D := sampleD) (fun r => (hg r).1) G
  obtain ⟨m2, e2⟩ := holds_exists (by decide) (fun _ _ => 77) (F := boxWorld 1 h) (D := oneD) (fun r => (hh r).1) fun k s => signOf ![true, false, false] k * G k (image (Torus.sizeOf sampleD) ![true, false, false] (inside k) s)
  obtain ⟨μ1, μ2, l1, l2, b1, c1⟩ := g1.runs (fun _ => 1) m1 fun _ _ => ⟨0, 0, 0, 0, 0, 0, 0, 0, 0, 0, 0, 0, 0, 0, 0, 0, 0, 0⟩
  obtain ⟨ν1, ν2, k1, k2, b2, c2⟩ := g2.runs (fun _ => 0) m2 (fun _ _ => ⟨0, 0, 0, 0, 0, 0, 0, 0, 0, 0, 0, 0, 0, 0, 0, 0, 0, 0⟩) 1
  have p1 := gather_two hg
  have p2 := gather_one hh (by decide) ⟨3, 1, 1⟩ ⟨1, 1, 1⟩ 39 37 (-1) ![-(9 / 10), 1 / 2, 0] ![-(3 / 4), 0, 0]
    (by unfold Cell.Interior; decide) (by unfold Cell.Interior; decide) (by decide) (by decide)
  refine ⟨_, _, boxDrive fun _ => 1, fun _ => 0, _, fun _ => -1,
    ⟨fun _ => {⟨![1, 0, 0], ![9 / 10, 1 / 2, 0], ![3 / 4, 0, 0], 7⟩, ⟨![3, 0, 0], ![9 / 10, 1 / 2, 0], ![3 / 4, 0, 0], 7⟩}, G⟩, _, μ1, μ2, _, ν1, ν2,
    l1, l2, k1, k2, g1.cut _, g2.cut _ 1, ?_, rfl, rfl, rfl, rfl, rfl, rfl, g1.fit _ _, g2.fit _ _, ⟨fun id hid => ?_, fun _ _ _ => rfl, fun k _ => e1 k⟩,
    ⟨fun id hid => ?_, fun _ _ _ => rfl, fun k _ => e2 k⟩, b1, c1, b2, c2, by simp [due], by simp [due]⟩
  · have : Torus.sizeOf oneD = Torus.sizeOf sampleD := by decide
    show (⟨Torus.sizeOf oneD, _, _, _, _, _⟩ : Universe ℝ) = ⟨Torus.sizeOf sampleD, _, _, _, _, _⟩
    rw [this]
    rfl
  · obtain rfl : id = 0 := Nat.lt_one_iff.mp hid
    exact p1
  · obtain rfl : id = 0 := Nat.lt_one_iff.mp hid
    refine p2.trans ?_
    have s1 : siteAt oneD (0 : Fin 1) ![3, 1, 1] = image (Torus.sizeOf sampleD) ![true, false, false] middle ![1, 0, 0] := by decide
    have s2 : siteAt oneD (0 : Fin 1) ![1, 1, 1] = image (Torus.sizeOf sampleD) ![true, false, false] middle ![3, 0, 0] := by decide
    simp only [s1, s2]
    have w : ∀ a b c : ℝ, (fun k => turn ![true, false, false] k * ![a, b, c] k) = ![-a, b, c] := fun a b c => by
      funext k
      fin_cases k <;> simp [turn]
    show _ = Multiset.map (GPart.mirrored (Torus.sizeOf sampleD) ![true, false, false]) {_, _}
    simp only [Multiset.insert_eq_cons, Multiset.map_cons, Multiset.map_singleton, GPart.mirrored, w]

end Verif.Global
