import Verif.Field.SyncLemmas
import Verif.Field.Diagnostics

/-!
# Copies of a mesh entity

Specification of the copies that the ranks keep of one place of the global mesh, and the three passes as a sum
over them.
-/
namespace Verif.Field

open Grid

variable {K : Type*} [Field K] {C : Type*} [DecidableEq C]

/-- -1 for a negative side, 1 for a positive one. -/
def dirOf (s : Fin 3 × Bool) : ℤ := if s.2 then -1 else 1

/-- The ranks form a `P 0` by `P 1` by `P 2` array, `coord r` is the place of rank `r` in it; along the axes in `wrap`
the array is closed to a ring, along the others the outer sides are walls. -/
structure World.Cart {n : ℕ} (W : World K n) (P : Pos) (wrap : Fin 3 → Bool) (coord : Fin n → Pos) : Prop
    extends W.Linked where
  range : ∀ r a, 0 ≤ coord r a ∧ coord r a < P a
  inj : ∀ r r', coord r = coord r' → r = r'
  nbr : ∀ r s, (wrap s.1 = true ∨ (0 ≤ coord r s.1 + dirOf s ∧ coord r s.1 + dirOf s < P s.1)) →
    ∃ r', W.dst r s = some r' ∧ coord r' = Function.update (coord r) s.1 ((coord r s.1 + dirOf s) % P s.1)
  wall : ∀ r s, ¬ (wrap s.1 = true ∨ (0 ≤ coord r s.1 + dirOf s ∧ coord r s.1 + dirOf s < P s.1)) →
    W.dst r s = none

/-- Coordinate in the global mesh along axis `a` of position `x.2` of rank `x.1`. -/
def placeOf {n : ℕ} (W : World K n) (coord : Fin n → Pos) (x : Fin n × Pos) (a : Fin 3) : ℤ :=
  coord x.1 a * dims (W x.1).g a + (x.2 a - 1)

/-- Two positions have the same coordinate along `a` in the global mesh, which is periodic along `a` if `wrap a`. -/
def SameAt {n : ℕ} (W : World K n) (P : Pos) (wrap : Fin 3 → Bool) (coord : Fin n → Pos) (a : Fin 3)
    (x y : Fin n × Pos) : Prop :=
  if wrap a then placeOf W coord x a % (P a * dims (W x.1).g a) = placeOf W coord y a % (P a * dims (W x.1).g a)
  else placeOf W coord x a = placeOf W coord y a

open Classical in
/-- All copies of the entity at `x` with member `k`: the positions of all ranks where they keep that member and that
are the same place of the global mesh. -/
noncomputable def copies {n : ℕ} (W : World K n) (P : Pos) (wrap : Fin 3 → Bool) (coord : Fin n → Pos)
    (ext : C → Fin 3 → Bool) (k : C) (x : Fin n × Pos) : Finset (Fin n × Pos) :=
  (Finset.univ ×ˢ boxSet (fun _ => 1) (topOf (W x.1).g ext k)).filter fun y =>
    ∀ a, SameAt W P wrap coord a x y

open Classical in
/-- Copies along the axes in `A` only. -/
noncomputable def copiesIn {n : ℕ} (W : World K n) (P : Pos) (wrap : Fin 3 → Bool) (coord : Fin n → Pos)
    (ext : C → Fin 3 → Bool) (k : C) (A : Finset (Fin 3)) (x : Fin n × Pos) : Finset (Fin n × Pos) :=
  (Finset.univ ×ˢ boxSet (fun _ => 1) (topOf (W x.1).g ext k)).filter fun y =>
    ∀ a, if a ∈ A then SameAt W P wrap coord a x y else coord y.1 a = coord x.1 a ∧ y.2 a = x.2 a

/-! ### One axis -/

lemma axis_open {u u' v v' d : ℤ} (hd : 1 ≤ d) (hv : 0 ≤ v ∧ v ≤ d) (hv' : 0 ≤ v' ∧ v' ≤ d) :
    u * d + v = u' * d + v' ↔ (u' = u ∧ v' = v) ∨ (v = d ∧ v' = 0 ∧ u' = u + 1) ∨ (v = 0 ∧ v' = d ∧ u' = u - 1) := by
  constructor
  · intro h
    have h1 : (u' - u) * d = v - v' := by linarith
    have h2 : u' - u ≤ 1 := by
      by_contra hc
      have : 2 ≤ u' - u := by omega
      nlinarith
    have h3 : -1 ≤ u' - u := by
      by_contra hc
      have : u' - u ≤ -2 := by omega
      nlinarith
    have : u' - u = -1 ∨ u' - u = 0 ∨ u' - u = 1 := by omega
    rcases this with e | e | e
    · rw [e] at h1; right; right; omega
    · rw [e] at h1; left; omega
    · rw [e] at h1; right; left; omega
  · rintro (⟨rfl, rfl⟩ | ⟨rfl, rfl, rfl⟩ | ⟨rfl, rfl, rfl⟩) <;> ring

lemma axis_ring {P u u' v v' d : ℤ} (hd : 1 ≤ d) (hu : 0 ≤ u ∧ u < P) (hu' : 0 ≤ u' ∧ u' < P)
    (hv : 0 ≤ v ∧ v ≤ d) (hv' : 0 ≤ v' ∧ v' ≤ d) :
    (u * d + v) % (P * d) = (u' * d + v') % (P * d) ↔
      (u' = u ∧ v' = v) ∨ (v = d ∧ v' = 0 ∧ u' = (u + 1) % P) ∨ (v = 0 ∧ v' = d ∧ u' = (u - 1) % P) := by
  have hmod1 : (u + 1) % P = if u + 1 = P then 0 else u + 1 := by
    split
    · rename_i h; rw [h, Int.emod_self]
    · rw [Int.emod_eq_of_lt (by omega) (by omega)]
  have hmod2 : (u - 1) % P = if u = 0 then P - 1 else u - 1 := by
    split
    · rename_i h
      subst h
      rw [← Int.add_emod_right, Int.emod_eq_of_lt (by omega) (by omega)]
      ring
    · rw [Int.emod_eq_of_lt (by omega) (by omega)]
  rw [hmod1, hmod2]
  constructor
  · intro h
    rw [Int.emod_eq_emod_iff_emod_sub_eq_zero] at h
    obtain ⟨t, ht⟩ := Int.dvd_of_emod_eq_zero h
    have hPd : 0 < P * d := by nlinarith
    have b1 : u * d + v ≤ P * d := by nlinarith
    have b2 : u' * d + v' ≤ P * d := by nlinarith
    have b3 : 0 ≤ u * d + v := by nlinarith
    have b4 : 0 ≤ u' * d + v' := by nlinarith
    have t1 : t ≤ 1 := by
      by_contra hc
      have : 2 ≤ t := by omega
      nlinarith
    have t2 : -1 ≤ t := by
      by_contra hc
      have : t ≤ -2 := by omega
      nlinarith
    have : t = -1 ∨ t = 0 ∨ t = 1 := by omega
    rcases this with rfl | rfl | rfl
    · -- u' d + v' = P d, u d + v = 0
      have e1 : u' * d + v' = P * d := by linarith
      have e2 : u * d + v = 0 := by linarith
      have h1 : u = 0 := by nlinarith
      have h2 : v = 0 := by nlinarith
      have h3 : u' = P - 1 := by nlinarith
      have h4 : v' = d := by subst h3; linarith
      right; right
      subst h1
      simp [h2, h3, h4]
    · have := (axis_open (u := u) (u' := u') hd hv hv').mp (by linarith)
      rcases this with h | ⟨h1, h2, h3⟩ | ⟨h1, h2, h3⟩
      · exact Or.inl h
      · right; left
        refine ⟨h1, h2, ?_⟩
        rw [if_neg (by omega)]; exact h3
      · right; right
        refine ⟨h1, h2, ?_⟩
        rw [if_neg (by omega)]; exact h3
    · have e1 : u * d + v = P * d := by linarith
      have e2 : u' * d + v' = 0 := by linarith
      have h1 : u' = 0 := by nlinarith
      have h2 : v' = 0 := by nlinarith
      have h3 : u = P - 1 := by nlinarith
      have h4 : v = d := by subst h3; linarith
      right; left
      refine ⟨h4, h2, ?_⟩
      rw [if_pos (by omega)]; exact h1
  · rintro (⟨rfl, rfl⟩ | ⟨rfl, rfl, h⟩ | ⟨rfl, rfl, h⟩)
    · rfl
    · split at h
      · rename_i hP
        subst h
        rw [← hP]
        have : u * v + v = (u + 1) * v := by ring
        rw [this, Int.emod_self]
        simp
      · rw [h]; congr 1; ring
    · split at h
      · rename_i h0
        subst h0 h
        have : (P - 1) * v' + v' = P * v' := by ring
        rw [this, Int.emod_self]
        simp
      · rw [h]; congr 1; ring

/-- Same place along one axis: the position itself or its twin. -/
lemma sameAt_iff {n : ℕ} {W : World K n} {P : Pos} {wrap : Fin 3 → Bool} {coord : Fin n → Pos}
    (hW : W.Cart P wrap coord) {ext : C → Fin 3 → Bool} {k : C} {x y : Fin n × Pos} (a : Fin 3)
    (hx : EntOn (W x.1).g ext k x.2) (hy : EntOn (W x.1).g ext k y.2) :
    SameAt W P wrap coord a x y ↔ (coord y.1 a = coord x.1 a ∧ y.2 a = x.2 a) ∨
      (ext k a = true ∧ ∃ z, twin W a x = some z ∧ coord y.1 a = coord z.1 a ∧ y.2 a = z.2 a) := by
  have hd := (hW.mesh x.1).pos a
  have hxa := hx a
  have hya := hy a
  have hu := hW.range x.1 a
  have hu' := hW.range y.1 a
  have hdy : dims (W y.1).g a = dims (W x.1).g a := by rw [hW.dims y.1 x.1]
  have htop : topOf (W x.1).g ext k a ≤ dims (W x.1).g a + 1 := by unfold topOf; split <;> omega
  -- what the twin is
  have tw : (∃ z, twin W a x = some z ∧ coord y.1 a = coord z.1 a ∧ y.2 a = z.2 a) ↔
      (x.2 a = dims (W x.1).g a + 1 ∧ y.2 a = 1 ∧
        (wrap a = true ∨ coord x.1 a + 1 < P a) ∧ coord y.1 a = (coord x.1 a + 1) % P a) ∨
      (x.2 a = 1 ∧ y.2 a = dims (W x.1).g a + 1 ∧
        (wrap a = true ∨ 0 ≤ coord x.1 a - 1) ∧ coord y.1 a = (coord x.1 a - 1) % P a) := by
    unfold twin
    by_cases h1 : x.2 a = dims (W x.1).g a + 1
    · simp only [h1, if_true, Option.map_eq_some_iff]
      have hne : ¬ dims (W x.1).g a + 1 = 1 := by omega
      simp only [hne, false_and, or_false, true_and]
      by_cases hc : wrap a = true ∨ coord x.1 a + 1 < P a
      · obtain ⟨r', e1, e2⟩ := hW.nbr x.1 (a, false) (by
          rcases hc with h | h
          · exact Or.inl h
          · right; simp only [dirOf, Bool.false_eq_true, if_false]; omega)
        constructor
        · rintro ⟨z, ⟨r'', e3, rfl⟩, e4, e5⟩
          rw [e1] at e3
          obtain rfl := Option.some.inj e3
          refine ⟨by simpa using e5, hc, ?_⟩
          rw [e4, e2]
          simp [dirOf]
        · rintro ⟨e5, -, e4⟩
          refine ⟨_, ⟨r', e1, rfl⟩, ?_, by simpa using e5⟩
          rw [e4, e2]
          simp [dirOf]
      · have e1 := hW.wall x.1 (a, false) (by
          simp only [dirOf, Bool.false_eq_true, if_false]
          rintro (h | h)
          · exact hc (Or.inl h)
          · exact hc (Or.inr h.2))
        simp [e1, hc]
    · simp only [h1, if_false, false_and, false_or]
      by_cases h2 : x.2 a = 1
      · simp only [h2, if_true, Option.map_eq_some_iff, true_and]
        by_cases hc : wrap a = true ∨ 0 ≤ coord x.1 a - 1
        · obtain ⟨r', e1, e2⟩ := hW.nbr x.1 (a, true) (by
            rcases hc with h | h
            · exact Or.inl h
            · right; simp only [dirOf, if_true]; omega)
          constructor
          · rintro ⟨z, ⟨r'', e3, rfl⟩, e4, e5⟩
            rw [e1] at e3
            obtain rfl := Option.some.inj e3
            refine ⟨by simpa using e5, hc, ?_⟩
            rw [e4, e2]
            simp [dirOf, sub_eq_add_neg]
          · rintro ⟨e5, -, e4⟩
            refine ⟨_, ⟨r', e1, rfl⟩, ?_, by simpa using e5⟩
            rw [e4, e2]
            simp [dirOf, sub_eq_add_neg]
        · have e1 := hW.wall x.1 (a, true) (by
            simp only [dirOf, if_true]
            rintro (h | h)
            · exact hc (Or.inl h)
            · exact hc (Or.inr (by omega)))
          rw [e1]
          constructor
          · rintro ⟨z, ⟨r'', e3, -⟩, -⟩
            simp at e3
          · rintro ⟨-, h, -⟩
            exact absurd h hc
      · simp [h2]
  rw [tw]
  clear tw
  unfold SameAt placeOf
  rw [hdy]
  have b1 : 0 ≤ x.2 a - 1 ∧ x.2 a - 1 ≤ dims (W x.1).g a := by omega
  have b2 : 0 ≤ y.2 a - 1 ∧ y.2 a - 1 ≤ dims (W x.1).g a := by omega
  have hext : ext k a = true ∨ (ext k a = false ∧ x.2 a ≤ dims (W x.1).g a ∧ y.2 a ≤ dims (W x.1).g a) := by
    cases h : ext k a
    · right; simp [topOf, h] at hxa hya; exact ⟨rfl, by omega, by omega⟩
    · left; rfl
  by_cases hw : wrap a = true
  · rw [if_pos hw, axis_ring hd hu hu' b1 b2]
    simp only [hw, true_or, true_and]
    rcases hext with he | ⟨he, l1, l2⟩
    · simp only [he, true_and]
      constructor
      · rintro (⟨e1, e2⟩ | ⟨e1, e2, e3⟩ | ⟨e1, e2, e3⟩)
        · exact Or.inl ⟨e1, by omega⟩
        · exact Or.inr (Or.inl ⟨by omega, by omega, e3⟩)
        · exact Or.inr (Or.inr ⟨by omega, by omega, e3⟩)
      · rintro (⟨e1, e2⟩ | ⟨e1, e2, e3⟩ | ⟨e1, e2, e3⟩)
        · exact Or.inl ⟨e1, by omega⟩
        · exact Or.inr (Or.inl ⟨by omega, by omega, e3⟩)
        · exact Or.inr (Or.inr ⟨by omega, by omega, e3⟩)
    · simp only [he, Bool.false_eq_true, false_and, or_false]
      constructor
      · rintro (⟨e1, e2⟩ | ⟨e1, e2, e3⟩ | ⟨e1, e2, e3⟩)
        · exact ⟨e1, by omega⟩
        · omega
        · omega
      · rintro ⟨e1, e2⟩
        exact Or.inl ⟨e1, by omega⟩
  · rw [if_neg hw, axis_open hd b1 b2]
    simp only [hw, Bool.false_eq_true, false_or]
    rcases hext with he | ⟨he, l1, l2⟩
    · simp only [he, true_and]
      constructor
      · rintro (⟨e1, e2⟩ | ⟨e1, e2, e3⟩ | ⟨e1, e2, e3⟩)
        · exact Or.inl ⟨e1, by omega⟩
        · refine Or.inr (Or.inl ⟨by omega, by omega, by omega, ?_⟩)
          rw [Int.emod_eq_of_lt (by omega) (by omega)]; exact e3
        · refine Or.inr (Or.inr ⟨by omega, by omega, by omega, ?_⟩)
          rw [Int.emod_eq_of_lt (by omega) (by omega)]; exact e3
      · rintro (⟨e1, e2⟩ | ⟨e1, e2, e3, e4⟩ | ⟨e1, e2, e3, e4⟩)
        · exact Or.inl ⟨e1, by omega⟩
        · rw [Int.emod_eq_of_lt (a := coord x.1 a + 1) (by omega) (by omega)] at e4
          exact Or.inr (Or.inl ⟨by omega, by omega, e4⟩)
        · rw [Int.emod_eq_of_lt (a := coord x.1 a - 1) (by omega) (by omega)] at e4
          exact Or.inr (Or.inr ⟨by omega, by omega, e4⟩)
    · simp only [he, Bool.false_eq_true, false_and, or_false]
      constructor
      · rintro (⟨e1, e2⟩ | ⟨e1, e2, e3⟩ | ⟨e1, e2, e3⟩)
        · exact ⟨e1, by omega⟩
        · omega
        · omega
      · rintro ⟨e1, e2⟩
        exact Or.inl ⟨e1, by omega⟩

/-! ### Twins -/

/-- A twin differs along its axis only. -/
lemma twin_other {n : ℕ} {W : World K n} {P : Pos} {wrap : Fin 3 → Bool} {coord : Fin n → Pos}
    (hW : W.Cart P wrap coord) {a : Fin 3} {x y : Fin n × Pos} (h : twin W a x = some y) :
    (∀ b, b ≠ a → coord y.1 b = coord x.1 b ∧ y.2 b = x.2 b) ∧ y.2 a ≠ x.2 a ∧
      (y.2 a = 1 ∨ y.2 a = dims (W x.1).g a + 1) := by
  have hd := (hW.mesh x.1).pos a
  have key : ∀ s r', W.dst x.1 s = some r' → ∀ b, b ≠ s.1 → coord r' b = coord x.1 b := by
    intro s r' e b hb
    by_cases hc : wrap s.1 = true ∨ (0 ≤ coord x.1 s.1 + dirOf s ∧ coord x.1 s.1 + dirOf s < P s.1)
    · obtain ⟨r'', e1, e2⟩ := hW.nbr x.1 s hc
      rw [e1] at e
      obtain rfl := Option.some.inj e
      rw [e2, Function.update_of_ne hb]
    · rw [hW.wall x.1 s hc] at e
      simp at e
  unfold twin at h
  split at h
  · rename_i h1
    obtain ⟨r', e, rfl⟩ := Option.map_eq_some_iff.mp h
    refine ⟨fun b hb => ⟨key _ _ e b hb, Function.update_of_ne hb _ _⟩, ?_, Or.inl (by simp)⟩
    simp only [Function.update_self]
    omega
  · split at h
    · rename_i h2
      obtain ⟨r', e, rfl⟩ := Option.map_eq_some_iff.mp h
      refine ⟨fun b hb => ⟨key _ _ e b hb, Function.update_of_ne hb _ _⟩, ?_, Or.inr (by simp)⟩
      simp only [Function.update_self]
      omega
    · simp at h

lemma twin_ent {n : ℕ} {W : World K n} {P : Pos} {wrap : Fin 3 → Bool} {coord : Fin n → Pos}
    (hW : W.Cart P wrap coord) {ext : C → Fin 3 → Bool} {k : C} {a : Fin 3} (he : ext k a = true)
    {x y : Fin n × Pos} (hx : EntOn (W x.1).g ext k x.2) (h : twin W a x = some y) :
    EntOn (W x.1).g ext k y.2 := by
  obtain ⟨h1, -, h3⟩ := twin_other hW h
  have hd := (hW.mesh x.1).pos a
  intro b
  by_cases hb : b = a
  · subst hb
    simp only [topOf, he, if_true]
    omega
  · rw [(h1 b hb).2]
    exact hx b

/-- Whether there is a twin along an axis depends on that axis only. -/
lemma twin_iff {n : ℕ} {W : World K n} {P : Pos} {wrap : Fin 3 → Bool} {coord : Fin n → Pos}
    (hW : W.Cart P wrap coord) (b : Fin 3) (x : Fin n × Pos) :
    twin W b x = none ↔ ¬ ((x.2 b = dims (W x.1).g b + 1 ∧ (wrap b = true ∨ coord x.1 b + 1 < P b)) ∨
      (x.2 b = 1 ∧ (wrap b = true ∨ 0 ≤ coord x.1 b - 1))) := by
  have hd := (hW.mesh x.1).pos b
  have hr := hW.range x.1 b
  have f : W.dst x.1 (b, false) = none ↔ ¬ (wrap b = true ∨ coord x.1 b + 1 < P b) := by
    by_cases hc : wrap b = true ∨ (0 ≤ coord x.1 b + dirOf (b, false) ∧ coord x.1 b + dirOf (b, false) < P b)
    · obtain ⟨r', e1, -⟩ := hW.nbr x.1 (b, false) hc
      simp only [dirOf, Bool.false_eq_true, if_false] at hc
      rw [e1]
      simp only [reduceCtorEq, false_iff, not_not]
      rcases hc with h | h
      · exact Or.inl h
      · exact Or.inr h.2
    · rw [hW.wall x.1 (b, false) hc]
      simp only [dirOf, Bool.false_eq_true, if_false] at hc
      simp only [true_iff]
      rintro (h | h)
      · exact hc (Or.inl h)
      · exact hc (Or.inr ⟨by omega, h⟩)
  have t : W.dst x.1 (b, true) = none ↔ ¬ (wrap b = true ∨ 0 ≤ coord x.1 b - 1) := by
    by_cases hc : wrap b = true ∨ (0 ≤ coord x.1 b + dirOf (b, true) ∧ coord x.1 b + dirOf (b, true) < P b)
    · obtain ⟨r', e1, -⟩ := hW.nbr x.1 (b, true) hc
      simp only [dirOf, if_true] at hc
      rw [e1]
      simp only [reduceCtorEq, false_iff, not_not]
      rcases hc with h | h
      · exact Or.inl h
      · exact Or.inr (by omega)
    · rw [hW.wall x.1 (b, true) hc]
      simp only [dirOf, if_true] at hc
      simp only [true_iff]
      rintro (h | h)
      · exact hc (Or.inl h)
      · exact hc (Or.inr ⟨by omega, by omega⟩)
  unfold twin
  by_cases h1 : x.2 b = dims (W x.1).g b + 1
  · have hne : ¬ dims (W x.1).g b + 1 = 1 := by omega
    simp only [h1, if_true, Option.map_eq_none_iff, f, true_and, hne, false_and, or_false]
  · by_cases h2 : x.2 b = 1
    · have hne : ¬ (1 : ℤ) = dims (W x.1).g b + 1 := by omega
      simp only [h2, if_true, Option.map_eq_none_iff, t, true_and, hne, false_and, false_or, if_false]
    · simp [h1, h2]

/-! ### The sum over copies -/

open Classical in
/-- Number of axes in `A` along which the entity has a twin. -/
noncomputable def twins {n : ℕ} (W : World K n) (ext : C → Fin 3 → Bool) (k : C) (A : Finset (Fin 3))
    (x : Fin n × Pos) : ℕ := (A.filter fun a => ext k a = true ∧ twin W a x ≠ none).card

lemma mem_copiesIn {n : ℕ} {W : World K n} {P : Pos} {wrap : Fin 3 → Bool} {coord : Fin n → Pos}
    {ext : C → Fin 3 → Bool} {k : C} {A : Finset (Fin 3)} {x y : Fin n × Pos} :
    y ∈ copiesIn W P wrap coord ext k A x ↔ EntOn (W x.1).g ext k y.2 ∧
      ∀ a, if a ∈ A then SameAt W P wrap coord a x y else coord y.1 a = coord x.1 a ∧ y.2 a = x.2 a := by
  classical
  unfold copiesIn
  rw [Finset.mem_filter, Finset.mem_product, mem_boxSet]
  simp [EntOn]

lemma mem_copies {n : ℕ} {W : World K n} {P : Pos} {wrap : Fin 3 → Bool} {coord : Fin n → Pos}
    {ext : C → Fin 3 → Bool} {k : C} {x y : Fin n × Pos} :
    y ∈ copies W P wrap coord ext k x ↔ EntOn (W x.1).g ext k y.2 ∧ ∀ a, SameAt W P wrap coord a x y := by
  classical
  unfold copies
  rw [Finset.mem_filter, Finset.mem_product, mem_boxSet]
  simp [EntOn]

lemma copiesIn_empty {n : ℕ} {W : World K n} {P : Pos} {wrap : Fin 3 → Bool} {coord : Fin n → Pos}
    (hW : W.Cart P wrap coord) {ext : C → Fin 3 → Bool} {k : C} {x : Fin n × Pos}
    (hx : EntOn (W x.1).g ext k x.2) : copiesIn W P wrap coord ext k ∅ x = {x} := by
  ext y
  rw [mem_copiesIn, Finset.mem_singleton]
  constructor
  · rintro ⟨-, h⟩
    simp only [Finset.notMem_empty, if_false] at h
    exact Prod.ext (hW.inj _ _ (funext fun a => (h a).1)) (funext fun a => (h a).2)
  · rintro rfl
    exact ⟨hx, fun a => by simp⟩

lemma copiesIn_univ {n : ℕ} {W : World K n} {P : Pos} {wrap : Fin 3 → Bool} {coord : Fin n → Pos}
    {ext : C → Fin 3 → Bool} {k : C} {x : Fin n × Pos} :
    copiesIn W P wrap coord ext k Finset.univ x = copies W P wrap coord ext k x := by
  ext y
  rw [mem_copiesIn, mem_copies]
  simp

/-- Without a twin along `a` nothing is added. -/
lemma copiesIn_none {n : ℕ} {W : World K n} {P : Pos} {wrap : Fin 3 → Bool} {coord : Fin n → Pos}
    (hW : W.Cart P wrap coord) {ext : C → Fin 3 → Bool} {k : C} {A : Finset (Fin 3)} {a : Fin 3} (ha : a ∉ A)
    {x : Fin n × Pos} (hx : EntOn (W x.1).g ext k x.2) (h : ¬ (ext k a = true ∧ twin W a x ≠ none)) :
    copiesIn W P wrap coord ext k (insert a A) x = copiesIn W P wrap coord ext k A x := by
  ext y
  rw [mem_copiesIn, mem_copiesIn]
  refine and_congr_right fun hy => forall_congr' fun b => ?_
  by_cases hb : b = a
  · subst hb
    simp only [Finset.mem_insert_self, if_true, ha, if_false]
    rw [sameAt_iff hW b hx hy]
    constructor
    · rintro (h1 | ⟨h1, z, h2, -⟩)
      · exact h1
      · exact absurd ⟨h1, by simp [h2]⟩ h
    · exact Or.inl
  · simp [Finset.mem_insert, hb]

/-- With a twin along `a`, the copies are those of both. -/
lemma mem_copiesIn_twin {n : ℕ} {W : World K n} {P : Pos} {wrap : Fin 3 → Bool} {coord : Fin n → Pos}
    (hW : W.Cart P wrap coord) {ext : C → Fin 3 → Bool} {k : C} {A : Finset (Fin 3)} {a : Fin 3} (ha : a ∉ A)
    {x y : Fin n × Pos} (hx : EntOn (W x.1).g ext k x.2) (he : ext k a = true) (h : twin W a x = some y)
    (z : Fin n × Pos) :
    z ∈ copiesIn W P wrap coord ext k (insert a A) x ↔
      z ∈ copiesIn W P wrap coord ext k A x ∨ z ∈ copiesIn W P wrap coord ext k A y := by
  obtain ⟨o1, o2, -⟩ := twin_other hW h
  have hdims : topOf (W y.1).g ext k = topOf (W x.1).g ext k := by
    funext b; simp only [topOf, hW.dims y.1 x.1]
  have hent : ∀ c, EntOn (W y.1).g ext k c ↔ EntOn (W x.1).g ext k c := by
    intro c; unfold EntOn; rw [hdims]
  have hsame : ∀ b, b ≠ a → ∀ z, SameAt W P wrap coord b y z ↔ SameAt W P wrap coord b x z := by
    intro b hb z
    have : placeOf W coord y b = placeOf W coord x b := by
      simp only [placeOf, (o1 b hb).1, (o1 b hb).2, hW.dims y.1 x.1]
    simp only [SameAt, this, hW.dims y.1 x.1]
  rw [mem_copiesIn, mem_copiesIn, mem_copiesIn, hent, ← and_or_left]
  refine and_congr_right fun hz => ?_
  constructor
  · intro hall
    have h1 := hall a
    simp only [Finset.mem_insert_self, if_true] at h1
    rw [sameAt_iff hW a hx hz] at h1
    rcases h1 with h1 | ⟨-, w, hw, h1⟩
    · left
      intro b
      by_cases hb : b = a
      · subst hb; simpa [ha] using h1
      · simpa [Finset.mem_insert, hb] using hall b
    · right
      rw [h] at hw
      obtain rfl := Option.some.inj hw
      intro b
      by_cases hb : b = a
      · subst hb; simpa [ha] using h1
      · have := hall b
        simp only [Finset.mem_insert, hb, false_or] at this
        rw [hsame b hb, (o1 b hb).1, (o1 b hb).2]
        exact this
  · rintro (hall | hall)
    · intro b
      by_cases hb : b = a
      · subst hb
        simp only [Finset.mem_insert_self, if_true]
        rw [sameAt_iff hW b hx hz]
        have := hall b
        simp only [ha, if_false] at this
        exact Or.inl this
      · simpa [Finset.mem_insert, hb] using hall b
    · intro b
      by_cases hb : b = a
      · subst hb
        simp only [Finset.mem_insert_self, if_true]
        rw [sameAt_iff hW b hx hz]
        have := hall b
        simp only [ha, if_false] at this
        exact Or.inr ⟨he, y, h, this⟩
      · have := hall b
        rw [hsame b hb, (o1 b hb).1, (o1 b hb).2] at this
        simpa only [Finset.mem_insert, hb, false_or] using this

lemma sum_copiesIn_twin {M : Type*} [AddCommMonoid M] {n : ℕ} {W : World K n} {P : Pos} {wrap : Fin 3 → Bool}
    {coord : Fin n → Pos} (hW : W.Cart P wrap coord) {ext : C → Fin 3 → Bool} {k : C} {A : Finset (Fin 3)}
    {a : Fin 3} (ha : a ∉ A) {x y : Fin n × Pos} (hx : EntOn (W x.1).g ext k x.2) (he : ext k a = true)
    (h : twin W a x = some y) (f : Fin n × Pos → M) :
    ∑ z ∈ copiesIn W P wrap coord ext k (insert a A) x, f z =
      ∑ z ∈ copiesIn W P wrap coord ext k A x, f z + ∑ z ∈ copiesIn W P wrap coord ext k A y, f z := by
  classical
  obtain ⟨o1, o2, -⟩ := twin_other hW h
  have hdisj : Disjoint (copiesIn W P wrap coord ext k A x) (copiesIn W P wrap coord ext k A y) := by
    rw [Finset.disjoint_left]
    intro z h1 h2
    have e1 := (mem_copiesIn.mp h1).2 a
    have e2 := (mem_copiesIn.mp h2).2 a
    simp only [ha, if_false] at e1 e2
    exact o2 (e2.2.symm.trans e1.2)
  rw [← Finset.sum_union hdisj]
  refine Finset.sum_congr ?_ fun _ _ => rfl
  ext z
  rw [Finset.mem_union, mem_copiesIn_twin hW ha hx he h]

lemma twins_insert {n : ℕ} (W : World K n) (ext : C → Fin 3 → Bool) (k : C) {A : Finset (Fin 3)} {a : Fin 3}
    (ha : a ∉ A) (x : Fin n × Pos) :
    (¬ (ext k a = true ∧ twin W a x ≠ none) → twins W ext k (insert a A) x = twins W ext k A x) ∧
    ((ext k a = true ∧ twin W a x ≠ none) → twins W ext k (insert a A) x = twins W ext k A x + 1) := by
  classical
  unfold twins
  constructor
  · intro h
    rw [Finset.filter_insert, if_neg h]
  · intro h
    rw [Finset.filter_insert, if_pos h, Finset.card_insert_of_notMem]
    simp [ha]

lemma twins_twin {n : ℕ} {W : World K n} {P : Pos} {wrap : Fin 3 → Bool} {coord : Fin n → Pos}
    (hW : W.Cart P wrap coord) (ext : C → Fin 3 → Bool) (k : C) {A : Finset (Fin 3)} {a : Fin 3}
    (ha : a ∉ A) {x y : Fin n × Pos} (h : twin W a x = some y) : twins W ext k A y = twins W ext k A x := by
  classical
  obtain ⟨o1, -, -⟩ := twin_other hW h
  unfold twins
  congr 1
  refine Finset.filter_congr fun b hb => ?_
  have hne : b ≠ a := fun e => ha (e ▸ hb)
  rw [Ne, Ne, twin_iff hW, twin_iff hW, (o1 b hne).1, (o1 b hne).2, hW.dims y.1 x.1]

/-- Values of a member on all ranks. -/
abbrev valOf {n : ℕ} (W : World K n) (m : Fin n → CMem C K) (k : C) (x : Fin n × Pos) : K :=
  m x.1 (vox (W x.1).g x.2, k)

/-- One pass, for a member combined as `lam * (w1 + w2)`. -/
lemma pass_step {n : ℕ} {W : World K n} {P : Pos} {wrap : Fin 3 → Bool} {coord : Fin n → Pos}
    (hW : W.Cart P wrap coord) {S : SyncOp C K} {inc : C → Prop} {ext : C → Fin 3 → Bool}
    (hS : Shape S.slots inc ext) {k : C} (hk : inc k) {lam : K}
    (hl : ∀ r X w1 w2, S.upd ((W r).d X) ((W r).d X) k w1 w2 = lam * (w1 + w2))
    {X : Fin 3} {A : Finset (Fin 3)} (hA : X ∉ A) (m : Fin n × Pos → K) {st st' : Fin n → CMem C K × K}
    (h : SyncPass W S X st st')
    (ih : ∀ x : Fin n × Pos, EntOn (W x.1).g ext k x.2 → valOf W (fun r => (st r).1) k x =
      lam ^ twins W ext k A x * ∑ z ∈ copiesIn W P wrap coord ext k A x, m z) :
    ∀ x : Fin n × Pos, EntOn (W x.1).g ext k x.2 → valOf W (fun r => (st' r).1) k x =
      lam ^ twins W ext k (insert X A) x * ∑ z ∈ copiesIn W P wrap coord ext k (insert X A) x, m z := by
  intro x hx
  obtain ⟨p1, p2, -⟩ := pass_result hW.toLinked hS h x.1
  by_cases hc : ext k X = true ∧ twin W X x ≠ none
  · obtain ⟨y, hy⟩ := Option.ne_none_iff_exists'.mp hc.2
    have hye := twin_ent hW hc.1 hx hy
    have hye' : EntOn (W y.1).g ext k y.2 := by
      intro b
      have := hye b
      unfold topOf at this ⊢
      rwa [hW.dims y.1 x.1]
    have e1 : valOf W (fun r => (st' r).1) k x = lam * (valOf W (fun r => (st r).1) k y + valOf W (fun r => (st r).1) k x) := by
      show (st' x.1).1 (vox (W x.1).g x.2, k) = _
      rw [p1 x.2 k hx hk hc.1 y hy, hl]
      simp only [valOf]
      rw [vox_dims (hW.dims y.1 x.1)]
    rw [e1, ih x hx, ih y hye', twins_twin hW ext k hA hy, (twins_insert W ext k hA x).2 hc,
      sum_copiesIn_twin hW hA hx hc.1 hy]
    ring
  · rw [(twins_insert W ext k hA x).1 hc, copiesIn_none hW hA hx hc, ← ih x hx]
    refine p2 _ fun c k' hc' hk' he ht e => hc ?_
    obtain ⟨e1, e2⟩ := Prod.mk.inj e
    have := vox_inj hx.inArray hc'.inArray e1
    subst this e2
    exact ⟨he, ht⟩

/-- The three passes. -/
lemma passes_sum {n : ℕ} {W : World K n} {P : Pos} {wrap : Fin 3 → Bool} {coord : Fin n → Pos}
    (hW : W.Cart P wrap coord) {S : SyncOp C K} {inc : C → Prop} {ext : C → Fin 3 → Bool}
    (hS : Shape S.slots inc ext) {k : C} (hk : inc k) {lam : K}
    (hl : ∀ r X w1 w2, S.upd ((W r).d X) ((W r).d X) k w1 w2 = lam * (w1 + w2))
    {st st' : Fin n → CMem C K × K} (h : SyncPasses W S st st') (x : Fin n × Pos)
    (hx : EntOn (W x.1).g ext k x.2) :
    valOf W (fun r => (st' r).1) k x =
      lam ^ twins W ext k Finset.univ x * ∑ z ∈ copies W P wrap coord ext k x, valOf W (fun r => (st r).1) k z := by
  obtain ⟨s1, s2, h1, h2, h3⟩ := h
  have a0 : ∀ x : Fin n × Pos, EntOn (W x.1).g ext k x.2 → valOf W (fun r => (st r).1) k x =
      lam ^ twins W ext k ∅ x * ∑ z ∈ copiesIn W P wrap coord ext k ∅ x, valOf W (fun r => (st r).1) k z := by
    intro x hx
    rw [copiesIn_empty hW hx, Finset.sum_singleton]
    simp [twins]
  have a1 := pass_step hW hS hk hl (X := 0) (by simp) _ h1 a0
  have a2 := pass_step hW hS hk hl (X := 1) (by simp) _ h2 a1
  have a3 := pass_step hW hS hk hl (X := 2) (by decide) _ h3 a2
  have e : (insert 2 (insert 1 (insert 0 ∅)) : Finset (Fin 3)) = Finset.univ := by decide
  have := a3 x hx
  rwa [e, copiesIn_univ] at this

/-- Everything else keeps its value. -/
lemma passes_frame {n : ℕ} {W : World K n} (hW : W.Linked) {S : SyncOp C K} {inc : C → Prop} {ext : C → Fin 3 → Bool}
    (hS : Shape S.slots inc ext) {st st' : Fin n → CMem C K × K} (h : SyncPasses W S st st') (r : Fin n)
    (x : ℤ × C) (hx : ∀ c k, EntOn (W r).g ext k c → inc k → x ≠ (vox (W r).g c, k)) : (st' r).1 x = (st r).1 x := by
  obtain ⟨s1, s2, h1, h2, h3⟩ := h
  rw [(pass_result hW hS h3 r).2.1 x (fun c k a b _ _ => hx c k a b),
    (pass_result hW hS h2 r).2.1 x (fun c k a b _ _ => hx c k a b),
    (pass_result hW hS h1 r).2.1 x (fun c k a b _ _ => hx c k a b)]

end Verif.Field
