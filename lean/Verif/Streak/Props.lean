import Verif.Streak.Axis

/-!
# Property C123: moving particles stay in their voxels, with rounding
-/
namespace Verif.Streak
open Verif.Place

/-- Offsets and displacements are numbers of type `float`. -/
def Floats (s : St) : Prop := ∀ k, rnd32 (s.x k) = s.x k ∧ rnd32 (s.d k) = s.d k

/-- The offsets are those of a point of the closed voxel. -/
def Inside (s : St) : Prop := ∀ k, |s.x k| ≤ 1

/-- The particle does not move farther than a voxel in any direction, as for all particles slower than light if the time step meets
the Courant condition. -/
def Slow (s : St) : Prop := ∀ k, |s.d k| ≤ 1

/-- **C123 (the end of the movement).** If the particle is inside at the beginning of the streak that ends its movement, it is inside
at its end, whatever the displacement and the roundings. -/
theorem end_inside {s s' : St} (hf : Floats s) (hi : Inside s) {face : Face} (h : streak face s = .done s') :
    Floats s' ∧ Inside s' := by
  unfold streak at h
  rcases choose_spec s with ⟨h1, h2, h3⟩ | ⟨k, h1, -⟩
  · simp only [h1, h2, Out.done.injEq] at h
    subst h
    refine ⟨fun k => ⟨r_idem _, r_idem _⟩, fun k => ?_⟩
    exact end_axis (hf k).1 (hf k).2 (hi k) (h3 k)
  · simp only [h1] at h
    cases face <;> cases h

/-- **C123 (at a face).** If a streak that starts inside ends at a face, the particle is put exactly on that face, in the voxel it
comes from (if it is left to the boundary or reflected) or in the next one. In the other directions it is inside, or outside by one
unit in the last place; then it goes on moving out in that direction, so that the next streak is not the last one. -/
theorem cross_near {s s' : St} (hf : Floats s) (hi : Inside s) (hs : Slow s) {face : Face}
    (h : streak face s = .more s' ∨ streak face s = .exit s') :
    Floats s' ∧ Slow s' ∧ (∃ k, |s'.x k| = 1 ∧ s.d k ≠ 0) ∧
      (∀ k, |s'.x k| ≤ 1 + 1 / 2 ^ 23 ∧ (1 < |s'.x k| → 0 < s'.x k * s'.d k)) ∧
      (¬ Inside s' → ∀ face' t, streak face' s' ≠ .done t) := by
  rcases choose_spec s with ⟨h1, -⟩ | ⟨k, h1, h2, h3, h4⟩
  · unfold streak at h
    simp only [h1] at h
    rcases h with h | h <;> cases h
  · have hv : rnd32 (choose s).1 = (choose s).1 := by
      unfold reach at h2
      split_ifs at h2
      rw [← Option.some_inj.mp h2, r_idem]
    have hv0 : 0 ≤ (choose s).1 := reach_nonneg (hi k) h2
    have ax := fun j => cross_axis (hf j).1 (hf j).2 hv (hi j) (hs j) hv0 h3 (h4 j)
    have hdk : s.d k ≠ 0 := by
      intro h0
      simp [reach, h0] at h2
    have hdir : |dir (s.d k)| = 1 := by unfold dir; split_ifs <;> norm_num
    have hdirf : rnd32 (dir (s.d k)) = dir (s.d k) := by
      unfold dir
      split_ifs
      · exact rnd32_one
      · exact rnd32_neg_one
    have p23 : (0 : ℚ) ≤ 1 / 2 ^ 23 := by norm_num
    -- the offsets and displacements after the streak, with the axis `k` set to a face
    have shape : ∃ f : ℚ, |f| = 1 ∧ rnd32 f = f ∧ s'.x = Function.update (advance s (choose s).1).x k f ∧
        (s'.d = (advance s (choose s).1).d ∨
          s'.d = Function.update (advance s (choose s).1).d k (-(advance s (choose s).1).d k)) := by
      unfold streak at h
      simp only [h1] at h
      cases face with
      | voxel =>
        rcases h with h | h
        · simp only [Out.more.injEq] at h
          subst h
          exact ⟨-dir (s.d k), by rwa [abs_neg], by rw [r_neg, hdirf], rfl, Or.inl rfl⟩
        · cases h
      | reflect =>
        rcases h with h | h
        · simp only [Out.more.injEq] at h
          subst h
          exact ⟨dir (s.d k), hdir, hdirf, rfl, Or.inr rfl⟩
        · cases h
      | other =>
        rcases h with h | h
        · cases h
        · simp only [Out.exit.injEq] at h
          subst h
          exact ⟨dir (s.d k), hdir, hdirf, rfl, Or.inl rfl⟩
    obtain ⟨f, hf1, hff, hx, hd⟩ := shape
    have hxk : s'.x k = f := by rw [hx]; simp
    have hxj : ∀ j, j ≠ k → s'.x j = nx (s.x j) (s.d j) (choose s).1 := fun j hj => by
      rw [hx]; simp only [Function.update_of_ne hj]; rfl
    have hdj : ∀ j, j ≠ k → s'.d j = nd (s.d j) (choose s).1 := fun j hj => by
      rcases hd with hd | hd
      · rw [hd]; rfl
      · rw [hd]; simp only [Function.update_of_ne hj]; rfl
    have hdk' : s'.d k = nd (s.d k) (choose s).1 ∨ s'.d k = -nd (s.d k) (choose s).1 := by
      rcases hd with hd | hd
      · left; rw [hd]; rfl
      · right; rw [hd]; simp only [Function.update_self]; rfl
    have main : ∀ j, |s'.x j| ≤ 1 + 1 / 2 ^ 23 ∧ (1 < |s'.x j| → 0 < s'.x j * s'.d j) := by
      intro j
      by_cases hj : j = k
      · rw [hj, hxk, hf1]
        exact ⟨by linarith, fun h => absurd h (lt_irrefl _)⟩
      · rw [hxj j hj, hdj j hj]
        exact ⟨(ax j).1, (ax j).2.2⟩
    refine ⟨fun j => ⟨?_, ?_⟩, fun j => ?_, ⟨k, by rw [hxk, hf1], hdk⟩, main, fun hni face' t ht => ?_⟩
    · by_cases hj : j = k
      · rw [hj, hxk, hff]
      · rw [hxj j hj, nx_float]
    · by_cases hj : j = k
      · rw [hj]
        rcases hdk' with e | e
        · rw [e, nd_float]
        · rw [e, r_neg, nd_float]
      · rw [hdj j hj, nd_float]
    · by_cases hj : j = k
      · rw [hj]
        rcases hdk' with e | e
        · rw [e]; exact (ax k).2.1
        · rw [e, abs_neg]; exact (ax k).2.1
      · rw [hdj j hj]; exact (ax j).2.1
    · unfold Inside at hni
      push Not at hni
      obtain ⟨j, hj⟩ := hni
      obtain ⟨v, hv1, hv2⟩ := reach_outside hj ((main j).2 hj)
      unfold streak at ht
      rcases choose_spec s' with ⟨-, -, g3⟩ | ⟨i, g1, -⟩
      · have := g3 j v hv1
        linarith
      · simp only [g1] at ht
        cases face' <;> cases ht

/-- **C123 (whole movements).** A movement that starts inside, of a particle that crosses (or is reflected by) at most one face, ends
inside. -/
theorem movement_inside_partial {s : St} (hf : Floats s) (hi : Inside s) (hs : Slow s) {face face' : Face} {t : St}
    (h : streak face s = .done t ∨ ∃ s', streak face s = .more s' ∧ streak face' s' = .done t) : Floats t ∧ Inside t := by
  rcases h with h | ⟨s', h1, h2⟩
  · exact end_inside hf hi h
  · obtain ⟨hf', -, -, -, hno⟩ := cross_near hf hi hs (Or.inl h1)
    have hi' : Inside s' := by
      by_contra hc
      exact hno hc face' t h2
    exact end_inside hf' hi' h2

/-- A particle of which the offsets along x and y, and the displacements, are equal. -/
def diagonal : St where
  x := ![7104377 / 2 ^ 25, 7104377 / 2 ^ 25, 0]
  d := ![5903009 / 2 ^ 23, 5903009 / 2 ^ 23, 0]

/-- **C123 (a particle outside).** A particle that starts inside and moves by less than a voxel is handed over to the boundary of the
upper x face with an offset along y above 1. -/
theorem handed_over_outside : ∃ s', Floats diagonal ∧ Inside diagonal ∧ Slow diagonal ∧ streak .other diagonal = .exit s' ∧
    s'.x 0 = 1 ∧ s'.x 1 = 1 + 1 / 2 ^ 23 := by
  refine ⟨{ advance diagonal (choose diagonal).1 with
      x := Function.update (advance diagonal (choose diagonal).1).x 0 (dir (diagonal.d 0)) },
    by unfold Floats; decide +kernel, by unfold Inside; decide +kernel, by unfold Slow; decide +kernel, ?_, ?_, ?_⟩
  · have : (choose diagonal).2 = some 0 := by decide +kernel
    unfold streak
    simp only [this]
  · decide +kernel
  · decide +kernel

end Verif.Streak
