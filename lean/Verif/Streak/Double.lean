import Verif.Streak.Two

/-!
# Property C123: movements over two faces
-/
namespace Verif.Streak
open Verif.Place

lemma over_both {x d t : ℚ} (hx : rnd32 x = x) (hd : rnd32 d = d) (hv : rnd32 t = t) (h : |x| ≤ 1) (hd1 : |d| ≤ 1)
    (ht0 : 0 ≤ t) (ht : t < 2) (hr : ∀ w, reach x d = some w → t ≤ w) (hov : 1 < |nx x d t|) : 1 / 16 ≤ |d| ∧ 1 / 8 ≤ t := by
  have key : ∀ x d : ℚ, rnd32 x = x → rnd32 d = d → |x| ≤ 1 → |d| ≤ 1 → (∀ w, reach x d = some w → t ≤ w) → 0 < d →
      1 < |nx x d t| → 1 / 16 ≤ |d| ∧ 1 / 8 ≤ t := by
    intro x d hx hd h hd1 hr hp hov
    obtain ⟨h0, h1⟩ := abs_le.mp h
    have hd1' := (abs_le.mp hd1).2
    obtain ⟨c0, -⟩ := cross_pos hd h0 h1 hx hp hd1' ht0 ht.le (hr _ (reach_pos hp))
    have hn : nx x d t = rnd32 (x + rnd32 (d * t)) := by unfold nx; rw [part_twice hv]
    rw [← hn] at c0
    rw [abs_of_pos hp]
    refine over_first hx hd hv h0 h1 hp hd1' ht0 ht (hr _ (reach_pos hp)) ?_
    rcases lt_abs.mp hov with h | h
    · exact h
    · linarith
  rcases lt_trichotomy d 0 with hd0 | hd0 | hd0
  · have := key (-x) (-d) (by rw [r_neg, hx]) (by rw [r_neg, hd]) (by rwa [abs_neg]) (by rwa [abs_neg]) (by rwa [reach_neg])
      (by linarith) (by rwa [nx_neg, abs_neg])
    rwa [abs_neg] at this
  · subst hd0
    have e1 : nx x 0 t = x := by unfold nx part; simp [r_zero, hx]
    rw [e1] at hov
    linarith
  · exact key x d hx hd h hd1 hr hd0 hov

lemma left_lower_both {d t : ℚ} (hd : rnd32 d = d) (hv : rnd32 t = t) (ht0 : 1 / 8 ≤ t) (ht : t < 2) :
    |d| * (1 - t * (1 / 2)) / 16 ≤ |nd d t| := by
  rcases lt_trichotomy d 0 with hd0 | hd0 | hd0
  · have := left_lower (d := -d) (by rw [r_neg, hd]) hv (by linarith) ht0 ht
    rw [nd_neg] at this
    rw [abs_of_neg hd0]
    exact this.trans (neg_le_abs _)
  · subst hd0; simp
  · have := left_lower hd hv hd0 ht0 ht
    rw [abs_of_pos hd0]
    exact this.trans (le_abs_self _)

lemma left_upper_both {d t : ℚ} (hd1 : |d| ≤ 1) (hv : rnd32 t = t) (ht0 : 1 / 8 ≤ t) (ht : t < 2) :
    |nd d t| ≤ 4 * (1 - t * (1 / 2)) ∧ |nd d t| ≤ 31 / 32 := by
  obtain ⟨a, b⟩ := abs_le.mp hd1
  rcases le_total 0 d with h | h
  · obtain ⟨h1, h2, h3⟩ := left_upper h b hv ht0 ht
    rw [abs_of_nonneg h3]
    exact ⟨h1, h2⟩
  · obtain ⟨h1, h2, h3⟩ := left_upper (d := -d) (by linarith) (by linarith) hv ht0 ht
    rw [← abs_neg, ← nd_neg, abs_of_nonneg h3]
    exact ⟨h1, h2⟩

/-- What a streak that is followed by another one leaves. -/
lemma more_shape {face : Face} {s s' : St} (h : streak face s = .more s') : ∃ k, (choose s).2 = some k ∧
    (∀ j, j ≠ k → s'.x j = nx (s.x j) (s.d j) (choose s).1 ∧ s'.d j = nd (s.d j) (choose s).1) ∧
    ((s'.x k = -dir (s.d k) ∧ s'.d k = nd (s.d k) (choose s).1) ∨ (s'.x k = dir (s.d k) ∧ s'.d k = -nd (s.d k) (choose s).1)) := by
  unfold streak at h
  cases hc : (choose s).2 with
  | none => simp only [hc] at h; cases h
  | some k =>
    simp only [hc] at h
    refine ⟨k, rfl, ?_⟩
    cases face with
    | voxel =>
      simp only [Out.more.injEq] at h
      subst h
      refine ⟨fun j hj => ⟨?_, rfl⟩, Or.inl ⟨?_, rfl⟩⟩
      · simp only [Function.update_of_ne hj]; rfl
      · simp
    | reflect =>
      simp only [Out.more.injEq] at h
      subst h
      refine ⟨fun j hj => ⟨?_, ?_⟩, Or.inr ⟨?_, ?_⟩⟩
      · simp only [Function.update_of_ne hj]; rfl
      · simp only [Function.update_of_ne hj]; rfl
      · simp
      · simp only [Function.update_self]; rfl
    | other => cases h

/-- At the face behind. -/
lemma near_face {D : ℚ} (h0 : 0 < D) (h1 : D ≤ 1) : NearPos (-1) D := by
  refine ⟨h0, h1, ?_⟩
  have := rnd32_mono (show -1 ≤ -1 + (D + D) by linarith)
  rwa [rnd32_neg_one] at this

/-- After a crossing that leaves an offset outside and another crossing, all offsets are such that the rest of the movement would end
inside. -/
lemma second_near {s s' s'' : St} (hf : Floats s) (hi : Inside s) (hs : Slow s) {f1 f2 : Face}
    (h1 : streak f1 s = .more s') (h2 : streak f2 s' = .more s'') (hi' : ¬Inside s') :
    ∀ j, (rnd32 (s''.x j) = s''.x j ∧ rnd32 (s''.d j) = s''.d j) ∧ Near (s''.x j) (s''.d j) := by
  obtain ⟨hf', hs', -, hmain, -⟩ := cross_near hf hi hs (Or.inl h1)
  -- the first streak
  obtain ⟨k, hk, hne, hkx⟩ := more_shape h1
  rcases choose_spec s with ⟨hc, -⟩ | ⟨k', hk', hrk, hlt, hle⟩
  · rw [hc] at hk; cases hk
  rw [hk] at hk'
  cases hk'
  set v := (choose s).1 with hvdef
  have hvf : rnd32 v = v := by
    unfold reach at hrk
    split_ifs at hrk
    rw [← Option.some_inj.mp hrk, r_idem]
  have hv0 : 0 ≤ v := reach_nonneg (hi k) hrk
  have hxk : |s'.x k| = 1 := by
    have hdir : |dir (s.d k)| = 1 := by unfold dir; split_ifs <;> norm_num
    rcases hkx with ⟨e, -⟩ | ⟨e, -⟩
    · rw [e, abs_neg, hdir]
    · rw [e, hdir]
  have over : ∀ j, 1 < |s'.x j| → 1 / 16 ≤ |s.d j| ∧ 1 / 8 ≤ v ∧ |s'.d j| = |nd (s.d j) v| := by
    intro j hj
    have hjk : j ≠ k := by rintro rfl; rw [hxk] at hj; exact lt_irrefl _ hj
    rw [(hne j hjk).1] at hj
    obtain ⟨a, b⟩ := over_both (hf j).1 (hf j).2 hvf (hi j) (hs j) hv0 hlt (hle j) hj
    exact ⟨a, b, by rw [(hne j hjk).2]⟩
  have hni : ∃ j, 1 < |s'.x j| := by
    unfold Inside at hi'
    push Not at hi'
    exact hi'
  obtain ⟨j0, hj0⟩ := hni
  have hv8 := (over j0 hj0).2.1
  have hd' : ∀ j, |s'.d j| ≤ 4 * (1 - v * (1 / 2)) ∧ |s'.d j| ≤ 31 / 32 := by
    intro j
    by_cases hj : j = k
    · rw [hj]
      rcases hkx with ⟨-, e⟩ | ⟨-, e⟩
      · rw [e]; exact left_upper_both (hs k) hvf hv8 hlt
      · rw [e, abs_neg]; exact left_upper_both (hs k) hvf hv8 hlt
    · rw [(hne j hj).2]; exact left_upper_both (hs j) hvf hv8 hlt
  -- the second streak
  obtain ⟨m, hm, hne2, hmx⟩ := more_shape h2
  rcases choose_spec s' with ⟨hc, -⟩ | ⟨m', hm', hrm, hlt2, hle2⟩
  · rw [hc] at hm; cases hm
  rw [hm] at hm'
  cases hm'
  set w := (choose s').1 with hwdef
  have hwf : rnd32 w = w := by
    unfold reach at hrm
    split_ifs at hrm
    rw [← Option.some_inj.mp hrm, r_idem]
  have hw0 : w ≤ 0 := by
    obtain ⟨z, hz1, hz2⟩ := reach_outside hj0 ((hmain j0).2 hj0)
    exact (hle2 j0 z hz1).trans hz2
  have hgap := half_gap hvf hv0 hlt
  set g := 1 - v * (1 / 2) with hg
  have hg0 : 0 < g := lt_of_lt_of_le (by norm_num) hgap
  have hwg : -w * g ≤ 1 / 2 ^ 14 := by
    rcases hw0.eq_or_lt with hz | hneg
    · rw [hz]; norm_num
    · have hmo : 1 < |s'.x m| := by
        by_contra hc
        have := reach_nonneg (not_lt.mp hc) hrm
        linarith
      obtain ⟨o1, -, o3⟩ := over m hmo
      have hlow := left_lower_both (hf m).2 hvf hv8 hlt
      rw [← o3] at hlow
      have hdm0 : s'.d m ≠ 0 := by
        intro h0
        have := (hmain m).2 hmo
        rw [h0, mul_zero] at this
        exact lt_irrefl _ this
      -- the distance back to the face is at most a unit
      have hN : |rnd32 (dir (s'.d m) - s'.x m)| ≤ 1 / 2 ^ 23 := by
        have hb := (hmain m).1
        have hsg := (hmain m).2 hmo
        have r23 : rnd32 (1 / 2 ^ 23) = 1 / 2 ^ 23 := by
          have := r_exact 1 (-23) (by norm_num)
          have e : ((1 : ℤ) : ℚ) * 2 ^ (-23 : ℤ) = 1 / 2 ^ 23 := by norm_num
          rwa [e] at this
        rw [abs_le] at hb ⊢
        have hbd : -(1 / 2 ^ 23) ≤ dir (s'.d m) - s'.x m ∧ dir (s'.d m) - s'.x m ≤ 1 / 2 ^ 23 := by
          unfold dir
          split_ifs with hpos
          · have hx0 : 0 < s'.x m := pos_of_mul_pos_left hsg (le_of_lt hpos)
            rw [abs_of_pos hx0] at hmo
            have p : (0 : ℚ) < 1 / 2 ^ 23 := by norm_num
            constructor <;> linarith [hb.1, hb.2]
          · have hneg' : s'.d m < 0 := lt_of_le_of_ne (not_lt.mp hpos) hdm0
            have hx0 : s'.x m < 0 := by
              by_contra hc
              have := mul_nonpos_of_nonneg_of_nonpos (not_lt.mp hc) hneg'.le
              linarith
            rw [abs_of_neg hx0] at hmo
            have p : (0 : ℚ) < 1 / 2 ^ 23 := by norm_num
            constructor <;> linarith [hb.1, hb.2]
        have u1 := rnd32_mono hbd.1
        have u2 := rnd32_mono hbd.2
        rw [r_neg, r23] at u1
        rw [r23] at u2
        exact ⟨u1, u2⟩
      have hwabs : -w * |s'.d m| ≤ 1 / 2 ^ 22 := by
        unfold reach at hrm
        rw [if_neg hdm0, Option.some_inj] at hrm
        have b1 := r_abs (rnd32 (dir (s'.d m) - s'.x m) / s'.d m)
        rw [hrm, abs_of_neg hneg, abs_div] at b1
        have hdpos : 0 < |s'.d m| := abs_pos.mpr hdm0
        have b2 := mul_le_mul_of_nonneg_right b1 hdpos.le
        have e : |rnd32 (dir (s'.d m) - s'.x m)| / |s'.d m| * (1 + 1 / 2 ^ 24) * |s'.d m| =
            |rnd32 (dir (s'.d m) - s'.x m)| * (1 + 1 / 2 ^ 24) := by field_simp
        rw [e] at b2
        refine b2.trans ((mul_le_mul_of_nonneg_right hN (by norm_num)).trans (by norm_num))
      have c1 : 1 / 16 * g / 16 ≤ |s'.d m| := by
        refine le_trans ?_ hlow
        rw [← hg]
        exact div_le_div_of_nonneg_right (mul_le_mul_of_nonneg_right o1 hg0.le) (by norm_num)
      have c2 := mul_le_mul_of_nonneg_left c1 (show 0 ≤ -w by linarith)
      have e14 : (1 : ℚ) / 2 ^ 14 = 256 * (1 / 2 ^ 22) := by norm_num
      rw [e14]
      linarith
  have hdw : ∀ j, |s'.d j| * -w ≤ 1 / 2 ^ 10 := by
    intro j
    have c1 := mul_le_mul_of_nonneg_right (hd' j).1 (show 0 ≤ -w by linarith)
    have e10 : (4 : ℚ) * (1 / 2 ^ 14) ≤ 1 / 2 ^ 10 := by norm_num
    refine le_trans ?_ e10
    linarith
  have pos : ∀ x d : ℚ, rnd32 d = d → -1 ≤ x → 0 < d → d ≤ 31 / 32 → d * -w ≤ 1 / 2 ^ 10 → NearPos (nx x d w) (nd d w) :=
    fun x d a b c e f => back_axis a hwf b c e hw0 f
  have hfin : ∀ j, (rnd32 (s''.x j) = s''.x j ∧ rnd32 (s''.d j) = s''.d j) ∧ Near (s''.x j) (s''.d j) := by
    intro j
    by_cases hj : j = m
    · subst hj
      have hdm0 : s'.d j ≠ 0 := by
        intro h0
        unfold reach at hrm
        rw [if_pos h0] at hrm
        cases hrm
      have hdirf : rnd32 (dir (s'.d j)) = dir (s'.d j) := by
        unfold dir
        split_ifs
        · exact rnd32_one
        · exact rnd32_neg_one
      refine ⟨?_, ?_⟩
      · rcases hmx with ⟨e1, e2⟩ | ⟨e1, e2⟩
        · rw [e1, e2]; exact ⟨by rw [r_neg, hdirf], nd_float _ _⟩
        · rw [e1, e2]; exact ⟨hdirf, by rw [r_neg, nd_float]⟩
      · rcases lt_or_gt_of_ne hdm0 with hneg | hpos
        · have hb := hd' j
          have hc := hdw j
          rw [abs_of_neg hneg] at hb hc
          obtain ⟨n1, n2, -⟩ := pos (-1) (-s'.d j) (by rw [r_neg, (hf' j).2]) le_rfl (by linarith) hb.2 hc
          rw [nd_neg] at n1 n2
          have hdir : dir (s'.d j) = -1 := by unfold dir; rw [if_neg (by linarith)]
          rcases hmx with ⟨e1, e2⟩ | ⟨e1, e2⟩
          · rw [e1, e2, hdir, neg_neg]
            exact Or.inr (Or.inl (near_face n1 n2))
          · rw [e1, e2, hdir]
            exact Or.inl (near_face n1 n2)
        · have hb := hd' j
          have hc := hdw j
          rw [abs_of_pos hpos] at hb hc
          obtain ⟨n1, n2, -⟩ := pos (-1) (s'.d j) (hf' j).2 le_rfl hpos hb.2 hc
          have hdir : dir (s'.d j) = 1 := by unfold dir; rw [if_pos hpos]
          rcases hmx with ⟨e1, e2⟩ | ⟨e1, e2⟩
          · rw [e1, e2, hdir]
            exact Or.inl (near_face n1 n2)
          · rw [e1, e2, hdir]
            refine Or.inr (Or.inl ?_)
            rw [neg_neg]
            exact near_face n1 n2
    · obtain ⟨e1, e2⟩ := hne2 j hj
      rw [e1, e2]
      refine ⟨⟨nx_float _ _ _, nd_float _ _⟩, ?_⟩
      have hb := hd' j
      have hc := hdw j
      rcases lt_trichotomy (s'.d j) 0 with hneg | hz | hpos
      · rw [abs_of_neg hneg] at hb hc
        refine Or.inr (Or.inl ?_)
        rw [← nx_neg, ← nd_neg]
        refine pos _ _ (by rw [r_neg, (hf' j).2]) ?_ (by linarith) hb.2 hc
        by_contra hcc
        push Not at hcc
        have hx1 : 1 < s'.x j := by linarith
        have := (hmain j).2 (lt_of_lt_of_le hx1 (le_abs_self _))
        have := mul_neg_of_pos_of_neg (show 0 < s'.x j by linarith) hneg
        linarith
      · have hin : |s'.x j| ≤ 1 := by
          by_contra hcc
          have := (hmain j).2 (not_le.mp hcc)
          rw [hz, mul_zero] at this
          exact lt_irrefl _ this
        have e3 : nx (s'.x j) (s'.d j) w = s'.x j := by rw [hz]; unfold nx part; simp [r_zero, (hf' j).1]
        have e4 : nd (s'.d j) w = 0 := by rw [hz]; unfold nd part; simp [r_zero]
        rw [e3, e4]
        exact Or.inr (Or.inr ⟨rfl, hin⟩)
      · rw [abs_of_pos hpos] at hb hc
        refine Or.inl (pos _ _ (hf' j).2 ?_ hpos hb.2 hc)
        by_contra hcc
        push Not at hcc
        have := (hmain j).2 (lt_of_lt_of_le (show 1 < -s'.x j by linarith) (neg_le_abs _))
        have := mul_neg_of_neg_of_pos (show s'.x j < 0 by linarith) hpos
        linarith
  exact hfin

/-- **C123 (movements over up to two faces).** A movement that starts inside, of a particle that crosses (or is reflected by) two
faces, ends inside, although it may be outside by a unit in between. -/
theorem two_faces_partial {s s' s'' t : St} (hf : Floats s) (hi : Inside s) (hs : Slow s) {f1 f2 f3 : Face}
    (h1 : streak f1 s = .more s') (h2 : streak f2 s' = .more s'') (h3 : streak f3 s'' = .done t) : Floats t ∧ Inside t := by
  obtain ⟨hf', hs', -⟩ := cross_near hf hi hs (Or.inl h1)
  by_cases hi' : Inside s'
  · exact movement_inside_partial (face := f2) (face' := f3) hf' hi' hs' (Or.inr ⟨s'', h2, h3⟩)
  · have hfin := second_near hf hi hs h1 h2 hi'
    -- the last streak
    unfold streak at h3
    rcases choose_spec s'' with ⟨g1, g2, g3⟩ | ⟨i, g1, -⟩
    · simp only [g1, g2, Out.done.injEq] at h3
      subst h3
      exact ⟨fun j => ⟨r_idem _, r_idem _⟩, fun j => end_near_both (hfin j).1.1 (hfin j).1.2 (hfin j).2 (g3 j)⟩
    · simp only [g1] at h3
      cases f3 <;> cases h3

/-- A movement up to its last streak: the states after the streaks that meet a face. -/
inductive Path : St → List St → St → Prop
  | nil (s : St) : Path s [] s
  | cons {s s' t : St} {l : List St} (face : Face) : streak face s = .more s' → Path s' l t → Path s (s' :: l) t

/-- Never outside twice in a row. -/
def NotTwice : List St → Prop
  | a :: b :: l => (Inside a ∨ Inside b) ∧ NotTwice (b :: l)
  | _ => True

lemma near_slow {x d : ℚ} (h : Near x d) : |d| ≤ 1 := by
  rcases h with ⟨a, b, -⟩ | ⟨a, b, -⟩ | ⟨a, -⟩
  · exact abs_le.mpr ⟨by linarith, b⟩
  · exact abs_le.mpr ⟨by linarith, by linarith⟩
  · rw [a, abs_zero]; norm_num

/-- **C123 (movements over any number of faces).** A movement that starts inside ends inside if no two successive crossings leave an
offset outside, the last two excepted. -/
theorem any_faces_partial : ∀ (n : ℕ) {l : List St} {s e t : St} (_ : l.length ≤ n) (_ : Floats s) (_ : Inside s) (_ : Slow s)
    (_ : Path s l e) (_ : NotTwice l.dropLast) {face : Face} (_ : streak face e = .done t), Floats t ∧ Inside t := by
  intro n
  induction n with
  | zero =>
    intro l s e t hl hf hi hs hp hn face hd
    rw [List.length_eq_zero_iff.mp (Nat.le_zero.mp hl)] at hp
    cases hp
    exact movement_inside_partial (face := face) (face' := face) hf hi hs (Or.inl hd)
  | succ n ih =>
    intro l s e t hl hf hi hs hp hn face hd
    cases hp with
    | nil => exact movement_inside_partial (face := face) (face' := face) hf hi hs (Or.inl hd)
    | @cons _ s' _ l face1 h1 hp =>
      obtain ⟨hf', hs', -⟩ := cross_near hf hi hs (Or.inl h1)
      by_cases hi' : Inside s'
      · refine ih (by simpa using hl) hf' hi' hs' hp ?_ hd
        cases l with
        | nil => trivial
        | cons b l =>
          cases l with
          | nil => trivial
          | cons c l => exact hn.2
      · cases hp with
        | nil => exact movement_inside_partial (face := face1) (face' := face) hf hi hs (Or.inr ⟨_, h1, hd⟩)
        | @cons _ s'' _ l face2 h2 hp =>
          cases l with
          | nil => cases hp; exact two_faces_partial hf hi hs h1 h2 hd
          | cons c l =>
            have hi'' : Inside s'' := hn.1.resolve_left hi'
            have hfin := second_near hf hi hs h1 h2 hi'
            refine ih (by simp at hl ⊢; omega) (fun j => (hfin j).1) hi'' (fun j => near_slow (hfin j).2) hp ?_ hd
            cases l with
            | nil => trivial
            | cons b l => exact hn.2.2

/-- Whether a particle passes three interior streaks, the last without meeting a face, and is outside along y after the first. -/
def passesTwo (s : St) : Bool :=
  match streak .voxel s with
  | .more s' => decide (1 < s'.x 1) && match streak .voxel s' with
    | .more s'' => match streak .voxel s'' with
      | .done _ => true
      | _ => false
    | _ => false
  | _ => false

/-- The hypotheses are met by the diagonal particle of `handed_over_outside` in the interior of a domain: it crosses the x face, is then
outside along y, crosses the y face and ends. -/
example : ∃ s' s'' t, streak .voxel diagonal = .more s' ∧ streak .voxel s' = .more s'' ∧ streak .voxel s'' = .done t ∧
    1 < s'.x 1 := by
  have h : passesTwo diagonal = true := by decide +kernel
  unfold passesTwo at h
  split at h
  · rename_i s' e1
    rw [Bool.and_eq_true, decide_eq_true_eq] at h
    obtain ⟨hx, h⟩ := h
    split at h
    · rename_i s'' e2
      split at h
      · rename_i t e3
        exact ⟨s', s'', t, e1, e2, e3, hx⟩
      · cases h
    · cases h
  · cases h

end Verif.Streak
