import Verif.Collide.MeanLemmas

/-!
# The tree of a voxel
-/
namespace Verif.Collide
open Verif.Collision Verif.SortP

variable {T : Type}

/-- A sum over particles of a function of the momentum, with the weights. -/
def obs (h : ℕ → (Fin 3 → ℝ) → ℝ) (F : Finset Loc) (mem : Mem T ℝ) : ℝ := ∑ l ∈ F, (mem l).w * h l.1 (mem l).u

/-- Functions of the momentum that do not grow when two particles of the same weight collide. -/
def Fine (E : TA ℝ) (h : ℕ → (Fin 3 → ℝ) → ℝ) : Prop := ∀ std g φ (ui uj : Fin 3 → ℝ),
  h E.a (takizukaAbe E.rt E.eps (E.m E.a) (E.m E.b) std g (E.cs φ) (E.sn φ) 0 1 1 ui uj).1 +
    h E.b (takizukaAbe E.rt E.eps (E.m E.a) (E.m E.b) std g (E.cs φ) (E.sn φ) 0 1 1 ui uj).2 ≤ h E.a ui + h E.b uj

lemma ta_split (rt : ℝ → ℝ) (eps mi mj std g cs sn r wi wj : ℝ) (ui uj : Fin 3 → ℝ) :
    takizukaAbe rt eps mi mj std g cs sn r wi wj ui uj =
      (if wj < wi ∧ wi * r > wj then ui else (takizukaAbe rt eps mi mj std g cs sn 0 1 1 ui uj).1,
        if wi < wj ∧ wj * r > wi then uj else (takizukaAbe rt eps mi mj std g cs sn 0 1 1 ui uj).2) := by
  unfold takizukaAbe
  refine Prod.ext ?_ ?_
  · simp only
    split_ifs <;> simp_all
  · simp only
    split_ifs <;> simp_all

lemma obs_setU (h : ℕ → (Fin 3 → ℝ) → ℝ) (F : Finset Loc) (mem : Mem T ℝ) (p : Loc) (hp : p ∈ F) (u : Fin 3 → ℝ) :
    obs h F (setU mem p u) = obs h F mem + (mem p).w * (h p.1 u - h p.1 (mem p).u) := by
  unfold obs
  rw [← Finset.add_sum_erase F _ hp, ← Finset.add_sum_erase F (fun l => (mem l).w * h l.1 (mem l).u) hp]
  have : ∑ l ∈ F.erase p, (setU mem p u l).w * h l.1 (setU mem p u l).u = ∑ l ∈ F.erase p, (mem l).w * h l.1 (mem l).u := by
    refine Finset.sum_congr rfl fun l hl => ?_
    have : setU mem p u l = mem l := if_neg (Finset.ne_of_mem_erase hl)
    rw [this]
  rw [this]
  have : setU mem p u p = { mem p with u := u } := if_pos rfl
  rw [this]
  ring

lemma obs_pair (h : ℕ → (Fin 3 → ℝ) → ℝ) (F : Finset Loc) (mem : Mem T ℝ) (p q : Loc) (hp : p ∈ F) (hq : q ∈ F) (hpq : p ≠ q)
    (u v : Fin 3 → ℝ) : obs h F (setU (setU mem p u) q v) =
      obs h F mem + (mem p).w * (h p.1 u - h p.1 (mem p).u) + (mem q).w * (h q.1 v - h q.1 (mem q).u) := by
  rw [obs_setU h F _ q hq, obs_setU h F mem p hp]
  have : setU mem p u q = mem q := if_neg hpq.symm
  rw [this]

/-- A collision as a comparison with a threshold. -/
lemma taPair_tree (E : TA ℝ) (F : Finset Loc) (mem : Mem T ℝ) (k l : ℕ) (std g φ : ℝ) (hk : (E.a, k) ∈ F) (hl : (E.b, l) ∈ F)
    (hne : (E.a, k) ≠ (E.b, l)) (hw : ∀ l ∈ F, 0 ≤ (mem l).w) :
    ∃ ρ A B, 0 ≤ ρ ∧ ρ ≤ 1 ∧ (∀ r, taPair E mem k l std (g, φ, r) = if ρ < r then B else A) ∧
      ∀ h, Fine E h → ρ * obs h F A + (1 - ρ) * obs h F B ≤ obs h F mem := by
  have wk := hw _ hk
  have wl := hw _ hl
  obtain ⟨b, hb⟩ : ∃ b, b = takizukaAbe E.rt E.eps (E.m E.a) (E.m E.b) std g (E.cs φ) (E.sn φ) 0 1 1 (mem (E.a, k)).u
    (mem (E.b, l)).u := ⟨_, rfl⟩
  have hT : ∀ r, taPair E mem k l std (g, φ, r) = setU (setU mem (E.a, k)
      (if (mem (E.b, l)).w < (mem (E.a, k)).w ∧ (mem (E.a, k)).w * r > (mem (E.b, l)).w then (mem (E.a, k)).u else b.1)) (E.b, l)
      (if (mem (E.a, k)).w < (mem (E.b, l)).w ∧ (mem (E.b, l)).w * r > (mem (E.a, k)).w then (mem (E.b, l)).u else b.2) := by
    intro r
    unfold taPair
    simp only
    rw [ta_split, ← hb]
  have hfine : ∀ h, Fine E h → (h E.a b.1 - h E.a (mem (E.a, k)).u) + (h E.b b.2 - h E.b (mem (E.b, l)).u) ≤ 0 := by
    intro h hf
    have := hf std g φ (mem (E.a, k)).u (mem (E.b, l)).u
    rw [← hb] at this
    linarith
  rcases lt_trichotomy (mem (E.a, k)).w (mem (E.b, l)).w with hlt | heq | hgt
  · have hpos : 0 < (mem (E.b, l)).w := lt_of_le_of_lt wk hlt
    refine ⟨(mem (E.a, k)).w / (mem (E.b, l)).w, setU (setU mem (E.a, k) b.1) (E.b, l) b.2,
      setU (setU mem (E.a, k) b.1) (E.b, l) (mem (E.b, l)).u, div_nonneg wk wl, (div_le_one hpos).2 hlt.le, ?_, ?_⟩
    · intro r
      rw [hT, if_neg (fun h => absurd h.1 (not_lt.2 hlt.le))]
      have : (mem (E.a, k)).w / (mem (E.b, l)).w < r ↔ (mem (E.b, l)).w * r > (mem (E.a, k)).w := by
        rw [div_lt_iff₀ hpos, mul_comm]
      by_cases hr : (mem (E.a, k)).w / (mem (E.b, l)).w < r
      · rw [if_pos hr, if_pos ⟨hlt, this.1 hr⟩]
      · rw [if_neg hr, if_neg (fun h => hr (this.2 h.2))]
    · intro h hf
      have h1 := hfine h hf
      rw [obs_pair h F mem _ _ hk hl hne, obs_pair h F mem _ _ hk hl hne]
      simp only
      have e : (mem (E.a, k)).w / (mem (E.b, l)).w * (mem (E.b, l)).w = (mem (E.a, k)).w := div_mul_cancel₀ _ hpos.ne'
      have h2 := mul_nonpos_of_nonneg_of_nonpos wk h1
      generalize (mem (E.a, k)).w / (mem (E.b, l)).w = ρ at e
      rw [← e] at h2 ⊢
      nlinarith
  · refine ⟨1, setU (setU mem (E.a, k) b.1) (E.b, l) b.2, setU (setU mem (E.a, k) b.1) (E.b, l) b.2, zero_le_one, le_rfl, ?_, ?_⟩
    · intro r
      rw [hT, if_neg (fun h => absurd h.1 heq.not_gt), if_neg (fun h => absurd h.1 heq.not_lt), ite_self]
    · intro h hf
      have h1 := hfine h hf
      rw [obs_pair h F mem _ _ hk hl hne]
      simp only
      have h2 := mul_nonpos_of_nonneg_of_nonpos wk h1
      rw [← heq]
      linarith
  · have hpos : 0 < (mem (E.a, k)).w := lt_of_le_of_lt wl hgt
    refine ⟨(mem (E.b, l)).w / (mem (E.a, k)).w, setU (setU mem (E.a, k) b.1) (E.b, l) b.2,
      setU (setU mem (E.a, k) (mem (E.a, k)).u) (E.b, l) b.2, div_nonneg wl wk, (div_le_one hpos).2 hgt.le, ?_, ?_⟩
    · intro r
      rw [hT, if_neg (c := (mem (E.a, k)).w < (mem (E.b, l)).w ∧ _) (fun h => absurd h.1 (not_lt.2 hgt.le))]
      have : (mem (E.b, l)).w / (mem (E.a, k)).w < r ↔ (mem (E.a, k)).w * r > (mem (E.b, l)).w := by
        rw [div_lt_iff₀ hpos, mul_comm]
      by_cases hr : (mem (E.b, l)).w / (mem (E.a, k)).w < r
      · rw [if_pos hr, if_pos ⟨hgt, this.1 hr⟩]
      · rw [if_neg hr, if_neg (fun h => hr (this.2 h.2))]
    · intro h hf
      have h1 := hfine h hf
      rw [obs_pair h F mem _ _ hk hl hne, obs_pair h F mem _ _ hk hl hne]
      simp only
      have e : (mem (E.b, l)).w / (mem (E.a, k)).w * (mem (E.a, k)).w = (mem (E.b, l)).w := div_mul_cancel₀ _ hpos.ne'
      have h2 := mul_nonpos_of_nonneg_of_nonpos wl h1
      generalize (mem (E.b, l)).w / (mem (E.a, k)).w = ρ at e
      rw [← e] at h2 ⊢
      nlinarith

lemma taPair_w (E : TA ℝ) (mem : Mem T ℝ) (k l : ℕ) (std : ℝ) (g : ℝ × ℝ × ℝ) (x : Loc) :
    (taPair E mem k l std g x).w = (mem x).w := by
  unfold taPair
  simp only [setU]
  split_ifs with h1 h2 h3
  · rw [h1, h2]
  · rw [h1]
  · rw [h3]
  · rfl

lemma setR_length (c : List (ℝ × ℝ × ℝ)) : ∀ rs : List ℝ, (setR c rs).length = c.length := by
  induction c with
  | nil => intro rs; cases rs <;> rfl
  | cons g c ih =>
    intro rs
    cases rs with
    | nil => rfl
    | cons r rs => simp [setR, ih]

lemma setR_append (c d : List (ℝ × ℝ × ℝ)) : ∀ rs ss : List ℝ, rs.length = c.length → setR (c ++ d) (rs ++ ss) = setR c rs ++ setR d ss := by
  induction c with
  | nil => intro rs ss h; rw [List.eq_nil_of_length_eq_zero h]; rfl
  | cons g c ih =>
    intro rs ss h
    cases rs with
    | nil => simp at h
    | cons r rs =>
      simp only [List.length_cons, Nat.add_right_cancel_iff] at h
      simp only [List.cons_append, setR]
      rw [ih rs ss h]

lemma taRun_tree (E : TA ℝ) (F : Finset Loc) (ps : List ((ℕ × ℕ) × ℝ)) : ∀ (mem : Mem T ℝ) (c : List (ℝ × ℝ × ℝ)),
    (∀ p ∈ ps, (E.a, p.1.1) ∈ F ∧ (E.b, p.1.2) ∈ F ∧ (E.a, p.1.1) ≠ (E.b, p.1.2)) → (∀ l ∈ F, 0 ≤ (mem l).w) →
    c.length = ps.length → ∃ t : Tree (Mem T ℝ), t.Perfect ps.length ∧
      (∀ rs rest, rs.length = ps.length → taRun E ps mem (setR c rs ++ rest) = some (t.eval rs, rest)) ∧
      ∀ h, Fine E h → t.avg (obs h F) ≤ obs h F mem := by
  induction ps with
  | nil =>
    intro mem c _ _ hc
    refine ⟨.leaf mem, rfl, fun rs rest hr => ?_, fun h _ => le_rfl⟩
    rw [List.eq_nil_of_length_eq_zero hc, List.eq_nil_of_length_eq_zero hr]
    rfl
  | cons p ps ih =>
    intro mem c hF hw hc
    cases c with
    | nil => simp at hc
    | cons g c =>
      obtain ⟨kl, std⟩ := p
      simp only [List.length_cons, Nat.add_right_cancel_iff] at hc
      obtain ⟨h1, h2, h3⟩ := hF _ List.mem_cons_self
      obtain ⟨ρ, A, B, r0, r1, hT, hle⟩ := taPair_tree E F mem kl.1 kl.2 std g.1 g.2.1 h1 h2 h3 hw
      have wA : ∀ l ∈ F, 0 ≤ (A l).w := by
        intro l hl
        have := hT ρ
        rw [if_neg (lt_irrefl _)] at this
        rw [← this, taPair_w]
        exact hw l hl
      have wB : ∀ l ∈ F, 0 ≤ (B l).w := by
        intro l hl
        have := hT (ρ + 1)
        rw [if_pos (by linarith)] at this
        rw [← this, taPair_w]
        exact hw l hl
      obtain ⟨tA, a1, a2, a3⟩ := ih A c (fun p hp => hF p (List.mem_cons_of_mem _ hp)) wA hc
      obtain ⟨tB, b1, b2, b3⟩ := ih B c (fun p hp => hF p (List.mem_cons_of_mem _ hp)) wB hc
      refine ⟨.node ρ tA tB, ⟨ps.length, by simp, r0, r1, a1, b1⟩, ?_, ?_⟩
      · intro rs rest hr
        cases rs with
        | nil => simp at hr
        | cons r rs =>
          simp only [List.length_cons, Nat.add_right_cancel_iff] at hr
          rw [setR, List.cons_append, taRun, hT, Tree.eval]
          split_ifs
          · exact b2 rs rest hr
          · exact a2 rs rest hr
      · intro h hf
        refine le_trans ?_ (hle h hf)
        rw [Tree.avg]
        exact add_le_add (mul_le_mul_of_nonneg_left (a3 h hf) r0) (mul_le_mul_of_nonneg_left (b3 h hf) (by linarith))

lemma taRun_uses (E : TA ℝ) (ps : List ((ℕ × ℕ) × ℝ)) : ∀ (mem y : Mem T ℝ) (gs gs' : List (ℝ × ℝ × ℝ)),
    taRun E ps mem gs = some (y, gs') → ∃ c, c.length = ps.length ∧ gs = c ++ gs' := by
  induction ps with
  | nil =>
    intro mem y gs gs' h
    simp only [taRun, Option.some.injEq, Prod.mk.injEq] at h
    exact ⟨[], rfl, by simp [h.2]⟩
  | cons p ps ih =>
    intro mem y gs gs' h
    cases gs with
    | nil => simp [taRun] at h
    | cons g gs =>
      obtain ⟨kl, std⟩ := p
      obtain ⟨c, h1, h2⟩ := ih _ y gs gs' h
      exact ⟨g :: c, by simp [h1], by simp [h2]⟩

lemma shuffle_any (k1 : ℕ) (n : ℕ) : ∀ (i : ℕ) (x y : ℕ → Part T ℝ) (d d' : ℝ) (as bs : List ℕ),
    taShuffle Part.w k1 n i x d as = some (y, d', bs) →
    ∀ (x2 : ℕ → Part T ℝ) (d2 : ℝ), ∃ y2 d2', taShuffle Part.w k1 n i x2 d2 as = some (y2, d2', bs) := by
  induction n with
  | zero =>
    intro i x y d d' as bs h x2 d2
    simp only [taShuffle, Option.some.injEq, Prod.mk.injEq] at h
    rw [← h.2.2]
    exact ⟨_, _, rfl⟩
  | succ n ih =>
    intro i x y d d' as bs h x2 d2
    rw [taShuffle] at h ⊢
    cases hp : Rng.pick ((2 ^ 32 - 1) / (k1 - i)) i k1 as with
    | none => rw [hp] at h; simp at h
    | some r =>
      rw [hp] at h
      exact ih _ _ y _ d' _ bs h _ _

lemma shuffle_obs (f : ℕ → (Fin 3 → ℝ) → ℝ) (F : Finset Loc) (a k1 : ℕ) (mem : Mem T ℝ) (n : ℕ) :
    ∀ (i : ℕ) (x y : ℕ → Part T ℝ) (d d' : ℝ) (as bs : List ℕ), i + n + 1 = k1 →
    (∀ j, i ≤ j → j < k1 → (a, j) ∈ F) →
    taShuffle Part.w k1 n i x d as = some (y, d', bs) → obs f F (setSpecies mem a y) = obs f F (setSpecies mem a x) := by
  induction n with
  | zero =>
    intro i x y d d' as bs _ _ h
    simp only [taShuffle, Option.some.injEq, Prod.mk.injEq] at h
    rw [h.1]
  | succ n ih =>
    intro i x y d d' as bs hi hF h
    rw [taShuffle] at h
    cases hp : Rng.pick ((2 ^ 32 - 1) / (k1 - i)) i k1 as with
    | none => rw [hp] at h; simp at h
    | some r =>
      obtain ⟨j, cs⟩ := r
      rw [hp] at h
      obtain ⟨h1, h2⟩ := pick_range hp
      refine (ih (i + 1) _ y _ d' cs bs (by omega) (fun j h3 h4 => hF j (by omega) h4) h).trans ?_
      have hi' := hF i le_rfl (by omega)
      have hj' := hF j h1 h2
      have e : setSpecies mem a (Rng.swap x i j) = fun l => setSpecies mem a x (Equiv.swap (a, i) (a, j) l) := by
        funext l
        by_cases h1 : l = (a, i)
        · subst h1
          rw [Equiv.swap_apply_left]
          simp [setSpecies, Rng.swap]
        by_cases h2 : l = (a, j)
        · subst h2
          rw [Equiv.swap_apply_right]
          have : j ≠ i := fun h => h1 (by rw [h])
          simp [setSpecies, Rng.swap, this]
        rw [Equiv.swap_apply_of_ne_of_ne h1 h2]
        unfold setSpecies Rng.swap
        split_ifs with h3 h4 h5
        · exact absurd (Prod.ext h3 h4) h1
        · exact absurd (Prod.ext h3 h5) h2
        · rfl
        · rfl
      rw [e]
      unfold obs
      have s1 : ∀ l, (Equiv.swap (a, i) (a, j) l).1 = l.1 := by
        intro l
        by_cases h1 : l = (a, i)
        · subst h1; rw [Equiv.swap_apply_left]
        by_cases h2 : l = (a, j)
        · subst h2; rw [Equiv.swap_apply_right]
        rw [Equiv.swap_apply_of_ne_of_ne h1 h2]
      have s2 : ∀ l, l ∉ F → Equiv.swap (a, i) (a, j) l = l := fun l hl =>
        Equiv.swap_apply_of_ne_of_ne (fun h => hl (h ▸ hi')) (fun h => hl (h ▸ hj'))
      refine Finset.sum_equiv (Equiv.swap (a, i) (a, j)) (fun l => ⟨fun h => perm_mem s2 h, fun h => ?_⟩) (fun l _ => by rw [s1])
      by_contra hc
      rw [s2 l hc] at h
      exact hc h

/-- All results of the voxel loop for one voxel when the numbers that decide between particles of unequal weight vary. -/
lemma taVoxel_tree (E : TA ℝ) (hE : E.Ok) (v : ℕ) (as as' : List ℕ) (gs gs' : List (ℝ × ℝ × ℝ)) (mem0 y : Mem T ℝ)
    (hr : taVoxel E mem0 v (as, gs) = some (y, as', gs')) :
    ∃ n c, c.length = n ∧ gs = c ++ gs' ∧ ∀ (mem : Mem T ℝ) (d : List (ℝ × ℝ × ℝ)), (∀ l ∈ foot E.part E.a E.b v, 0 ≤ (mem l).w) →
      d.length = n → ∃ t : Tree (Mem T ℝ), t.Perfect n ∧
        (∀ rs rest, rs.length = n → taVoxel E mem v (as, setR d rs ++ rest) = some (t.eval rs, as', rest)) ∧
        ∀ h, Fine E h → t.avg (obs h (foot E.part E.a E.b v)) ≤ obs h (foot E.part E.a E.b v) mem := by
  have hA : ∀ k, E.part E.a v ≤ k → k < E.part E.a v + (E.part E.a (v + 1) - E.part E.a v) →
      (E.a, k) ∈ foot E.part E.a E.b v := fun k h1 h2 => Finset.mem_union_left _ (mem_block.2 ⟨rfl, h1, h2⟩)
  have hB : ∀ k, E.part E.b v ≤ k → k < E.part E.b v + (E.part E.b (v + 1) - E.part E.b v) →
      (E.b, k) ∈ foot E.part E.a E.b v := fun k h1 h2 => Finset.mem_union_right _ (mem_block.2 ⟨rfl, h1, h2⟩)
  unfold taVoxel at hr
  simp only at hr
  by_cases h0 : E.part E.a (v + 1) - E.part E.a v = 0
  · rw [if_pos h0] at hr
    simp only [Option.some.injEq, Prod.mk.injEq] at hr
    obtain ⟨-, rfl, rfl⟩ := hr
    refine ⟨0, [], rfl, rfl, fun mem d _ hd => ⟨.leaf mem, rfl, fun rs rest hrs => ?_, fun h _ => le_rfl⟩⟩
    rw [List.eq_nil_of_length_eq_zero hd, List.eq_nil_of_length_eq_zero hrs]
    unfold taVoxel
    simp only
    rw [if_pos h0]
    rfl
  rw [if_neg h0] at hr
  cases hs : taShuffle Part.w (E.part E.a v + (E.part E.a (v + 1) - E.part E.a v)) (E.part E.a (v + 1) - E.part E.a v - 1)
    (E.part E.a v) (fun k => mem0 (E.a, k)) 0 as with
  | none => rw [hs] at hr; simp at hr
  | some r =>
    obtain ⟨x, dk, as1⟩ := r
    rw [hs] at hr
    simp only at hr
    -- the shuffle of another memory
    have sh : ∀ mem : Mem T ℝ, (∀ l ∈ foot E.part E.a E.b v, 0 ≤ (mem l).w) → ∃ x2 d2,
        taShuffle Part.w (E.part E.a v + (E.part E.a (v + 1) - E.part E.a v)) (E.part E.a (v + 1) - E.part E.a v - 1)
          (E.part E.a v) (fun k => mem (E.a, k)) 0 as = some (x2, d2, as1) ∧
        (∀ l ∈ foot E.part E.a E.b v, 0 ≤ (setSpecies mem E.a x2 l).w) ∧
        ∀ h, obs h (foot E.part E.a E.b v) (setSpecies mem E.a x2) = obs h (foot E.part E.a E.b v) mem := by
      intro mem hw
      obtain ⟨x2, d2, h2⟩ := shuffle_any _ _ _ _ _ _ _ _ _ hs (fun k => mem (E.a, k)) 0
      refine ⟨x2, d2, h2, ?_, ?_⟩
      · have s1 := shuffle_step E.m E.eps (foot E.part E.a E.b v) E.a _ mem _ _ _ _ _ _ _ _ (by omega) hA h2
        rw [setSpecies_self] at s1
        obtain ⟨σ, -, σ2, σ3⟩ := s1.perm
        intro l hl
        rw [(σ3 l).2]
        exact hw _ (perm_mem σ2 hl)
      · intro h
        rw [shuffle_obs h (foot E.part E.a E.b v) E.a _ mem _ _ _ _ _ _ _ _ (by omega) hA h2, setSpecies_self]
    by_cases hab : E.a = E.b
    · rw [if_pos hab, Option.map_eq_some_iff] at hr
      obtain ⟨⟨y', gs1⟩, h2, h3⟩ := hr
      simp only [Prod.mk.injEq] at h3
      obtain ⟨-, rfl, rfl⟩ := h3
      obtain ⟨c, hc, rfl⟩ := taRun_uses E _ _ _ _ _ h2
      have hlen : ∀ d, (taListIntra E d (E.part E.a v) (E.part E.a (v + 1) - E.part E.a v)).length =
          (taIntra (E.part E.a v) (E.part E.a (v + 1) - E.part E.a v)).length := by intro d; simp [taListIntra]
      rw [hlen] at hc
      refine ⟨_, c, hc, rfl, fun mem d hw hd => ?_⟩
      obtain ⟨x2, d2, e1, e2, e3⟩ := sh mem hw
      obtain ⟨t, t1, t2, t3⟩ := taRun_tree E (foot E.part E.a E.b v) (taListIntra E d2 (E.part E.a v) (E.part E.a (v + 1) - E.part E.a v))
        (setSpecies mem E.a x2) d (by
          intro p hp
          obtain ⟨c1, c2, c3⟩ := (ta_intra_counts (E.part E.a v) (E.part E.a (v + 1) - E.part E.a v)).1 p.1
            (taListIntra_mem E _ _ _ hp)
          exact ⟨hA _ c2.1 c2.2, Finset.mem_union_left _ (mem_block.2 ⟨hab.symm, c3.1, c3.2⟩), fun e => c1 (Prod.mk.inj e).2⟩)
        e2 (by rw [hlen]; exact hd)
      rw [hlen] at t1 t2
      refine ⟨t, t1, fun rs rest hrs => ?_, fun h hf => ?_⟩
      · unfold taVoxel
        simp only
        rw [if_neg h0, e1]
        simp only
        rw [if_pos hab, t2 rs rest hrs]
        rfl
      · rw [← e3 h]
        exact t3 h hf
    rw [if_neg hab] at hr
    by_cases h1 : E.part E.b (v + 1) - E.part E.b v = 0
    · rw [if_pos h1] at hr
      simp only [Option.some.injEq, Prod.mk.injEq] at hr
      obtain ⟨-, rfl, rfl⟩ := hr
      refine ⟨0, [], rfl, rfl, fun mem d hw hd => ?_⟩
      obtain ⟨x2, d2, e1, e2, e3⟩ := sh mem hw
      refine ⟨.leaf (setSpecies mem E.a x2), rfl, fun rs rest hrs => ?_, fun h _ => (e3 h).le⟩
      rw [List.eq_nil_of_length_eq_zero hd, List.eq_nil_of_length_eq_zero hrs]
      unfold taVoxel
      simp only
      rw [if_neg h0, e1]
      simp only
      rw [if_neg hab, if_pos h1]
      rfl
    · rw [if_neg h1, Option.map_eq_some_iff] at hr
      obtain ⟨⟨y', gs1⟩, h2, h3⟩ := hr
      simp only [Prod.mk.injEq] at h3
      obtain ⟨-, rfl, rfl⟩ := h3
      obtain ⟨c, hc, rfl⟩ := taRun_uses E _ _ _ _ _ h2
      have hlen : ∀ d e, (taListInter E d e (E.part E.a v) (E.part E.a (v + 1) - E.part E.a v) (E.part E.b v)
          (E.part E.b (v + 1) - E.part E.b v)).length = (taInter (E.part E.a v) (E.part E.a (v + 1) - E.part E.a v)
          (E.part E.b v) (E.part E.b (v + 1) - E.part E.b v)).length := by intro d e; simp [taListInter]
      rw [hlen] at hc
      refine ⟨_, c, hc, rfl, fun mem d hw hd => ?_⟩
      obtain ⟨x2, d2, e1, e2, e3⟩ := sh mem hw
      obtain ⟨t, t1, t2, t3⟩ := taRun_tree E (foot E.part E.a E.b v) (taListInter E d2
          ((List.range' (E.part E.b v) (E.part E.b (v + 1) - E.part E.b v)).map fun l => (setSpecies mem E.a x2 (E.b, l)).w).sum
          (E.part E.a v) (E.part E.a (v + 1) - E.part E.a v) (E.part E.b v) (E.part E.b (v + 1) - E.part E.b v))
        (setSpecies mem E.a x2) d (by
          intro p hp
          unfold taListInter at hp
          rw [List.mem_map] at hp
          obtain ⟨q, hq, rfl⟩ := hp
          obtain ⟨c1, c2⟩ := (ta_inter_counts (E.part E.a v) (E.part E.a (v + 1) - E.part E.a v) (E.part E.b v)
            (E.part E.b (v + 1) - E.part E.b v) (by omega) (by omega)).1 q hq
          exact ⟨hA _ c1.1 c1.2, hB _ c2.1 c2.2, fun e => hab (Prod.mk.inj e).1⟩)
        e2 (by rw [hlen]; exact hd)
      rw [hlen] at t1 t2
      refine ⟨t, t1, fun rs rest hrs => ?_, fun h hf => ?_⟩
      · unfold taVoxel
        simp only
        rw [if_neg h0, e1]
        simp only
        rw [if_neg hab, if_neg h1, t2 rs rest hrs]
        rfl
      · rw [← e3 h]
        exact t3 h hf

end Verif.Collide
