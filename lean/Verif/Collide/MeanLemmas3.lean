import Verif.Collide.MeanLemmas2

/-!
# The tree of a pipeline, and the average over all pipelines
-/
namespace Verif.Collide
open Verif.Collision Verif.SortP

variable {T : Type}

/-- No negative weights. -/
def NonNeg (ft : ℕ → Finset Loc) (N : ℕ) (x : Mem T ℝ) : Prop := ∀ v < N, ∀ l ∈ ft v, 0 ≤ (x l).w

lemma Step.nonneg {m : ℕ → ℝ} {eps : ℝ} {ft : ℕ → Finset Loc} {N v : ℕ} (hv : v < N) {x y : Mem T ℝ} (h : Step m eps (ft v) x y)
    (hx : NonNeg ft N x) : NonNeg ft N y := by
  intro v' hv' l hl
  by_cases hin : l ∈ ft v
  · obtain ⟨σ, -, s2, s3⟩ := h.perm
    rw [(s3 l).2]
    exact hx v hv _ (perm_mem s2 hin)
  · rw [h.frame l hin]
    exact hx v' hv' l hl

lemma Step.obs_other {m : ℕ → ℝ} {eps : ℝ} {F G : Finset Loc} {x y : Mem T ℝ} (h : Step m eps F x y) (hd : ∀ l ∈ G, l ∉ F)
    (f : ℕ → (Fin 3 → ℝ) → ℝ) : obs f G y = obs f G x := by
  unfold obs
  refine Finset.sum_congr rfl fun l hl => ?_
  rw [h.frame l (hd l hl)]

open Classical in
lemma runVoxels_tree (E : TA ℝ) (hE : E.Ok) (N : ℕ)
    (hdis : ∀ v < N, ∀ v' < N, v ≠ v' → ∀ l ∈ foot E.part E.a E.b v, l ∉ foot E.part E.a E.b v') (vs : List ℕ) :
    ∀ (as as' : List ℕ) (gs gs' : List (ℝ × ℝ × ℝ)) (mem0 y : Mem T ℝ), (∀ v ∈ vs, v < N) →
    runVoxels (taVoxel E) vs mem0 (as, gs) = some (y, as', gs') →
    ∃ n c, c.length = n ∧ gs = c ++ gs' ∧ ∀ (mem : Mem T ℝ) (d : List (ℝ × ℝ × ℝ)), NonNeg (foot E.part E.a E.b) N mem →
      d.length = n → ∃ t : Tree (Mem T ℝ), t.Perfect n ∧
        (∀ rs rest, rs.length = n → runVoxels (taVoxel E) vs mem (as, setR d rs ++ rest) = some (t.eval rs, as', rest)) ∧
        t.All (NonNeg (foot E.part E.a E.b) N) ∧
        ∀ v < N, ∀ h, Fine E h → t.avg (obs h (foot E.part E.a E.b v)) ≤ obs h (foot E.part E.a E.b v) mem := by
  induction vs with
  | nil =>
    intro as as' gs gs' mem0 y _ hr
    simp only [runVoxels, Option.some.injEq, Prod.mk.injEq] at hr
    obtain ⟨-, rfl, rfl⟩ := hr
    refine ⟨0, [], rfl, rfl, fun mem d hw hd => ⟨.leaf mem, rfl, fun rs rest hrs => ?_, hw, fun v _ h _ => le_rfl⟩⟩
    rw [List.eq_nil_of_length_eq_zero hd, List.eq_nil_of_length_eq_zero hrs]
    rfl
  | cons v vs ih =>
    intro as as' gs gs' mem0 y hvs hr
    have hv := hvs v List.mem_cons_self
    rw [runVoxels] at hr
    cases h1 : taVoxel E mem0 v (as, gs) with
    | none => rw [h1] at hr; simp at hr
    | some r =>
      obtain ⟨x1, as1, gs1⟩ := r
      rw [h1] at hr
      simp only at hr
      obtain ⟨n1, c1, l1, rfl, F1⟩ := taVoxel_tree E hE v as as1 gs gs1 mem0 x1 h1
      obtain ⟨n2, c2, l2, rfl, F2⟩ := ih as1 as' gs1 gs' x1 y (fun w hw => hvs w (List.mem_cons_of_mem _ hw)) hr
      refine ⟨n1 + n2, c1 ++ c2, by simp [l1, l2], by simp, fun mem d hw hd => ?_⟩
      obtain ⟨d1, d2, rfl, hd1, hd2⟩ : ∃ d1 d2, d = d1 ++ d2 ∧ d1.length = n1 ∧ d2.length = n2 :=
        ⟨d.take n1, d.drop n1, (List.take_append_drop n1 d).symm, by rw [List.length_take]; omega, by
          rw [List.length_drop]; omega⟩
      obtain ⟨t1, p1, e1, a1⟩ := F1 mem d1 (hw v hv) hd1
      have st1 : t1.All (Step E.m E.eps (foot E.part E.a E.b v) mem) := by
        refine Tree.all_of_eval t1 p1 fun rs hrs => ?_
        exact taVoxel_step E hE mem _ v _ _ (e1 rs [] hrs)
      have nn1 : t1.All (NonNeg (foot E.part E.a E.b) N) := by
        refine Tree.all_of_eval t1 p1 fun rs hrs => ?_
        exact (taVoxel_step E hE mem _ v _ _ (e1 rs [] hrs)).nonneg hv hw
      obtain ⟨f, hf⟩ : ∃ f : Mem T ℝ → Tree (Mem T ℝ), ∀ x, NonNeg (foot E.part E.a E.b) N x → (f x).Perfect n2 ∧
          (∀ rs rest, rs.length = n2 → runVoxels (taVoxel E) vs x (as1, setR d2 rs ++ rest) = some ((f x).eval rs, as', rest)) ∧
          (f x).All (NonNeg (foot E.part E.a E.b) N) ∧
          ∀ v < N, ∀ h, Fine E h → (f x).avg (obs h (foot E.part E.a E.b v)) ≤ obs h (foot E.part E.a E.b v) x := by
        refine ⟨fun x => if hx : NonNeg (foot E.part E.a E.b) N x then (F2 x d2 hx hd2).choose else .leaf x, ?_⟩
        intro x hx
        simp only [dif_pos hx]
        exact (F2 x d2 hx hd2).choose_spec
      have p : (t1.bind f).Perfect (n1 + n2) := Tree.perfect_bind (fun x hx => (hf x hx).1) t1 p1 nn1
      have ev : ∀ rs : List ℝ, rs.length = n1 + n2 → ∃ r1 r2, rs = r1 ++ r2 ∧ r1.length = n1 ∧ r2.length = n2 := by
        intro rs hrs
        exact ⟨rs.take n1, rs.drop n1, (List.take_append_drop n1 rs).symm, by rw [List.length_take]; omega, by
          rw [List.length_drop]; omega⟩
      have lf : ∀ r1 : List ℝ, r1.length = n1 → NonNeg (foot E.part E.a E.b) N (t1.eval r1) := fun r1 h =>
        (taVoxel_step E hE mem _ v _ _ (e1 r1 [] h)).nonneg hv hw
      refine ⟨t1.bind f, p, ?_, ?_, ?_⟩
      · intro rs rest hrs
        obtain ⟨r1, r2, rfl, hr1, hr2⟩ := ev rs hrs
        rw [setR_append d1 d2 r1 r2 (by omega), List.append_assoc, runVoxels, e1 r1 _ hr1]
        simp only
        rw [(hf _ (lf r1 hr1)).2.1 r2 rest hr2, Tree.eval_bind f t1 p1 r1 r2 hr1]
      · have all_bind : ∀ t : Tree (Mem T ℝ), t.All (NonNeg (foot E.part E.a E.b) N) →
            (t.bind f).All (NonNeg (foot E.part E.a E.b) N) := by
          intro t
          induction t with
          | leaf x => intro h; exact (hf x h).2.2.1
          | node ρ lo hi i1 i2 => intro h; exact ⟨i1 h.1, i2 h.2⟩
        exact all_bind t1 nn1
      · intro v0 hv0 h hfine
        rw [Tree.avg_bind]
        refine (Tree.avg_le (fun x hx => (hf x hx).2.2.2 v0 hv0 h hfine) t1 p1 nn1).trans ?_
        by_cases hvv : v0 = v
        · subst hvv
          exact a1 h hfine
        · refine (Tree.avg_const (fun x (hx : Step E.m E.eps (foot E.part E.a E.b v) mem x) => ?_) t1 st1).le
          exact hx.obs_other (hdis v0 hv0 v hv hvv) h

lemma pipeMean_congr (ns ns' : ℕ → ℕ) (ranks : List ℕ) : ∀ F, (∀ r ∈ ranks, ns r = ns' r) → pipeMean ns ranks F = pipeMean ns' ranks F := by
  induction ranks with
  | nil => intro F _; rfl
  | cons r ranks ih =>
    intro F h
    rw [pipeMean, pipeMean, h r List.mem_cons_self]
    congr 1
    funext rs
    exact ih _ fun s hs => h s (List.mem_cons_of_mem _ hs)

lemma runPipes_same {M G : Type} (vox : M → ℕ → G → Option (M × G)) (nx ny nz P : ℕ) (g g' : ℕ → G) (rs : List ℕ) :
    ∀ x, (∀ r ∈ rs, g r = g' r) → runPipes vox nx ny nz P g rs x = runPipes vox nx ny nz P g' rs x := by
  induction rs with
  | nil => intro x _; rfl
  | cons r rs ih =>
    intro x h
    rw [runPipes, runPipes, h r List.mem_cons_self]
    cases stripe nx ny nz P r (nx + (nx + 2) * (ny + (ny + 2) * nz) + 2) with
    | none => rfl
    | some vs =>
      simp only
      cases runVoxels vox vs x (g' r) with
      | none => rfl
      | some q => exact ih q.1 (fun s hs => h s (List.mem_cons_of_mem _ hs))

lemma mean_const (n : ℕ) (c : ℝ) : mean n (fun _ => c) = c := by
  induction n with
  | zero => rfl
  | succ n ih => rw [mean, ih]; simp

lemma pipeMean_const (ns : ℕ → ℕ) (ranks : List ℕ) (c : ℝ) : pipeMean ns ranks (fun _ => c) = c := by
  induction ranks with
  | nil => rfl
  | cons r ranks ih => rw [pipeMean, ih, mean_const]

lemma runPipes_mean (E : TA ℝ) (hE : E.Ok) (nx ny nz P : ℕ) (hP : 0 < P) (gens : ℕ → TAGen ℝ) (y0 : Mem T ℝ)
    (hdis : ∀ v < (nx + 2) * (ny + 2) * (nz + 2) - 1, ∀ v' < (nx + 2) * (ny + 2) * (nz + 2) - 1, v ≠ v' →
      ∀ l ∈ foot E.part E.a E.b v, l ∉ foot E.part E.a E.b v') (ranks : List ℕ) :
    ∀ (mem0 y : Mem T ℝ), ranks.Nodup → (∀ r ∈ ranks, r < P) →
    runPipes (taVoxel E) nx ny nz P gens ranks mem0 = some y →
    ∃ ns : ℕ → ℕ, ∀ mem : Mem T ℝ, NonNeg (foot E.part E.a E.b) ((nx + 2) * (ny + 2) * (nz + 2) - 1) mem →
      (∀ rss : ℕ → List ℝ, (∀ r ∈ ranks, (rss r).length = ns r) →
        ∃ z, runPipes (taVoxel E) nx ny nz P (regen gens rss) ranks mem = some z) ∧
      ∀ v < (nx + 2) * (ny + 2) * (nz + 2) - 1, ∀ h, Fine E h →
        pipeMean ns ranks (fun rss => obs h (foot E.part E.a E.b v)
          ((runPipes (taVoxel E) nx ny nz P (regen gens rss) ranks mem).getD y0)) ≤ obs h (foot E.part E.a E.b v) mem := by
  induction ranks with
  | nil => intro mem0 y _ _ _; exact ⟨fun _ => 0, fun mem _ => ⟨fun rss _ => ⟨mem, rfl⟩, fun v _ h _ => le_rfl⟩⟩
  | cons r ranks ih =>
    intro mem0 y hnd hrs hr
    rw [List.nodup_cons] at hnd
    obtain ⟨L, h1, -, -, -, h5⟩ := stripes_partition nx ny nz P hP (nx + (nx + 2) * (ny + (ny + 2) * nz) + 2) (by omega)
    have hrP := hrs r List.mem_cons_self
    rw [runPipes, h1 r hrP] at hr
    simp only at hr
    cases h2 : runVoxels (taVoxel E) (L r) mem0 (gens r) with
    | none => rw [h2] at hr; simp at hr
    | some q =>
      obtain ⟨x1, as1, gs1⟩ := q
      rw [h2] at hr
      simp only at hr
      obtain ⟨ns, hns⟩ := ih x1 y hnd.2 (fun s hs => hrs s (List.mem_cons_of_mem _ hs)) hr
      obtain ⟨n, c, hc, hg, htree⟩ := runVoxels_tree E hE _ hdis (L r) (gens r).1 as1 (gens r).2 gs1 mem0 x1
        (fun v hv => by have := h5 r hrP v hv; omega) h2
      refine ⟨fun s => if s = r then n else ns s, fun mem hw => ?_⟩
      obtain ⟨t, tp, te, ta, tavg⟩ := htree mem c hw hc
      have run : ∀ rss : ℕ → List ℝ, (rss r).length = n → runPipes (taVoxel E) nx ny nz P (regen gens rss) (r :: ranks) mem =
          runPipes (taVoxel E) nx ny nz P (regen gens rss) ranks (t.eval (rss r)) := by
        intro rss hl
        rw [runPipes, h1 r hrP]
        simp only
        have e : regen gens rss r = ((gens r).1, setR c (rss r) ++ gs1) := by
          unfold regen
          rw [hg]
          have := setR_append c gs1 (rss r) [] (by omega)
          rw [List.append_nil] at this
          rw [this]
          cases gs1 <;> rfl
        rw [e, te _ _ hl]
      have nn : ∀ rs : List ℝ, rs.length = n → NonNeg (foot E.part E.a E.b) ((nx + 2) * (ny + 2) * (nz + 2) - 1) (t.eval rs) := by
        have : ∀ (t : Tree (Mem T ℝ)) rs, t.All (NonNeg (foot E.part E.a E.b) ((nx + 2) * (ny + 2) * (nz + 2) - 1)) →
            NonNeg (foot E.part E.a E.b) ((nx + 2) * (ny + 2) * (nz + 2) - 1) (t.eval rs) := by
          intro t
          induction t with
          | leaf x => intro rs h; exact h
          | node ρ lo hi i1 i2 =>
            intro rs h
            cases rs with
            | nil => exact i1 _ h.1
            | cons r rs =>
              rw [Tree.eval]
              split_ifs
              · exact i2 _ h.2
              · exact i1 _ h.1
        exact fun rs _ => this t rs ta
      constructor
      · intro rss hl
        have hlr : (rss r).length = n := by simpa using hl r List.mem_cons_self
        rw [run rss hlr]
        refine (hns _ (nn _ hlr)).1 rss fun s hs => ?_
        have hsr : s ≠ r := fun e => hnd.1 (e ▸ hs)
        have := hl s (List.mem_cons_of_mem _ hs)
        simpa [hsr] using this
      · intro v hv h hf
        rw [pipeMean]
        simp only [if_true]
        have e : mean n (fun rs => pipeMean (fun s => if s = r then n else ns s) ranks fun rss =>
            obs h (foot E.part E.a E.b v) ((runPipes (taVoxel E) nx ny nz P (regen gens fun s => if s = r then rs else rss s)
              (r :: ranks) mem).getD y0)) =
            mean n (fun rs => (fun x => pipeMean ns ranks fun rss => obs h (foot E.part E.a E.b v)
              ((runPipes (taVoxel E) nx ny nz P (regen gens rss) ranks x).getD y0)) (t.eval rs)) := by
          refine mean_congr n fun rs hl => ?_
          rw [pipeMean_congr _ ns ranks _ (fun s hs => if_neg fun e : s = r => hnd.1 (e ▸ hs))]
          simp only
          congr 1
          funext rss
          rw [run _ (by simp [hl])]
          simp only [if_true]
          rw [runPipes_same (taVoxel E) nx ny nz P (regen gens fun s => if s = r then rs else rss s) (regen gens rss) ranks _
            (fun s hs => by
              have : s ≠ r := fun e => hnd.1 (e ▸ hs)
              simp [regen, this])]
        rw [e, mean_tree (fun x => pipeMean ns ranks fun rss => obs h (foot E.part E.a E.b v)
              ((runPipes (taVoxel E) nx ny nz P (regen gens rss) ranks x).getD y0)) t tp]
        exact (Tree.avg_le (fun x hx => (hns x hx).2 v hv h hf) t tp ta).trans (tavg v hv h hf)

end Verif.Collide
