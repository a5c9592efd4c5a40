import Verif.Collide.MeanLemmas3
import Verif.Collide.Props

/-!
# C119: with unequal weights momentum and energy are conserved on average

When two particles of unequal weight collide, the heavier one is scattered only if a random number says so.  `pipeMean` is
the average over these numbers, `regen` puts them in place of those the generators would return; all other random numbers, the
shuffles and the deflections, are arbitrary and stay as they are.
-/
namespace Verif.Collide
open Verif.Collision Verif.SortP

variable {T : Type}

lemma mean_neg (n : ℕ) : ∀ F : List ℝ → ℝ, mean n (fun rs => -F rs) = -mean n F := by
  induction n with
  | zero => intro F; rfl
  | succ n ih =>
    intro F
    rw [mean, mean, ← intervalIntegral.integral_neg]
    congr 1
    funext r
    exact ih _

lemma pipeMean_neg (ns : ℕ → ℕ) (ranks : List ℕ) : ∀ F : (ℕ → List ℝ) → ℝ, pipeMean ns ranks (fun rss => -F rss) = -pipeMean ns ranks F := by
  induction ranks with
  | nil => intro F; rfl
  | cons r ranks ih =>
    intro F
    rw [pipeMean, pipeMean, ← mean_neg]
    congr 1
    funext rs
    exact ih _

lemma obs_neg (h : ℕ → (Fin 3 → ℝ) → ℝ) (F : Finset Loc) (x : Mem T ℝ) : obs (fun c u => -h c u) F x = -obs h F x := by
  unfold obs
  rw [← Finset.sum_neg_distrib]
  exact Finset.sum_congr rfl fun l _ => mul_neg _ _

lemma fine_mom (E : TA ℝ) (hE : E.Ok) (i : Fin 3) : Fine E (fun c u => E.m c * u i) ∧ Fine E (fun c u => -(E.m c * u i)) := by
  have := fun std g φ ui uj => congrFun (takizuka_abe_conserves E.rt hE.rt E.eps hE.eps (E.m E.a) (E.m E.b) hE.ma hE.mb std g (E.cs φ)
    (E.sn φ) 0 1 (hE.trig φ) ui uj).1 i
  simp only [momentum] at this
  constructor
  · intro std g φ ui uj
    exact (this std g φ ui uj).le
  · intro std g φ ui uj
    have := this std g φ ui uj
    simp only
    linarith

lemma fine_en (E : TA ℝ) (hE : E.Ok) : Fine E (fun c u => E.m c * (u 0 ^ 2 + u 1 ^ 2 + u 2 ^ 2)) := by
  intro std g φ ui uj
  have := (takizuka_abe_conserves E.rt hE.rt E.eps hE.eps (E.m E.a) (E.m E.b) hE.ma hE.mb std g (E.cs φ)
    (E.sn φ) 0 1 (hE.trig φ) ui uj).2.1
  simp only [energy, normSq] at this
  simp only
  nlinarith

lemma fine_en_neg (E : TA ℝ) (hE : E.Ok) (h0 : E.eps = 0) : Fine E (fun c u => -(E.m c * (u 0 ^ 2 + u 1 ^ 2 + u 2 ^ 2))) := by
  intro std g φ ui uj
  have := (takizuka_abe_conserves E.rt hE.rt E.eps hE.eps (E.m E.a) (E.m E.b) hE.ma hE.mb std g (E.cs φ)
    (E.sn φ) 0 1 (hE.trig φ) ui uj).2.2
  rw [h0] at this
  rw [h0]
  simp only [energy, normSq, mul_zero, sub_zero] at this
  simp only
  nlinarith

/-- Sorting permutes the particles of every voxel. -/
lemma sort_cells {key : T → ℤ} {nx ny nz : ℤ} {srt : ℕ → (ℤ → Part T ℝ) → (ℤ → ℤ) → Option ((ℤ → Part T ℝ) × (ℤ → ℤ))}
    {step : ℤ} {st st' : ℕ → Species T ℝ} {c : ℕ}
    (hsrt : SortOk key nx ny nz srt (st c).np) (hs : ∀ d, Sane key nx ny nz step (st d))
    (hr : sortIfStale srt step st c = some st') : ∀ d v, ((st' d).cell key v).Perm ((st d).cell key v) := by
  unfold sortIfStale at hr
  by_cases h0 : (st c).last ≠ step
  · rw [if_pos h0] at hr
    unfold sortSpecies at hr
    rw [Option.map_eq_some_iff] at hr
    obtain ⟨r, h1, h2⟩ := hr
    have hpar : ∀ (s : Species T ℝ), s.parts = contents s.p s.np := fun s => (contents_eq _ _).symm
    obtain ⟨g1, g2⟩ := hsrt _ _ r (by rw [← hpar]; exact (hs c).dom) h1
    have ec : st' c = ⟨(st c).np, r.1, r.2, step⟩ := by rw [← h2]; simp
    have ed : ∀ d, d ≠ c → st' d = st d := by intro d hd; rw [← h2]; simp [hd]
    have hp : (st' c).parts.Perm (st c).parts := by
      rw [hpar, hpar, ec]; exact g1
    intro d v
    by_cases hd : d = c
    · subst hd; exact hp.filter _
    · rw [ed d hd]
  · rw [if_neg h0] at hr
    simp only [Option.some.injEq] at hr
    subst hr
    exact fun d v => List.Perm.refl _

lemma cell_empty {key : T → ℤ} {nx ny nz step : ℤ} (hx : 1 ≤ nx) (hy : 1 ≤ ny) (hz : 1 ≤ nz) {s : Species T ℝ}
    (hs : Sane key nx ny nz step s) {v : ℤ} (hv : ¬ (0 ≤ v ∧ v + 1 < (nx + 2) * (ny + 2) * (nz + 2))) : s.cell key v = [] := by
  unfold Species.cell
  rw [List.filter_eq_nil_iff]
  intro x hx'
  have hd := hs.dom x hx'
  simp only at hd
  have m3 : 0 ≤ (nx + 2) * (1 + (ny + 2) * 1) := mul_nonneg (by omega) (by omega)
  have m4 : nx + (nx + 2) * (ny + (ny + 2) * nz) + 2 + (nx + 2) + (nx + 2) * (ny + 2)
      = (nx + 2) * (ny + 2) * (nz + 2) := by ring
  have m5 : 0 ≤ (nx + 2) * (ny + 2) := mul_nonneg (by omega) (by omega)
  simp only [decide_eq_true_eq]
  intro e
  apply hv
  omega

/-- **C119.**  Take any application of the Takizuka-Abe operator to particles of any weights, and let the numbers that decide
whether the heavier of two particles is scattered be independent and uniform, everything else being as it was.  Then the
operator runs for all these numbers, and on average over them momentum and energy of both species together are conserved in
every voxel (energy exactly without regularisation, otherwise it does not grow). -/
theorem takizuka_abe_mean (key : T → ℤ) (E : TA ℝ) (hE : E.Ok) (interval : ℤ) (gens : ℕ → TAGen ℝ)
    (nx ny nz P : ℕ) (hx : 1 ≤ nx) (hy : 1 ≤ ny) (hz : 1 ≤ nz) (hP : 0 < P) (hP2 : P ≤ 256)
    (R : Distribute.Rounding) (hR : R.Accurate) (S : Schedules (Part T ℝ)) (g : Scratch (Part T ℝ)) (step : ℤ)
    (st st' : ℕ → Species T ℝ) (hnp : ∀ c, (st c).np < 2 ^ 31) (hs : ∀ d, Sane key nx ny nz step (st d))
    (hw : ∀ c ∈ ({E.a, E.b} : Finset ℕ), ∀ p ∈ (st c).parts, 0 ≤ p.w)
    (hr : applyOp (libSort R key S g P nx ny nz) nx ny nz P step (taOp E interval gens) st = some st') :
    ∃ (ns : ℕ → ℕ) (out : (ℕ → List ℝ) → ℕ → Species T ℝ),
      (∀ rss : ℕ → List ℝ, (∀ r < P, (rss r).length = ns r) →
        applyOp (libSort R key S g P nx ny nz) nx ny nz P step (taOp E interval (regen gens rss)) st = some (out rss)) ∧
      ∀ v, (∀ i, pipeMean ns (List.range P) (fun rss => ∑ c ∈ ({E.a, E.b} : Finset ℕ), cellMom key E.m (out rss) c v i) =
          ∑ c ∈ ({E.a, E.b} : Finset ℕ), cellMom key E.m st c v i) ∧
        pipeMean ns (List.range P) (fun rss => ∑ c ∈ ({E.a, E.b} : Finset ℕ), cellEn key E.m (out rss) c v) ≤
          ∑ c ∈ ({E.a, E.b} : Finset ℕ), cellEn key E.m st c v ∧
        (E.eps = 0 → pipeMean ns (List.range P) (fun rss => ∑ c ∈ ({E.a, E.b} : Finset ℕ), cellEn key E.m (out rss) c v) =
          ∑ c ∈ ({E.a, E.b} : Finset ℕ), cellEn key E.m st c v) := by
  have sok : ∀ (s : ℕ → Species T ℝ) c, (s c).np < 2 ^ 31 → SortOk key nx ny nz (libSort R key S g P nx ny nz) (s c).np :=
    fun s c h => sortP_ok R hR key S g P hP hP2 nx ny nz (by omega) (by omega) (by omega) _ h
  unfold applyOp at hr
  by_cases h0 : interval < 1 ∨ step.tmod interval ≠ 0
  · refine ⟨fun _ => 0, fun _ => st, fun rss _ => ?_, fun v => ⟨fun i => ?_, ?_, fun _ => ?_⟩⟩
    · unfold applyOp
      exact if_pos h0
    · exact pipeMean_const ..
    · exact (pipeMean_const ..).le
    · exact pipeMean_const ..
  replace hr := (if_neg h0).symm.trans hr
  simp only [taOp] at hr
  cases h1 : sortIfStale (libSort R key S g P nx ny nz) step st E.a with
  | none => rw [h1] at hr; simp at hr
  | some s1 =>
    rw [h1] at hr
    simp only at hr
    obtain ⟨e1, g1, l1, k1⟩ := sort_effect E.a E.b (Or.inl rfl) E.m E.eps (sok st E.a (hnp _)) hs h1
    have c1 := sort_cells (sok st E.a (hnp _)) hs h1
    cases h2 : sortIfStale (libSort R key S g P nx ny nz) step s1 E.b with
    | none => rw [h2] at hr; simp at hr
    | some s2 =>
      rw [h2] at hr
      simp only at hr
      have hnp1 : (s1 E.b).np < 2 ^ 31 := by rw [e1.count]; exact hnp _
      obtain ⟨e2, g2, l2, k2⟩ := sort_effect E.a E.b (Or.inr rfl) E.m E.eps (sok s1 E.b hnp1) g1 h2
      have c2 := sort_cells (sok s1 E.b hnp1) g1 h2
      have la := k2 E.a l1
      rw [Option.map_eq_some_iff] at hr
      obtain ⟨y, hy', -⟩ := hr
      have hpos : 0 < (nx + 2) * (ny + 2) * (nz + 2) := by positivity
      have hN : (((nx + 2) * (ny + 2) * (nz + 2) - 1 : ℕ) : ℤ) + 1 = ((nx : ℤ) + 2) * (ny + 2) * (nz + 2) := by
        rw [Nat.cast_sub hpos]
        push_cast
        ring
      have ta := (g2 E.a).table la
      have tb := (g2 E.b).table l2
      have hdis := foot_disjoint s2 E.a E.b key _ _ hN ta tb
      have hE' : TA.Ok { E with part := partOf s2 } := ⟨hE.rt, hE.trig, hE.eps, hE.ma, hE.mb⟩
      obtain ⟨ns, hns⟩ := runPipes_mean (T := T) { E with part := partOf s2 } hE' nx ny nz P hP gens y hdis (List.range P)
        (memOf s2) y List.nodup_range (fun r hr => List.mem_range.1 hr) hy'
      have hnn : NonNeg (foot (partOf s2) E.a E.b) ((nx + 2) * (ny + 2) * (nz + 2) - 1) (memOf s2) := by
        intro v hv l hl
        have hl' : (l.1, l.2) ∈ foot (partOf s2) E.a E.b v := hl
        rw [mem_foot ta tb (by omega)] at hl'
        obtain ⟨q1, q2, q3⟩ := hl'
        have hm : (s2 l.1).p (l.2 : ℕ) ∈ (s2 l.1).cell key v := mem_cell.2 ⟨l.2, q2, rfl, q3⟩
        rw [(c2 l.1 v).mem_iff, (c1 l.1 v).mem_iff] at hm
        refine hw l.1 ?_ _ (List.mem_filter.1 hm).1
        rcases q1 with e | e <;> simp [e]
      obtain ⟨hrun, havg⟩ := hns (memOf s2) hnn
      -- every value is the result of a run
      have hsw : ∀ rss, Sweep E.m E.eps (foot (partOf s2) E.a E.b) ((nx + 2) * (ny + 2) * (nz + 2) - 1) (memOf s2)
          ((runPipes (taVoxel { E with part := partOf s2 }) nx ny nz P (regen gens rss) (List.range P) (memOf s2)).getD y) := by
        intro rss
        have main : ∀ (G : ℕ → TAGen ℝ) z, runPipes (taVoxel { E with part := partOf s2 }) nx ny nz P G (List.range P) (memOf s2) = some z →
            Sweep E.m E.eps (foot (partOf s2) E.a E.b) ((nx + 2) * (ny + 2) * (nz + 2) - 1) (memOf s2) z := by
          intro G z hz
          exact runPipes_sweep (m := E.m) (eps := E.eps) hP (I := fun _ => True) hdis
            (fun x v q z q' _ _ hv => ⟨taVoxel_step { E with part := partOf s2 } hE' x z v q q' hv, trivial⟩)
            G (fun _ => trivial) (List.range P) (memOf s2) z (fun r hr => List.mem_range.1 hr) hz
        cases hz : runPipes (taVoxel { E with part := partOf s2 }) nx ny nz P (regen gens rss) (List.range P) (memOf s2) with
        | none => exact main gens y hy'
        | some z => exact main _ z hz
      -- sums over voxels
      have cells : ∀ v : ℕ, v < (nx + 2) * (ny + 2) * (nz + 2) - 1 → ∀ (h : ℕ → (Fin 3 → ℝ) → ℝ) rss,
          obs h (foot (partOf s2) E.a E.b v)
            ((runPipes (taVoxel { E with part := partOf s2 }) nx ny nz P (regen gens rss) (List.range P) (memOf s2)).getD y) =
          ∑ c ∈ ({E.a, E.b} : Finset ℕ), (((putMem s2 ((runPipes (taVoxel { E with part := partOf s2 }) nx ny nz P (regen gens rss)
            (List.range P) (memOf s2)).getD y) c).cell key v).map fun p => p.w * h c p.u).sum := by
        intro v hv h rss
        obtain ⟨-, q2, q3⟩ := sweep_effect (m := E.m) (eps := E.eps) _ hN ⟨by omega, by omega, by omega⟩ g2 la l2 (hsw rss)
        have := foot_cell ((q2 E.a).table ((q3 _).trans la)) ((q2 E.b).table ((q3 _).trans l2)) (v := v) (by omega)
          (fun c p => p.w * h c p.u)
        rw [← this]
        unfold obs
        refine Finset.sum_congr rfl fun l _ => ?_
        simp [memOf, putMem]
      have cells0 : ∀ v : ℕ, v < (nx + 2) * (ny + 2) * (nz + 2) - 1 → ∀ (h : ℕ → (Fin 3 → ℝ) → ℝ),
          obs h (foot (partOf s2) E.a E.b v) (memOf s2) =
          ∑ c ∈ ({E.a, E.b} : Finset ℕ), (((st c).cell key v).map fun p => p.w * h c p.u).sum := by
        intro v hv h
        have := foot_cell ta tb (v := v) (by omega) (fun c p => p.w * h c p.u)
        unfold obs
        rw [this]
        refine Finset.sum_congr rfl fun c _ => ?_
        exact (((c2 c v).trans (c1 c v)).map _).sum_eq
      refine ⟨ns, fun rss => putMem s2 ((runPipes (taVoxel { E with part := partOf s2 }) nx ny nz P (regen gens rss)
            (List.range P) (memOf s2)).getD y), ?_, ?_⟩
      · intro rss hl
        obtain ⟨z, hz⟩ := hrun rss (fun r hr => hl r (List.mem_range.1 hr))
        unfold applyOp
        refine (if_neg h0).trans ?_
        simp only [taOp]
        rw [h1]
        simp only
        rw [h2]
        simp only
        rw [hz]
        rfl
      · intro v
        by_cases hvr : 0 ≤ v ∧ v + 1 < ((nx : ℤ) + 2) * (ny + 2) * (nz + 2)
        · obtain ⟨n, rfl⟩ : ∃ n : ℕ, v = n := ⟨v.toNat, (Int.toNat_of_nonneg hvr.1).symm⟩
          have hn : n < (nx + 2) * (ny + 2) * (nz + 2) - 1 := by omega
          -- bounds for a function and its negative
          have le : ∀ h, Fine E h → pipeMean ns (List.range P) (fun rss => ∑ c ∈ ({E.a, E.b} : Finset ℕ), (((putMem s2
              ((runPipes (taVoxel { E with part := partOf s2 }) nx ny nz P (regen gens rss)
              (List.range P) (memOf s2)).getD y) c).cell key n).map fun p => p.w * h c p.u).sum) ≤
              ∑ c ∈ ({E.a, E.b} : Finset ℕ), (((st c).cell key n).map fun p => p.w * h c p.u).sum := by
            intro h hf
            have := havg n hn h hf
            simp only [cells n hn h] at this
            exact this.trans (cells0 n hn h).le
          have ge : ∀ h : ℕ → (Fin 3 → ℝ) → ℝ, Fine E (fun c u => -h c u) →
              ∑ c ∈ ({E.a, E.b} : Finset ℕ), (((st c).cell key n).map fun p => p.w * h c p.u).sum ≤
              pipeMean ns (List.range P) (fun rss => ∑ c ∈ ({E.a, E.b} : Finset ℕ), (((putMem s2
              ((runPipes (taVoxel { E with part := partOf s2 }) nx ny nz P (regen gens rss)
              (List.range P) (memOf s2)).getD y) c).cell key n).map fun p => p.w * h c p.u).sum) := by
            intro h hf
            have := havg n hn (fun c u => -h c u) hf
            simp only [obs_neg, pipeMean_neg] at this
            simp only [cells n hn h] at this
            rw [← cells0 n hn h]
            exact neg_le_neg_iff.1 this
          have cm : ∀ (s : ℕ → Species T ℝ) c i, cellMom key E.m s c n i =
              (((s c).cell key n).map fun p => p.w * (E.m c * p.u i)).sum := by
            intro s c i
            unfold cellMom
            congr 2
            funext p
            ring
          have ce : ∀ (s : ℕ → Species T ℝ) c, cellEn key E.m s c n =
              (((s c).cell key n).map fun p => p.w * (E.m c * (p.u 0 ^ 2 + p.u 1 ^ 2 + p.u 2 ^ 2))).sum := by
            intro s c
            unfold cellEn
            congr 2
            funext p
            ring
          simp only [cm, ce]
          refine ⟨fun i => le_antisymm (le _ (fine_mom E hE i).1) (ge _ (fine_mom E hE i).2), le _ (fine_en E hE), fun he =>
            le_antisymm (le _ (fine_en E hE)) (ge _ (fine_en_neg E hE he))⟩
        · have z1 : ∀ d, (st d).cell key v = [] := fun d => cell_empty (by omega) (by omega) (by omega) (hs d) hvr
          have z2 : ∀ rss d, (putMem s2 ((runPipes (taVoxel { E with part := partOf s2 }) nx ny nz P (regen gens rss)
              (List.range P) (memOf s2)).getD y) d).cell key v = [] := by
            intro rss d
            obtain ⟨-, q2, -⟩ := sweep_effect (m := E.m) (eps := E.eps) _ hN ⟨by omega, by omega, by omega⟩ g2 la l2 (hsw rss)
            exact cell_empty (by omega) (by omega) (by omega) (q2 d) hvr
          unfold cellMom cellEn
          simp [z1, z2, pipeMean_const]

end Verif.Collide
