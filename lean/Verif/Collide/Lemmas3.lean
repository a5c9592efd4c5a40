import Verif.Collide.Lemmas2
import Mathlib.Algebra.BigOperators.Group.Finset.Sigma
import Mathlib.Algebra.BigOperators.Intervals

/-!
# What the application of an operator does to the species
-/
namespace Verif.Collide
open Verif.Collision Verif.SortP

variable {T K : Type} [Field K] [LinearOrder K] [IsStrictOrderedRing K]

/-- The particles of a species that are in voxel `v`. -/
def Species.cell (key : T → ℤ) (s : Species T K) (v : ℤ) : List (Part T K) := s.parts.filter fun p => key p.tag = v

/-- Position, voxel and weight of a particle. -/
def tagw (p : Part T K) : T × K := (p.tag, p.w)

lemma cell_map (key : T → ℤ) (s : Species T K) (v : ℤ) (f : Part T K → K) :
    ((s.cell key v).map f).sum = ∑ i ∈ (Finset.range s.np).filter (fun i => key (s.p (i : ℕ)).tag = v), f (s.p (i : ℕ)) := by
  unfold Species.cell Species.parts
  rw [List.filter_map, List.map_map, ← List.sum_toFinset _ (List.nodup_range.filter _)]
  refine Finset.sum_congr ?_ fun i _ => rfl
  ext i
  simp

lemma mem_cell {key : T → ℤ} {s : Species T K} {v : ℤ} {p : Part T K} :
    p ∈ s.cell key v ↔ ∃ i < s.np, s.p (i : ℕ) = p ∧ key p.tag = v := by
  unfold Species.cell Species.parts
  rw [List.mem_filter, List.mem_map]
  simp only [List.mem_range, decide_eq_true_eq]
  constructor
  · rintro ⟨⟨i, h1, h2⟩, h3⟩; exact ⟨i, h1, h2, h3⟩
  · rintro ⟨i, h1, h2, h3⟩; exact ⟨⟨i, h1, h2⟩, h3⟩

lemma mem_part {st : ℕ → Species T K} {c : ℕ} {key : T → ℤ} {nv : ℤ} (hc : Table key nv (st c)) {v : ℕ} (hv : (v : ℤ) + 1 < nv)
    (i : ℕ) : (partOf st c v ≤ i ∧ i < partOf st c v + (partOf st c (v + 1) - partOf st c v)) ↔
      i < (st c).np ∧ key ((st c).p (i : ℕ)).tag = v := by
  obtain ⟨r1, r2, r3⟩ := hc.range v (by omega) hv
  unfold partOf
  push_cast
  constructor
  · rintro ⟨h1, h2⟩
    have hn : i < (st c).np := by omega
    exact ⟨hn, (hc.loc v (by omega) hv i (by omega) (by exact_mod_cast hn)).2 ⟨by omega, by omega⟩⟩
  · rintro ⟨h1, h2⟩
    have := (hc.loc v (by omega) hv i (by omega) (by exact_mod_cast h1)).1 h2
    omega

lemma block_cell {st : ℕ → Species T K} {c : ℕ} {key : T → ℤ} {nv : ℤ} (hc : Table key nv (st c)) {v : ℕ} (hv : (v : ℤ) + 1 < nv)
    (f : ℕ → Part T K → K) (x : Mem T K) (hx : ∀ i : ℕ, x (c, i) = (st c).p i) :
    ∑ l ∈ block c (partOf st c v) (partOf st c (v + 1) - partOf st c v), f l.1 (x l) =
      (((st c).cell key v).map (f c)).sum := by
  rw [cell_map]
  unfold block
  rw [Finset.sum_map]
  refine Finset.sum_congr ?_ fun i _ => ?_
  · ext i
    rw [Finset.mem_Ico, mem_part hc hv, Finset.mem_filter, Finset.mem_range]
  · show f c (x (c, i)) = _
    rw [hx]

lemma foot_cell {st : ℕ → Species T K} {a b : ℕ} {key : T → ℤ} {nv : ℤ} (ha : Table key nv (st a)) (hb : Table key nv (st b))
    {v : ℕ} (hv : (v : ℤ) + 1 < nv) (f : ℕ → Part T K → K) :
    ∑ l ∈ foot (partOf st) a b v, f l.1 (memOf st l) =
      ∑ c ∈ ({a, b} : Finset ℕ), (((st c).cell key v).map (f c)).sum := by
  unfold foot
  by_cases hab : a = b
  · subst hab
    rw [Finset.union_self, block_cell ha hv f (memOf st) (fun _ => rfl)]
    simp
  · rw [Finset.sum_union, block_cell ha hv f (memOf st) (fun _ => rfl), block_cell hb hv f (memOf st) (fun _ => rfl),
      Finset.sum_pair hab]
    rw [Finset.disjoint_left]
    intro l h1 h2
    rw [mem_block] at h1 h2
    exact hab (h1.1.symm.trans h2.1)

lemma mem_foot {st : ℕ → Species T K} {a b c : ℕ} {key : T → ℤ} {nv : ℤ} (ha : Table key nv (st a)) (hb : Table key nv (st b))
    {v : ℕ} (hv : (v : ℤ) + 1 < nv) {i : ℕ} :
    (c, i) ∈ foot (partOf st) a b v ↔ (c = a ∨ c = b) ∧ i < (st c).np ∧ key ((st c).p (i : ℕ)).tag = v := by
  unfold foot
  rw [Finset.mem_union, mem_block, mem_block]
  simp only
  constructor
  · rintro (⟨rfl, h⟩ | ⟨rfl, h⟩)
    · exact ⟨Or.inl rfl, (mem_part ha hv i).1 h⟩
    · exact ⟨Or.inr rfl, (mem_part hb hv i).1 h⟩
  · rintro ⟨rfl | rfl, h⟩
    · exact Or.inl ⟨rfl, (mem_part ha hv i).2 h⟩
    · exact Or.inr ⟨rfl, (mem_part hb hv i).2 h⟩

/-- Momentum of the particles of species `c` in voxel `v`. -/
def cellMom (key : T → ℤ) (m : ℕ → K) (st : ℕ → Species T K) (c : ℕ) (v : ℤ) (i : Fin 3) : K :=
  (((st c).cell key v).map fun p => m c * p.w * p.u i).sum

/-- Twice the kinetic energy of the particles of species `c` in voxel `v`. -/
def cellEn (key : T → ℤ) (m : ℕ → K) (st : ℕ → Species T K) (c : ℕ) (v : ℤ) : K :=
  (((st c).cell key v).map fun p => m c * p.w * (p.u 0 ^ 2 + p.u 1 ^ 2 + p.u 2 ^ 2)).sum

/-- What an operator between species `a` and `b` may do: the other species are untouched; the species keep, voxel by voxel,
their particles with position and weight; and in every voxel where all weights are equal, momentum and energy of the
two species are conserved. -/
structure Effect (key : T → ℤ) (m : ℕ → K) (eps : K) (a b : ℕ) (st st' : ℕ → Species T K) : Prop where
  others : ∀ c, c ≠ a → c ≠ b → st' c = st c
  count : ∀ c, (st' c).np = (st c).np
  inventory : ∀ c v, (((st' c).cell key v).map tagw).Perm (((st c).cell key v).map tagw)
  cons : ∀ v w0, 0 ≤ w0 → (∀ c ∈ ({a, b} : Finset ℕ), ∀ p ∈ (st c).cell key v, p.w = w0) →
    (∀ i, ∑ c ∈ ({a, b} : Finset ℕ), cellMom key m st' c v i = ∑ c ∈ ({a, b} : Finset ℕ), cellMom key m st c v i) ∧
    ∑ c ∈ ({a, b} : Finset ℕ), cellEn key m st' c v ≤ ∑ c ∈ ({a, b} : Finset ℕ), cellEn key m st c v ∧
    (eps = 0 → ∑ c ∈ ({a, b} : Finset ℕ), cellEn key m st' c v = ∑ c ∈ ({a, b} : Finset ℕ), cellEn key m st c v)

lemma Effect.refl (key : T → ℤ) (m : ℕ → K) (eps : K) (a b : ℕ) (st : ℕ → Species T K) : Effect key m eps a b st st :=
  ⟨fun _ _ _ => rfl, fun _ => rfl, fun _ _ => List.Perm.refl _, fun _ _ _ _ => ⟨fun _ => rfl, le_rfl, fun _ => rfl⟩⟩

lemma Effect.weights {key : T → ℤ} {m : ℕ → K} {eps : K} {a b : ℕ} {st st' : ℕ → Species T K} (h : Effect key m eps a b st st')
    {c : ℕ} {v : ℤ} {w0 : K} (hw : ∀ p ∈ (st c).cell key v, p.w = w0) : ∀ p ∈ (st' c).cell key v, p.w = w0 := by
  intro p hp
  have h1 : tagw p ∈ ((st' c).cell key v).map tagw := List.mem_map_of_mem hp
  rw [(h.inventory c v).mem_iff, List.mem_map] at h1
  obtain ⟨q, hq, e⟩ := h1
  have : q.w = p.w := congrArg Prod.snd e
  rw [← this]
  exact hw q hq

lemma Effect.trans {key : T → ℤ} {m : ℕ → K} {eps : K} {a b : ℕ} {st st' st'' : ℕ → Species T K} (h : Effect key m eps a b st st')
    (h' : Effect key m eps a b st' st'') : Effect key m eps a b st st'' := by
  refine ⟨fun c h1 h2 => (h'.others c h1 h2).trans (h.others c h1 h2), fun c => (h'.count c).trans (h.count c),
    fun c v => (h'.inventory c v).trans (h.inventory c v), ?_⟩
  intro v w0 h0 hw
  obtain ⟨a1, a2, a3⟩ := h.cons v w0 h0 hw
  obtain ⟨b1, b2, b3⟩ := h'.cons v w0 h0 (fun c hc => h.weights (hw c hc))
  exact ⟨fun i => (b1 i).trans (a1 i), b2.trans a2, fun he => (b3 he).trans (a3 he)⟩

/-- The state between operators: particles are in the interior, and the table is right if the species was sorted in this
step. -/
structure Sane (key : T → ℤ) (nx ny nz : ℤ) (step : ℤ) (s : Species T K) : Prop where
  dom : InDomain (fun q : Part T K => key q.tag) nx ny nz s.parts
  table : s.last = step → Table key ((nx + 2) * (ny + 2) * (nz + 2)) s

/-- Sorting one species. -/
lemma sort_effect {key : T → ℤ} {nx ny nz : ℤ} {srt : ℕ → (ℤ → Part T K) → (ℤ → ℤ) → Option ((ℤ → Part T K) × (ℤ → ℤ))}
    {step : ℤ} {st st' : ℕ → Species T K} {c : ℕ} (a b : ℕ) (hc : c = a ∨ c = b) (m : ℕ → K) (eps : K)
    (hsrt : SortOk key nx ny nz srt (st c).np) (hs : ∀ d, Sane key nx ny nz step (st d))
    (hr : sortIfStale srt step st c = some st') :
    Effect key m eps a b st st' ∧ (∀ d, Sane key nx ny nz step (st' d)) ∧ (st' c).last = step ∧
      ∀ d, (st d).last = step → (st' d).last = step := by
  unfold sortIfStale at hr
  by_cases h0 : (st c).last ≠ step
  · rw [if_pos h0] at hr
    unfold sortSpecies at hr
    rw [Option.map_eq_some_iff] at hr
    obtain ⟨r, h1, h2⟩ := hr
    have hpar : ∀ (s : Species T K), s.parts = contents s.p s.np := fun s => (contents_eq _ _).symm
    obtain ⟨g1, g2⟩ := hsrt _ _ r (by rw [← hpar]; exact (hs c).dom) h1
    have ec : st' c = ⟨(st c).np, r.1, r.2, step⟩ := by rw [← h2]; simp
    have ed : ∀ d, d ≠ c → st' d = st d := by intro d hd; rw [← h2]; simp [hd]
    have hp : (st' c).parts.Perm (st c).parts := by
      rw [hpar, hpar, ec]; exact g1
    have hcell : ∀ d v, ((st' d).cell key v).Perm ((st d).cell key v) := by
      intro d v
      by_cases hd : d = c
      · subst hd; exact hp.filter _
      · rw [ed d hd]
    refine ⟨⟨?_, ?_, ?_, ?_⟩, ?_, ?_, ?_⟩
    · intro d h3 h4
      refine ed d ?_
      rintro rfl
      rcases hc with h | h
      · exact h3 h
      · exact h4 h
    · intro d
      by_cases hd : d = c
      · subst hd; rw [ec]
      · rw [ed d hd]
    · intro d v
      exact (hcell d v).map _
    · intro v w0 _ _
      have e2 : ∑ c ∈ ({a, b} : Finset ℕ), cellEn key m st' c v = ∑ c ∈ ({a, b} : Finset ℕ), cellEn key m st c v :=
        Finset.sum_congr rfl fun d _ => ((hcell d v).map _).sum_eq
      refine ⟨fun i => Finset.sum_congr rfl fun d _ => ((hcell d v).map _).sum_eq, e2.le, fun _ => e2⟩
    · intro d
      by_cases hd : d = c
      · subst hd
        refine ⟨?_, fun _ => by rw [ec]; exact g2 step⟩
        intro x hx
        exact (hs d).dom x (hp.mem_iff.1 hx)
      · rw [ed d hd]; exact hs d
    · rw [ec]
    · intro d hd
      by_cases h : d = c
      · subst h; rw [ec]
      · rw [ed d h]; exact hd
  · rw [if_neg h0] at hr
    simp only [Option.some.injEq] at hr
    subst hr
    exact ⟨Effect.refl .., hs, not_not.1 h0, fun _ h => h⟩

/-- Writing back the result of a sweep. -/
lemma sweep_effect {key : T → ℤ} {m : ℕ → K} {eps : K} {nx ny nz step : ℤ} (N : ℕ) (hN : (N : ℤ) + 1 = (nx + 2) * (ny + 2) * (nz + 2))
    {st : ℕ → Species T K} {a b : ℕ} (hdom : 1 ≤ nx ∧ 1 ≤ ny ∧ 1 ≤ nz)
    (hs : ∀ d, Sane key nx ny nz step (st d)) (ha : (st a).last = step) (hb : (st b).last = step) {y : Mem T K}
    (h : Sweep m eps (foot (partOf st) a b) N (memOf st) y) :
    Effect key m eps a b st (putMem st y) ∧ (∀ d, Sane key nx ny nz step (putMem st y d)) ∧
      ∀ d, (putMem st y d).last = (st d).last := by
  have ta := (hs a).table ha
  have tb := (hs b).table hb
  obtain ⟨σ, s1, s2, s3, s4⟩ := h.perm
  have hv : ∀ v < N, (v : ℤ) + 1 < (nx + 2) * (ny + 2) * (nz + 2) := by intro v hv; omega
  have hp : ∀ d (i : ℕ), (putMem st y d).p i = y (d, i) := by
    intro d i
    simp [putMem]
  -- membership
  have hmem : ∀ v < N, ∀ d i, (d, i) ∈ foot (partOf st) a b v ↔ (d = a ∨ d = b) ∧ i < (st d).np ∧ key ((st d).p (i : ℕ)).tag = v :=
    fun v h1 d i => mem_foot ta tb (hv v h1)
  -- keys do not change
  have hkey : ∀ d (i : ℕ), key (y (d, i)).tag = key ((st d).p (i : ℕ)).tag := by
    intro d i
    rw [(s4 (d, i)).1]
    by_cases hin : ∃ v < N, (d, i) ∈ foot (partOf st) a b v
    · obtain ⟨v, h1, h2⟩ := hin
      have h3 := s2 v h1 _ h2
      have h4 : σ (d, i) = (d, (σ (d, i)).2) := Prod.ext (s1 _) rfl
      rw [h4] at h3 ⊢
      rw [hmem v h1] at h2 h3
      show key ((st d).p _).tag = _
      rw [h3.2.2, h2.2.2]
    · push Not at hin
      rw [s3 _ hin]
      rfl
  -- the permutation respects the length of the arrays
  have hlt : ∀ d i, i < (st d).np → (σ (d, i)).2 < (st d).np := by
    intro d i hi
    by_cases hin : ∃ v < N, (d, i) ∈ foot (partOf st) a b v
    · obtain ⟨v, h1, h2⟩ := hin
      have h3 := s2 v h1 _ h2
      have h4 : σ (d, i) = (d, (σ (d, i)).2) := Prod.ext (s1 _) rfl
      rw [h4] at h3
      exact ((hmem v h1 _ _).1 h3).2.1
    · push Not at hin
      rw [s3 _ hin]
      exact hi
  have hother : ∀ c, c ≠ a → c ≠ b → putMem st y c = st c := by
    intro c h1 h2
    have : (fun j => if 0 ≤ j then y (c, j.toNat) else (st c).p j) = (st c).p := by
      funext j
      split_ifs with hj
      · rw [h.frame (c, j.toNat) ?_]
        · unfold memOf
          simp only
          rw [Int.toNat_of_nonneg hj]
        · intro v hv hm
          rw [hmem v hv] at hm
          rcases hm.1 with e | e
          · exact h1 e
          · exact h2 e
      · rfl
    unfold putMem
    rw [this]
  have htw : ∀ d, ((putMem st y d).parts.map tagw).Perm ((st d).parts.map tagw) := by
    intro d
    unfold Species.parts
    have e1 : ((List.range (putMem st y d).np).map fun i => (putMem st y d).p (i : ℕ)).map tagw =
        ((List.range (st d).np).map fun i => (σ (d, i)).2).map fun i => tagw ((st d).p (i : ℕ)) := by
      rw [List.map_map, List.map_map]
      refine List.map_congr_left fun i _ => ?_
      simp only [Function.comp]
      rw [hp]
      have h4 : σ (d, i) = (d, (σ (d, i)).2) := Prod.ext (s1 _) rfl
      have h5 := s4 (d, i)
      rw [h4] at h5
      exact Prod.ext h5.1 h5.2
    rw [e1, List.map_map (g := tagw)]
    have hperm : ((List.range (st d).np).map fun i => (σ (d, i)).2).Perm (List.range (st d).np) := by
      have hnd : ((List.range (st d).np).map fun i => (σ (d, i)).2).Nodup := by
        refine List.Nodup.map ?_ List.nodup_range
        intro i j hij
        have : σ (d, i) = σ (d, j) := Prod.ext ((s1 _).trans (s1 (d, j)).symm) hij
        exact (Prod.mk.inj (σ.injective this)).2
      have hsub : ((List.range (st d).np).map fun i => (σ (d, i)).2) ⊆ List.range (st d).np := by
        intro j hj
        rw [List.mem_map] at hj
        obtain ⟨i, hi, rfl⟩ := hj
        rw [List.mem_range] at hi ⊢
        exact hlt d i hi
      exact (List.subperm_of_subset hnd hsub).perm_of_length_le (by simp)
    exact hperm.map _
  have hcellkey : ∀ (s : Species T K) v, (s.cell key v).map tagw = (s.parts.map tagw).filter fun p => key p.1 = v := by
    intro s v
    unfold Species.cell
    rw [List.filter_map]
    rfl
  have hinv : ∀ c v, (((putMem st y c).cell key v).map tagw).Perm (((st c).cell key v).map tagw) := by
    intro c v
    rw [hcellkey, hcellkey]
    exact (htw c).filter _
  have htab : ∀ d, Table key ((nx + 2) * (ny + 2) * (nz + 2)) (st d) →
      Table key ((nx + 2) * (ny + 2) * (nz + 2)) (putMem st y d) := by
    intro d hd
    refine ⟨hd.range, ?_⟩
    intro v h1 h2 i h3 h4
    have := hd.loc v h1 h2 i h3 h4
    simp only at this ⊢
    refine Iff.trans ?_ this
    have : (putMem st y d).p i = y (d, i.toNat) := by
      have := hp d i.toNat
      rw [Int.toNat_of_nonneg h3] at this
      exact this
    rw [this, hkey, Int.toNat_of_nonneg h3]
  have hdm : ∀ d, InDomain (fun q : Part T K => key q.tag) nx ny nz (putMem st y d).parts := by
    intro d x hx
    have h1 : tagw x ∈ (putMem st y d).parts.map tagw := List.mem_map_of_mem hx
    rw [(htw d).mem_iff, List.mem_map] at h1
    obtain ⟨q, hq, e⟩ := h1
    have e1 : q.tag = x.tag := congrArg Prod.fst e
    have := (hs d).dom q hq
    simp only at this ⊢
    rw [← e1]
    exact this
  refine ⟨⟨hother, fun c => rfl, hinv, ?_⟩, fun d => ⟨hdm d, fun hl => htab d ((hs d).table hl)⟩, fun d => rfl⟩
  intro v w0 h0 hw
  by_cases hvr : 0 ≤ v ∧ v < N
  · obtain ⟨n, rfl⟩ : ∃ n : ℕ, v = n := ⟨v.toNat, (Int.toNat_of_nonneg hvr.1).symm⟩
    have hn : n < N := by omega
    have sum1 : ∀ f : ℕ → Part T K → K, ∑ l ∈ foot (partOf st) a b n, f l.1 (memOf st l) =
        ∑ c ∈ ({a, b} : Finset ℕ), (((st c).cell key n).map (f c)).sum := foot_cell ta tb (hv n hn)
    have sum2 : ∀ f : ℕ → Part T K → K, ∑ l ∈ foot (partOf st) a b n, f l.1 (y l) =
        ∑ c ∈ ({a, b} : Finset ℕ), (((putMem st y c).cell key n).map (f c)).sum := by
      intro f
      have e : ∀ l, memOf (putMem st y) l = y l := fun l => hp l.1 l.2
      have := foot_cell (st := putMem st y) (htab a ta) (htab b tb) (hv n hn) f
      simp only [e] at this
      exact this
    obtain ⟨c1, c2, c3⟩ := h.cons n hn w0 h0 (by
      intro l hl
      have hl' : (l.1, l.2) ∈ foot (partOf st) a b n := hl
      rw [hmem n hn] at hl'
      obtain ⟨h1, h2, h3⟩ := hl'
      refine hw l.1 ?_ _ (mem_cell.2 ⟨l.2, h2, rfl, h3⟩)
      rcases h1 with e | e <;> simp [e])
    have m1 := fun i => sum1 fun c p => m c * p.w * p.u i
    have m2 := fun i => sum2 fun c p => m c * p.w * p.u i
    have n1 := sum1 fun c p => m c * p.w * (p.u 0 ^ 2 + p.u 1 ^ 2 + p.u 2 ^ 2)
    have n2 := sum2 fun c p => m c * p.w * (p.u 0 ^ 2 + p.u 1 ^ 2 + p.u 2 ^ 2)
    refine ⟨?_, ?_, ?_⟩
    · intro i
      have := congrFun c1 i
      unfold momAt at this
      rw [m1 i, m2 i] at this
      exact this
    · unfold enAt at c2
      rw [n1, n2] at c2
      exact c2
    · intro he
      have := c3 he
      unfold enAt at this
      rw [n1, n2] at this
      exact this
  · -- no particles there
    have emp : ∀ s : Species T K, InDomain (fun q : Part T K => key q.tag) nx ny nz s.parts → s.cell key v = [] := by
      intro s hd
      unfold Species.cell
      rw [List.filter_eq_nil_iff]
      intro x hx
      have hd := hd x hx
      simp only at hd
      have hw : 0 < nx + 2 := by omega
      have m3 : 0 ≤ (nx + 2) * (1 + (ny + 2) * 1) := mul_nonneg (by omega) (by omega)
      have m4 : nx + (nx + 2) * (ny + (ny + 2) * nz) + 2 + (nx + 2) + (nx + 2) * (ny + 2)
          = (nx + 2) * (ny + 2) * (nz + 2) := by ring
      have m5 : 0 ≤ (nx + 2) * (ny + 2) := mul_nonneg (by omega) (by omega)
      simp only [decide_eq_true_eq]
      intro e
      apply hvr
      omega
    have z1 : ∀ d, (st d).cell key v = [] := fun d => emp _ (hs d).dom
    have z2 : ∀ d, (putMem st y d).cell key v = [] := fun d => emp _ (hdm d)
    unfold cellMom cellEn
    simp [z1, z2]

end Verif.Collide
