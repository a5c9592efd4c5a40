import Verif.Threads.Model
import Verif.Threads.Fields

/-!
# Lemmas for C87

What a step keeps (`Fit`), and how two runs with different numbers of pipelines stay together.
-/
namespace Verif.Threads

open Grid MoveP Charge Torus
open Boundary (Rank Species Env ids finishSpecies live)
open Field (Pos FC FMem World SynchronizeTangENormB)
open Distribute (Rounding upTo)
open AdvanceP (Args Mem Advance moverList PushOk accBase)
open SfInterface (Clear Reduce accArgs pow2Ceil2 nvOf)

section
variable {K : Type} {S : Type*} [Field K] [LinearOrder K] [IsStrictOrderedRing K]

/-! ### Sorting -/

omit [LinearOrder K] [IsStrictOrderedRing K] [Field K] in
lemma mem_contents {p : ℤ → MoveP.Part K} {np : ℕ} {x : MoveP.Part K} :
    x ∈ SortP.contents p np ↔ ∃ i : ℤ, 0 ≤ i ∧ i < np ∧ p i = x := by
  unfold SortP.contents
  rw [List.mem_map]
  constructor
  · rintro ⟨i, hi, rfl⟩
    have := mem_seg.mp hi
    exact ⟨i, by omega, by omega, rfl⟩
  · rintro ⟨i, h0, h1, rfl⟩
    exact ⟨i, mem_seg.mpr (by omega), rfl⟩

lemma settled_inDomain {g : LGrid} (h : LocalMesh g) {s : Species K} (hs : Settled g s) :
    SortP.InDomain MoveP.Part.i g.nx g.ny g.nz (SortP.contents s.p s.np) := by
  intro x hx
  obtain ⟨i, h0, h1, rfl⟩ := mem_contents.mp hx
  obtain ⟨⟨c, hc, e⟩, -⟩ := hs.within i h0 h1
  rw [e]
  have := h.nx; have := h.ny; have := h.nz
  obtain ⟨a1, a2, a3, a4, a5, a6⟩ := hc
  unfold VOXEL
  constructor <;> nlinarith [mul_nonneg (by omega : 0 ≤ g.nx + 2) (by omega : 0 ≤ c.y - 1),
    mul_nonneg (by omega : 0 ≤ g.nx + 2) (by omega : 0 ≤ g.ny - c.y),
    mul_nonneg (mul_nonneg (by omega : 0 ≤ g.nx + 2) (by omega : 0 ≤ g.ny + 2)) (by omega : 0 ≤ c.z - 1),
    mul_nonneg (mul_nonneg (by omega : 0 ≤ g.nx + 2) (by omega : 0 ≤ g.ny + 2)) (by omega : 0 ≤ g.nz - c.z)]

omit [Field K] [LinearOrder K] [IsStrictOrderedRing K] in
lemma sort_threads {Rd : Rounding} {P : ℕ} {g : LGrid} {s s' : Species K} (h1 : SortSpecies Rd P g s s') : P ≤ 256 := by
  obtain ⟨Q, aux, part, part', p', e, -⟩ := h1
  by_contra hc
  rw [SortP.sort_fails_above_256 Rd _ Q aux P (by omega)] at e
  simp at e

/-- Sorting with different numbers of pipelines. -/
lemma sort_same {Rd Rd' : Rounding} (hR : Rd.Accurate) (hR' : Rd'.Accurate) {P P' : ℕ} (hP : 0 < P) (hP' : 0 < P') {g : LGrid}
    (h : LocalMesh g) {s t s' t' : Species K} (hst : SameSp s t) (hs : Settled g s) (h1 : SortSpecies Rd P g s s')
    (h2 : SortSpecies Rd' P' g t t') : SameSp s' t' := by
  have l1 := sort_threads h1
  have l2 := sort_threads h2
  obtain ⟨Q, aux, part, part', p', e, rfl⟩ := h1
  obtain ⟨Q2, aux2, part2, part2', p2', e2, rfl⟩ := h2
  rw [← hst.np] at e2
  have ec : SortP.contents t.p s.np = SortP.contents s.p s.np := by
    refine List.map_congr_left fun i hi => ?_
    have := mem_seg.mp hi
    exact (hst.p i (by omega) (by omega)).symm
  have hd := settled_inDomain h hs
  obtain ⟨q1, _, f1, s1, -⟩ := SortP.sort_stable Rd hR MoveP.Part.i Q aux P hP l1 g.nx g.ny g.nz h.nx h.ny h.nz s.np hs.np31 s.p
    part hd
  obtain ⟨q2, _, f2, s2, -⟩ := SortP.sort_stable Rd' hR' MoveP.Part.i Q2 aux2 P' hP' l2 g.nx g.ny g.nz h.nx h.ny h.nz s.np
    hs.np31 t.p part2 (by rw [ec]; exact hd)
  rw [e, Option.some.injEq, Prod.mk.injEq] at f1
  rw [e2, Option.some.injEq, Prod.mk.injEq] at f2
  obtain ⟨rfl, -⟩ := f1
  obtain ⟨rfl, -⟩ := f2
  rw [ec] at s2
  have eq := SortP.stableSort_unique _ _ _ _ s1 s2
  refine ⟨hst.q, fun i h0 h1 => ?_, hst.np, hst.max_np, hst.nm, hst.max_nm, hst.pm⟩
  exact (List.map_inj_left.mp eq) i (mem_seg.mpr (by simp only at h1; omega))

lemma sort_settled {Rd : Rounding} (hR : Rd.Accurate) {P : ℕ} (hP : 0 < P) {g : LGrid} (h : LocalMesh g) {s s' : Species K}
    (hs : Settled g s) (h1 : SortSpecies Rd P g s s') : Settled g s' := by
  have l1 := sort_threads h1
  obtain ⟨Q, aux, part, part', p', e, rfl⟩ := h1
  obtain ⟨q, _, e', st, -⟩ := SortP.sort_stable Rd hR MoveP.Part.i Q aux P hP l1 g.nx g.ny g.nz h.nx h.ny h.nz s.np hs.np31 s.p
    part (settled_inDomain h hs)
  rw [e', Option.some.injEq, Prod.mk.injEq] at e
  obtain ⟨rfl, -⟩ := e
  refine ⟨hs.np, hs.np31, hs.nm31, fun i h0 h1 => ?_⟩
  have : q i ∈ SortP.contents q s.np := mem_contents.mpr ⟨i, h0, h1, rfl⟩
  rw [st.perm.mem_iff] at this
  obtain ⟨j, j0, j1, e⟩ := mem_contents.mp this
  show Within g (q i)
  rw [← e]
  exact hs.within j j0 j1

/-! ### The push -/

lemma nvox_nonneg' {g : LGrid} (h : LocalMesh g) : 0 ≤ nvox g := by
  have := h.nx; have := h.ny; have := h.nz
  unfold nvox; positivity

/-- One species. -/
lemma push_same {Rd Rd' : Rounding} (hR : Rd.Accurate) (hR' : Rd'.Accurate) {P P' : ℕ} (hP : 0 < P) (hP2 : P ≤ 2 ^ 16)
    (hP' : 0 < P') (hP2' : P' ≤ 2 ^ 16) {g : LGrid} (h : LocalMesh g) {fuel : ℕ} {X : PushPar K} {id : ℕ} {s t : Species K}
    (hst : SameSp s t) (hs : Pushable g fuel X id s) {m1 m1' m2 m2' : Mem K} {pm1 pm2 : ℤ → Mover K} {nm1 nm2 : ℕ}
    (e1 : m1.part = s.p) (e2 : m2.part = t.p) (h1 : Advance Rd (pushArgs g fuel X id s) P m1 m1' (some (pm1, nm1)))
    (h2 : Advance Rd' (pushArgs g fuel X id t) P' m2 m2' (some (pm2, nm2))) (q1 : Quiet P m1') (q2 : Quiet P' m2') :
    SameSp { s with p := m1'.part, pm := pm1, nm := nm1 } { t with p := m2'.part, pm := pm2, nm := nm2 } ∧
    ∀ v k, totalOf g P' m2'.acc v k - totalOf g P' m2.acc v k = totalOf g P m1'.acc v k - totalOf g P m1.acc v k := by
  have ea : pushArgs g fuel X id t = pushArgs g fuel X id s := by
    unfold pushArgs
    rw [hst.q, hst.np, hst.max_nm]
  rw [ea] at h2
  have hok : ∀ i : ℤ, 0 ≤ i → i < s.np → PushOk (pushArgs g fuel X id s) (m1.part i) := by rw [e1]; exact hs.ok
  have e12 : ∀ i : ℤ, 0 ≤ i → i < (pushArgs g fuel X id s).np → m2.part i = m1.part i := fun i h0 h1 => by
    rw [e1, e2]; exact (hst.p i h0 h1).symm
  obtain ⟨a, b, nm, r1, r2, -, r3, r4, r5⟩ := advance_p_any_threads Rd Rd' hR hR' (pushArgs g fuel X id s) P P' hP hP2 hP' hP2'
    hs.np31 hs.nm31 (nvox_nonneg' h) m1 m1' m2 m2' e12 hok _ _ h1 h2 q1 q2
  simp only [Option.some.injEq, Prod.mk.injEq] at r1 r2
  obtain ⟨rfl, rfl⟩ := r1
  obtain ⟨rfl, rfl⟩ := r2
  exact ⟨⟨hst.q, fun i h0 h1 => (r4 i h0 h1).symm, hst.np, hst.max_np, rfl, hst.max_nm, r3⟩, r5⟩

/-- All species. -/
lemma pushes_same {Rd Rd' : Rounding} (hR : Rd.Accurate) (hR' : Rd'.Accurate) {P P' : ℕ} (hP : 0 < P) (hP2 : P ≤ 2 ^ 16)
    (hP' : 0 < P') (hP2' : P' ≤ 2 ^ 16) {g : LGrid} (h : LocalMesh g) {fuel : ℕ} {X : PushPar K} {l : List ℕ}
    {sp sp' : ℕ → Species K} {acc acc' : ℤ → Fin 12 → K} (h1 : QuietPushes Rd g fuel X P l sp acc sp' acc') (hl : l.Nodup)
    (hs : ∀ id ∈ l, Pushable g fuel X id (sp id)) : ∀ {tp tp' : ℕ → Species K} {acc2 acc2' : ℤ → Fin 12 → K},
    (∀ id, SameSp (sp id) (tp id)) → QuietPushes Rd' g fuel X P' l tp acc2 tp' acc2' →
    (∀ id, SameSp (sp' id) (tp' id)) ∧
    ∀ v k, totalOf g P' acc2' v k - totalOf g P' acc2 v k = totalOf g P acc' v k - totalOf g P acc v k := by
  induction h1 with
  | nil sp acc =>
    intro tp tp' acc2 acc2' hst h2
    cases h2
    exact ⟨hst, fun v k => by ring⟩
  | cons id l sp m m' pm nm sp' acc' hm1 _ hadv hq _ ih =>
    intro tp tp' acc2 acc2' hst h2
    rw [List.nodup_cons] at hl
    cases h2 with
    | cons _ _ _ n n' pm2 nm2 _ _ hn1 _ hadv2 hq2 hrest =>
      obtain ⟨k1, k2⟩ := push_same hR hR' hP hP2 hP' hP2' h (hst id) (hs id (by simp)) hm1 hn1 hadv hadv2 hq hq2
      obtain ⟨i1, i2⟩ := ih hl.2 (fun j hj => by
        have hne : j ≠ id := fun e => hl.1 (e ▸ hj)
        rw [Function.update_of_ne hne]
        exact hs j (by simp [hj])) (sameSp_update hst k1 id) hrest
      refine ⟨i1, fun v k => ?_⟩
      linear_combination i2 v k + k2 v k

lemma quiet_pushes {Rd : Rounding} {P : ℕ} {g : LGrid} {fuel : ℕ} {X : PushPar K} {l : List ℕ}
    {sp sp' : ℕ → Species K} {acc acc' : ℤ → Fin 12 → K} (h : QuietPushes Rd g fuel X P l sp acc sp' acc') :
    Pushes Rd g fuel X P l sp acc sp' acc' := by
  induction h with
  | nil sp acc => exact .nil sp acc
  | cons id l sp m m' pm nm sp' acc' hm1 hm2 hadv _ _ ih => exact .cons id l sp m m' pm nm sp' acc' hm1 hm2 hadv ih

lemma pushes_tidy [Archimedean K] {Rd : Rounding} (hR : Rd.Accurate) {P : ℕ} (hP : 0 < P) (hP2 : P ≤ 2 ^ 16) {g : LGrid} (h : LocalMesh g)
    {fuel : ℕ} {X : PushPar K} {l : List ℕ} {sp sp' : ℕ → Species K} {acc acc' : ℤ → Fin 12 → K}
    (hp : Pushes Rd g fuel X P l sp acc sp' acc') (hl : l.Nodup) (hs : ∀ id ∈ l, Pushable g fuel X id (sp id))
    (ht : TidyAll g P acc) : TidyAll g P acc' := by
  induction hp with
  | nil => exact ht
  | cons id l sp m m' pm nm sp' acc' hm1 _ hadv _ ih =>
    rw [List.nodup_cons] at hl
    have hj := hs id (by simp)
    refine ih hl.2 (fun j hj => ?_) (advance_tidy Rd hR (pushArgs g fuel X id (sp id)) P hP hP2 hj.np31 hj.nm31 h m m'
      (by rw [hm1]; exact hj.within) (by rw [hm1]; exact hj.ok) _ hadv ht)
    have hne : j ≠ id := fun e => hl.1 (e ▸ hj)
    rw [Function.update_of_ne hne]
    exact hs j (by simp [hj])

/-- After clearing, pushing and reducing: the first copy of the accumulators. -/
lemma phase_facts [Archimedean K] {Rd : Rounding} (hR : Rd.Accurate) {P nf : ℕ} (hP : 0 < P) (hP2 : P ≤ 2 ^ 16) (hnf : 12 ≤ nf)
    {g : LGrid} (h : LocalMesh g) (hint' : (accArgs g.nx g.ny g.nz nf P).n < 2 ^ 31)
    (hint : (P : ℤ) * (pow2Ceil2 (nvOf g.nx g.ny g.nz) * nf) < 2 ^ 31) {fuel : ℕ} {X : PushPar K} {l : List ℕ}
    {sp sp' : ℕ → Species K} {st st1 st2 st' : ℤ → K} (hl : l.Nodup) (hs : ∀ id ∈ l, Pushable g fuel X id (sp id))
    (ht : TidyAll g P (accOf nf st)) (c1 : Clear Rd (accArgs g.nx g.ny g.nz nf P) P st st1)
    (c2 : QuietPushes Rd g fuel X P l sp (accOf nf st1) sp' (accOf nf st2))
    (c3 : Reduce Rd (accArgs g.nx g.ny g.nz nf P) P st2 st') :
    TidyAll g P (accOf nf st') ∧ Tidy g (hostAcc g nf st') ∧ hostAcc g nf st' = totalOf g P (accOf nf st2) ∧
    totalOf g P (accOf nf st1) = fun _ _ => 0 := by
  have z := clear_blocks h Rd hR nf P hnf hP hP2 hint' st st1 ht c1
  have t1 : TidyAll g P (accOf nf st1) := fun b hb v h0 h1 k hne => absurd (z b hb v h0 h1 k) hne
  have t2 := pushes_tidy hR hP hP2 h (quiet_pushes c2) hl hs t1
  have e := reduce_host h Rd hR nf P hnf hP hP2 hint' hint st2 st' t2 c3
  refine ⟨reduce_tidy h Rd hR nf P hnf hP hP2 hint' hint st2 st' t2 c3, ?_, e, ?_⟩
  · rw [e]
    intro v k hne
    unfold totalOf at hne
    split at hne
    · rename_i hv
      by_contra hc
      apply hne
      apply List.sum_eq_zero
      intro y hy
      obtain ⟨b, hb, rfl⟩ := List.mem_map.mp hy
      by_contra hy
      exact hc (t2 b (by have := List.mem_range.mp hb; omega) v hv.1 hv.2 k hy)
    · exact absurd rfl hne
  · funext v k
    unfold totalOf
    split
    · rename_i hv
      apply List.sum_eq_zero
      intro y hy
      obtain ⟨b, hb, rfl⟩ := List.mem_map.mp hy
      exact z b (by have := List.mem_range.mp hb; omega) v hv.1 hv.2 k
    · rfl

/-- Two push phases with different numbers of pipelines. -/
lemma phase_same [Archimedean K] {Rd Rd' : Rounding} (hR : Rd.Accurate) (hR' : Rd'.Accurate) {P P' nf : ℕ} (hP : 0 < P)
    (hP2 : P ≤ 2 ^ 16) (hP' : 0 < P') (hP2' : P' ≤ 2 ^ 16) (hnf : 12 ≤ nf) {g : LGrid} (h : LocalMesh g)
    (i1 : (accArgs g.nx g.ny g.nz nf P).n < 2 ^ 31) (i2 : (P : ℤ) * (pow2Ceil2 (nvOf g.nx g.ny g.nz) * nf) < 2 ^ 31)
    (i1' : (accArgs g.nx g.ny g.nz nf P').n < 2 ^ 31) (i2' : (P' : ℤ) * (pow2Ceil2 (nvOf g.nx g.ny g.nz) * nf) < 2 ^ 31)
    {fuel : ℕ} {X : PushPar K} {l : List ℕ} {sp sp' tp tp' : ℕ → Species K} {st st' su su' : ℤ → K} (hl : l.Nodup)
    (hs : ∀ id ∈ l, Pushable g fuel X id (sp id)) (hst : ∀ id, SameSp (sp id) (tp id))
    (ht : TidyAll g P (accOf nf st)) (hu : TidyAll g P' (accOf nf su))
    (h1 : QuietPhase Rd g fuel X P nf l sp st sp' st') (h2 : QuietPhase Rd' g fuel X P' nf l tp su tp' su') :
    (∀ id, SameSp (sp' id) (tp' id)) ∧ hostAcc g nf st' = hostAcc g nf su' := by
  obtain ⟨a1, a2, c1, c2, c3⟩ := h1
  obtain ⟨b1, b2, d1, d2, d3⟩ := h2
  have hs' : ∀ id ∈ l, Pushable g fuel X id (tp id) := fun id hid => by
    have := hs id hid
    have e := hst id
    refine ⟨by rw [← e.np, ← e.max_np]; exact this.np, by rw [← e.np]; exact this.np31, by rw [← e.max_nm]; exact this.nm31,
      fun i h0 h1 => by rw [← e.p i h0 (by rw [e.np]; exact h1)]; exact this.within i h0 (by rw [e.np]; exact h1), fun i h0 h1 => ?_⟩
    have ea : pushArgs g fuel X id (tp id) = pushArgs g fuel X id (sp id) := by
      unfold pushArgs
      rw [e.q, e.np, e.max_nm]
    rw [← e.np] at h1
    rw [ea, ← e.p i h0 h1]
    exact this.ok i h0 h1
  obtain ⟨-, -, f1, f2⟩ := phase_facts hR hP hP2 hnf h i1 i2 hl hs ht c1 c2 c3
  obtain ⟨-, -, g1, g2⟩ := phase_facts hR' hP' hP2' hnf h i1' i2' hl hs' hu d1 d2 d3
  obtain ⟨k1, k2⟩ := pushes_same hR hR' hP hP2 hP' hP2' h c2 hl hs hst d2
  refine ⟨k1, ?_⟩
  rw [f1, g1]
  funext v k
  have := k2 v k
  rw [f2, g2] at this
  simpa using this.symm

/-! ### The end of the step -/

lemma finishSpecies_same (g : LGrid) (r8V : K) {s t s' t' : Species K} (hst : SameSp s t) (hs : SoundSp g s) {rhob ρ1 ρ2 : ℤ → K}
    (h1 : finishSpecies g r8V s rhob = some (s', ρ1)) (h2 : finishSpecies g r8V t rhob = some (t', ρ2)) :
    ρ1 = ρ2 ∧ SameSp s' t' := by
  unfold finishSpecies at h1 h2
  rw [← hst.q, ← hst.max_np, ← hst.nm, ← hst.np] at h2
  rw [Option.map_eq_some_iff] at h1 h2
  obtain ⟨⟨p, np, ρ⟩, e1, e2⟩ := h1
  obtain ⟨⟨p', np', ρ'⟩, f1, f2⟩ := h2
  simp only [Prod.mk.injEq] at e2 f2
  obtain ⟨rfl, rfl⟩ := e2
  obtain ⟨rfl, rfl⟩ := f2
  obtain ⟨rfl, rfl, k⟩ := dropMovers_same _ _ (fun p d s x y a b => Option.some.inj (a.symm.trans b)) _ _ _ _ hst.pm _ _ _ _
    hst.p (ordered_room hs.ordered) e1 f1
  exact ⟨rfl, rfl, k, rfl, rfl, rfl, hst.max_nm, fun k h0 h1 => absurd h1 (by simp only [Nat.cast_zero]; omega)⟩

lemma finishAll_same (g : LGrid) (r8V : K) (l : List ℕ) (hl : l.Nodup) : ∀ {sp tp sp' tp' : ℕ → Species K} {rhob ρ1 ρ2 : ℤ → K},
    (∀ id, SameSp (sp id) (tp id)) → (∀ id ∈ l, SoundSp g (sp id)) → finishAll g r8V l sp rhob = some (sp', ρ1) →
    finishAll g r8V l tp rhob = some (tp', ρ2) → ρ1 = ρ2 ∧ ∀ id, SameSp (sp' id) (tp' id) := by
  induction l with
  | nil =>
    intro sp tp sp' tp' rhob ρ1 ρ2 hst _ h1 h2
    simp only [finishAll, Option.some.injEq, Prod.mk.injEq] at h1 h2
    obtain ⟨rfl, rfl⟩ := h1
    obtain ⟨rfl, rfl⟩ := h2
    exact ⟨rfl, hst⟩
  | cons id l ih =>
    intro sp tp sp' tp' rhob ρ1 ρ2 hst hs h1 h2
    rw [List.nodup_cons] at hl
    simp only [finishAll, Option.bind_eq_some_iff] at h1 h2
    obtain ⟨⟨s, ρ⟩, e1, e2⟩ := h1
    obtain ⟨⟨t, ρ'⟩, f1, f2⟩ := h2
    obtain ⟨rfl, k⟩ := finishSpecies_same g r8V (hst id) (hs id (by simp)) e1 f1
    refine ih hl.2 (sameSp_update hst k id) (fun j hj => ?_) e2 f2
    have hne : j ≠ id := fun e => hl.1 (e ▸ hj)
    rw [Function.update_of_ne hne]
    exact hs j (by simp [hj])

lemma finishRank_same (E : Env K S) {R T R' T' : Rank K S} (h : SameRank R T) (hs : Sound E R) (h1 : finishRank E R = some R')
    (h2 : finishRank E T = some T') : SameRank R' T' := by
  unfold finishRank at h1 h2
  rw [Option.map_eq_some_iff] at h1 h2
  obtain ⟨⟨sp, ρ⟩, e1, rfl⟩ := h1
  obtain ⟨⟨tp, ρ'⟩, e2, rfl⟩ := h2
  rw [← h.rhob] at e2
  obtain ⟨rfl, k⟩ := finishAll_same E.g E.r8V _ (ids_nodup _) h.sp (fun id hid => hs id ((Boundary.mem_ids _ _).mp hid)) e1 e2
  exact ⟨k, h.a, rfl, h.st, h.warn⟩

lemma finishSpecies_settled {g : LGrid} (hg : LocalMesh g) (r8V : K) {s s' : Species K} (hs : SoundSp g s) (hz : Sized s)
    {rhob rhob' : ℤ → K} (h : finishSpecies g r8V s rhob = some (s', rhob')) : Settled g s' ∧ Sized s' := by
  obtain ⟨t, ρ, e, h1, h2, h3, h4, h5, -⟩ := Boundary.end_of_step hg r8V s hs.np hs.ordered.1
    (fun m hm => ⟨(hs.ordered.2 m hm).1, (hs.ordered.2 m hm).2, hs.stopped m hm⟩) rhob
  have hz' : s'.max_nm = s.max_nm := by
    unfold finishSpecies at h
    rw [Option.map_eq_some_iff] at h
    obtain ⟨⟨p, np, ρ⟩, e1, e2⟩ := h
    simp only [Prod.mk.injEq] at e2
    obtain ⟨rfl, rfl⟩ := e2
    rfl
  rw [h, Option.some.injEq, Prod.mk.injEq] at e
  obtain ⟨rfl, rfl⟩ := e
  have hn := hs.np
  have z1 := hz.1
  refine ⟨⟨by rw [h3]; omega, by omega, by rw [hz']; exact hz.2, fun i i0 i1 => ?_⟩, by rw [Sized, h3, hz']; exact hz⟩
  have : s'.p i ∈ live s'.p s'.np := List.mem_map.mpr ⟨i, SfInterface.upTo_mem.mpr ⟨i0, i1⟩, rfl⟩
  rw [h5.mem_iff] at this
  refine hs.within _ ?_
  rw [(placed_perm s hs.ordered).mem_iff, List.mem_append]
  exact Or.inr this

lemma finishAll_settled {g : LGrid} (hg : LocalMesh g) (r8V : K) (l : List ℕ) (hl : l.Nodup) :
    ∀ {sp sp' : ℕ → Species K} {rhob rhob' : ℤ → K}, (∀ id ∈ l, SoundSp g (sp id) ∧ Sized (sp id)) →
    finishAll g r8V l sp rhob = some (sp', rhob') →
    (∀ id ∈ l, Settled g (sp' id) ∧ Sized (sp' id)) ∧ ∀ id, id ∉ l → sp' id = sp id := by
  induction l with
  | nil =>
    intro sp sp' rhob rhob' _ h
    simp only [finishAll, Option.some.injEq, Prod.mk.injEq] at h
    obtain ⟨rfl, rfl⟩ := h
    exact ⟨by simp, fun _ _ => rfl⟩
  | cons id l ih =>
    intro sp sp' rhob rhob' hs h
    rw [List.nodup_cons] at hl
    simp only [finishAll, Option.bind_eq_some_iff] at h
    obtain ⟨⟨s, ρ⟩, e1, e2⟩ := h
    have k := finishSpecies_settled hg r8V (hs id (by simp)).1 (hs id (by simp)).2 e1
    obtain ⟨i1, i2⟩ := ih hl.2 (fun j hj => by
      have hne : j ≠ id := fun e => hl.1 (e ▸ hj)
      rw [Function.update_of_ne hne]
      exact hs j (by simp [hj])) e2
    refine ⟨fun j hj => ?_, fun j hj => ?_⟩
    · rcases List.mem_cons.mp hj with rfl | hj
      · rw [i2 j hl.1, Function.update_self]
        exact k
      · exact i1 j hj
    · rw [List.mem_cons, not_or] at hj
      rw [i2 j hj.2, Function.update_of_ne hj.1]

end

end Verif.Threads
