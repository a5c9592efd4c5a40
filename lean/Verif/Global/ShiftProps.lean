import Verif.Global.Shift

/-!
# C101 and C102
-/
namespace Verif.Global

open Grid MoveP Charge Torus Threads
open Boundary (live)
open Field (Pos FC FMem World EntOn fieldExt vox)

variable {K : Type} [Field K] [LinearOrder K] [IsStrictOrderedRing K] [Archimedean K] {S : Type*}

omit [IsStrictOrderedRing K] [Archimedean K] in
lemma gather_inside {n : ℕ} {Z : Setup K S n} (hD : Z.D.ok n = true) (R : Fin n → Boundary.Rank K S) (id : ℕ) :
    InBox (Torus.sizeOf Z.D) (gather Z.D Z.B R id) := by
  intro p hp
  unfold gather at hp
  rw [Multiset.mem_sum] at hp
  obtain ⟨r, -, hp⟩ := hp
  rw [Multiset.mem_map] at hp
  obtain ⟨p0, -, rfl⟩ := hp
  intro a
  have h := (Z.D.ok_iff n).mp hD
  have hp : 1 ≤ Field.ranksOf Z.D a := by fin_cases a; exacts [h.px, h.py, h.pz]
  have hl : 1 ≤ Charge.cellsOf Z.D a := by fin_cases a; exacts [h.lx_pos, h.ly_pos, h.lz_pos]
  have : 0 < Field.ranksOf Z.D a * Charge.cellsOf Z.D a := by positivity
  exact ⟨Int.emod_nonneg _ this.ne', Int.emod_lt_of_pos _ this⟩

omit [Field K] [LinearOrder K] [IsStrictOrderedRing K] [Archimedean K] in
lemma same_ahead (T : Pos) (U : Universe K) : SameU T U (U.ahead T) where
  N := rfl
  C := rfl
  M := ⟨fun a s hs => by show U.M.edge a _ = _; rw [ahead_back T hs], fun a s hs => by show U.M.face a _ = _; rw [ahead_back T hs],
    fun s hs => by show U.M.node _ = _; rw [ahead_back T hs]⟩
  sc := rfl
  nsp := rfl
  q := rfl

/-- **C101.** Two runs of the same periodic box, the second with all fields, particles and materials `T` cells further, cut in
different ways, with different numbers of ranks and pipelines, interleavings and sort intervals: they print the same errors, and at the
end the particles and the fields of the second are those of the first, `T` cells further. -/
theorem run_any_place {n1 n2 : ℕ} {Z1 : Setup K S n1} {Z2 : Setup K S n2} {V : Drive K} {si : ℕ → ℤ} (hZ1 : Cut Z1 V)
    (hZ2 : Cut Z2 { V with sort_interval := si }) {q : ℕ → K} (T : Pos) (hU : universeOf Z2 q = (universeOf Z1 q).ahead T) {x0 : Box K}
    {μ0 μ1 μ2 : Machine K S n1} (hμ : Fit Z1 μ0) (hμ' : Holding Z1 q μ0 x0)
    {ν0 ν1 ν2 : Machine K S n2} (hν : Fit Z2 ν0) (hν' : Holding Z2 q ν0 (x0.ahead (Torus.sizeOf Z1.D) T))
    {A : Settings} {l1 l2 k1 k2 : List (Msg K)} {i j : ℤ}
    (h1 : Begin Z1 V μ0 μ1 l1) (h2 : Cycles Z1 V A i μ1 j μ2 l2)
    (g1 : Begin Z2 { V with sort_interval := si } ν0 ν1 k1) (g2 : Cycles Z2 { V with sort_interval := si } A i ν1 j ν2 k2) :
    l1 ++ l2 = k1 ++ k2 ∧
    (∀ id < Z1.nsp, gather Z2.D Z2.B ν2.R id = (gather Z1.D Z1.B μ2.R id).map (GPart.ahead (Torus.sizeOf Z1.D) T)) ∧
    ∀ k, Kept k → ∀ r1 c1 r2 c2, EntOn (Z1.F r1).g fieldExt k c1 → EntOn (Z2.F r2).g fieldExt k c2 →
      siteAt Z2.D r2 c2 = ahead (Torus.sizeOf Z1.D) T (siteAt Z1.D r1 c1) →
      ν2.m r2 (vox (Z2.F r2).g c2, k) = μ2.m r1 (vox (Z1.F r1).g c1, k) := by
  obtain ⟨a1, x, a2, a3⟩ := run_in_box hZ1 hμ hμ' h1 h2
  obtain ⟨b1, y, b2, b3⟩ := run_in_box hZ2 hν hν' g1 g2
  rw [hU] at b1 b2
  have hs := same_ahead T (universeOf Z1 q)
  have hV : ∀ id, lawAt { V with sort_interval := si } ((universeOf Z1 q).ahead T).q id = lawAt V (universeOf Z1 q).q id := fun _ => rfl
  have hx : SameX T (universeOf Z1 q) x0 (x0.ahead (Torus.sizeOf Z1.D) T) :=
    ⟨fun id hid => rfl, fun id hid => by rw [← hμ'.parts id hid]; exact gather_inside hZ1.fits.box.ok _ _,
      fun k s hs => congrArg (x0.f k) (ahead_back T hs)⟩
  obtain ⟨hb, hb'⟩ := boxBegin_ahead hs hV rfl hx
  obtain ⟨hc, hc'⟩ := boxCycles_ahead hs hV rfl hb a2 b2
  have hn : Z2.nsp = Z1.nsp := congrArg Universe.nsp hU
  refine ⟨?_, fun id hid => ?_, fun k hk r1 c1 r2 c2 e1 e2 es => ?_⟩
  · rw [a1, b1, hb', hc']
  · rw [a3.parts id hid, b3.parts id (hn ▸ hid)]
    exact hc.parts id hid
  · rw [a3.fields k hk r1 c1 e1, b3.fields k hk r2 c2 e2, es]
    exact hc.fields k _ fun a => site_range hZ1.fits.box.ok r1 c1 a

omit [IsStrictOrderedRing K] [Archimedean K] in
lemma walk_w {N : Pos} (q : K) (fuel : ℕ) : ∀ {p : GPart K} {disp : Fin 3 → K} {x : GPart K × GAccum K},
    walk N q fuel p disp = some x → x.1.w = p.w := by
  induction fuel with
  | zero => intro p disp x h; simp [walk] at h
  | succ fuel ih =>
    intro p disp x h
    unfold walk at h
    rcases hst : (streakOf p.d disp).2.1 with _ | a
    · simp only [hst, Option.some.injEq] at h
      rw [← h]
    · simp only [hst, Option.map_eq_some_iff] at h
      obtain ⟨y, h2, rfl⟩ := h
      have := ih h2
      exact this

omit [IsStrictOrderedRing K] [Archimedean K] in
lemma push_w {N : Pos} {fi : Pos → Boris.Interp K} {L : Law K} {fuel : ℕ} {p : GPart K} {x : GPart K × GAccum K}
    (h : push N fi L fuel p = some x) : x.1.w = p.w := by
  unfold push at h
  simp only at h
  split_ifs at h with hb
  · simp only [Option.some.injEq] at h
    rw [← h]
  · have := walk_w _ _ h
    exact this

omit [IsStrictOrderedRing K] [Archimedean K] in
lemma boxCycles_w {U : Universe K} {V : Drive K} {A : Settings} {i j : ℤ} {x y : Box K} {l : List (Msg K)} (h : BoxCycles U V A i x j y l)
    (id : ℕ) : (y.parts id).map (·.w) = (x.parts id).map (·.w) := by
  induction h with
  | refl => rfl
  | step _ hc ih =>
    obtain ⟨adv, a1, a2, -⟩ := hc.run
    rw [← ih, a2]
    split_ifs with hid
    · rw [Multiset.map_map]
      exact Multiset.map_congr rfl fun p hp => push_w (a1 id hid p hp)
    · rfl

omit [Field K] [LinearOrder K] [IsStrictOrderedRing K] [Archimedean K] in
lemma gather_w {n : ℕ} (D : Decomp) (B : Fin n → Boundary.Env K S) (R : Fin n → Boundary.Rank K S) (id : ℕ) :
    (gather D B R id).map (·.w) = ∑ r, ((live ((R r).sp id).p ((R r).sp id).np).map (·.w) : Multiset K) := by
  unfold gather
  rw [show ∀ P : Multiset (GPart K), P.map (·.w) = Multiset.mapAddMonoidHom (·.w) P from fun _ => rfl, map_sum]
  refine Finset.sum_congr rfl fun r _ => ?_
  rw [Multiset.coe_mapAddMonoidHom, Multiset.map_map, ← Multiset.map_coe]
  rfl

/-- **C102.** In a periodic box, from `initialize` through any number of steps, each species keeps its particles: their number and
their weights, each as often as before. -/
theorem particles_kept {n : ℕ} {Z : Setup K S n} {V : Drive K} (hZ : Cut Z V) {q : ℕ → K} {x0 : Box K} {μ0 μ1 μ2 : Machine K S n}
    (hμ : Fit Z μ0) (h0 : Holding Z q μ0 x0) {A : Settings} {l1 l2 : List (Msg K)} {i j : ℤ} (h1 : Begin Z V μ0 μ1 l1)
    (h2 : Cycles Z V A i μ1 j μ2 l2) (id : ℕ) (hid : id < Z.nsp) :
    (∑ r, ((live ((μ2.R r).sp id).p ((μ2.R r).sp id).np).map (·.w) : Multiset K)) =
      ∑ r, ((live ((μ0.R r).sp id).p ((μ0.R r).sp id).np).map (·.w) : Multiset K) ∧
    ∑ r, ((μ2.R r).sp id).np = ∑ r, ((μ0.R r).sp id).np := by
  obtain ⟨-, x, a2, a3⟩ := run_in_box hZ hμ h0 h1 h2
  have key : (∑ r, ((live ((μ2.R r).sp id).p ((μ2.R r).sp id).np).map (·.w) : Multiset K)) =
      ∑ r, ((live ((μ0.R r).sp id).p ((μ0.R r).sp id).np).map (·.w) : Multiset K) := by
    rw [← gather_w Z.D Z.B, ← gather_w Z.D Z.B, a3.parts id hid, h0.parts id hid, boxCycles_w a2]
    unfold boxBegin
    simp only
    split_ifs
    · rw [Multiset.map_map]
      rfl
    · rfl
  refine ⟨key, ?_⟩
  have := congrArg Multiset.cardHom key
  rw [map_sum, map_sum] at this
  simpa [live, Distribute.upTo] using this

end Verif.Global
