import Verif.Charge.Weak

/-!
# Where moves deposit, and where they end
-/
namespace Verif.Charge

open Grid Deposit SfInterface MoveP
open AdvanceP (Args Mem pushOne PushEnds PushOk Unfinished accBase Advance sumAcc itemsOf moverList normDisp inBounds)
open Boundary (AtFace settled)
open Distribute (upTo Rounding)

section
variable {K : Type*} [Field K] [LinearOrder K] [IsStrictOrderedRing K]

/-- Spec: accumulators that are zero outside of the interior voxels. -/
def Tidy (g : LGrid) (a : Accum K) : Prop :=
  ∀ v k, a v k ≠ 0 → ∃ c : Cell, c.Interior g.nx g.ny g.nz ∧ v = VOXEL g.nx g.ny c.x c.y c.z

omit [LinearOrder K] [IsStrictOrderedRing K] in
lemma tidy_zero (g : LGrid) : Tidy g (fun _ _ => (0 : K)) := fun _ _ h => absurd rfl h

omit [LinearOrder K] [IsStrictOrderedRing K] in
lemma Tidy.accAdd {g : LGrid} {a : Accum K} (h : Tidy g a) {c : Cell} (hc : c.Interior g.nx g.ny g.nz)
    (j : Fin 12 → K) : Tidy g (accAdd a (VOXEL g.nx g.ny c.x c.y c.z) j) := by
  intro v k hv
  unfold MoveP.accAdd at hv
  split at hv
  · rename_i e; exact ⟨c, hc, e⟩
  · exact h v k hv

lemma loop_tidy {g : LGrid} (h : LocalMesh g) (q : K) (fuel : ℕ) : ∀ (s : MState K) (c : Cell),
    c.Interior g.nx g.ny g.nz → s.p.i = VOXEL g.nx g.ny c.x c.y c.z → (∀ k, -1 ≤ s.p.d k ∧ s.p.d k ≤ 1) →
    Tidy g s.a → ∀ r s', loop g q fuel s = some (r, s') → Tidy g s'.a := by
  induction fuel with
  | zero => intro s c _ _ _ _ r s' e; simp [loop] at e
  | succ fuel ih =>
    intro s c hc hi hd ht r s' e
    have hrange : 0 ≤ s.p.i ∧ s.p.i < nvox g := by rw [hi]; exact voxel_range h hc.inMesh
    obtain ⟨v3, nx, s1, hp, v0, v1, hb, hspec⟩ := pass_spec g q s hrange hd
    simp only [loop, hp] at e
    have key := ih s1
    have ha := fun j => ht.accAdd hc j
    rw [← hi] at ha
    cases hspec with
    | finished h1 =>
      simp only [Option.some.injEq, Prod.mk.injEq] at e
      obtain ⟨rfl, rfl⟩ := e
      exact ha _
    | boundary axis up h1 hs hface hn hrg =>
      simp only [Option.some.injEq, Prod.mk.injEq] at e
      obtain ⟨rfl, rfl⟩ := e
      exact ha _
    | reflect axis up h1 hs hface hn => exact key c hc hi hb (ha _) r s' e
    | cross axis up h1 hs hface hn hrg =>
      rw [hi] at hrg
      have hadj := h.adj c hc (faceOf axis up) (faceOf_range axis up) hrg.1 hrg.2
      exact key (localNext g c (faceOf axis up)) (localNext_interior h hc (faceOf_range axis up))
        (by simp only [hi]; exact hadj) (by
          intro k
          by_cases hk : k = axis
          · subst hk; simp only [Function.update_self]; cases up <;> simp [sgn]
          · simp only [Function.update_of_ne hk]; exact hb k) (ha _) r s' e

lemma moveP_tidy {g : LGrid} (h : LocalMesh g) (q : K) (fuel : ℕ) (s : MState K) (hp : Within g s.p) (ht : Tidy g s.a)
    {r : Bool × MState K} (e : moveP g q fuel s = some r) : Tidy g r.2.a := by
  obtain ⟨⟨c, hc, hi⟩, hd⟩ := hp
  exact loop_tidy h _ fuel s c hc hi hd ht r.1 r.2 e

/-- Spec: a particle stopped at a face that leads neither to a voxel of its rank nor back. -/
def Stuck (g : LGrid) (p : Part K) : Prop :=
  g.neighbor (6 * (p.i / 8) + p.i % 8) ≠ Grid.reflectParticles ∧
  (g.neighbor (6 * (p.i / 8) + p.i % 8) < g.rangel ∨ g.rangeh < g.neighbor (6 * (p.i / 8) + p.i % 8))

end

section
variable {K : Type} [Field K] [LinearOrder K] [IsStrictOrderedRing K] [Archimedean K]

/-- Where a move ends: inside a cell, or at a face it cannot pass. -/
lemma moveP_ends {g : LGrid} (h : LocalMesh g) (q : K) (fuel : ℕ) (s : MState K) (hp : Within g s.p)
    {r : Bool × MState K} (e : moveP g q fuel s = some r) :
    Within g (settled r) ∧ (r.1 = true → (∃ c f, AtFace g r.2.p c f) ∧ Stuck g r.2.p) := by
  obtain ⟨⟨c, hc, hi⟩, hd⟩ := hp
  obtain ⟨b, s'⟩ := r
  obtain ⟨C', walls, t, hM⟩ := Boundary.moved_of_some g h q fuel s c hc hi hd b s' e
  have hw := wrappedCell_interior h C'
  have key : b = true → ∃ axis up, s'.p.i = 8 * wrappedVoxel g C' + faceOf axis up ∧
      g.neighbor (6 * wrappedVoxel g C' + faceOf axis up) ≠ Grid.reflectParticles ∧
      (g.neighbor (6 * wrappedVoxel g C' + faceOf axis up) < g.rangel ∨
        g.rangeh < g.neighbor (6 * wrappedVoxel g C' + faceOf axis up)) := by
    rintro rfl
    obtain ⟨-, axis, up, e1, -, -, e2, e3⟩ := hM.stopped rfl
    exact ⟨axis, up, e1, e2, e3⟩
  refine ⟨⟨⟨wrappedCell g C', hw, ?_⟩, hM.inCell⟩, ?_⟩
  · unfold settled
    dsimp only
    cases b with
    | false =>
      rw [if_neg (by simp), (hM.done rfl).2]
      rfl
    | true =>
      obtain ⟨axis, up, e1, -⟩ := key rfl
      have := faceOf_range axis up
      rw [if_pos rfl, e1]
      show _ = wrappedVoxel g C'
      omega
  · rintro (rfl : b = true)
    refine ⟨Boundary.atFace_of_moved g h hM, ?_⟩
    obtain ⟨axis, up, e1, e2⟩ := key rfl
    have := faceOf_range axis up
    show Stuck g s'.p
    unfold Stuck
    have a1 : s'.p.i / 8 = wrappedVoxel g C' := by omega
    have a2 : s'.p.i % 8 = faceOf axis up := by omega
    rw [a1, a2]
    exact e2

/-- Where a push ends. -/
lemma push_ends (A : Args K) (h : LocalMesh A.g) {p p' : Part K} {left : Option (Fin 3 → K)} (hp : Within A.g p)
    {a : Accum K} (e : pushOne A p (fun _ _ => 0) = some (p', a, left)) :
    Tidy A.g a ∧ Within A.g { p' with i := if left.isSome then p'.i / 8 else p'.i } ∧
      (left.isSome → (∃ c f, AtFace A.g p' c f) ∧ Stuck A.g p') := by
  unfold pushOne at e
  by_cases hr : p.i < 0 ∨ nvox A.g ≤ p.i
  · rw [if_pos hr] at e; cases e
  rw [if_neg hr] at e
  simp only at e
  split_ifs at e with hb
  · simp only [Option.some.injEq, Prod.mk.injEq] at e
    obtain ⟨rfl, rfl, rfl⟩ := e
    obtain ⟨⟨c, hc, hi⟩, -⟩ := hp
    refine ⟨?_, ⟨⟨c, hc, by simpa using hi⟩, ?_⟩, by simp⟩
    · rw [hi]; exact (tidy_zero A.g).accAdd hc _
    · simp only [inBounds, decide_eq_true_eq] at hb
      intro k
      fin_cases k
      · exact ⟨neg_le.mp hb.2.2.2.1, hb.1⟩
      · exact ⟨neg_le.mp hb.2.2.2.2.1, hb.2.1⟩
      · exact ⟨neg_le.mp hb.2.2.2.2.2, hb.2.2.1⟩
  · revert e
    cases hm : moveP A.g A.qsp A.fuel ⟨{ p with u := Boris.pushU A.rt A.qdt_2mc (A.f0 p.i) p.d p.u },
        normDisp A (Boris.pushU A.rt A.qdt_2mc (A.f0 p.i) p.d p.u), fun _ _ => 0⟩ with
    | none => intro e; cases e
    | some r =>
      intro e
      have hp' : Within A.g { p with u := Boris.pushU A.rt A.qdt_2mc (A.f0 p.i) p.d p.u } := hp
      have ht := moveP_tidy h _ _ _ hp' (tidy_zero A.g) hm
      obtain ⟨k1, k2⟩ := moveP_ends h _ _ _ hp' hm
      obtain ⟨b, s'⟩ := r
      cases b <;>
      · simp only [Option.some.injEq, Prod.mk.injEq] at e
        obtain ⟨rfl, rfl, rfl⟩ := e
        refine ⟨ht, by simpa [settled] using k1, ?_⟩
        first
        | (intro h; cases h; done)
        | exact fun _ => k2 rfl

/-- Spec: the accumulators of the host and of all pipelines are zero outside of the interior voxels. -/
def TidyAll (g : LGrid) (P : ℕ) (acc : ℤ → Fin 12 → K) : Prop :=
  ∀ r ≤ P, ∀ v, 0 ≤ v → v < nvox g → ∀ k, acc (accBase g P r + v) k ≠ 0 →
    ∃ c : Cell, c.Interior g.nx g.ny g.nz ∧ v = VOXEL g.nx g.ny c.x c.y c.z

/-- `advance_p` deposits in interior voxels only. -/
lemma advance_tidy (R : Rounding) (hR : R.Accurate) (A : Args K) (P : ℕ) (hP : 0 < P) (hP2 : P ≤ 2 ^ 16)
    (hN : A.np < 2 ^ 31) (hM : A.max_nm < 2 ^ 31) (h : LocalMesh A.g) (m m' : Mem K)
    (hw : ∀ i : ℤ, 0 ≤ i → i < A.np → Within A.g (m.part i))
    (hok : ∀ i : ℤ, 0 ≤ i → i < A.np → PushOk A (m.part i)) (res : Option ((ℤ → Mover K) × ℕ))
    (hadv : Advance R A P m m' res) (ht : TidyAll A.g P m.acc) : TidyAll A.g P m'.acc := by
  have hv : 0 ≤ nvox A.g := by
    have := h.nx; have := h.ny; have := h.nz
    unfold nvox; positivity
  have hx : ∀ i : ℤ, ∃ x : Part K × Accum K × Option (Fin 3 → K), 0 ≤ i → i < A.np →
      pushOne A (m.part i) (fun _ _ => 0) = some x := by
    intro i
    by_cases hi : 0 ≤ i ∧ i < A.np
    · obtain ⟨p', left, a', h⟩ := hok i hi.1 hi.2
      exact ⟨_, fun _ _ => h⟩
    · exact ⟨⟨m.part i, fun _ _ => 0, none⟩, fun h0 h1 => absurd ⟨h0, h1⟩ hi⟩
  choose x hx using hx
  obtain ⟨ts, h1, h2, -⟩ := hadv
  obtain ⟨hr, -⟩ := AdvanceP.advance_run R hR A P hP hP2 hN hM hv m m' (fun i => (x i).1) (fun i => (x i).2.1)
    (fun i => (x i).2.2) hx ts h1 h2
  intro r hrP v v0 v1 k hne
  rw [(hr r hrP).2.2.1 v v0 v1 k] at hne
  by_cases h0 : m.acc (accBase A.g P r + v) k = 0
  · rw [h0, zero_add] at hne
    by_contra hcon
    apply hne
    unfold sumAcc
    apply List.sum_eq_zero
    intro y hy
    obtain ⟨i, hi, rfl⟩ := List.mem_map.mp hy
    have hin : 0 ≤ i ∧ i < A.np := by
      have := AdvanceP.items_flatten R hR A P hP hP2 hN
      have h2 : i ∈ ((List.range (P + 1)).map (itemsOf R A P)).flatten :=
        List.mem_flatten.mpr ⟨_, List.mem_map.mpr ⟨r, List.mem_range.mpr (by omega), rfl⟩, hi⟩
      rw [this] at h2
      simp only [upTo, List.mem_map, List.mem_range] at h2
      obtain ⟨a, ha, rfl⟩ := h2
      omega
    by_contra hz
    exact hcon ((push_ends A h (hw i hin.1 hin.2) (hx i hin.1 hin.2)).1 v k hz)
  · exact ht r hrP v v0 v1 k h0

end

end Verif.Charge
