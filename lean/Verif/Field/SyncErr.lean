import Verif.Field.SyncProps
import Verif.Field.WorldSample

/-!
# The error returned by `synchronize_tang_e_norm_b`, message lengths, existence (C31, C32)
-/
namespace Verif.Field

open Grid

/-! ### What stays as it was -/

section Frame
variable {K : Type*} [Field K]

/-- Nothing but the current of edges, the charge densities of nodes, or E, its damping term and B changes. -/
theorem synchronize_frame {n : ℕ} {W : World K n} (hW : W.Linked) (m m' : Fin n → FMem K) (r : Fin n) (x : Addr) :
    (SynchronizeJf W m m' → (∀ a c, EdgeOn (W r).g a c → x ≠ (vox (W r).g c, .jf a)) → m' r x = m r x) ∧
    (SynchronizeRho W m m' → (∀ c, NodeOn (W r).g c → x ≠ (vox (W r).g c, .rhof) ∧ x ≠ (vox (W r).g c, .rhob)) →
      m' r x = m r x) ∧
    (∀ gerr, SynchronizeTangENormB W m m' gerr → (∀ a c, EdgeOn (W r).g a c →
        x ≠ (vox (W r).g c, .e a) ∧ x ≠ (vox (W r).g c, .tca a)) →
      (∀ a c, FaceOn (W r).g a c → x ≠ (vox (W r).g c, .cb a)) → m' r x = m r x) := by
  refine ⟨?_, ?_, ?_⟩
  · rintro ⟨adj, h1, st', h2, h3⟩ hx
    rw [h3 r, passes_frame hW shape_jf h2 r x ?_]
    · exact (jf_at_walls (hW.mesh r) (h1 r) (m r)).2.2 x fun a c s h _ _ => hx a c h
    · rintro c k hc ⟨a, rfl⟩
      exact hx a c (entOn_edge.2.2.mp hc)
  · rintro ⟨af, ab, h1, st', h2, h3⟩ hx
    rw [h3 r, passes_frame hW shape_rho h2 r x ?_]
    · have e1 := (rhob_zero_on_conductor (hW.mesh r) (h1 r).2 (runSeq (af r) (m r))).2.2 x
        fun c s h _ => (hx c h).2
      have e2 := (rhof_at_walls (hW.mesh r) (h1 r).1 (m r)).2.2 x fun c s h _ => (hx c h).1
      exact e1.trans e2
    · rintro c k hc (rfl | rfl)
      · exact (hx c (entOn_node.1.mp hc)).1
      · exact (hx c (entOn_node.2.1.mp hc)).2
  · rintro gerr ⟨ae, ab, h1, st', h2, h3, -⟩ hx hx'
    rw [h3 r, passes_frame hW shape_tang_e_norm_b h2 r x ?_]
    · have e1 := (norm_b_zero_on_symmetric (hW.mesh r) (h1 r).2 (runSeq (ae r) (m r))).2 x
        fun s c h _ _ => hx' s.1 c h
      have e2 := (tang_e_zero_on_conductor (hW.mesh r) (h1 r).1 (m r)).2 x fun a c h _ hc =>
        hc.elim (hx a c h).1 (hx a c h).2
      exact e1.trans e2
    · rintro c k hc (⟨a, rfl⟩ | ⟨a, rfl⟩ | ⟨a, rfl⟩)
      · exact hx' a c (entOn_face.mp hc)
      · exact (hx a c (entOn_edge.1.mp hc)).1
      · exact (hx a c (entOn_edge.2.1.mp hc)).2

/-- **C32, lengths of the messages.**  Every message has exactly the length sender and receiver compute for it. -/
theorem sync_message_sizes {E : Env K} (hg : Mesh E.g) (s : Fin 3 × Bool) (m : FMem K) (mh : CMem (Fin 14) K) :
    ((packSync E opTangENormB s m).length : ℤ) = sizeTangENormB E.g s.1 ∧
    ((packSync E opJf s m).length : ℤ) = sizeJf E.g s.1 ∧
    ((packSync E opRho s m).length : ℤ) = sizeRho E.g s.1 ∧
    ((packSync E opHydro s mh).length : ℤ) = sizeHydro E.g s.1 := by
  have hp := hg.pos
  simp only [forall_axis] at hp
  obtain ⟨p0, p1, p2⟩ := hp
  obtain ⟨X, b⟩ := s
  have t2 : ∀ w : ℤ, (w + 1 - 1 + 1).toNat = w.toNat + 1 ∨ w < 0 := by intro w; omega
  have q0 := (t2 (dims E.g 0)).resolve_right (by omega)
  have q1 := (t2 (dims E.g 1)).resolve_right (by omega)
  have q2 := (t2 (dims E.g 2)).resolve_right (by omega)
  simp only [packSync, opTangENormB, opJf, opRho, opHydro, slotsTangENormB, slotsJf, slotsRho, slotsHydro,
    sizeTangENormB, sizeJf, sizeRho, sizeHydro, List.length_append, List.length_map, List.length_flatMap,
    edgePlane, nodePlane, facePlane, List.length_finRange, List.map_const', List.sum_replicate, smul_eq_mul,
    List.length_cons, List.length_nil, box_length]
  obtain ⟨n0, h0⟩ : ∃ n : ℕ, dims E.g 0 = n := ⟨_, (Int.toNat_of_nonneg (by omega)).symm⟩
  obtain ⟨n1, h1⟩ : ∃ n : ℕ, dims E.g 1 = n := ⟨_, (Int.toNat_of_nonneg (by omega)).symm⟩
  obtain ⟨n2, h2⟩ : ∃ n : ℕ, dims E.g 2 = n := ⟨_, (Int.toNat_of_nonneg (by omega)).symm⟩
  rw [h0] at q0
  rw [h1] at q1
  rw [h2] at q2
  fin_cases X <;> simp [h0, h1, h2] <;> (refine ⟨?_, ?_, ?_, ?_⟩ <;> ring)

/-- **C32, the exchanges complete.**  On ranks that fit together no receive reads past the end of its message, and
the functions return from every state, unless a wall has an unknown code. -/
theorem synchronize_runs {n : ℕ} {W : World K n} (hW : W.Linked) (hk : ∀ r, AllKnown (W r)) (m : Fin n → FMem K)
    (mh : Fin n → CMem (Fin 14) K) :
    (∃ m' gerr, SynchronizeTangENormB W m m' gerr) ∧ (∃ m', SynchronizeJf W m m') ∧
    (∃ m', SynchronizeRho W m m') ∧ ∃ m', SynchronizeHydro W mh m' := by
  refine ⟨?_, ?_, ?_, ?_⟩
  · choose ae he using fun r => (hk r).some (unknown_code_is_an_error (W r)).2.2.2.1
    choose ab hb using fun r => (hk r).some (unknown_code_is_an_error (W r)).2.2.2.2.1
    obtain ⟨st', h⟩ := passes_exist hW (S := opTangENormB) shape_tang_e_norm_b
      (fun r => (runSeq (ab r) (runSeq (ae r) (m r)), (0 : K)))
    exact ⟨fun r => (st' r).1, _, ae, ab, fun r => ⟨he r, hb r⟩, st', h, fun _ => rfl, rfl⟩
  · choose adj h1 using fun r => (hk r).some (unknown_code_is_an_error (W r)).2.2.2.2.2.2.1
    obtain ⟨st', h⟩ := passes_exist hW (S := opJf) shape_jf (fun r => (runSeq (adj r) (m r), (0 : K)))
    exact ⟨fun r => (st' r).1, adj, h1, st', h, fun _ => rfl⟩
  · choose af hf using fun r => (hk r).some (unknown_code_is_an_error (W r)).2.2.2.2.2.2.2.1
    choose ab hb using fun r => (hk r).some (unknown_code_is_an_error (W r)).2.2.2.2.2.2.2.2
    obtain ⟨st', h⟩ := passes_exist hW (S := opRho) shape_rho
      (fun r => (runSeq (ab r) (runSeq (af r) (m r)), (0 : K)))
    exact ⟨fun r => (st' r).1, af, ab, fun r => ⟨hf r, hb r⟩, st', h, fun _ => rfl⟩
  · obtain ⟨st', h⟩ := passes_exist hW (S := opHydro) shape_hydro (fun r => (adjustHydro (W r) (mh r), (0 : K)))
    exact ⟨fun r => (st' r).1, st', h, fun _ => rfl⟩

end Frame

/-! ### The error -/

variable {K : Type*} [Field K] [LinearOrder K] [IsStrictOrderedRing K]

/-- The members whose error is measured. -/
def IsEB (k : FC) : Prop := (∃ a, k = .e a) ∨ ∃ a, k = .cb a

/-- Twins along `X` agree. -/
def Agree {n : ℕ} (W : World K n) (X : Fin 3) (m : Fin n → FMem K) : Prop :=
  ∀ k, IsEB k → ∀ x y, EntOn (W x.1).g fieldExt k x.2 → fieldExt k X = true → twin W X x = some y →
    valOf W m k y = valOf W m k x

lemma err_eq_zero {k : FC} (hk : IsEB k) (w1 w2 : K) : (opTangENormB (K := K)).err k w1 w2 = 0 ↔ w1 = w2 := by
  rcases hk with ⟨a, rfl⟩ | ⟨a, rfl⟩ <;> simp [opTangENormB, sub_eq_zero]

lemma err_nonneg (k : FC) (w1 w2 : K) : 0 ≤ (opTangENormB (K := K)).err k w1 w2 := by
  cases k <;> simp only [opTangENormB, le_refl] <;> exact mul_self_nonneg _

lemma err_other {k : FC} (hk : ¬ IsEB k) (w1 w2 : K) : (opTangENormB (K := K)).err k w1 w2 = 0 := by
  cases k <;> simp only [opTangENormB]
  · exact absurd (Or.inl ⟨_, rfl⟩) hk
  · exact absurd (Or.inr ⟨_, rfl⟩) hk

lemma sideErr_nonneg {n : ℕ} (W : World K n) (st : Fin n → FMem K × K) (r : Fin n) (s : Fin 3 × Bool) :
    0 ≤ sideErr W opTangENormB st r s := by
  unfold sideErr
  cases W.src r s with
  | none => simp
  | some r' =>
    simp only [Option.elim]
    apply List.sum_nonneg
    intro v hv
    obtain ⟨q, -, rfl⟩ := List.mem_map.mp hv
    exact err_nonneg _ _ _

lemma list_sum_zero {l : List K} (h0 : ∀ v ∈ l, 0 ≤ v) : l.sum = 0 ↔ ∀ v ∈ l, v = 0 := by
  induction l with
  | nil => simp
  | cons a l ih =>
    have h1 : 0 ≤ l.sum := List.sum_nonneg fun v hv => h0 v (List.mem_cons_of_mem _ hv)
    have h2 := h0 a (by simp)
    rw [List.sum_cons, add_eq_zero_iff_of_nonneg h2 h1, ih fun v hv => h0 v (List.mem_cons_of_mem _ hv)]
    simp

lemma sideErr_zero {n : ℕ} {W : World K n} (hW : W.Linked) (X : Fin 3) (st : Fin n → FMem K × K) :
    (∀ r, sideErr W opTangENormB st r (X, true) = 0 ∧ sideErr W opTangENormB st r (X, false) = 0) ↔
      Agree W X (fun r => (st r).1) := by
  have side : ∀ r s, sideErr W opTangENormB st r s = 0 ↔ ∀ r', W.src r s = some r' →
      ∀ c k, IsEB k → (c, k) ∈ slotsTangENormB (W r).g s.1 (syncFill (W r).g s) →
        (st r').1 (vox (W r).g (Function.update c s.1 (syncSend (W r).g s)), k) = (st r).1 (vox (W r).g c, k) := by
    intro r s
    unfold sideErr
    cases hs : W.src r s with
    | none => simp
    | some r' =>
      simp only [Option.elim, Option.some.injEq, forall_eq']
      rw [list_sum_zero]
      · simp only [List.mem_map, forall_exists_index, and_imp, forall_apply_eq_imp_iff₂]
        constructor
        · intro h c k hk hq
          exact (err_eq_zero hk _ _).mp (h (c, k) hq)
        · intro h q hq
          by_cases hk : IsEB q.2
          · exact (err_eq_zero hk _ _).mpr (h q.1 q.2 hk hq)
          · exact err_other hk _ _
      · intro v hv
        obtain ⟨q, -, rfl⟩ := List.mem_map.mp hv
        exact err_nonneg _ _ _
  have inc : ∀ k, IsEB k → ((∃ a, k = .cb a) ∨ (∃ a, k = .e a) ∨ ∃ a, k = .tca a) := by
    rintro k (h | h)
    · exact Or.inr (Or.inl h)
    · exact Or.inl h
  constructor
  · intro h k hk x y hx he ht
    obtain ⟨h1, h2⟩ := h x.1
    rw [side] at h1 h2
    unfold twin at ht
    split at ht
    · rename_i hc
      obtain ⟨r', hr, rfl⟩ := Option.map_eq_some_iff.mp ht
      have := h1 r' hr x.2 k hk ((shape_tang_e_norm_b.mem _ _ _ _ _).mpr ⟨inc k hk, he, hc, fun b _ => hx b⟩)
      simp only [valOf]
      rw [vox_dims (hW.dims r' x.1)]
      exact this
    · split at ht
      · rename_i hc
        obtain ⟨r', hr, rfl⟩ := Option.map_eq_some_iff.mp ht
        have := h2 r' hr x.2 k hk ((shape_tang_e_norm_b.mem _ _ _ _ _).mpr ⟨inc k hk, he, hc, fun b _ => hx b⟩)
        simp only [valOf]
        rw [vox_dims (hW.dims r' x.1)]
        exact this
      · simp at ht
  · intro h r
    have hd := (hW.mesh r).pos X
    refine ⟨(side r (X, true)).mpr ?_, (side r (X, false)).mpr ?_⟩
    · intro r' hr c k hk hq
      obtain ⟨-, he, hc, hb⟩ := (shape_tang_e_norm_b.mem _ _ _ _ _).mp hq
      have hc : c X = dims (W r).g X + 1 := hc
      have hx : EntOn (W r).g fieldExt k c := by
        intro b
        by_cases hbX : b = X
        · subst hbX
          have he : fieldExt k b = true := he
          simp only [topOf, he, if_true]
          omega
        · exact hb b hbX
      have := h k hk (r, c) (r', Function.update c X 1) hx he (by
        unfold twin
        rw [if_pos hc]
        have hr : W.dst r (X, false) = some r' := hr
        simp [hr])
      simp only [valOf] at this
      rw [vox_dims (hW.dims r' r)] at this
      exact this
    · intro r' hr c k hk hq
      obtain ⟨-, he, hc, hb⟩ := (shape_tang_e_norm_b.mem _ _ _ _ _).mp hq
      have hc : c X = 1 := hc
      have hx : EntOn (W r).g fieldExt k c := by
        intro b
        by_cases hbX : b = X
        · subst hbX
          have he : fieldExt k b = true := he
          simp only [topOf, he, if_true]
          omega
        · exact hb b hbX
      have := h k hk (r, c) (r', Function.update c X (dims (W r).g X + 1)) hx he (by
        unfold twin
        have hne : ¬ (r, c).2 X = dims (W (r, c).1).g X + 1 := by
          show ¬ c X = dims (W r).g X + 1
          omega
        rw [if_neg hne, if_pos hc]
        have hr : W.dst r (X, true) = some r' := hr
        simp [hr])
      simp only [valOf] at this
      rw [vox_dims (hW.dims r' r)] at this
      exact this

/-- A pass over twins that agree changes neither E nor B. -/
lemma pass_agree {n : ℕ} {W : World K n} (hW : W.Linked) {X : Fin 3} {st st' : Fin n → FMem K × K}
    (h : SyncPass W opTangENormB X st st') (ha : Agree W X (fun r => (st r).1)) (k : FC) (hk : IsEB k)
    (x : Fin n × Pos) (hx : EntOn (W x.1).g fieldExt k x.2) :
    valOf W (fun r => (st' r).1) k x = valOf W (fun r => (st r).1) k x := by
  obtain ⟨p1, p2, -⟩ := pass_result hW shape_tang_e_norm_b h x.1
  by_cases hc : fieldExt k X = true ∧ twin W X x ≠ none
  · obtain ⟨y, hy⟩ := Option.ne_none_iff_exists'.mp hc.2
    have e := ha k hk x y hx hc.1 hy
    have := p1 x.2 k hx (by
      rcases hk with h | h
      · exact Or.inr (Or.inl h)
      · exact Or.inl h) hc.1 y hy
    refine this.trans ?_
    simp only [valOf] at e ⊢
    rw [vox_dims (hW.dims y.1 x.1)] at e
    rw [e]
    show 1 / 2 * _ = _
    ring
  · refine p2 _ fun c k' hc' hk' he ht e => hc ?_
    obtain ⟨e1, e2⟩ := Prod.mk.inj e
    have := vox_inj hx.inArray hc'.inArray e1
    subst this e2
    exact ⟨he, ht⟩

lemma agree_congr {n : ℕ} {W : World K n} {P : Pos} {wrap : Fin 3 → Bool} {coord : Fin n → Pos}
    (hW : W.Cart P wrap coord) {X : Fin 3} {m m' : Fin n → FMem K}
    (h : ∀ k, IsEB k → ∀ x : Fin n × Pos, EntOn (W x.1).g fieldExt k x.2 → valOf W m' k x = valOf W m k x) :
    Agree W X m' ↔ Agree W X m := by
  have ey : ∀ k x y, EntOn (W x.1).g fieldExt k x.2 → fieldExt k X = true → twin W X x = some y →
      EntOn (W y.1).g fieldExt k y.2 := fun k x y hx he ht =>
    ent_dims hW.toLinked _ y.1 (twin_ent hW he hx ht)
  constructor
  · intro ha k hk x y hx he ht
    rw [← h k hk x hx, ← h k hk y (ey k x y hx he ht)]
    exact ha k hk x y hx he ht
  · intro ha k hk x y hx he ht
    rw [h k hk x hx, h k hk y (ey k x y hx he ht)]
    exact ha k hk x y hx he ht

/-- Twins agree along all axes if and only if all copies agree. -/
lemma agree_iff {n : ℕ} {W : World K n} {P : Pos} {wrap : Fin 3 → Bool} {coord : Fin n → Pos}
    (hW : W.Cart P wrap coord) (m : Fin n → FMem K) :
    (∀ X, Agree W X m) ↔ ∀ k, IsEB k → ∀ x, EntOn (W x.1).g fieldExt k x.2 →
      ∀ y ∈ copies W P wrap coord fieldExt k x, valOf W m k y = valOf W m k x := by
  constructor
  · intro h k hk
    have step : ∀ (A : Finset (Fin 3)) (a : Fin 3), a ∉ A →
        (∀ x, EntOn (W x.1).g fieldExt k x.2 → ∀ y ∈ copiesIn W P wrap coord fieldExt k A x,
          valOf W m k y = valOf W m k x) →
        ∀ x, EntOn (W x.1).g fieldExt k x.2 → ∀ y ∈ copiesIn W P wrap coord fieldExt k (insert a A) x,
          valOf W m k y = valOf W m k x := by
      intro A a ha ih x hx y hy
      by_cases hc : fieldExt k a = true ∧ twin W a x ≠ none
      · obtain ⟨z, hz⟩ := Option.ne_none_iff_exists'.mp hc.2
        rcases (mem_copiesIn_twin hW ha hx hc.1 hz y).mp hy with h1 | h1
        · exact ih x hx y h1
        · rw [ih z (ent_dims hW.toLinked _ z.1 (twin_ent hW hc.1 hx hz)) y h1]
          exact h a k hk x z hx hc.1 hz
      · rw [copiesIn_none hW ha hx hc] at hy
        exact ih x hx y hy
    have a0 : ∀ x, EntOn (W x.1).g fieldExt k x.2 → ∀ y ∈ copiesIn W P wrap coord fieldExt k ∅ x,
        valOf W m k y = valOf W m k x := by
      intro x hx y hy
      rw [copiesIn_empty hW hx, Finset.mem_singleton] at hy
      rw [hy]
    have a3 := step _ 2 (by decide) (step _ 1 (by simp) (step _ 0 (by simp) a0))
    have e : (insert 2 (insert 1 (insert 0 ∅)) : Finset (Fin 3)) = Finset.univ := by decide
    intro x hx y hy
    rw [← copiesIn_univ, ← e] at hy
    exact a3 x hx y hy
  · intro h X k hk x y hx he ht
    refine h k hk x hx y ?_
    have hy := twin_ent hW he hx ht
    rw [mem_copies]
    refine ⟨hy, fun a => ?_⟩
    rw [sameAt_iff hW a hx hy]
    by_cases haX : a = X
    · subst haX
      exact Or.inr ⟨he, y, ht, rfl, rfl⟩
    · exact Or.inl ((twin_other hW ht).1 a haX)

/-- **C31, the error returned.**  `synchronize_tang_e_norm_b` returns zero if and only if all copies of every edge
and face held the same E and B (after the wall conditions), it is never negative, and when it is zero E and B are
left as the wall conditions made them. -/
theorem synchronize_error {n : ℕ} {W : World K n} {P : Pos} {wrap : Fin 3 → Bool}
    {coord : Fin n → Pos} (hW : W.Cart P wrap coord) {m m' : Fin n → FMem K} {gerr : K}
    (h : SynchronizeTangENormB W m m' gerr) :
    0 ≤ gerr ∧
    (gerr = 0 ↔
      (∀ a x, EdgeOn (W x.1).g a x.2 → ∀ y ∈ copies W P wrap coord fieldExt (.e a) x,
        eAtWall (W y.1) a y.2 (m y.1 (vox (W y.1).g y.2, .e a)) =
          eAtWall (W x.1) a x.2 (m x.1 (vox (W x.1).g x.2, .e a))) ∧
      ∀ a x, FaceOn (W x.1).g a x.2 → ∀ y ∈ copies W P wrap coord fieldExt (.cb a) x,
        cbAtWall (W y.1) a y.2 (m y.1 (vox (W y.1).g y.2, .cb a)) =
          cbAtWall (W x.1) a x.2 (m x.1 (vox (W x.1).g x.2, .cb a))) ∧
    (gerr = 0 → ∀ a r c,
      (EdgeOn (W r).g a c → m' r (vox (W r).g c, .e a) = eAtWall (W r) a c (m r (vox (W r).g c, .e a))) ∧
      (FaceOn (W r).g a c → m' r (vox (W r).g c, .cb a) = cbAtWall (W r) a c (m r (vox (W r).g c, .cb a)))) := by
  obtain ⟨ae, ab, h1, st', ⟨s1, s2, p0, p1, p2⟩, h3, h4⟩ := h
  set s0 : Fin n → FMem K × K := fun r => (runSeq (ab r) (runSeq (ae r) (m r)), 0) with hs0
  set m0 : Fin n → FMem K := fun r => runSeq (ab r) (runSeq (ae r) (m r)) with hm0
  have L := hW.toLinked
  have tot : gerr = ∑ r, ((sideErr W opTangENormB s0 r (0, true) + sideErr W opTangENormB s0 r (0, false)) +
      (sideErr W opTangENormB s1 r (1, true) + sideErr W opTangENormB s1 r (1, false)) +
      (sideErr W opTangENormB s2 r (2, true) + sideErr W opTangENormB s2 r (2, false))) := by
    rw [h4]
    refine Finset.sum_congr rfl fun r _ => ?_
    rw [(pass_result L shape_tang_e_norm_b p2 r).2.2, (pass_result L shape_tang_e_norm_b p1 r).2.2,
      (pass_result L shape_tang_e_norm_b p0 r).2.2]
    simp only [hs0]
    ring
  have nn := fun st r s => sideErr_nonneg W st r s
  have nonneg : ∀ r, 0 ≤ ((sideErr W opTangENormB s0 r (0, true) + sideErr W opTangENormB s0 r (0, false)) +
      (sideErr W opTangENormB s1 r (1, true) + sideErr W opTangENormB s1 r (1, false)) +
      (sideErr W opTangENormB s2 r (2, true) + sideErr W opTangENormB s2 r (2, false))) := by
    intro r
    have := nn s0 r (0, true); have := nn s0 r (0, false); have := nn s1 r (1, true)
    have := nn s1 r (1, false); have := nn s2 r (2, true); have := nn s2 r (2, false)
    linarith
  have zero : gerr = 0 ↔ Agree W 0 (fun r => (s0 r).1) ∧ Agree W 1 (fun r => (s1 r).1) ∧
      Agree W 2 (fun r => (s2 r).1) := by
    rw [← sideErr_zero L, ← sideErr_zero L, ← sideErr_zero L, tot,
      Finset.sum_eq_zero_iff_of_nonneg fun r _ => nonneg r]
    constructor
    · intro hz
      refine ⟨fun r => ?_, fun r => ?_, fun r => ?_⟩ <;>
      · have := hz r (Finset.mem_univ r)
        have := nn s0 r (0, true); have := nn s0 r (0, false); have := nn s1 r (1, true)
        have := nn s1 r (1, false); have := nn s2 r (2, true); have := nn s2 r (2, false)
        constructor <;> linarith
    · rintro ⟨z0, z1, z2⟩ r -
      rw [(z0 r).1, (z0 r).2, (z1 r).1, (z1 r).2, (z2 r).1, (z2 r).2]
      ring
  have all : gerr = 0 ↔ ∀ X, Agree W X m0 := by
    rw [zero, forall_axis]
    constructor
    · rintro ⟨a0, a1, a2⟩
      have e1 := pass_agree L p0 a0
      have e2 := pass_agree L p1 a1
      refine ⟨a0, (agree_congr hW e1).mp a1, (agree_congr hW fun k hk x hx => ?_).mp a2⟩
      exact (e2 k hk x hx).trans (e1 k hk x hx)
    · rintro ⟨a0, a1, a2⟩
      have e1 := pass_agree L p0 a0
      have a1' := (agree_congr hW e1).mpr a1
      have e2 := pass_agree L p1 a1'
      exact ⟨a0, a1', (agree_congr hW fun k hk x hx => (e2 k hk x hx).trans (e1 k hk x hx)).mpr a2⟩
  have ev : ∀ a (x : Fin n × Pos), EdgeOn (W x.1).g a x.2 → valOf W m0 (.e a) x =
      eAtWall (W x.1) a x.2 (m x.1 (vox (W x.1).g x.2, .e a)) := fun a x hx =>
    (adjusted_e (hW.mesh x.1) (h1 x.1).1 (h1 x.1).2 (m x.1) a x.2 hx).1
  have bv : ∀ a (x : Fin n × Pos), FaceOn (W x.1).g a x.2 → valOf W m0 (.cb a) x =
      cbAtWall (W x.1) a x.2 (m x.1 (vox (W x.1).g x.2, .cb a)) := fun a x hx =>
    adjusted_cb (hW.mesh x.1) (h1 x.1).1 (h1 x.1).2 (m x.1) a x.2 hx
  refine ⟨by rw [tot]; exact Finset.sum_nonneg fun r _ => nonneg r, ?_, ?_⟩
  · rw [all, agree_iff hW]
    constructor
    · intro hz
      constructor
      · intro a x hx y hy
        have hy' := entOn_edge.1.mp (ent_dims L _ y.1 (mem_copies.mp hy).1)
        rw [← ev a x hx, ← ev a y hy']
        exact hz (.e a) (Or.inl ⟨a, rfl⟩) x (entOn_edge.1.mpr hx) y hy
      · intro a x hx y hy
        have hy' := entOn_face.mp (ent_dims L _ y.1 (mem_copies.mp hy).1)
        rw [← bv a x hx, ← bv a y hy']
        exact hz (.cb a) (Or.inr ⟨a, rfl⟩) x (entOn_face.mpr hx) y hy
    · rintro ⟨z1, z2⟩ k (⟨a, rfl⟩ | ⟨a, rfl⟩) x hx y hy
      · have hx' := entOn_edge.1.mp hx
        have hy' := entOn_edge.1.mp (ent_dims L _ y.1 (mem_copies.mp hy).1)
        rw [ev a x hx', ev a y hy']
        exact z1 a x hx' y hy
      · have hx' := entOn_face.mp hx
        have hy' := entOn_face.mp (ent_dims L _ y.1 (mem_copies.mp hy).1)
        rw [bv a x hx', bv a y hy']
        exact z2 a x hx' y hy
  · intro hz a r c
    obtain ⟨a0, a1, a2⟩ := zero.mp hz
    have keep : ∀ k, IsEB k → EntOn (W r).g fieldExt k c → m' r (vox (W r).g c, k) = valOf W m0 k (r, c) := by
      intro k hk hc
      rw [h3 r]
      exact ((pass_agree L p2 a2 k hk (r, c) hc).trans (pass_agree L p1 a1 k hk (r, c) hc)).trans
        (pass_agree L p0 a0 k hk (r, c) hc)
    constructor
    · intro hc
      rw [keep (.e a) (Or.inl ⟨a, rfl⟩) (entOn_edge.1.mpr hc)]
      exact ev a (r, c) hc
    · intro hc
      rw [keep (.cb a) (Or.inr ⟨a, rfl⟩) (entOn_face.mpr hc)]
      exact bv a (r, c) hc

/-! ### Concrete ranks -/

lemma ring_cart : ringWorld.Cart (fun _ => 1) (fun _ => true) (fun _ _ => 0) where
  toLinked := ring_periodic.toLinked
  range := by simp
  inj := fun _ _ _ => Subsingleton.elim _ _
  nbr := by
    intro r s _
    refine ⟨0, ring_periodic.nbr r s, ?_⟩
    funext a
    simp [Function.update]
  wall := by simp

/-- What the error does not measure: the damping term of an edge differs between two copies, the error is zero and the
call changes it. -/
theorem error_ignores_damping_term : ∃ m m' : Fin 1 → FMem ℚ, SynchronizeTangENormB ringWorld m m' 0 ∧
    ∃ c, EdgeOn (ringWorld 0).g 0 c ∧ m' 0 (vox (ringWorld 0).g c, .tca 0) ≠ m 0 (vox (ringWorld 0).g c, .tca 0) := by
  have nw := not_wall ring_periodic
  have hk : ∀ r, AllKnown (ringWorld r) := fun r s hs => absurd hs (nw r s)
  let c1 : Pos := ![1, 1, 1]
  let c2 : Pos := ![1, 4, 1]
  let m : Fin 1 → FMem ℚ := fun _ x => if x = (vox (ringWorld 0).g c1, .tca 0) then 1 else 0
  obtain ⟨⟨m', gerr, h⟩, -⟩ := synchronize_runs ring_cart.toLinked hk m (fun _ _ => 0)
  have he : ∀ E : Env ℚ, ∀ a c v, (∀ s, ¬ IsWall E s) → eAtWall E a c v = v := by
    intro E a c v hs
    unfold eAtWall
    rw [if_neg]
    rintro ⟨s, -, h, -⟩
    exact hs s h.1
  have hb : ∀ E : Env ℚ, ∀ a c v, (∀ s, ¬ IsWall E s) → cbAtWall E a c v = v := by
    intro E a c v hs
    unfold cbAtWall
    rw [if_neg]
    rintro ⟨s, -, h, -⟩
    exact hs s h.1
  have hg : gerr = 0 := by
    rw [(synchronize_error ring_cart h).2.1]
    constructor
    · intro a x hx y hy
      rw [he _ _ _ _ (nw _), he _ _ _ _ (nw _)]
      simp [m]
    · intro a x hx y hy
      rw [hb _ _ _ _ (nw _), hb _ _ _ _ (nw _)]
      simp [m]
  subst hg
  have hd : dims (ringWorld 0).g = ![4, 3, 1] := by
    funext a; fin_cases a <;> rfl
  have e1 : EdgeOn (ringWorld 0).g 0 c1 := by
    intro b; rw [hd]; fin_cases b <;> simp [c1]
  have e2 : EdgeOn (ringWorld 0).g 0 c2 := by
    intro b; rw [hd]; fin_cases b <;> simp [c2]
  have hcp : ((0 : Fin 1), c2) ∈ copies ringWorld (fun _ => 1) (fun _ => true) (fun _ _ => 0) fieldExt (.tca 0)
      ((0 : Fin 1), c1) := by
    rw [mem_copies]
    refine ⟨entOn_edge.2.1.mpr e2, fun a => ?_⟩
    simp only [SameAt, placeOf, if_true]
    rw [hd]
    fin_cases a <;> simp [c1, c2]
  have s1 := ((synchronize_tang_e_norm_b_means ring_cart h 0 0 c1).1 e1).2
  have s2 := ((synchronize_tang_e_norm_b_means ring_cart h 0 0 c2).1 e2).2
  rw [copies_eq ring_cart hcp, ← s1] at s2
  refine ⟨m, m', h, ?_⟩
  by_contra hc
  push_neg at hc
  have t1 := hc c1 e1
  have t2 := hc c2 e2
  rw [s2, t1] at t2
  have hne : vox (ringWorld 0).g c2 ≠ vox (ringWorld 0).g c1 := by
    intro e
    have := congrFun (vox_inj e2.inArray e1.inArray e) 1
    simp [c1, c2] at this
  simp [m, hne] at t2

/-- C30 and C31 on concrete ranks, with an entity that has four copies on one rank. -/
example (m : Fin 1 → FMem ℚ) : ∃ m', SynchronizeJf ringWorld m m' ∧
    (copies ringWorld (fun _ => 1) (fun _ => true) (fun _ _ => 0) fieldExt (.jf 0) ((0 : Fin 1), ![1, 1, 1])).card = 4 ∧
    m' 0 (vox (ringWorld 0).g ![1, 1, 1], .jf 0) = m' 0 (vox (ringWorld 0).g ![1, 4, 2], .jf 0) := by
  obtain ⟨-, ⟨m', h⟩, -⟩ := synchronize_runs ring_cart.toLinked
    (fun r s hs => absurd hs (not_wall ring_periodic r s)) m (fun _ _ => 0)
  have hd : dims (ringWorld 0).g = ![4, 3, 1] := by
    funext a; fin_cases a <;> rfl
  have e1 : EdgeOn (ringWorld 0).g 0 ![1, 1, 1] := by
    intro b; rw [hd]; fin_cases b <;> simp
  have e2 : EdgeOn (ringWorld 0).g 0 ![1, 4, 2] := by
    intro b; rw [hd]; fin_cases b <;> simp
  refine ⟨m', h, ?_, ?_⟩
  · rw [card_copies ring_cart _ (entOn_edge.2.2.mpr e1)]
    have : twins ringWorld fieldExt (.jf 0) Finset.univ ((0 : Fin 1), (![1, 1, 1] : Pos)) = 2 := by
      classical
      have : (Finset.univ.filter fun a => fieldExt (.jf 0) a = true ∧
          twin ringWorld a ((0 : Fin 1), (![1, 1, 1] : Pos)) ≠ none) = {1, 2} := by
        ext a
        simp only [Finset.mem_filter, Finset.mem_univ, true_and, Ne, twin_iff ring_cart, Finset.mem_insert,
          Finset.mem_singleton]
        fin_cases a <;> simp [fieldExt]
      unfold twins
      convert congrArg Finset.card this using 2
      decide
    rw [this]
    norm_num
  · refine ((copies_agree_after_sum ring_cart).1 m m' h 0 (0, ![1, 1, 1]) e1 (0, ![1, 4, 2]) ?_).symm
    rw [mem_copies]
    refine ⟨entOn_edge.2.2.mpr e2, fun a => ?_⟩
    simp only [SameAt, placeOf, if_true]
    rw [hd]
    fin_cases a <;> simp

end Verif.Field
