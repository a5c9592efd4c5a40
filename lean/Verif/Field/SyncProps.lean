import Verif.Field.SyncCart
import Verif.Field.WallProps

/-!
# Synchronisation of shared faces, edges and nodes (C30, C31, C32)

`copies W P wrap coord fieldExt k x` is the set of all positions, on all ranks, that are the same place of the
global mesh as position `x.2` of rank `x.1`.
-/
namespace Verif.Field

open Grid

variable {K : Type*} [Field K]

section Copies
variable {C : Type*} [DecidableEq C]

lemma ent_dims {n : ℕ} {W : World K n} (hW : W.Linked) {ext : C → Fin 3 → Bool} {k : C} (r r' : Fin n) {c : Pos}
    (h : EntOn (W r).g ext k c) : EntOn (W r').g ext k c := by
  intro b
  have := h b
  unfold topOf at this ⊢
  rwa [hW.dims r' r]

/-- Being copies of each other is symmetric and transitive. -/
theorem copies_eq {n : ℕ} {W : World K n} {P : Pos} {wrap : Fin 3 → Bool} {coord : Fin n → Pos}
    (hW : W.Cart P wrap coord) {ext : C → Fin 3 → Bool} {k : C} {x y : Fin n × Pos}
    (hy : y ∈ copies W P wrap coord ext k x) :
    copies W P wrap coord ext k y = copies W P wrap coord ext k x := by
  obtain ⟨-, hs⟩ := mem_copies.mp hy
  ext z
  rw [mem_copies, mem_copies]
  refine and_congr ⟨ent_dims hW.toLinked _ _, ent_dims hW.toLinked _ _⟩ (forall_congr' fun a => ?_)
  have := hs a
  unfold SameAt at this ⊢
  rw [hW.dims y.1 x.1]
  split at this
  · rename_i hw
    simp only [hw, if_true, this]
  · rename_i hw
    simp only [hw, if_false, Bool.false_eq_true, this]

theorem mem_copies_self {n : ℕ} {W : World K n} {P : Pos} {wrap : Fin 3 → Bool} {coord : Fin n → Pos}
    {ext : C → Fin 3 → Bool} {k : C} {x : Fin n × Pos} (hx : EntOn (W x.1).g ext k x.2) :
    x ∈ copies W P wrap coord ext k x := by
  rw [mem_copies]
  refine ⟨hx, fun a => ?_⟩
  unfold SameAt
  split <;> rfl

lemma card_step {n : ℕ} {W : World K n} {P : Pos} {wrap : Fin 3 → Bool} {coord : Fin n → Pos}
    (hW : W.Cart P wrap coord) {ext : C → Fin 3 → Bool} {k : C} {A : Finset (Fin 3)} {a : Fin 3} (ha : a ∉ A)
    (ih : ∀ x : Fin n × Pos, EntOn (W x.1).g ext k x.2 →
      (copiesIn W P wrap coord ext k A x).card = 2 ^ twins W ext k A x)
    (x : Fin n × Pos) (hx : EntOn (W x.1).g ext k x.2) :
    (copiesIn W P wrap coord ext k (insert a A) x).card = 2 ^ twins W ext k (insert a A) x := by
  by_cases hc : ext k a = true ∧ twin W a x ≠ none
  · obtain ⟨y, hy⟩ := Option.ne_none_iff_exists'.mp hc.2
    have hye := ent_dims hW.toLinked _ y.1 (twin_ent hW hc.1 hx hy)
    rw [Finset.card_eq_sum_ones, sum_copiesIn_twin hW ha hx hc.1 hy, ← Finset.card_eq_sum_ones,
      ← Finset.card_eq_sum_ones, ih x hx, ih y hye, twins_twin hW ext k ha hy, (twins_insert W ext k ha x).2 hc]
    ring
  · rw [(twins_insert W ext k ha x).1 hc, copiesIn_none hW ha hx hc, ih x hx]

/-- An entity has one, two, four or eight copies. -/
lemma card_copies {n : ℕ} {W : World K n} {P : Pos} {wrap : Fin 3 → Bool} {coord : Fin n → Pos}
    (hW : W.Cart P wrap coord) {ext : C → Fin 3 → Bool} {k : C} (x : Fin n × Pos)
    (hx : EntOn (W x.1).g ext k x.2) :
    (copies W P wrap coord ext k x).card = 2 ^ twins W ext k Finset.univ x := by
  have a0 : ∀ x : Fin n × Pos, EntOn (W x.1).g ext k x.2 →
      (copiesIn W P wrap coord ext k ∅ x).card = 2 ^ twins W ext k ∅ x := by
    intro x hx
    rw [copiesIn_empty hW hx]
    simp [twins]
  have a1 := card_step hW (a := 0) (by simp) a0
  have a2 := card_step hW (a := 1) (by simp) a1
  have a3 := card_step hW (a := 2) (by decide) a2 x hx
  have e : (insert 2 (insert 1 (insert 0 ∅)) : Finset (Fin 3)) = Finset.univ := by decide
  rwa [e, copiesIn_univ] at a3

lemma passes_add {n : ℕ} {W : World K n} {P : Pos} {wrap : Fin 3 → Bool} {coord : Fin n → Pos}
    (hW : W.Cart P wrap coord) {S : SyncOp C K} {inc : C → Prop} {ext : C → Fin 3 → Bool}
    (hS : Shape S.slots inc ext) {k : C} (hk : inc k)
    (hl : ∀ r X w1 w2, S.upd ((W r).d X) ((W r).d X) k w1 w2 = w1 + w2)
    {st st' : Fin n → CMem C K × K} (h : SyncPasses W S st st') (x : Fin n × Pos)
    (hx : EntOn (W x.1).g ext k x.2) :
    valOf W (fun r => (st' r).1) k x =
      ∑ z ∈ copies W P wrap coord ext k x, valOf W (fun r => (st r).1) k z := by
  have := passes_sum hW hS hk (lam := 1) (by simpa using hl) h x hx
  simpa using this

lemma passes_mean {n : ℕ} {W : World K n} {P : Pos} {wrap : Fin 3 → Bool} {coord : Fin n → Pos}
    (hW : W.Cart P wrap coord) {S : SyncOp C K} {inc : C → Prop} {ext : C → Fin 3 → Bool}
    (hS : Shape S.slots inc ext) {k : C} (hk : inc k)
    (hl : ∀ r X w1 w2, S.upd ((W r).d X) ((W r).d X) k w1 w2 = 1 / 2 * (w1 + w2))
    {st st' : Fin n → CMem C K × K} (h : SyncPasses W S st st') (x : Fin n × Pos)
    (hx : EntOn (W x.1).g ext k x.2) :
    valOf W (fun r => (st' r).1) k x =
      (∑ z ∈ copies W P wrap coord ext k x, valOf W (fun r => (st r).1) k z) /
        ((copies W P wrap coord ext k x).card : K) := by
  rw [passes_sum hW hS hk (lam := 1 / 2) hl h x hx, card_copies hW x hx]
  push_cast
  rw [one_div, inv_pow, div_eq_inv_mul]

end Copies

/-! ### What the walls do to a value -/

open Classical in
/-- E (and its damping term) at edge `c` along `a` after the wall conditions: zero on a conductor. -/
noncomputable def eAtWall (E : Env K) (a : Fin 3) (c : Pos) (v : K) : K := if OnConductor E a c then 0 else v

open Classical in
/-- B through face `c` normal to `a` after the wall conditions: zero on a symmetry plane. -/
noncomputable def cbAtWall (E : Env K) (a : Fin 3) (c : Pos) (v : K) : K :=
  if ∃ s, s.1 = a ∧ OnWall E s c ∧ sideBC E.g s = symmetricFields then 0 else v

open Classical in
/-- Free current on edge `c` along `a` after the wall conditions: zero on a conductor, doubled for every other wall
the edge lies on, since only the part of the cells inside has collected current. -/
noncomputable def jfAtWall (E : Env K) (a : Fin 3) (c : Pos) (v : K) : K :=
  if OnConductor E a c then 0
  else v * 2 ^ (sides.filter fun s => s.1 ≠ a ∧ IsWall E s ∧ c s.1 = wallOf E.g s).length

/-- The node lies on a conducting wall. -/
def NodeOnConductor (E : Env K) (c : Pos) : Prop := ∃ s, OnWall E s c ∧ sideBC E.g s = antiSymmetricFields

open Classical in
/-- Free charge at node `c` after the wall conditions. -/
noncomputable def rhofAtWall (E : Env K) (c : Pos) (v : K) : K :=
  if NodeOnConductor E c then 0
  else v * 2 ^ (sides.filter fun s => IsWall E s ∧ c s.1 = wallOf E.g s).length

open Classical in
/-- Bound charge at node `c` after the wall conditions. -/
noncomputable def rhobAtWall (E : Env K) (c : Pos) (v : K) : K := if NodeOnConductor E c then 0 else v

/-- A moment at node `c` after `ADJUST_HYDRO`: doubled for every wall the node lies on. -/
def hydroAtWall (E : Env K) (c : Pos) (v : K) : K :=
  v * 2 ^ (sides.filter fun s => IsWall E s ∧ c s.1 = wallOf E.g s).length

lemma entOn_edge {g : LGrid} {a : Fin 3} {c : Pos} :
    (EntOn g fieldExt (.e a) c ↔ EdgeOn g a c) ∧ (EntOn g fieldExt (.tca a) c ↔ EdgeOn g a c) ∧
    (EntOn g fieldExt (.jf a) c ↔ EdgeOn g a c) := by
  refine ⟨?_, ?_, ?_⟩ <;> refine forall_congr' fun b => ?_ <;> by_cases h : b = a <;>
    simp [topOf, fieldExt, h]

lemma entOn_face {g : LGrid} {a : Fin 3} {c : Pos} : EntOn g fieldExt (.cb a) c ↔ FaceOn g a c := by
  refine forall_congr' fun b => ?_
  by_cases h : b = a <;> simp [topOf, fieldExt, h]

lemma entOn_node {g : LGrid} {c : Pos} : (EntOn g fieldExt .rhof c ↔ NodeOn g c) ∧
    (EntOn g fieldExt .rhob c ↔ NodeOn g c) ∧ ∀ k, (EntOn g nodeExt k c ↔ NodeOn g c) := by
  refine ⟨?_, ?_, fun k => ?_⟩ <;> refine forall_congr' fun b => ?_ <;> simp [topOf, fieldExt, nodeExt]

lemma adjusted_e {E : Env K} (hg : Mesh E.g) {ae ab : List (Step K)} (he : localAdjustTangE E = some ae)
    (hb : localAdjustNormB E = some ab) (m : FMem K) (a : Fin 3) (c : Pos) (hc : EdgeOn E.g a c) :
    runSeq ab (runSeq ae m) (vox E.g c, .e a) = eAtWall E a c (m (vox E.g c, .e a)) ∧
    runSeq ab (runSeq ae m) (vox E.g c, .tca a) = eAtWall E a c (m (vox E.g c, .tca a)) := by
  obtain ⟨e1, e2⟩ := tang_e_zero_on_conductor hg he m
  obtain ⟨-, b2⟩ := norm_b_zero_on_symmetric hg hb (runSeq ae m)
  rw [b2 _ (by simp), b2 _ (by simp)]
  unfold eAtWall
  split
  · rename_i h
    exact e1 a c hc h
  · rename_i h
    constructor <;> apply e2 <;> rintro a' c' hc' ho (h1 | h1) <;> simp only [Prod.mk.injEq, reduceCtorEq,
      and_false, FC.e.injEq, FC.tca.injEq] at h1
    all_goals
      obtain ⟨h1, rfl⟩ := h1
      have := vox_inj hc.inArray hc'.inArray h1
      subst this
      exact h ho

lemma adjusted_cb {E : Env K} (hg : Mesh E.g) {ae ab : List (Step K)} (he : localAdjustTangE E = some ae)
    (hb : localAdjustNormB E = some ab) (m : FMem K) (a : Fin 3) (c : Pos) (hc : FaceOn E.g a c) :
    runSeq ab (runSeq ae m) (vox E.g c, .cb a) = cbAtWall E a c (m (vox E.g c, .cb a)) := by
  obtain ⟨-, e2⟩ := tang_e_zero_on_conductor hg he m
  obtain ⟨b1, b2⟩ := norm_b_zero_on_symmetric hg hb (runSeq ae m)
  unfold cbAtWall
  split
  · rename_i h
    obtain ⟨s, rfl, h1, h2⟩ := h
    exact b1 s c hc h1 h2
  · rename_i h
    rw [b2, e2]
    · rintro a' c' - - (h1 | h1) <;> simp at h1
    · rintro s c' hc' h1 h2 h3
      simp only [Prod.mk.injEq, FC.cb.injEq] at h3
      obtain ⟨h3, rfl⟩ := h3
      have := vox_inj hc.inArray hc'.inArray h3
      subst this
      exact h ⟨s, rfl, h1, h2⟩

lemma adjusted_jf {E : Env K} (hg : Mesh E.g) {adj : List (Step K)} (h : localAdjustJf E = some adj) (m : FMem K)
    (a : Fin 3) (c : Pos) (hc : EdgeOn E.g a c) :
    runSeq adj m (vox E.g c, .jf a) = jfAtWall E a c (m (vox E.g c, .jf a)) := by
  obtain ⟨h1, h2, -⟩ := jf_at_walls hg h m
  unfold jfAtWall
  split
  · rename_i ho; exact h1 a c hc ho
  · rename_i ho; exact h2 a c hc ho

lemma adjusted_rho {E : Env K} (hg : Mesh E.g) {af ab : List (Step K)} (hf : localAdjustRhof E = some af)
    (hb : localAdjustRhob E = some ab) (m : FMem K) (c : Pos) (hc : NodeOn E.g c) :
    runSeq ab (runSeq af m) (vox E.g c, .rhof) = rhofAtWall E c (m (vox E.g c, .rhof)) ∧
    runSeq ab (runSeq af m) (vox E.g c, .rhob) = rhobAtWall E c (m (vox E.g c, .rhob)) := by
  obtain ⟨f1, f2, f3⟩ := rhof_at_walls hg hf m
  obtain ⟨b1, b2, b3⟩ := rhob_zero_on_conductor hg hb (runSeq af m)
  have keep : runSeq af m (vox E.g c, .rhob) = m (vox E.g c, .rhob) := f3 _ (by simp)
  unfold rhofAtWall rhobAtWall NodeOnConductor
  rw [b3 _ (by simp)]
  split
  · rename_i ho
    exact ⟨f1 c hc ho, b1 c hc ho⟩
  · rename_i ho
    have ho' : ∀ s, OnWall E s c → sideBC E.g s ≠ antiSymmetricFields := fun s h1 h2 => ho ⟨s, h1, h2⟩
    exact ⟨f2 c hc ho', (b2 c hc ho').trans keep⟩

lemma double_plane {E : Env K} (l : List Pos) (hl : l.Nodup) (hin : ∀ c ∈ l, InArray E.g c)
    (m : CMem (Fin 14) K) (c : Pos) (hc : InArray E.g c) (k : Fin 14) :
    l.foldl (fun m c x => if x.1 = vox E.g c then m x * 2 else m x) m (vox E.g c, k) =
      m (vox E.g c, k) * if c ∈ l then 2 else 1 := by
  induction l generalizing m with
  | nil => simp
  | cons d l ih =>
    rw [List.nodup_cons] at hl
    rw [List.foldl_cons, ih hl.2 (fun c hc => hin c (List.mem_cons_of_mem _ hc))]
    by_cases hd : c = d
    · subst hd
      simp [hl.1]
    · have : vox E.g c ≠ vox E.g d := fun e => hd (vox_inj hc (hin d (by simp)) e)
      simp [this, hd]

lemma adjusted_hydro {E : Env K} (hg : Mesh E.g) (m : CMem (Fin 14) K) (c : Pos) (hc : NodeOn E.g c) (k : Fin 14) :
    adjustHydro E m (vox E.g c, k) = hydroAtWall E c (m (vox E.g c, k)) := by
  unfold adjustHydro hydroAtWall
  generalize sides = l
  induction l generalizing m with
  | nil => simp
  | cons s l ih =>
    rw [List.foldl_cons, ih]
    by_cases hw : IsWall E s
    · rw [if_pos (show sideBC E.g s < 0 ∨ E.ws ≤ sideBC E.g s from hw),
        double_plane (nodePlane E.g s.1 (wallOf E.g s)) (box_nodup _ _) (wall_node_inArray hg s) m c hc.inArray]
      have hm : c ∈ nodePlane E.g s.1 (wallOf E.g s) ↔ c s.1 = wallOf E.g s := by
        rw [mem_nodePlane]
        constructor
        · intro h
          have := h s.1
          simp only [if_true] at this
          omega
        · intro h b
          by_cases hb : b = s.1
          · subst hb
            simp [h]
          · simpa [hb] using hc b
      by_cases h2 : c s.1 = wallOf E.g s
      · simp [hm, hw, h2, pow_succ]; ring
      · simp [hm, hw, h2]
    · rw [if_neg (show ¬ (sideBC E.g s < 0 ∨ E.ws ≤ sideBC E.g s) from hw)]
      simp [hw]

/-! ### C30 -/

lemma twiceWeighted_same {d : K} (h : d + d ≠ 0) (w1 w2 : K) : twiceWeighted d d w1 w2 = w1 + w2 := by
  unfold twiceWeighted
  have : d / (d + d) + d / (d + d) = 1 := by rw [← add_div, div_self h]
  rw [this]
  ring

lemma half_of {d : K} (h : d + d ≠ 0) : d / (d + d) = 1 / 2 := by
  have h2 : (2 : K) ≠ 0 := by
    intro h0
    apply h
    rw [← two_mul, h0, zero_mul]
  rw [div_eq_div_iff h h2]
  ring

/-- **C30, currents.**  After `synchronize_jf` the free current of every edge of every rank is the sum, over all
copies of that edge on all ranks, of what the rank holding the copy had collected, corrected at the walls. -/
theorem synchronize_jf_sums {n : ℕ} {W : World K n} {P : Pos} {wrap : Fin 3 → Bool} {coord : Fin n → Pos}
    (hW : W.Cart P wrap coord) {m m' : Fin n → FMem K} (h : SynchronizeJf W m m') (a : Fin 3) (r : Fin n) (c : Pos)
    (hc : EdgeOn (W r).g a c) :
    m' r (vox (W r).g c, .jf a) = ∑ z ∈ copies W P wrap coord fieldExt (.jf a) (r, c),
      jfAtWall (W z.1) a z.2 (m z.1 (vox (W z.1).g z.2, .jf a)) := by
  obtain ⟨adj, h1, st', h2, h3⟩ := h
  have := passes_add hW (S := opJf) shape_jf (k := .jf a) ⟨a, rfl⟩
    (fun r X w1 w2 => twiceWeighted_same (hW.d0 r X) w1 w2) h2 (r, c) (entOn_edge.2.2.mpr hc)
  rw [h3 r]
  refine this.trans (Finset.sum_congr rfl fun z hz => ?_)
  have hz' := entOn_edge.2.2.mp (ent_dims hW.toLinked _ z.1 (mem_copies.mp hz).1)
  exact adjusted_jf (hW.mesh z.1) (h1 z.1) (m z.1) a z.2 hz'

/-- **C30, charges.**  After `synchronize_rho` the free charge density of every node is the sum over all copies of
the node, and the bound charge density the mean. -/
theorem synchronize_rho_sums {n : ℕ} {W : World K n} {P : Pos} {wrap : Fin 3 → Bool} {coord : Fin n → Pos}
    (hW : W.Cart P wrap coord) {m m' : Fin n → FMem K} (h : SynchronizeRho W m m') (r : Fin n) (c : Pos)
    (hc : NodeOn (W r).g c) :
    m' r (vox (W r).g c, .rhof) = ∑ z ∈ copies W P wrap coord fieldExt .rhof (r, c),
      rhofAtWall (W z.1) z.2 (m z.1 (vox (W z.1).g z.2, .rhof)) ∧
    m' r (vox (W r).g c, .rhob) = (∑ z ∈ copies W P wrap coord fieldExt .rhob (r, c),
      rhobAtWall (W z.1) z.2 (m z.1 (vox (W z.1).g z.2, .rhob))) /
        ((copies W P wrap coord fieldExt .rhob (r, c)).card : K) := by
  obtain ⟨af, ab, h1, st', h2, h3⟩ := h
  constructor
  · have := passes_add hW (S := opRho) shape_rho (k := .rhof) (Or.inl rfl)
      (fun r X w1 w2 => twiceWeighted_same (hW.d0 r X) w1 w2) h2 (r, c) (entOn_node.1.mpr hc)
    rw [h3 r]
    refine this.trans (Finset.sum_congr rfl fun z hz => ?_)
    have hz' := entOn_node.1.mp (ent_dims hW.toLinked _ z.1 (mem_copies.mp hz).1)
    exact (adjusted_rho (hW.mesh z.1) (h1 z.1).1 (h1 z.1).2 (m z.1) z.2 hz').1
  · have := passes_mean hW (S := opRho) shape_rho (k := .rhob) (Or.inr rfl)
      (fun r X w1 w2 => by
        show (W r).d X / ((W r).d X + (W r).d X) * w2 + (W r).d X / ((W r).d X + (W r).d X) * w1 = _
        rw [half_of (hW.d0 r X)]
        ring) h2 (r, c) (entOn_node.2.1.mpr hc)
    rw [h3 r]
    refine this.trans (congrArg (· / _) (Finset.sum_congr rfl fun z hz => ?_))
    have hz' := entOn_node.2.1.mp (ent_dims hW.toLinked _ z.1 (mem_copies.mp hz).1)
    exact (adjusted_rho (hW.mesh z.1) (h1 z.1).1 (h1 z.1).2 (m z.1) z.2 hz').2

/-- **C30, moments.**  After `synchronize_hydro_array` each of the fourteen moments of every node is the sum over
all copies of the node. -/
theorem synchronize_hydro_sums {n : ℕ} {W : World K n} {P : Pos} {wrap : Fin 3 → Bool} {coord : Fin n → Pos}
    (hW : W.Cart P wrap coord) {m m' : Fin n → CMem (Fin 14) K} (h : SynchronizeHydro W m m') (k : Fin 14)
    (r : Fin n) (c : Pos) (hc : NodeOn (W r).g c) :
    m' r (vox (W r).g c, k) = ∑ z ∈ copies W P wrap coord nodeExt k (r, c),
      hydroAtWall (W z.1) z.2 (m z.1 (vox (W z.1).g z.2, k)) := by
  obtain ⟨st', h2, h3⟩ := h
  have := passes_add hW (S := opHydro) shape_hydro (k := k) trivial
    (fun r X w1 w2 => twiceWeighted_same (hW.d0 r X) w1 w2) h2 (r, c) ((entOn_node.2.2 k).mpr hc)
  rw [h3 r]
  refine this.trans (Finset.sum_congr rfl fun z hz => ?_)
  have hz' := (entOn_node.2.2 k).mp (ent_dims hW.toLinked _ z.1 (mem_copies.mp hz).1)
  exact adjusted_hydro (hW.mesh z.1) (m z.1) z.2 hz' k

/-- **C30, all copies agree.**  After the three functions, copies of one edge or node on different ranks hold the
same current, charge densities and moments. -/
theorem copies_agree_after_sum {n : ℕ} {W : World K n} {P : Pos} {wrap : Fin 3 → Bool} {coord : Fin n → Pos}
    (hW : W.Cart P wrap coord) :
    (∀ m m' : Fin n → FMem K, SynchronizeJf W m m' → ∀ a x, EdgeOn (W x.1).g a x.2 →
      ∀ y ∈ copies W P wrap coord fieldExt (.jf a) x,
        m' y.1 (vox (W y.1).g y.2, .jf a) = m' x.1 (vox (W x.1).g x.2, .jf a)) ∧
    (∀ m m' : Fin n → FMem K, SynchronizeRho W m m' → ∀ x, NodeOn (W x.1).g x.2 →
      ∀ y ∈ copies W P wrap coord fieldExt .rhof x,
        m' y.1 (vox (W y.1).g y.2, .rhof) = m' x.1 (vox (W x.1).g x.2, .rhof) ∧
        m' y.1 (vox (W y.1).g y.2, .rhob) = m' x.1 (vox (W x.1).g x.2, .rhob)) ∧
    (∀ m m' : Fin n → CMem (Fin 14) K, SynchronizeHydro W m m' → ∀ k x, NodeOn (W x.1).g x.2 →
      ∀ y ∈ copies W P wrap coord nodeExt k x,
        m' y.1 (vox (W y.1).g y.2, k) = m' x.1 (vox (W x.1).g x.2, k)) := by
  have same : ∀ x, copies W P wrap coord fieldExt .rhob x = copies W P wrap coord fieldExt .rhof x := by
    intro x
    ext z
    rw [mem_copies, mem_copies]
    rfl
  refine ⟨?_, ?_, ?_⟩
  · intro m m' h a x hx y hy
    have hy' := entOn_edge.2.2.mp (ent_dims hW.toLinked _ y.1 (mem_copies.mp hy).1)
    rw [synchronize_jf_sums hW h a y.1 y.2 hy', synchronize_jf_sums hW h a x.1 x.2 hx, copies_eq hW hy]
  · intro m m' h x hx y hy
    have hy' := entOn_node.1.mp (ent_dims hW.toLinked _ y.1 (mem_copies.mp hy).1)
    obtain ⟨a1, a2⟩ := synchronize_rho_sums hW h y.1 y.2 hy'
    obtain ⟨b1, b2⟩ := synchronize_rho_sums hW h x.1 x.2 hx
    refine ⟨by rw [a1, b1, copies_eq hW hy], ?_⟩
    rw [a2, b2, copies_eq hW (x := (x.1, x.2)) (by rw [same]; exact hy)]
  · intro m m' h k x hx y hy
    have hy' := (entOn_node.2.2 k).mp (ent_dims hW.toLinked _ y.1 (mem_copies.mp hy).1)
    rw [synchronize_hydro_sums hW h k y.1 y.2 hy', synchronize_hydro_sums hW h k x.1 x.2 hx, copies_eq hW hy]

/-! ### C31 -/

/-- **C31, means.**  After `synchronize_tang_e_norm_b` the electric field of every edge (and its damping term) and
the magnetic field of every face is the mean over all copies, of the values after the wall conditions. -/
theorem synchronize_tang_e_norm_b_means {n : ℕ} {W : World K n} {P : Pos} {wrap : Fin 3 → Bool}
    {coord : Fin n → Pos} (hW : W.Cart P wrap coord) {m m' : Fin n → FMem K} {gerr : K}
    (h : SynchronizeTangENormB W m m' gerr) (a : Fin 3) (r : Fin n) (c : Pos) :
    (EdgeOn (W r).g a c →
      m' r (vox (W r).g c, .e a) = (∑ z ∈ copies W P wrap coord fieldExt (.e a) (r, c),
        eAtWall (W z.1) a z.2 (m z.1 (vox (W z.1).g z.2, .e a))) /
          ((copies W P wrap coord fieldExt (.e a) (r, c)).card : K) ∧
      m' r (vox (W r).g c, .tca a) = (∑ z ∈ copies W P wrap coord fieldExt (.tca a) (r, c),
        eAtWall (W z.1) a z.2 (m z.1 (vox (W z.1).g z.2, .tca a))) /
          ((copies W P wrap coord fieldExt (.tca a) (r, c)).card : K)) ∧
    (FaceOn (W r).g a c →
      m' r (vox (W r).g c, .cb a) = (∑ z ∈ copies W P wrap coord fieldExt (.cb a) (r, c),
        cbAtWall (W z.1) a z.2 (m z.1 (vox (W z.1).g z.2, .cb a))) /
          ((copies W P wrap coord fieldExt (.cb a) (r, c)).card : K)) := by
  obtain ⟨ae, ab, h1, st', h2, h3, -⟩ := h
  refine ⟨fun hc => ⟨?_, ?_⟩, fun hc => ?_⟩
  · have := passes_mean hW (S := opTangENormB) shape_tang_e_norm_b (k := .e a) (Or.inr (Or.inl ⟨a, rfl⟩))
      (fun _ _ _ _ => rfl) h2 (r, c) (entOn_edge.1.mpr hc)
    rw [h3 r]
    refine this.trans (congrArg (· / _) (Finset.sum_congr rfl fun z hz => ?_))
    have hz' := entOn_edge.1.mp (ent_dims hW.toLinked _ z.1 (mem_copies.mp hz).1)
    exact (adjusted_e (hW.mesh z.1) (h1 z.1).1 (h1 z.1).2 (m z.1) a z.2 hz').1
  · have := passes_mean hW (S := opTangENormB) shape_tang_e_norm_b (k := .tca a) (Or.inr (Or.inr ⟨a, rfl⟩))
      (fun _ _ _ _ => rfl) h2 (r, c) (entOn_edge.2.1.mpr hc)
    rw [h3 r]
    refine this.trans (congrArg (· / _) (Finset.sum_congr rfl fun z hz => ?_))
    have hz' := entOn_edge.2.1.mp (ent_dims hW.toLinked _ z.1 (mem_copies.mp hz).1)
    exact (adjusted_e (hW.mesh z.1) (h1 z.1).1 (h1 z.1).2 (m z.1) a z.2 hz').2
  · have := passes_mean hW (S := opTangENormB) shape_tang_e_norm_b (k := .cb a) (Or.inl ⟨a, rfl⟩)
      (fun _ _ _ _ => rfl) h2 (r, c) (entOn_face.mpr hc)
    rw [h3 r]
    refine this.trans (congrArg (· / _) (Finset.sum_congr rfl fun z hz => ?_))
    have hz' := entOn_face.mp (ent_dims hW.toLinked _ z.1 (mem_copies.mp hz).1)
    exact adjusted_cb (hW.mesh z.1) (h1 z.1).1 (h1 z.1).2 (m z.1) a z.2 hz'

/-- **C31, all copies agree** after the call. -/
theorem copies_agree_after_mean {n : ℕ} {W : World K n} {P : Pos} {wrap : Fin 3 → Bool}
    {coord : Fin n → Pos} (hW : W.Cart P wrap coord) {m m' : Fin n → FMem K} {gerr : K}
    (h : SynchronizeTangENormB W m m' gerr) (a : Fin 3) (x : Fin n × Pos) :
    (EdgeOn (W x.1).g a x.2 → ∀ y ∈ copies W P wrap coord fieldExt (.e a) x,
      m' y.1 (vox (W y.1).g y.2, .e a) = m' x.1 (vox (W x.1).g x.2, .e a)) ∧
    (FaceOn (W x.1).g a x.2 → ∀ y ∈ copies W P wrap coord fieldExt (.cb a) x,
      m' y.1 (vox (W y.1).g y.2, .cb a) = m' x.1 (vox (W x.1).g x.2, .cb a)) := by
  constructor
  · intro hx y hy
    have hy' := entOn_edge.1.mp (ent_dims hW.toLinked _ y.1 (mem_copies.mp hy).1)
    rw [((synchronize_tang_e_norm_b_means hW h a y.1 y.2).1 hy').1,
      ((synchronize_tang_e_norm_b_means hW h a x.1 x.2).1 hx).1, copies_eq hW hy]
  · intro hx y hy
    have hy' := entOn_face.mp (ent_dims hW.toLinked _ y.1 (mem_copies.mp hy).1)
    rw [(synchronize_tang_e_norm_b_means hW h a y.1 y.2).2 hy',
      (synchronize_tang_e_norm_b_means hW h a x.1 x.2).2 hx, copies_eq hW hy]

end Verif.Field
