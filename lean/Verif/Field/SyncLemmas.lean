import Verif.Field.Sync

/-!
# One synchronisation pass
-/
namespace Verif.Field

open Grid

variable {K : Type*} [Field K] {C : Type*} [DecidableEq C]

/-! ### Combining a message -/

lemma combine_result (E : Env K) (S : SyncOp C K) (X : Fin 3) (r : K) (l : List ((Pos × C) × K))
    (hn : (l.map fun qv => (vox E.g qv.1.1, qv.1.2)).Nodup) (st : CMem C K × K) :
    (∀ qv ∈ l, (combine E S X r l st).1 (vox E.g qv.1.1, qv.1.2) =
      S.upd (E.d X) r qv.1.2 qv.2 (st.1 (vox E.g qv.1.1, qv.1.2))) ∧
    (∀ x, (∀ qv ∈ l, x ≠ (vox E.g qv.1.1, qv.1.2)) → (combine E S X r l st).1 x = st.1 x) ∧
    (combine E S X r l st).2 =
      st.2 + (l.map fun qv => S.err qv.1.2 qv.2 (st.1 (vox E.g qv.1.1, qv.1.2))).sum := by
  induction l generalizing st with
  | nil => simp [combine]
  | cons a l ih =>
    simp only [List.map_cons, List.nodup_cons, List.mem_map, not_exists, not_and] at hn
    obtain ⟨hn1, hn2⟩ := hn
    set st1 : CMem C K × K := (Function.update st.1 (vox E.g a.1.1, a.1.2)
      (S.upd (E.d X) r a.1.2 a.2 (st.1 (vox E.g a.1.1, a.1.2))),
      st.2 + S.err a.1.2 a.2 (st.1 (vox E.g a.1.1, a.1.2))) with hst1
    have e : combine E S X r (a :: l) st = combine E S X r l st1 := rfl
    obtain ⟨i1, i2, i3⟩ := ih hn2 st1
    rw [e]
    have same : ∀ qv ∈ l, st1.1 (vox E.g qv.1.1, qv.1.2) = st.1 (vox E.g qv.1.1, qv.1.2) := by
      intro qv hqv
      exact Function.update_of_ne (hn1 qv hqv) _ _
    refine ⟨?_, ?_, ?_⟩
    · intro qv hqv
      rcases List.mem_cons.mp hqv with rfl | h
      · rw [i2 _ (fun qv h he => hn1 qv h he.symm)]
        simp [hst1]
      · rw [i1 qv h, same qv h]
    · intro x hx
      rw [i2 x fun qv h => hx qv (List.mem_cons_of_mem _ h)]
      exact Function.update_of_ne (hx a List.mem_cons_self) _ _
    · rw [i3, List.map_cons, List.sum_cons, ← add_assoc]
      congr 1
      congr 1
      exact List.map_congr_left fun qv h => by rw [same qv h]

/-! ### The loops of the four functions -/

/-- Last coordinate of the entities with member `k`. -/
def topOf (g : LGrid) (ext : C → Fin 3 → Bool) (k : C) (b : Fin 3) : ℤ := dims g b + if ext k b then 1 else 0

/-- `c` is the position of an entity with member `k` of this rank: `ext k b` says that along `b` the entities are
at cell boundaries, of which there is one more than cells. -/
def EntOn (g : LGrid) (ext : C → Fin 3 → Bool) (k : C) (c : Pos) : Prop :=
  ∀ b, 1 ≤ c b ∧ c b ≤ topOf g ext k b

/-- A loop visits every entity of the plane `X = w` once, for the members `inc` that lie at cell boundaries along
`X`. -/
structure Shape (slots : SlotsOf C) (inc : C → Prop) (ext : C → Fin 3 → Bool) : Prop where
  mem : ∀ g X w c k, (c, k) ∈ slots g X w ↔
    inc k ∧ ext k X = true ∧ c X = w ∧ ∀ b, b ≠ X → 1 ≤ c b ∧ c b ≤ topOf g ext k b
  shift : ∀ g X w w', slots g X w = (slots g X w').map fun q => (Function.update q.1 X w, q.2)
  nodup : ∀ g X w, (slots g X w).Nodup
  dims : ∀ g g', dims g = dims g' → slots g = slots g'

/-- `cb` lies on faces, everything else that has a direction on edges. -/
def fieldExt : FC → Fin 3 → Bool
  | .cb a, b => b = a
  | .e a, b => b ≠ a
  | .tca a, b => b ≠ a
  | .jf a, b => b ≠ a
  | .rhof, _ => true
  | .rhob, _ => true
  | .divE, _ => true
  | .divB, _ => false

lemma flatMap_pair_nodup {l : List Pos} (hl : l.Nodup) {k k' : FC} (h : k ≠ k') :
    (l.flatMap fun c => [(c, k), (c, k')]).Nodup := by
  rw [List.nodup_flatMap]
  constructor
  · intro c _
    simp [h]
  · refine hl.imp fun {a b} hab x hx hx' => ?_
    simp only [List.mem_cons, List.not_mem_nil, or_false] at hx hx'
    rcases hx with rfl | rfl <;> rcases hx' with e | e <;> exact hab (Prod.mk.inj e).1

lemma flatMap_pair_shift {l l' : List Pos} {X : Fin 3} {w : ℤ} (h : l = l'.map fun c => Function.update c X w)
    (k k' : FC) : (l.flatMap fun c => [(c, k), (c, k')]) =
      (l'.flatMap fun c => [(c, k), (c, k')]).map fun q => (Function.update q.1 X w, q.2) := by
  subst h
  simp [List.flatMap_map, List.map_flatMap]

lemma mem_edge {g : LGrid} {X o p : Fin 3} (h1 : o ≠ X) (h2 : p ≠ X) (h3 : p ≠ o) {w : ℤ} {c : Pos} :
    c ∈ edgePlane g X o w ↔ c X = w ∧ ∀ b, b ≠ X → 1 ≤ c b ∧ c b ≤ dims g b + if b ≠ o then 1 else 0 := by
  rw [mem_edgePlane]
  constructor
  · intro h
    refine ⟨?_, fun b hb => ?_⟩
    · have := h X
      simp at this
      omega
    · have := h b
      by_cases hbo : b = o
      · simpa [hb, hbo, h1] using this
      · simpa [hb, hbo] using this
  · rintro ⟨h, h'⟩ b
    by_cases hb : b = X
    · subst hb; simp [h]
    · have := h' b hb
      by_cases hbo : b = o
      · simpa [hb, hbo, h1] using this
      · simpa [hb, hbo] using this

lemma shape_tang_e_norm_b : Shape slotsTangENormB
    (fun k => (∃ a, k = .cb a) ∨ (∃ a, k = .e a) ∨ ∃ a, k = .tca a) fieldExt where
  mem := by
    intro g X w c k
    obtain ⟨n1, n2, n3⟩ := add_one_ne X
    have e1 := mem_edge (g := g) (w := w) (c := c) n1 n2 n3.symm
    have e2 := mem_edge (g := g) (w := w) (c := c) n2 n1 n3
    have hX : ∀ a : Fin 3, a ≠ X → a = X + 1 ∨ a = X + 2 := by intro a; omega
    simp only [slotsTangENormB, List.mem_append, List.mem_map, List.mem_flatMap, List.mem_cons, Prod.mk.injEq,
      List.not_mem_nil, or_false, mem_facePlane]
    constructor
    · rintro ((⟨d, h, rfl, rfl⟩ | ⟨d, h, h'⟩) | ⟨d, h, h'⟩)
      · refine ⟨Or.inl ⟨_, rfl⟩, by simp [fieldExt], ?_, fun b hb => ?_⟩
        · have := h X
          simp at this
          omega
        · simpa [hb, topOf, fieldExt] using h b
      · rcases h' with ⟨rfl, rfl⟩ | ⟨rfl, rfl⟩
        · refine ⟨by simp, by simpa [fieldExt] using n1.symm, (e1.mp h).1, fun b hb => ?_⟩
          simpa [topOf, fieldExt] using (e1.mp h).2 b hb
        · refine ⟨by simp, by simpa [fieldExt] using n1.symm, (e1.mp h).1, fun b hb => ?_⟩
          simpa [topOf, fieldExt] using (e1.mp h).2 b hb
      · rcases h' with ⟨rfl, rfl⟩ | ⟨rfl, rfl⟩
        · refine ⟨by simp, by simpa [fieldExt] using n2.symm, (e2.mp h).1, fun b hb => ?_⟩
          simpa [topOf, fieldExt] using (e2.mp h).2 b hb
        · refine ⟨by simp, by simpa [fieldExt] using n2.symm, (e2.mp h).1, fun b hb => ?_⟩
          simpa [topOf, fieldExt] using (e2.mp h).2 b hb
    · rintro ⟨hk, hx, hw, hb⟩
      rcases hk with ⟨a, rfl⟩ | ⟨a, rfl⟩ | ⟨a, rfl⟩
      · have ha : X = a := by simpa [fieldExt] using hx
        subst ha
        refine Or.inl (Or.inl ⟨c, fun b => ?_, rfl, rfl⟩)
        by_cases h : b = X
        · subst h; simp [hw]
        · simpa [h, topOf, fieldExt] using hb b h
      · have ha : X ≠ a := by simpa [fieldExt] using hx
        rcases hX a ha.symm with rfl | rfl
        · exact Or.inl (Or.inr ⟨c, e1.mpr ⟨hw, fun b h => by simpa [topOf, fieldExt] using hb b h⟩, by simp⟩)
        · exact Or.inr ⟨c, e2.mpr ⟨hw, fun b h => by simpa [topOf, fieldExt] using hb b h⟩, by simp⟩
      · have ha : X ≠ a := by simpa [fieldExt] using hx
        rcases hX a ha.symm with rfl | rfl
        · exact Or.inl (Or.inr ⟨c, e1.mpr ⟨hw, fun b h => by simpa [topOf, fieldExt] using hb b h⟩, by simp⟩)
        · exact Or.inr ⟨c, e2.mpr ⟨hw, fun b h => by simpa [topOf, fieldExt] using hb b h⟩, by simp⟩
  shift := by
    intro g X w w'
    simp only [slotsTangENormB, List.map_append]
    rw [flatMap_pair_shift (edgePlane_shift g X (X + 1) w w'), flatMap_pair_shift (edgePlane_shift g X (X + 2) w w'),
      facePlane_shift g X w w']
    simp [List.map_map, Function.comp_def]
  nodup := by
    intro g X w
    obtain ⟨n1, n2, n3⟩ := add_one_ne X
    rw [slotsTangENormB, List.nodup_append, List.nodup_append]
    refine ⟨⟨(box_nodup _ _).map fun a b h => (Prod.mk.inj h).1, flatMap_pair_nodup (box_nodup _ _) (by simp), ?_⟩,
      flatMap_pair_nodup (box_nodup _ _) (by simp), ?_⟩
    · intro a ha b hb e
      subst e
      simp only [List.mem_map, List.mem_flatMap, List.mem_cons, List.not_mem_nil, or_false] at ha hb
      obtain ⟨c, -, rfl⟩ := ha
      obtain ⟨d, -, h | h⟩ := hb <;> simp at h
    · intro a ha b hb e
      subst e
      simp only [List.mem_append, List.mem_map, List.mem_flatMap, List.mem_cons, List.not_mem_nil, or_false] at ha hb
      obtain ⟨d, -, h⟩ := hb
      rcases ha with ⟨c, -, rfl⟩ | ⟨c, -, h'⟩
      · rcases h with h | h <;> simp at h
      · rcases h with rfl | rfl <;> rcases h' with h' | h' <;> simp at h' <;> exact n3 h'.2.symm
  dims := by
    intro g g' h
    funext X w
    simp only [slotsTangENormB, edgePlane, facePlane, h]

lemma shape_jf : Shape slotsJf (fun k => ∃ a, k = .jf a) fieldExt where
  mem := by
    intro g X w c k
    obtain ⟨n1, n2, n3⟩ := add_one_ne X
    have e1 := mem_edge (g := g) (w := w) (c := c) n1 n2 n3.symm
    have e2 := mem_edge (g := g) (w := w) (c := c) n2 n1 n3
    have hX : ∀ a : Fin 3, a ≠ X → a = X + 1 ∨ a = X + 2 := by intro a; omega
    simp only [slotsJf, List.mem_append, List.mem_map, Prod.mk.injEq]
    constructor
    · rintro (⟨d, h, rfl, rfl⟩ | ⟨d, h, rfl, rfl⟩)
      · refine ⟨by simp, by simpa [fieldExt] using n1.symm, (e1.mp h).1, fun b hb => ?_⟩
        simpa [topOf, fieldExt] using (e1.mp h).2 b hb
      · refine ⟨by simp, by simpa [fieldExt] using n2.symm, (e2.mp h).1, fun b hb => ?_⟩
        simpa [topOf, fieldExt] using (e2.mp h).2 b hb
    · rintro ⟨⟨a, rfl⟩, hx, hw, hb⟩
      have ha : X ≠ a := by simpa [fieldExt] using hx
      rcases hX a ha.symm with rfl | rfl
      · exact Or.inl ⟨c, e1.mpr ⟨hw, fun b h => by simpa [topOf, fieldExt] using hb b h⟩, by simp⟩
      · exact Or.inr ⟨c, e2.mpr ⟨hw, fun b h => by simpa [topOf, fieldExt] using hb b h⟩, by simp⟩
  shift := by
    intro g X w w'
    simp only [slotsJf, List.map_append]
    rw [edgePlane_shift g X (X + 1) w w', edgePlane_shift g X (X + 2) w w']
    simp [List.map_map, Function.comp_def]
  nodup := by
    intro g X w
    obtain ⟨n1, n2, n3⟩ := add_one_ne X
    rw [slotsJf, List.nodup_append]
    refine ⟨(box_nodup _ _).map fun a b h => (Prod.mk.inj h).1, (box_nodup _ _).map fun a b h => (Prod.mk.inj h).1, ?_⟩
    intro a ha b hb e
    subst e
    simp only [List.mem_map] at ha hb
    obtain ⟨c, -, rfl⟩ := ha
    obtain ⟨d, -, h⟩ := hb
    simp at h
    exact n3 h.2.symm
  dims := by
    intro g g' h
    funext X w
    simp only [slotsJf, edgePlane, h]

lemma mem_node {g : LGrid} {X : Fin 3} {w : ℤ} {c : Pos} :
    c ∈ nodePlane g X w ↔ c X = w ∧ ∀ b, b ≠ X → 1 ≤ c b ∧ c b ≤ dims g b + 1 := by
  rw [mem_nodePlane]
  constructor
  · intro h
    refine ⟨?_, fun b hb => by simpa [hb] using h b⟩
    have := h X
    simp at this
    omega
  · rintro ⟨h, h'⟩ b
    by_cases hb : b = X
    · subst hb; simp [h]
    · simpa [hb] using h' b hb

lemma shape_rho : Shape slotsRho (fun k => k = .rhof ∨ k = .rhob) fieldExt where
  mem := by
    intro g X w c k
    simp only [slotsRho, List.mem_flatMap, List.mem_cons, Prod.mk.injEq, List.not_mem_nil, or_false, mem_node]
    constructor
    · rintro ⟨d, ⟨h1, h2⟩, ⟨rfl, rfl⟩ | ⟨rfl, rfl⟩⟩
      · exact ⟨by simp, rfl, h1, fun b hb => by simpa [topOf, fieldExt] using h2 b hb⟩
      · exact ⟨by simp, rfl, h1, fun b hb => by simpa [topOf, fieldExt] using h2 b hb⟩
    · rintro ⟨rfl | rfl, -, h1, h2⟩
      · exact ⟨c, ⟨h1, fun b hb => by simpa [topOf, fieldExt] using h2 b hb⟩, by simp⟩
      · exact ⟨c, ⟨h1, fun b hb => by simpa [topOf, fieldExt] using h2 b hb⟩, by simp⟩
  shift := fun g X w w' => flatMap_pair_shift (nodePlane_shift g X w w') _ _
  nodup := fun g X w => flatMap_pair_nodup (box_nodup _ _) (by simp)
  dims := by
    intro g g' h
    funext X w
    simp only [slotsRho, nodePlane, h]

/-- All hydro members lie on nodes. -/
def nodeExt : Fin 14 → Fin 3 → Bool := fun _ _ => true

lemma shape_hydro : Shape slotsHydro (fun _ => True) nodeExt where
  mem := by
    intro g X w c k
    simp only [slotsHydro, List.mem_flatMap, List.mem_map, List.mem_finRange, true_and, Prod.mk.injEq, mem_node]
    constructor
    · rintro ⟨d, ⟨h1, h2⟩, k, rfl, rfl⟩
      exact ⟨rfl, h1, fun b hb => by simpa [topOf, nodeExt] using h2 b hb⟩
    · rintro ⟨-, h1, h2⟩
      exact ⟨c, ⟨h1, fun b hb => by simpa [topOf, nodeExt] using h2 b hb⟩, k, rfl, rfl⟩
  shift := by
    intro g X w w'
    simp only [slotsHydro]
    rw [nodePlane_shift g X w w']
    simp [List.flatMap_map, List.map_flatMap, Function.comp_def]
  nodup := by
    intro g X w
    rw [slotsHydro, List.nodup_flatMap]
    constructor
    · intro c _
      exact (List.nodup_finRange 14).map fun a b h => (Prod.mk.inj h).2
    · refine (box_nodup _ _).imp fun {a b} hab x hx hx' => ?_
      simp only [List.mem_map] at hx hx'
      obtain ⟨k, -, rfl⟩ := hx
      obtain ⟨k', -, e⟩ := hx'
      exact hab (Prod.mk.inj e).1.symm
  dims := by
    intro g g' h
    funext X w
    simp only [slotsHydro, nodePlane, h]

lemma EntOn.inArray {g : LGrid} {ext : C → Fin 3 → Bool} {k : C} {c : Pos} (h : EntOn g ext k c) : InArray g c := by
  intro b
  have := h b
  unfold topOf at this
  split at this <;> omega

/-! ### One receive -/

lemma recv_result {E : Env K} (hg : Mesh E.g) (hd : ∀ a, E.d a + E.d a ≠ 0) {S : SyncOp C K} {inc : C → Prop}
    {ext : C → Fin 3 → Bool} (hS : Shape S.slots inc ext) (s : Fin 3 × Bool) (o : Option (CMem C K))
    (st : CMem C K × K) :
    ∃ st1, unpackSync E S s (o.map (packSync E S s)) st = some st1 ∧
      (∀ m, o = some m → ∀ q ∈ S.slots E.g s.1 (syncFill E.g s), st1.1 (vox E.g q.1, q.2) =
        S.upd (E.d s.1) (E.d s.1) q.2 (m (vox E.g (Function.update q.1 s.1 (syncSend E.g s)), q.2))
          (st.1 (vox E.g q.1, q.2))) ∧
      (∀ x, (o ≠ none → ∀ q ∈ S.slots E.g s.1 (syncFill E.g s), x ≠ (vox E.g q.1, q.2)) → st1.1 x = st.1 x) ∧
      st1.2 = st.2 + o.elim 0 fun m => ((S.slots E.g s.1 (syncFill E.g s)).map fun q =>
        S.err q.2 (m (vox E.g (Function.update q.1 s.1 (syncSend E.g s)), q.2)) (st.1 (vox E.g q.1, q.2))).sum := by
  cases o with
  | none => exact ⟨st, rfl, by simp, by simp, by simp⟩
  | some m =>
    set L := S.slots E.g s.1 (syncFill E.g s) with hL
    set l := L.map fun q => (q, m (vox E.g (Function.update q.1 s.1 (syncSend E.g s)), q.2)) with hl
    have hin : ∀ q ∈ L, InArray E.g q.1 := by
      intro q hq
      obtain ⟨-, h2, h3, h4⟩ := (hS.mem E.g s.1 _ q.1 q.2).mp hq
      have hp := hg.pos s.1
      intro b
      by_cases hb : b = s.1
      · subst hb
        rw [h3]
        unfold syncFill
        split <;> omega
      · have := h4 b hb
        unfold topOf at this
        split at this <;> omega
    have hn : (l.map fun qv => (vox E.g qv.1.1, qv.1.2)).Nodup := by
      rw [hl, List.map_map]
      refine List.Nodup.map_on ?_ (hS.nodup _ _ _)
      intro q hq q' hq' e
      simp only [Function.comp_def, Prod.mk.injEq] at e
      exact Prod.ext (vox_inj (hin q hq) (hin q' hq') e.1) e.2
    have hzip : L.zip ((S.slots E.g s.1 (syncSend E.g s)).map fun q => m (vox E.g q.1, q.2)) = l := by
      rw [hS.shift E.g s.1 (syncSend E.g s) (syncFill E.g s), List.map_map, List.zip_map_right, hl, ← hL]
      simp only [List.zip, Function.comp_def]
      rw [List.zipWith_self, List.map_map]
      rfl
    have hlen : ((S.slots E.g s.1 (syncSend E.g s)).map fun q => m (vox E.g q.1, q.2)).length = L.length := by
      rw [hS.shift E.g s.1 (syncSend E.g s) (syncFill E.g s)]
      simp [hL]
    obtain ⟨r1, r2, r3⟩ := combine_result E S s.1 (E.d s.1) l hn st
    refine ⟨combine E S s.1 (E.d s.1) l st, ?_, ?_, ?_, ?_⟩
    · simp only [Option.map_some, unpackSync, packSync]
      cases hh : S.hdr
      · simp only [Bool.false_eq_true, if_false, List.nil_append, hlen, ← hL, lt_irrefl, hzip]
      · simp only [if_true, List.cons_append, List.nil_append, hlen, ← hL, lt_irrefl, if_false, hzip]
    · rintro m' rfl' q hq
      obtain rfl := Option.some.inj rfl'
      exact r1 _ (List.mem_map.mpr ⟨q, hq, rfl⟩)
    · intro x hx
      refine r2 x ?_
      intro qv hqv
      obtain ⟨q, hq, rfl⟩ := List.mem_map.mp hqv
      exact hx (by simp) q hq
    · rw [r3, hl, List.map_map]
      rfl

/-! ### One pass -/

/-- The other copy along axis `a`: an entity in the last plane is the one in the first plane of the next rank and
vice versa. -/
def twin {n : ℕ} (W : World K n) (a : Fin 3) (x : Fin n × Pos) : Option (Fin n × Pos) :=
  if x.2 a = dims (W x.1).g a + 1 then (W.dst x.1 (a, false)).map fun r => (r, Function.update x.2 a 1)
  else if x.2 a = 1 then (W.dst x.1 (a, true)).map fun r => (r, Function.update x.2 a (dims (W x.1).g a + 1))
  else none

/-- The error a rank adds in a pass for the messages of one side. -/
def sideErr {n : ℕ} (W : World K n) (S : SyncOp C K) (st : Fin n → CMem C K × K) (r : Fin n) (s : Fin 3 × Bool) : K :=
  (W.src r s).elim 0 fun r' => ((S.slots (W r).g s.1 (syncFill (W r).g s)).map fun q =>
    S.err q.2 ((st r').1 (vox (W r).g (Function.update q.1 s.1 (syncSend (W r).g s)), q.2))
      ((st r).1 (vox (W r).g q.1, q.2))).sum

lemma pass_rank {n : ℕ} {W : World K n} (hW : W.Linked) {S : SyncOp C K} {inc : C → Prop}
    {ext : C → Fin 3 → Bool} (hS : Shape S.slots inc ext) (X : Fin 3) (st : Fin n → CMem C K × K) (r : Fin n) :
    ∃ st', (unpackSync (W r) S (X, true) (W.recv (fun r' s => packSync (W r') S s (st r').1) r (X, true)) (st r)).bind
        (unpackSync (W r) S (X, false) (W.recv (fun r' s => packSync (W r') S s (st r').1) r (X, false))) = some st' ∧
      (∀ c k, EntOn (W r).g ext k c → inc k → ext k X = true → ∀ y, twin W X (r, c) = some y →
        st'.1 (vox (W r).g c, k) = S.upd ((W r).d X) ((W r).d X) k ((st y.1).1 (vox (W r).g y.2, k))
          ((st r).1 (vox (W r).g c, k))) ∧
      (∀ x, (∀ c k, EntOn (W r).g ext k c → inc k → ext k X = true → twin W X (r, c) ≠ none →
        x ≠ (vox (W r).g c, k)) → st'.1 x = (st r).1 x) ∧
      st'.2 = (st r).2 + sideErr W S st r (X, true) + sideErr W S st r (X, false) := by
  have pk : ∀ s r', packSync (W r') S s = packSync (W r) S s := by
    intro s r'
    have hd := hW.dims r' r
    funext m
    simp only [packSync, hW.d r' r, hS.dims _ _ hd, vox_dims hd, syncSend, hd]
  have mail : ∀ s, W.recv (fun r' s => packSync (W r') S s (st r').1) r s =
      ((W.src r s).map fun r' => (st r').1).map (packSync (W r) S s) := by
    intro s
    simp only [World.recv, Option.map_map, Function.comp_def, pk]
  have hp := (hW.mesh r).pos X
  obtain ⟨st1, a1, a2, a3, a4⟩ := recv_result (hW.mesh r) (hW.d0 r) hS (X, true) ((W.src r (X, true)).map fun r' => (st r').1) (st r)
  obtain ⟨st2, b1, b2, b3, b4⟩ := recv_result (hW.mesh r) (hW.d0 r) hS (X, false) ((W.src r (X, false)).map fun r' => (st r').1) st1
  have f1 : syncFill (W r).g (X, true) = dims (W r).g X + 1 := rfl
  have f2 : syncFill (W r).g (X, false) = 1 := rfl
  have g1 : syncSend (W r).g (X, true) = 1 := rfl
  have g2 : syncSend (W r).g (X, false) = dims (W r).g X + 1 := rfl
  have s1 : W.src r (X, true) = W.dst r (X, false) := rfl
  have s2 : W.src r (X, false) = W.dst r (X, true) := rfl
  -- entities of a plane
  have ent : ∀ w c k, 1 ≤ w → w ≤ dims (W r).g X + 1 →
      ((c, k) ∈ S.slots (W r).g X w ↔ inc k ∧ ext k X = true ∧ c X = w ∧ EntOn (W r).g ext k c) := by
    intro w c k w1 w2
    rw [hS.mem]
    refine and_congr_right fun _ => and_congr_right fun hx => and_congr_right fun hw => ?_
    constructor
    · intro h b
      by_cases hb : b = X
      · subst hb; rw [hw]; simp only [topOf, hx, if_true]; omega
      · exact h b hb
    · intro h b _; exact h b
  -- the first plane is not touched by the first receive
  have keep1 : ∀ q ∈ S.slots (W r).g X 1, st1.1 (vox (W r).g q.1, q.2) = (st r).1 (vox (W r).g q.1, q.2) := by
    intro q hq
    refine a3 _ fun _ q' hq' e => ?_
    obtain ⟨-, -, h3, h4⟩ := (ent 1 q.1 q.2 le_rfl (by omega)).mp hq
    obtain ⟨-, -, h3', h4'⟩ := (ent _ q'.1 q'.2 (by omega) le_rfl).mp hq'
    have := vox_inj h4.inArray h4'.inArray (Prod.mk.inj e).1
    rw [this, h3'] at h3
    omega
  have keep2 : ∀ q ∈ S.slots (W r).g X (dims (W r).g X + 1), st2.1 (vox (W r).g q.1, q.2) = st1.1 (vox (W r).g q.1, q.2) := by
    intro q hq
    refine b3 _ fun _ q' hq' e => ?_
    obtain ⟨-, -, h3, h4⟩ := (ent _ q.1 q.2 (by omega) le_rfl).mp hq
    obtain ⟨-, -, h3', h4'⟩ := (ent 1 q'.1 q'.2 le_rfl (by omega)).mp hq'
    have := vox_inj h4.inArray h4'.inArray (Prod.mk.inj e).1
    rw [this, h3'] at h3
    omega
  refine ⟨st2, ?_, ?_, ?_, ?_⟩
  · rw [mail, mail, a1]
    exact b1
  · intro c k hc hk hx y hy
    unfold twin at hy
    by_cases h1 : c X = dims (W r).g X + 1
    · simp only [h1, if_true, Option.map_eq_some_iff] at hy
      obtain ⟨r', hr', rfl⟩ := hy
      have hq := (ent _ c k (by omega) le_rfl).mpr ⟨hk, hx, h1, hc⟩
      rw [keep2 (c, k) hq, a2 (st r').1 (by rw [s1, hr']; rfl) (c, k) hq]
      rfl
    · by_cases h2 : c X = 1
      · simp only [h1, h2, if_true, if_false] at hy
        rw [if_neg (by omega)] at hy
        obtain ⟨r', hr', rfl⟩ := Option.map_eq_some_iff.mp hy
        have hq := (ent _ c k le_rfl (by omega)).mpr ⟨hk, hx, h2, hc⟩
        rw [b2 (st r').1 (by rw [s2, hr']; rfl) (c, k) hq, keep1 (c, k) hq]
        rfl
      · simp [h1, h2] at hy
  · intro x hx
    rw [b3 x, a3 x]
    · intro ho q hq e
      obtain ⟨h1, h2, h3, h4⟩ := (ent _ q.1 q.2 (by omega) le_rfl).mp hq
      refine hx q.1 q.2 h4 h1 h2 ?_ e
      simp only [twin, h3, if_true]
      rw [← s1]
      intro h
      apply ho
      simpa using h
    · intro ho q hq e
      obtain ⟨h1, h2, h3, h4⟩ := (ent 1 q.1 q.2 le_rfl (by omega)).mp hq
      refine hx q.1 q.2 h4 h1 h2 ?_ e
      simp only [twin, h3, if_true]
      rw [if_neg (by omega), ← s2]
      intro h
      apply ho
      simpa using h
  · rw [b4, a4]
    congr 1
    · congr 1
      unfold sideErr
      cases W.src r (X, true) <;> rfl
    · unfold sideErr
      cases W.src r (X, false) with
      | none => rfl
      | some r' =>
        simp only [Option.map_some, Option.elim]
        congr 1
        refine List.map_congr_left fun q hq => ?_
        rw [keep1 q hq]

lemma pass_exists {n : ℕ} {W : World K n} (hW : W.Linked) {S : SyncOp C K} {inc : C → Prop}
    {ext : C → Fin 3 → Bool} (hS : Shape S.slots inc ext) (X : Fin 3) (st : Fin n → CMem C K × K) :
    ∃ st', SyncPass W S X st st' := by
  choose st' h using fun r => pass_rank hW hS X st r
  exact ⟨st', fun r => (h r).1⟩

lemma passes_exist {n : ℕ} {W : World K n} (hW : W.Linked) {S : SyncOp C K} {inc : C → Prop}
    {ext : C → Fin 3 → Bool} (hS : Shape S.slots inc ext) (st : Fin n → CMem C K × K) :
    ∃ st', SyncPasses W S st st' := by
  obtain ⟨s1, h1⟩ := pass_exists hW hS 0 st
  obtain ⟨s2, h2⟩ := pass_exists hW hS 1 s1
  obtain ⟨s3, h3⟩ := pass_exists hW hS 2 s2
  exact ⟨s3, s1, s2, h1, h2, h3⟩

lemma pass_result {n : ℕ} {W : World K n} (hW : W.Linked) {S : SyncOp C K} {inc : C → Prop}
    {ext : C → Fin 3 → Bool} (hS : Shape S.slots inc ext) {X : Fin 3} {st st' : Fin n → CMem C K × K}
    (h : SyncPass W S X st st') (r : Fin n) :
    (∀ c k, EntOn (W r).g ext k c → inc k → ext k X = true → ∀ y, twin W X (r, c) = some y →
      (st' r).1 (vox (W r).g c, k) = S.upd ((W r).d X) ((W r).d X) k ((st y.1).1 (vox (W r).g y.2, k))
        ((st r).1 (vox (W r).g c, k))) ∧
    (∀ x, (∀ c k, EntOn (W r).g ext k c → inc k → ext k X = true → twin W X (r, c) ≠ none →
      x ≠ (vox (W r).g c, k)) → (st' r).1 x = (st r).1 x) ∧
    (st' r).2 = (st r).2 + sideErr W S st r (X, true) + sideErr W S st r (X, false) := by
  obtain ⟨s, h1, h2, h3, h4⟩ := pass_rank hW hS X st r
  have := h r
  rw [h1] at this
  obtain rfl := Option.some.inj this
  exact ⟨h2, h3, h4⟩

end Verif.Field
