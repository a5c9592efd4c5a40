import Verif.Region.Spec
import Verif.Region.Lemmas
import Mathlib.Algebra.BigOperators.Fin

/-! # Materials and fields of regions -/
namespace Verif.Region

open Grid (LGrid VOXEL BOUNDARY fromTo)
open Field (Pos FC FMem vox box mem_box box_nodup dims InArray vox_inj up dn)
open Inject (Geom)

variable {K : Type*} [Field K]

lemma spot_eq [CharZero K] (G : Geom K) (c : Pos) (mid : Fin 3 → Bool) :
    spot G c mid = ![axisAt G 0 (c 0) (if mid 0 then 1 / 2 else 1), axisAt G 1 (c 1) (if mid 1 then 1 / 2 else 1),
      axisAt G 2 (c 2) (if mid 2 then 1 / 2 else 1)] := by
  have : ∀ a, spot G c mid a = axisAt G a (c a) (if mid a then 1 / 2 else 1) := fun a => by
    unfold spot axisAt
    split_ifs <;> ring
  funext a
  rw [this]
  fin_cases a <;> rfl

/-- **C93.** `set_point_region_material( rgn, rmat )` gives the material to every edge, face, node and cell, ghosts included, whose
place is in the region, and changes nothing else; with `leave_unchanged` it changes nothing. -/
theorem point_material_set [CharZero K] {g : LGrid} (hg : ∀ a, 0 ≤ dims g a) (G : Geom K) (rgn : (Fin 3 → K) → Bool) (m : MMem) :
    (∀ id, ∀ c, InArray g c → ∀ k, setPointRegionMaterial g G rgn (some id) m (vox g c, k) =
      if rgn (spot G c (matMid k)) then (id : ℤ) else m (vox g c, k)) ∧
    (∀ id, ∀ v k, (∀ c, InArray g c → v ≠ vox g c) → setPointRegionMaterial g G rgn (some id) m (v, k) = m (v, k)) ∧
    setPointRegionMaterial g G rgn none m = m := by
  have key := fun id : ℕ => sweepAll_local (C := MatC) hg (pointMaterialAt G rgn id)
    (fun c k old => if rgn (spot G c (matMid k)) then (id : ℤ) else old) (fun c f m y => by
      obtain ⟨v, k⟩ := y
      simp only [pointMaterialAt, setIf_apply, Prod.mk.injEq, spot_eq]
      by_cases hv : v = f
      · subst hv
        rcases k with a | a | _ | _
        · fin_cases a <;> simp [matMid]
        · fin_cases a <;> simp [matMid]
        · simp [matMid]
        · simp [matMid]
      · simp [hv]) m
  have e : ∀ id : ℕ, getMaterialId (some id) ≠ -1 := fun id => by unfold getMaterialId; simp only; omega
  refine ⟨fun id c hc k => ?_, fun id v k h => ?_, ?_⟩
  · unfold setPointRegionMaterial
    simp only [e id, if_false]
    exact (key id).1 c hc k
  · unfold setPointRegionMaterial
    simp only [e id, if_false]
    exact (key id).2 v k h
  · unfold setPointRegionMaterial
    simp [getMaterialId]

/-- **C93.** `set_point_region_field` gives every component of `E` and `cB`, ghosts included, whose place is in the region, the
value of its equation at that place (times `c` for `cB`), and changes nothing else. -/
theorem point_field_set [CharZero K] {g : LGrid} (hg : ∀ a, 0 ≤ dims g a) (G : Geom K) (cvac : K) (rgn : (Fin 3 → K) → Bool)
    (eqE eqB : Fin 3 → (Fin 3 → K) → K) (m : FMem K) :
    (∀ c, InArray g c → ∀ a, setPointRegionField g G cvac rgn eqE eqB m (vox g c, .e a) =
      if rgn (spot G c (eMid a)) then eqE a (spot G c (eMid a)) else m (vox g c, .e a)) ∧
    (∀ c, InArray g c → ∀ a, setPointRegionField g G cvac rgn eqE eqB m (vox g c, .cb a) =
      if rgn (spot G c (bMid a)) then cvac * eqB a (spot G c (bMid a)) else m (vox g c, .cb a)) ∧
    ∀ v k, ((∀ c, InArray g c → v ≠ vox g c) ∨ (∀ a, k ≠ .e a) ∧ ∀ a, k ≠ .cb a) →
      setPointRegionField g G cvac rgn eqE eqB m (v, k) = m (v, k) := by
  obtain ⟨k1, k2⟩ := sweepAll_local (C := FC) hg (pointFieldAt G cvac rgn eqE eqB)
    (fun c k old => match k with
      | .e a => if rgn (spot G c (eMid a)) then eqE a (spot G c (eMid a)) else old
      | .cb a => if rgn (spot G c (bMid a)) then cvac * eqB a (spot G c (bMid a)) else old
      | _ => old) (fun c f m y => by
      obtain ⟨v, k⟩ := y
      simp only [pointFieldAt, setIf_apply, Prod.mk.injEq, spot_eq]
      by_cases hv : v = f
      · subst hv
        rcases k with a | _ | a | _ | a | _ | a | _
        · fin_cases a <;> simp [eMid]
        · simp
        · fin_cases a <;> simp [bMid]
        all_goals simp
      · simp [hv]) m
  refine ⟨fun c hc a => k1 c hc (.e a), fun c hc a => k1 c hc (.cb a), fun v k h => ?_⟩
  by_cases hv : ∀ c, InArray g c → v ≠ vox g c
  · exact k2 v k hv
  · push Not at hv
    obtain ⟨c, hc, rfl⟩ := hv
    have := k1 c hc k
    rcases h with h | ⟨he, hb⟩
    · exact absurd rfl (h c hc)
    · refine this.trans ?_
      rcases k with a | _ | a | _ | a | _ | a | _
      · exact absurd rfl (he a)
      · rfl
      · exact absurd rfl (hb a)
      all_goals rfl

/-! ### Regions mapped to the mesh by the centres of the cells -/

lemma centre_eq [CharZero K] (G : Geom K) (c c' : Pos) (δ : Fin 3 → Bool) (h : ∀ a, c' a = if δ a then c a - 1 else c a) :
    (spot G c' fun _ => true) = ![axisAt G 0 (c 0) (if δ 0 then 3 / 2 else 1 / 2), axisAt G 1 (c 1) (if δ 1 then 3 / 2 else 1 / 2),
      axisAt G 2 (c 2) (if δ 2 then 3 / 2 else 1 / 2)] := by
  have : ∀ a, spot G c' (fun _ => true) a = axisAt G a (c a) (if δ a then 3 / 2 else 1 / 2) := fun a => by
    unfold spot axisAt
    rw [h a]
    simp only [if_true]
    split_ifs
    · push_cast
      ring
    · ring
  funext a
  rw [this]
  fin_cases a <;> rfl

/-- The evaluations of the region at the eight cells around the lower corner of a cell. -/
def corner (G : Geom K) (rgn : (Fin 3 → K) → Bool) (c : Pos) (δ0 δ1 δ2 : Bool) : Bool :=
  rgn ![axisAt G 0 (c 0) (if δ0 then 3 / 2 else 1 / 2), axisAt G 1 (c 1) (if δ1 then 3 / 2 else 1 / 2),
    axisAt G 2 (c 2) (if δ2 then 3 / 2 else 1 / 2)]

lemma meets_iff [CharZero K] (G : Geom K) (rgn : (Fin 3 → K) → Bool) (mid : Fin 3 → Bool) (c : Pos) :
    Meets G rgn mid c ↔ ∃ δ0 δ1 δ2, (mid 0 = true → δ0 = false) ∧ (mid 1 = true → δ1 = false) ∧ (mid 2 = true → δ2 = false) ∧
      corner G rgn c δ0 δ1 δ2 = true := by
  constructor
  · rintro ⟨c', ht, hi⟩
    refine ⟨decide (c' 0 ≠ c 0), decide (c' 1 ≠ c 1), decide (c' 2 ≠ c 2), ?_, ?_, ?_, ?_⟩
    · intro h; rcases ht 0 with h' | h' <;> simp_all
    · intro h; rcases ht 1 with h' | h' <;> simp_all
    · intro h; rcases ht 2 with h' | h' <;> simp_all
    · have := centre_eq G c c' (fun a => decide (c' a ≠ c a)) fun a => by
        rcases ht a with h' | ⟨-, h'⟩
        · simp [h']
        · simp [h']
      unfold Inside at hi
      rw [this] at hi
      exact hi
  · rintro ⟨δ0, δ1, δ2, h0, h1, h2, h⟩
    refine ⟨fun a => if ![δ0, δ1, δ2] a then c a - 1 else c a, fun a => ?_, ?_⟩
    · fin_cases a
      · cases δ0 <;> simp_all
      · cases δ1 <;> simp_all
      · cases δ2 <;> simp_all
    · unfold Inside
      rw [centre_eq G c _ ![δ0, δ1, δ2] fun a => rfl]
      exact h

lemma interior_iff [CharZero K] (G : Geom K) (rgn : (Fin 3 → K) → Bool) (mid : Fin 3 → Bool) (c : Pos) :
    Interior G rgn mid c ↔ ∀ δ0 δ1 δ2, (mid 0 = true → δ0 = false) → (mid 1 = true → δ1 = false) → (mid 2 = true → δ2 = false) →
      corner G rgn c δ0 δ1 δ2 = true := by
  have h := meets_iff G (fun x => !rgn x) mid c
  have e1 : Interior G rgn mid c ↔ ¬ Meets G (fun x => !rgn x) mid c := by
    unfold Interior Meets Inside
    push Not
    simp
  rw [e1, h]
  push Not
  simp [corner]

open Classical in
/-- The loops of `set_region_material`, place by place. -/
lemma region_material_loop [CharZero K] {g : LGrid} (hg : ∀ a, 0 ≤ dims g a) (G : Geom K) (rgn : (Fin 3 → K) → Bool)
    (vmat smat : Option ℕ) (m : MMem) :
    (∀ c, InArray g c → ∀ k, sweepAll g (regionMaterialAt G rgn (getMaterialId vmat) (getMaterialId smat)) m (vox g c, k) =
      if Interior G rgn (matMid k) c ∧ getMaterialId vmat ≠ -1 then getMaterialId vmat
      else if Meets G rgn (matMid k) c ∧ getMaterialId smat ≠ -1 ∧ k ≠ .c then getMaterialId smat else m (vox g c, k)) ∧
    ∀ x k, (∀ c, InArray g c → x ≠ vox g c) →
      sweepAll g (regionMaterialAt G rgn (getMaterialId vmat) (getMaterialId smat)) m (x, k) = m (x, k) :=
  sweepAll_local (C := MatC) hg (regionMaterialAt G rgn (getMaterialId vmat) (getMaterialId smat))
    (fun c k old => if Interior G rgn (matMid k) c ∧ getMaterialId vmat ≠ -1 then getMaterialId vmat
      else if Meets G rgn (matMid k) c ∧ getMaterialId smat ≠ -1 ∧ k ≠ .c then getMaterialId smat else old) (fun c f m y => by
      obtain ⟨v, k⟩ := y
      have ec : ∀ a0 a1 a2 : Bool, corner G rgn c a0 a1 a2 = rgn ![axisAt G 0 (c 0) (if a0 then 3 / 2 else 1 / 2),
        axisAt G 1 (c 1) (if a1 then 3 / 2 else 1 / 2), axisAt G 2 (c 2) (if a2 then 3 / 2 else 1 / 2)] := fun _ _ _ => rfl
      have e000 := ec false false false
      have e100 := ec true false false
      have e010 := ec false true false
      have e110 := ec true true false
      have e001 := ec false false true
      have e101 := ec true false true
      have e011 := ec false true true
      have e111 := ec true true true
      simp only [if_true, Bool.false_eq_true, if_false] at e000 e100 e010 e110 e001 e101 e011 e111
      simp only [regionMaterialAt, ← e000, ← e100, ← e010, ← e110, ← e001, ← e101, ← e011, ← e111]
      have ei : ∀ (p : Prop) [Decidable p] (m m' : MMem) y, (if p then m else m') y = if p then m y else m' y := fun p _ m m' y => by
        split_ifs <;> rfl
      by_cases hv : v = f
      · subst hv
        simp only [ei, setIf_apply, Prod.mk.injEq, true_and, if_true, meets_iff, interior_iff]
        generalize corner G rgn c = R
        generalize getMaterialId vmat = V
        generalize getMaterialId smat = W
        by_cases hV : V = -1 <;> by_cases hW : W = -1 <;>
        (rcases k with a | a | _ | _
         · fin_cases a <;> simp [matMid, hV, hW] <;> cases R false false false <;> cases R true false false <;>
            cases R false true false <;> cases R true true false <;> cases R false false true <;> cases R true false true <;>
            cases R false true true <;> simp
         · fin_cases a <;> simp [matMid, hV, hW] <;> cases R false false false <;> cases R true false false <;>
            cases R false true false <;> cases R false false true <;> simp
         · simp [matMid, hV, hW] <;> cases R false false false <;> cases R true false false <;>
            cases R false true false <;> cases R true true false <;> cases R false false true <;> cases R true false true <;>
            cases R false true true <;> cases R true true true <;> simp
         · simp [matMid, hV, hW])
      · simp only [ei, setIf_apply, Prod.mk.injEq, hv, false_and, and_false, if_false, ite_self]) m

/-- The material that a place at the surface or in the interior of the region gets. -/
lemma region_material_eq [CharZero K] {g : LGrid} (hg : ∀ a, 0 ≤ dims g a) (G : Geom K) (rgn : (Fin 3 → K) → Bool)
    (vmat smat : Option ℕ) (m : MMem) (c : Pos) (hc : InArray g c) (k : MatC) :
    (Interior G rgn (matMid k) c → ∀ v, vmat = some v → setRegionMaterial g G rgn vmat smat m (vox g c, k) = v) ∧
    (¬ Interior G rgn (matMid k) c ∨ vmat = none → Meets G rgn (matMid k) c → k ≠ .c → ∀ s, smat = some s →
      setRegionMaterial g G rgn vmat smat m (vox g c, k) = s) ∧
    (¬ Interior G rgn (matMid k) c ∨ vmat = none → ¬ Meets G rgn (matMid k) c ∨ smat = none ∨ k = .c →
      setRegionMaterial g G rgn vmat smat m (vox g c, k) = m (vox g c, k)) := by
  classical
  obtain ⟨k1, -⟩ := region_material_loop hg G rgn vmat smat m
  have e : ∀ id : ℕ, (id : ℤ) ≠ -1 := fun id => by omega
  have hk := k1 c hc k
  by_cases hn : getMaterialId vmat = -1 ∧ getMaterialId smat = -1
  · have hs : setRegionMaterial g G rgn vmat smat m = m := by
      unfold setRegionMaterial
      simp only [hn, and_self, if_true]
    have hv0 : vmat = none := by
      rcases vmat with _ | v
      · rfl
      · exact absurd hn.1 (e v)
    have hs0 : smat = none := by
      rcases smat with _ | v
      · rfl
      · exact absurd hn.2 (e v)
    rw [hs, hv0, hs0]
    refine ⟨fun _ v h => by simp at h, fun _ _ _ s h => by simp at h, fun _ _ => rfl⟩
  · have hs : setRegionMaterial g G rgn vmat smat m (vox g c, k) = sweepAll g
        (regionMaterialAt G rgn (getMaterialId vmat) (getMaterialId smat)) m (vox g c, k) := by
      unfold setRegionMaterial
      simp only [hn, if_false]
    rw [hs, hk]
    refine ⟨fun hi v hv => ?_, fun hi hm hkc s h => ?_, fun hi hm => ?_⟩
    · subst hv
      rw [if_pos ⟨hi, e v⟩]
      rfl
    · subst h
      rw [if_neg, if_pos ⟨hm, e s, hkc⟩]
      · rfl
      · rintro ⟨h1, h2⟩
        rcases hi with hi | rfl
        · exact hi h1
        · exact h2 rfl
    · rw [if_neg, if_neg]
      · rintro ⟨h1, h2, h3⟩
        rcases hm with hm | rfl | rfl
        · exact hm h1
        · exact h2 rfl
        · exact h3 rfl
      · rintro ⟨h1, h2⟩
        rcases hi with hi | rfl
        · exact hi h1
        · exact h2 rfl

/-- **C94.** `set_region_material( rgn, vmat, smat )` gives the material `vmat` to the places in the interior of the region (all
cells that they touch have their centres in it), `smat` to the edges, faces and nodes of its surface (some of the cells, but not
all), and changes no other place.  Ghosts are included. -/
theorem region_material_set [CharZero K] {g : LGrid} (hg : ∀ a, 0 ≤ dims g a) (G : Geom K) (rgn : (Fin 3 → K) → Bool) (v s : ℕ)
    (m : MMem) :
    (∀ c, InArray g c → ∀ k,
      (Interior G rgn (matMid k) c → setRegionMaterial g G rgn (some v) (some s) m (vox g c, k) = v) ∧
      (Meets G rgn (matMid k) c → ¬ Interior G rgn (matMid k) c → setRegionMaterial g G rgn (some v) (some s) m (vox g c, k) = s) ∧
      (¬ Meets G rgn (matMid k) c → setRegionMaterial g G rgn (some v) (some s) m (vox g c, k) = m (vox g c, k))) ∧
    ∀ x k, (∀ c, InArray g c → x ≠ vox g c) → setRegionMaterial g G rgn (some v) (some s) m (x, k) = m (x, k) := by
  refine ⟨fun c hc k => ?_, fun x k h => ?_⟩
  · obtain ⟨h1, h2, h3⟩ := region_material_eq hg G rgn (some v) (some s) m c hc k
    have hmi : Interior G rgn (matMid k) c → Meets G rgn (matMid k) c := fun h => ⟨c, fun a => .inl rfl, h c fun a => .inl rfl⟩
    have hcc : k = .c → Meets G rgn (matMid k) c → Interior G rgn (matMid k) c := by
      rintro rfl ⟨c', ht, hi⟩ c'' ht'
      have e : c' = c'' := by
        funext a
        rcases ht a with h | ⟨h, -⟩
        · rcases ht' a with h' | ⟨h', -⟩
          · rw [h, h']
          · simp [matMid] at h'
        · simp [matMid] at h
      rw [← e]
      exact hi
    exact ⟨fun h => h1 h v rfl, fun hm hi => h2 (.inl hi) hm (fun e => hi (hcc e hm)) s rfl,
      fun hm => h3 (.inl fun hi => hm (hmi hi)) (.inl hm)⟩
  · have e : getMaterialId (some v) ≠ -1 := by unfold getMaterialId; simp only; omega
    have hs : setRegionMaterial g G rgn (some v) (some s) m = sweepAll g
        (regionMaterialAt G rgn (getMaterialId (some v)) (getMaterialId (some s))) m := by
      unfold setRegionMaterial
      simp only [e, false_and, if_false]
    rw [hs]
    exact (region_material_loop hg G rgn (some v) (some s) m).2 x k h

/-- **C95.** With `leave_unchanged` for the surface, `set_region_material` changes only the interior; with `leave_unchanged` for both
nothing at all. -/
theorem region_material_leave_partial [CharZero K] {g : LGrid} (hg : ∀ a, 0 ≤ dims g a) (G : Geom K) (rgn : (Fin 3 → K) → Bool)
    (vmat : Option ℕ) (m : MMem) (c : Pos) (hc : InArray g c) (k : MatC) :
    (¬ Interior G rgn (matMid k) c → setRegionMaterial g G rgn vmat none m (vox g c, k) = m (vox g c, k)) ∧
    setRegionMaterial g G rgn none none m = m :=
  ⟨fun h => (region_material_eq hg G rgn vmat none m c hc k).2.2 (.inl h) (.inr (.inl rfl)), by
    unfold setRegionMaterial; simp [getMaterialId]⟩

/-- **C95 fails.** With `leave_unchanged` for the interior, `set_region_material` nevertheless gives the material of the surface to
every edge, face and node in the interior. -/
theorem region_interior_not_left [CharZero K] {g : LGrid} (hg : ∀ a, 0 ≤ dims g a) (G : Geom K) (rgn : (Fin 3 → K) → Bool) (s : ℕ)
    (m : MMem) (c : Pos) (hc : InArray g c) (k : MatC) (hk : k ≠ .c) (hi : Interior G rgn (matMid k) c) :
    setRegionMaterial g G rgn none (some s) m (vox g c, k) = s :=
  (region_material_eq hg G rgn none (some s) m c hc k).2.1 (.inr rfl) ⟨c, fun a => .inl rfl, hi c fun a => .inl rfl⟩ hk s rfl

/-- The position that `set_region_field` takes for a place: one cell too far along the axes where the place is at the boundary of
the cell. -/
def shifted (c : Pos) (mid : Fin 3 → Bool) : Pos := fun b => if mid b then c b else c b + 1

/-- **C96.** `set_region_field` sets the components of `E` and `cB` that touch a cell of the region, and no others.  Missing: the
values are those of the equations at a position one cell further along the axes where the component is at the boundary of its
cell. -/
theorem region_field_set_partial [CharZero K] {g : LGrid} (hg : ∀ a, 0 ≤ dims g a) (G : Geom K) (cvac : K) (rgn : (Fin 3 → K) → Bool)
    (eqE eqB : Fin 3 → (Fin 3 → K) → K) (m : FMem K) :
    (∀ c, InArray g c → ∀ a,
      (Meets G rgn (eMid a) c → setRegionField g G cvac rgn eqE eqB m (vox g c, .e a) =
        eqE a (spot G (shifted c (eMid a)) (eMid a))) ∧
      (¬ Meets G rgn (eMid a) c → setRegionField g G cvac rgn eqE eqB m (vox g c, .e a) = m (vox g c, .e a))) ∧
    (∀ c, InArray g c → ∀ a,
      (Meets G rgn (bMid a) c → setRegionField g G cvac rgn eqE eqB m (vox g c, .cb a) =
        cvac * eqB a (spot G (shifted c (bMid a)) (bMid a))) ∧
      (¬ Meets G rgn (bMid a) c → setRegionField g G cvac rgn eqE eqB m (vox g c, .cb a) = m (vox g c, .cb a))) ∧
    ∀ v k, ((∀ c, InArray g c → v ≠ vox g c) ∨ (∀ a, k ≠ .e a) ∧ ∀ a, k ≠ .cb a) →
      setRegionField g G cvac rgn eqE eqB m (v, k) = m (v, k) := by
  classical
  have es : ∀ (c : Pos) (mid : Fin 3 → Bool), spot G (shifted c mid) mid = ![axisAt G 0 (c 0) (if mid 0 then 1 / 2 else 0),
      axisAt G 1 (c 1) (if mid 1 then 1 / 2 else 0), axisAt G 2 (c 2) (if mid 2 then 1 / 2 else 0)] := fun c mid => by
    have : ∀ a, spot G (shifted c mid) mid a = axisAt G a (c a) (if mid a then 1 / 2 else 0) := fun a => by
      unfold spot shifted axisAt
      split_ifs
      · ring
      · push_cast; ring
    funext a
    rw [this]
    fin_cases a <;> rfl
  obtain ⟨k1, k2⟩ := sweepAll_local (C := FC) hg (regionFieldAt G cvac rgn eqE eqB)
    (fun c k old => match k with
      | .e a => if Meets G rgn (eMid a) c then eqE a (spot G (shifted c (eMid a)) (eMid a)) else old
      | .cb a => if Meets G rgn (bMid a) c then cvac * eqB a (spot G (shifted c (bMid a)) (bMid a)) else old
      | _ => old) (fun c f m y => by
      obtain ⟨v, k⟩ := y
      have ec : ∀ a0 a1 a2 : Bool, corner G rgn c a0 a1 a2 = rgn ![axisAt G 0 (c 0) (if a0 then 3 / 2 else 1 / 2),
        axisAt G 1 (c 1) (if a1 then 3 / 2 else 1 / 2), axisAt G 2 (c 2) (if a2 then 3 / 2 else 1 / 2)] := fun _ _ _ => rfl
      have e000 := ec false false false
      have e100 := ec true false false
      have e010 := ec false true false
      have e110 := ec true true false
      have e001 := ec false false true
      have e101 := ec true false true
      have e011 := ec false true true
      simp only [if_true, Bool.false_eq_true, if_false] at e000 e100 e010 e110 e001 e101 e011
      simp only [regionFieldAt, ← e000, ← e100, ← e010, ← e110, ← e001, ← e101, ← e011, es]
      by_cases hv : v = f
      · subst hv
        simp only [setIf_apply, Prod.mk.injEq, true_and, if_true, meets_iff]
        generalize corner G rgn c = R
        rcases k with a | _ | a | _ | a | _ | a | _
        · fin_cases a <;> simp [eMid] <;> cases R false false false <;> cases R true false false <;>
            cases R false true false <;> cases R true true false <;> cases R false false true <;> cases R true false true <;>
            cases R false true true <;> simp
        · simp
        · fin_cases a <;> simp [bMid] <;> cases R false false false <;> cases R true false false <;>
            cases R false true false <;> cases R false false true <;> simp
        all_goals simp
      · simp only [setIf_apply, Prod.mk.injEq, hv, false_and, and_false, if_false]) m
  refine ⟨fun c hc a => ⟨fun h => (k1 c hc (.e a)).trans (if_pos h), fun h => (k1 c hc (.e a)).trans (if_neg h)⟩,
    fun c hc a => ⟨fun h => (k1 c hc (.cb a)).trans (if_pos h), fun h => (k1 c hc (.cb a)).trans (if_neg h)⟩, fun v k h => ?_⟩
  by_cases hv : ∀ c, InArray g c → v ≠ vox g c
  · exact k2 v k hv
  · push Not at hv
    obtain ⟨c, hc, rfl⟩ := hv
    have := k1 c hc k
    rcases h with h | ⟨he, hb⟩
    · exact absurd rfl (h c hc)
    · refine this.trans ?_
      rcases k with a | _ | a | _ | a | _ | a | _
      · exact absurd rfl (he a)
      · rfl
      · exact absurd rfl (hb a)
      all_goals rfl

/-- **C96 fails.** In a mesh with cells of non-zero size, `set_region_field` with the equation `x_b` for `E_a` (`b ≠ a`) gives no
edge the value of the equation at the edge: it is off by the size of a cell. -/
theorem region_field_misplaced [CharZero K] {g : LGrid} (hg : ∀ a, 0 ≤ dims g a) (G : Geom K) (cvac : K) (eqB : Fin 3 → (Fin 3 → K) → K)
    (m : FMem K) (a b : Fin 3) (hab : b ≠ a) (hd : G.d b ≠ 0) (c : Pos) (hc : InArray g c) :
    setRegionField g G cvac (fun _ => true) (fun _ x => x b) eqB m (vox g c, .e a) = spot G c (eMid a) b + G.d b ∧
    setRegionField g G cvac (fun _ => true) (fun _ x => x b) eqB m (vox g c, .e a) ≠ spot G c (eMid a) b := by
  have h := ((region_field_set_partial hg G cvac (fun _ => true) (fun _ x => x b) eqB m).1 c hc a).1 ⟨c, fun a => .inl rfl, rfl⟩
  have e : spot G (shifted c (eMid a)) (eMid a) b = spot G c (eMid a) b + G.d b := by
    have : eMid a b = false := by simp [eMid, hab]
    simp only [spot, shifted, this, Bool.false_eq_true, if_false]
    push_cast
    ring
  rw [h, e]
  exact ⟨rfl, by simpa using hd⟩

/-- **C96 fails.** A magnetic field that is free of divergence on the mesh, `B = (x y, -y²/2, 0)`, is not when it is set with
`set_region_field`: in every cell the divergence is `-c dy`. -/
theorem region_field_divergence [CharZero K] {g : LGrid} (hg : ∀ a, 0 ≤ dims g a) (G : Geom K) (cvac : K) (hd : ∀ a, G.d a ≠ 0)
    (eqE : Fin 3 → (Fin 3 → K) → K) (m : FMem K) (c : Pos) (hc : InArray g c) (hu : ∀ a, InArray g (up a c)) :
    let B : Fin 3 → (Fin 3 → K) → K := fun a x => ![x 0 * x 1, -(x 1 * x 1) / 2, 0] a
    let f := setRegionField g G cvac (fun _ => true) eqE B m
    ∑ a, (B a (spot G (up a c) (bMid a)) - B a (spot G c (bMid a))) / G.d a = 0 ∧
    ∑ a, (f (vox g (up a c), .cb a) - f (vox g c, .cb a)) / G.d a = -(cvac * G.d 1) := by
  intro B f
  have hf : ∀ c, InArray g c → ∀ a, f (vox g c, .cb a) = cvac * B a (spot G (shifted c (bMid a)) (bMid a)) := fun c hc a =>
    ((region_field_set_partial hg G cvac (fun _ => true) eqE B m).2.1 c hc a).1 ⟨c, fun a => .inl rfl, rfl⟩
  have h0 := hd 0
  have h1 := hd 1
  simp only [Fin.sum_univ_three, hf _ hc, hf _ (hu _)]
  simp only [B, Matrix.cons_val_zero, Matrix.cons_val_one, Matrix.cons_val_two, spot, shifted, bMid, up]
  constructor
  · norm_num
    field_simp
    ring
  · norm_num
    field_simp
    ring

end Verif.Region
