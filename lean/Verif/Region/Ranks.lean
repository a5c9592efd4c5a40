import Verif.Region.Props
import Verif.Inject.Props
import Verif.Torus.Spec

/-! # Regions and the decomposition of the box -/
namespace Verif.Region

open Grid (LGrid Decomp)
open Field (Pos FC FMem vox dims InArray ranksOf)
open Inject (Geom geomOf)
open Charge (siteAt)

variable {K : Type} [Field K] [LinearOrder K] [IsStrictOrderedRing K]

/-- Spec: a function of the position that does not change when the box is left at one face and entered at the opposite one. -/
def Periodic {V : Type*} (B : Inject.Box K) (f : (Fin 3 → K) → V) : Prop :=
  ∀ x a, f (Function.update x a (x a + (B.hi a - B.lo a))) = f x

/-- Spec: the grid of a rank of the decomposition has its share of the cells. -/
def SizedBy (D : Decomp) (g : LGrid) : Prop := dims g = Charge.cellsOf D

omit [LinearOrder K] [IsStrictOrderedRing K] in
lemma periodic_one {V : Type*} {B : Inject.Box K} {f : (Fin 3 → K) → V} (hf : Periodic B f) (x : Fin 3 → K) (a : Fin 3) (n : ℤ) :
    f (Function.update x a (x a + n * (B.hi a - B.lo a))) = f x := by
  induction n using Int.induction_on with
  | zero => simp
  | succ n ih =>
    have h := hf (Function.update x a (x a + ((n : ℤ) : K) * (B.hi a - B.lo a))) a
    rw [Function.update_idem, Function.update_self, ih] at h
    rw [← h]
    congr 2
    push_cast
    ring
  | pred n ih =>
    rw [← ih, ← hf (Function.update x a (x a + ((-(n : ℤ) - 1 : ℤ) : K) * (B.hi a - B.lo a))) a]
    congr 1
    rw [Function.update_idem, Function.update_self]
    congr 1
    push_cast
    ring

omit [LinearOrder K] [IsStrictOrderedRing K] in
lemma periodic_same {V : Type*} {B : Inject.Box K} {f : (Fin 3 → K) → V} (hf : Periodic B f) {x y : Fin 3 → K}
    (h : ∀ a, ∃ n : ℤ, y a = x a + n * (B.hi a - B.lo a)) : f y = f x := by
  choose n hn using h
  have e : y = Function.update (Function.update (Function.update x 0 (x 0 + n 0 * (B.hi 0 - B.lo 0)))
      1 (x 1 + n 1 * (B.hi 1 - B.lo 1))) 2 (x 2 + n 2 * (B.hi 2 - B.lo 2)) := by
    funext a
    fin_cases a
    · simp [Function.update, hn]
    · simp [Function.update, hn]
    · simp [Function.update, hn]
  rw [e]
  have := periodic_one hf (Function.update (Function.update x 0 (x 0 + n 0 * (B.hi 0 - B.lo 0))) 1 (x 1 + n 1 * (B.hi 1 - B.lo 1))) 2 (n 2)
  rw [Function.update_of_ne (by decide), Function.update_of_ne (by decide)] at this
  rw [this]
  have := periodic_one hf (Function.update x 0 (x 0 + n 0 * (B.hi 0 - B.lo 0))) 1 (n 1)
  rw [Function.update_of_ne (by decide)] at this
  rw [this]
  exact periodic_one hf x 0 (n 0)

/-- Two places with the same site are at the same position of the periodic box. -/
lemma spot_same {B : Inject.Box K} {D D' : Decomp} {ws ws' : ℕ} (hD : D.ok ws = true) (hD' : D'.ok ws' = true)
    (hN : Torus.sizeOf D = Torus.sizeOf D') (cdt cdt' : K) (r : Fin ws) (r' : Fin ws') (c c' δ : Pos)
    (hs : siteAt D r c = siteAt D' r' c') (mid : Fin 3 → Bool) (a : Fin 3) :
    ∃ n : ℤ, spot (geomOf B D' r' cdt') (fun b => c' b + δ b) mid a =
      spot (geomOf B D r cdt) (fun b => c b + δ b) mid a + n * (B.hi a - B.lo a) := by
  have aux : ∀ (D : Decomp) (ws : ℕ), D.ok ws = true → ∀ (r : Fin ws) (cdt : K) (c : Pos), spot (geomOf B D r cdt) c mid a =
      B.lo a + (B.hi a - B.lo a) / (Torus.sizeOf D a : K) *
        ((Field.coordOf D r a * Charge.cellsOf D a + (c a - 1) : ℤ) + if mid a then 1 / 2 else 0) ∧ (Torus.sizeOf D a : K) ≠ 0 := by
    intro D ws hD r cdt c
    have h := (D.ok_iff ws).mp hD
    have hp : 1 ≤ ranksOf D a := by fin_cases a; exacts [h.px, h.py, h.pz]
    have hl : 1 ≤ Charge.cellsOf D a := by fin_cases a; exacts [h.lx_pos, h.ly_pos, h.lz_pos]
    have hg : (![D.gnx, D.gny, D.gnz] : Fin 3 → ℤ) a = ranksOf D a * Charge.cellsOf D a := by fin_cases a; exacts [h.gx, h.gy, h.gz]
    have hgp : (![D.gpx, D.gpy, D.gpz] : Fin 3 → ℤ) a = ranksOf D a := rfl
    have hc : (![(Grid.rankToIndex D.gpx D.gpy r).1, (Grid.rankToIndex D.gpx D.gpy r).2.1,
        (Grid.rankToIndex D.gpx D.gpy r).2.2] : Fin 3 → ℤ) a = Field.coordOf D r a := by rw [Grid.rankToIndex_eq]; rfl
    have hp' : (ranksOf D a : K) ≠ 0 := by exact_mod_cast (by omega : ranksOf D a ≠ 0)
    have hl' : (Charge.cellsOf D a : K) ≠ 0 := by exact_mod_cast (by omega : Charge.cellsOf D a ≠ 0)
    have hz : (Torus.sizeOf D a : K) = (ranksOf D a : K) * (Charge.cellsOf D a : K) := by unfold Torus.sizeOf; push_cast; ring
    refine ⟨?_, by rw [hz]; exact mul_ne_zero hp' hl'⟩
    unfold spot geomOf
    simp only
    rw [hg, hgp, hc, hz]
    push_cast
    field_simp
    ring
  obtain ⟨e1, n1⟩ := aux D ws hD r cdt (fun b => c b + δ b)
  obtain ⟨e2, n2⟩ := aux D' ws' hD' r' cdt' (fun b => c' b + δ b)
  have hs' := congrFun hs a
  unfold siteAt at hs'
  have hNa : ranksOf D' a * Charge.cellsOf D' a = ranksOf D a * Charge.cellsOf D a := (congrFun hN a).symm
  rw [hNa] at hs'
  obtain ⟨n, hn⟩ := (Int.dvd_of_emod_eq_zero (Int.emod_eq_emod_iff_emod_sub_eq_zero.mp hs'.symm) :
    ranksOf D a * Charge.cellsOf D a ∣ (Field.coordOf D' r' a * Charge.cellsOf D' a + (c' a - 1)) -
      (Field.coordOf D r a * Charge.cellsOf D a + (c a - 1)))
  refine ⟨n, ?_⟩
  rw [e1, e2, ← hN]
  have hz : (Torus.sizeOf D a : K) = (ranksOf D a : K) * (Charge.cellsOf D a : K) := by unfold Torus.sizeOf; push_cast; ring
  have hn' : ((Field.coordOf D' r' a * Charge.cellsOf D' a + (c' a + δ a - 1) : ℤ) : K) =
      ((Field.coordOf D r a * Charge.cellsOf D a + (c a + δ a - 1) : ℤ) : K) + (Torus.sizeOf D a : K) * n := by
    rw [hz]
    have : Field.coordOf D' r' a * Charge.cellsOf D' a + (c' a + δ a - 1) =
      Field.coordOf D r a * Charge.cellsOf D a + (c a + δ a - 1) + ranksOf D a * Charge.cellsOf D a * n := by linarith
    rw [this]
    push_cast
    ring
  rw [hn']
  field_simp
  ring

section
variable {B : Inject.Box K} {D D' : Decomp} {ws ws' : ℕ} (hD : D.ok ws = true) (hD' : D'.ok ws' = true)
  (hN : Torus.sizeOf D = Torus.sizeOf D') (cdt cdt' : K) (r : Fin ws) (r' : Fin ws') (c c' : Pos)
  (hs : siteAt D r c = siteAt D' r' c')
include hD hD' hN hs

lemma at_same {V : Type*} {f : (Fin 3 → K) → V} (hf : Periodic B f) (mid : Fin 3 → Bool) :
    f (spot (geomOf B D' r' cdt') c' mid) = f (spot (geomOf B D r cdt) c mid) :=
  periodic_same hf fun a => by
    simpa using spot_same (B := B) hD hD' hN cdt cdt' r r' c c' 0 hs mid a

lemma inside_same {rgn : (Fin 3 → K) → Bool} (hr : Periodic B rgn) (δ : Pos) :
    Inside (geomOf B D' r' cdt') rgn (fun b => c' b + δ b) ↔ Inside (geomOf B D r cdt) rgn (fun b => c b + δ b) := by
  unfold Inside
  rw [periodic_same hr fun a => spot_same (B := B) hD hD' hN cdt cdt' r r' c c' δ hs _ a]

lemma touches_same {rgn : (Fin 3 → K) → Bool} (hr : Periodic B rgn) (mid : Fin 3 → Bool) :
    (Interior (geomOf B D' r' cdt') rgn mid c' ↔ Interior (geomOf B D r cdt) rgn mid c) ∧
    (Meets (geomOf B D' r' cdt') rgn mid c' ↔ Meets (geomOf B D r cdt) rgn mid c) := by
  have h1 : ∀ {x y z : Pos}, Touches mid x y → Touches mid z fun b => z b + (y b - x b) := fun h a => by
    rcases h a with h | ⟨h, h'⟩
    · exact .inl (by show _ + (_ - _) = _; rw [h]; ring)
    · exact .inr ⟨h, by show _ + (_ - _) = _; rw [h']; ring⟩
  have h2 : ∀ x y : Pos, (fun b => x b + (y b - x b)) = y := fun x y => by funext b; ring
  have hi : ∀ δ : Pos, _ := fun δ => inside_same hD hD' hN cdt cdt' r r' c c' hs hr δ
  refine ⟨⟨fun h d hd => ?_, fun h d hd => ?_⟩, ⟨?_, ?_⟩⟩
  · have := (hi fun b => d b - c b).1 (h _ (h1 hd))
    rwa [h2] at this
  · have := (hi fun b => d b - c' b).2 (h _ (h1 hd))
    rwa [h2] at this
  · rintro ⟨d, hd, h⟩
    refine ⟨_, h1 hd, (hi fun b => d b - c' b).1 ?_⟩
    rwa [h2]
  · rintro ⟨d, hd, h⟩
    refine ⟨_, h1 hd, (hi fun b => d b - c b).2 ?_⟩
    rwa [h2]

variable {g g' : LGrid} (hg : SizedBy D g) (hg' : SizedBy D' g') (hc : InArray g c) (hc' : InArray g' c')
include hg hg' hc hc'

/-- **C97.** A place of the mesh of a periodic box gets the same material whatever the decomposition and whichever rank has it, also
as a ghost, if the region is periodic. -/
theorem materials_any_decomposition {rgn : (Fin 3 → K) → Bool} (hr : Periodic B rgn) (k : MatC) (m m' : MMem)
    (hm : m (vox g c, k) = m' (vox g' c', k)) (vmat smat : Option ℕ) :
    setPointRegionMaterial g (geomOf B D r cdt) rgn vmat m (vox g c, k) =
      setPointRegionMaterial g' (geomOf B D' r' cdt') rgn vmat m' (vox g' c', k) ∧
    setRegionMaterial g (geomOf B D r cdt) rgn vmat smat m (vox g c, k) =
      setRegionMaterial g' (geomOf B D' r' cdt') rgn vmat smat m' (vox g' c', k) := by
  have p1 : ∀ a, 0 ≤ dims g a := fun a => by
    have h := (D.ok_iff ws).mp hD
    rw [hg]
    fin_cases a
    exacts [(zero_le_one.trans h.lx_pos), (zero_le_one.trans h.ly_pos), (zero_le_one.trans h.lz_pos)]
  have p2 : ∀ a, 0 ≤ dims g' a := fun a => by
    have h := (D'.ok_iff ws').mp hD'
    rw [hg']
    fin_cases a
    exacts [(zero_le_one.trans h.lx_pos), (zero_le_one.trans h.ly_pos), (zero_le_one.trans h.lz_pos)]
  constructor
  · rcases vmat with _ | id
    · rw [(point_material_set p1 _ rgn m).2.2, (point_material_set p2 _ rgn m').2.2, hm]
    · rw [(point_material_set p1 _ rgn m).1 id c hc k, (point_material_set p2 _ rgn m').1 id c' hc' k,
        at_same hD hD' hN cdt cdt' r r' c c' hs hr, hm]
  · classical
    obtain ⟨t1, t2⟩ := touches_same hD hD' hN cdt cdt' r r' c c' hs hr (matMid k)
    unfold setRegionMaterial
    split_ifs
    · exact hm
    · rw [(region_material_loop p1 _ rgn vmat smat m).1 c hc k, (region_material_loop p2 _ rgn vmat smat m').1 c' hc' k, hm]
      simp only [t1, t2]

/-- **C97.** Likewise the fields, if the region and the equations are periodic. -/
theorem fields_any_decomposition {rgn : (Fin 3 → K) → Bool} (hr : Periodic B rgn) {eqE eqB : Fin 3 → (Fin 3 → K) → K}
    (hE : ∀ a, Periodic B (eqE a)) (hB : ∀ a, Periodic B (eqB a)) (cvac : K) (k : FC) (m m' : FMem K)
    (hm : m (vox g c, k) = m' (vox g' c', k)) :
    setPointRegionField g (geomOf B D r cdt) cvac rgn eqE eqB m (vox g c, k) =
      setPointRegionField g' (geomOf B D' r' cdt') cvac rgn eqE eqB m' (vox g' c', k) ∧
    setRegionField g (geomOf B D r cdt) cvac rgn eqE eqB m (vox g c, k) =
      setRegionField g' (geomOf B D' r' cdt') cvac rgn eqE eqB m' (vox g' c', k) := by
  have p1 : ∀ a, 0 ≤ dims g a := fun a => by
    have h := (D.ok_iff ws).mp hD
    rw [hg]
    fin_cases a
    exacts [(zero_le_one.trans h.lx_pos), (zero_le_one.trans h.ly_pos), (zero_le_one.trans h.lz_pos)]
  have p2 : ∀ a, 0 ≤ dims g' a := fun a => by
    have h := (D'.ok_iff ws').mp hD'
    rw [hg']
    fin_cases a
    exacts [(zero_le_one.trans h.lx_pos), (zero_le_one.trans h.ly_pos), (zero_le_one.trans h.lz_pos)]
  obtain ⟨u1, u2, u3⟩ := point_field_set p1 (geomOf B D r cdt) cvac rgn eqE eqB m
  obtain ⟨v1, v2, v3⟩ := point_field_set p2 (geomOf B D' r' cdt') cvac rgn eqE eqB m'
  obtain ⟨x1, x2, x3⟩ := region_field_set_partial p1 (geomOf B D r cdt) cvac rgn eqE eqB m
  obtain ⟨y1, y2, y3⟩ := region_field_set_partial p2 (geomOf B D' r' cdt') cvac rgn eqE eqB m'
  have same : ∀ {V : Type} {f : (Fin 3 → K) → V}, Periodic B f → ∀ mid, f (spot (geomOf B D' r' cdt') c' mid) = f (spot (geomOf B D r cdt) c mid) :=
    fun hf mid => at_same hD hD' hN cdt cdt' r r' c c' hs hf mid
  have same' : ∀ {f : (Fin 3 → K) → K}, Periodic B f → ∀ mid, f (spot (geomOf B D' r' cdt') (shifted c' mid) mid) =
      f (spot (geomOf B D r cdt) (shifted c mid) mid) := fun hf mid =>
    periodic_same hf fun a => by
      have := spot_same (B := B) hD hD' hN cdt cdt' r r' c c' (fun b => if mid b then 0 else 1) hs mid a
      have e : ∀ c : Pos, (fun b => c b + if mid b = true then 0 else 1) = shifted c mid := fun c => by
        funext b
        unfold shifted
        split_ifs <;> simp
      rwa [e, e] at this
  by_cases hk : ∃ a, k = .e a ∨ k = .cb a
  · obtain ⟨a, rfl | rfl⟩ := hk
    · obtain ⟨-, t2⟩ := touches_same hD hD' hN cdt cdt' r r' c c' hs hr (eMid a)
      refine ⟨by rw [u1 c hc, v1 c' hc', same hr, same (hE a), hm], ?_⟩
      by_cases h : Meets (geomOf B D r cdt) rgn (eMid a) c
      · rw [(x1 c hc a).1 h, (y1 c' hc' a).1 (t2.2 h), same' (hE a)]
      · rw [(x1 c hc a).2 h, (y1 c' hc' a).2 fun h' => h (t2.1 h'), hm]
    · obtain ⟨-, t2⟩ := touches_same hD hD' hN cdt cdt' r r' c c' hs hr (bMid a)
      refine ⟨by rw [u2 c hc, v2 c' hc', same hr, same (hB a), hm], ?_⟩
      by_cases h : Meets (geomOf B D r cdt) rgn (bMid a) c
      · rw [(x2 c hc a).1 h, (y2 c' hc' a).1 (t2.2 h), same' (hB a)]
      · rw [(x2 c hc a).2 h, (y2 c' hc' a).2 fun h' => h (t2.1 h'), hm]
  · have hk' : (∀ a, k ≠ .e a) ∧ ∀ a, k ≠ .cb a := ⟨fun a h => hk ⟨a, .inl h⟩, fun a h => hk ⟨a, .inr h⟩⟩
    exact ⟨by rw [u3 _ k (.inr hk'), v3 _ k (.inr hk'), hm], by rw [x3 _ k (.inr hk'), y3 _ k (.inr hk'), hm]⟩

end

end Verif.Region
