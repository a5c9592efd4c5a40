import Verif.Field.SweepResult
import Mathlib.Tactic.Linarith

/-!
# What the kernels read and write, and the result of each loop
-/
namespace Verif.Field

open Grid

variable {K : Type*} [Field K]

/-! ### Footprints -/

lemma setAt_local {x : Addr} {val : FMem K → K} {Rd : Addr → Prop}
    (h : ∀ m n : FMem K, m x = n x → (∀ y, Rd y → m y = n y) → val m = val n) :
    Local (V := fun _ => K) (fun y => y = x) Rd (setAt x val) where
  frame m y hy := by simp [setAt, Function.update_of_ne hy]
  dep m n hmn y hy := by
    subst hy
    simp only [setAt, Function.update_self]
    exact h m n (hmn _ (Or.inl rfl)) fun y hy => hmn y (Or.inr hy)

/-- `updateCB` writes one component of `cb` and reads `e`. -/
lemma updateCB_local (E : Env K) (frac : K) (o : Fin 3 × Pos) :
    Local (V := fun _ => K) (fun y => y = (vox E.g o.2, .cb o.1)) (fun y => ∃ b, y.2 = .e b)
      (updateCB E frac o) := by
  obtain ⟨a, c⟩ := o
  refine setAt_local ?_
  intro m n h0 h
  have he : ∀ v b, m (v, .e b) = n (v, .e b) := fun v b => h _ ⟨b, rfl⟩
  fin_cases a <;> simp only [cbVal] <;> simp at h0 <;> simp only [h0, he]

/-- What `UPDATE_EX`, … writes. -/
def EW (g : LGrid) (o : Fin 3 × Pos) (x : Addr) : Prop :=
  x = (vox g o.2, .e o.1) ∨ x = (vox g o.2, .tca o.1)

/-- What `UPDATE_EX`, … reads besides. -/
def ERd (g : LGrid) (o : Fin 3 × Pos) (x : Addr) : Prop :=
  x = (vox g o.2, .jf o.1) ∨ ∃ b b', b ≠ o.1 ∧ b' ≠ o.1 ∧ b ≠ b' ∧
    (x = (vox g o.2, .cb b) ∨ x = (vox g (dn b' o.2), .cb b))

/-- A curl: reads what `ERd` allows. -/
def CurlLike (E : Env K) (curl : Fin 3 → Pos → FMem K → K) : Prop :=
  ∀ a c m n, (∀ x, ERd E.g (a, c) x → m x = n x) → curl a c m = curl a c n

lemma curlB_like (E : Env K) (s : K) : CurlLike E (curlB E s) := by
  intro a c m n h
  have h0 : ∀ b, b ≠ a → m (vox E.g c, .cb b) = n (vox E.g c, .cb b) := by
    intro b hb
    obtain ⟨b', hb', hbb⟩ : ∃ b', b' ≠ a ∧ b ≠ b' := by
      revert hb; fin_cases a <;> fin_cases b <;> decide
    exact h _ (Or.inr ⟨b, b', hb, hb', hbb, Or.inl rfl⟩)
  have h1 : ∀ b b', b ≠ a → b' ≠ a → b ≠ b' →
      m (vox E.g (dn b' c), .cb b) = n (vox E.g (dn b' c), .cb b) :=
    fun b b' hb hb' hbb => h _ (Or.inr ⟨b, b', hb, hb', hbb, Or.inr rfl⟩)
  fin_cases a <;> simp only [curlB]
  · rw [h0 2 (by decide), h0 1 (by decide), h1 2 1 (by decide) (by decide) (by decide),
      h1 1 2 (by decide) (by decide) (by decide)]
  · rw [h0 0 (by decide), h0 2 (by decide), h1 0 2 (by decide) (by decide) (by decide),
      h1 2 0 (by decide) (by decide) (by decide)]
  · rw [h0 1 (by decide), h0 0 (by decide), h1 1 0 (by decide) (by decide) (by decide),
      h1 0 1 (by decide) (by decide) (by decide)]

lemma curlBVacuum_eq (E : Env K) (s : K) (h : ∀ b v, E.fmat b v = 0) :
    curlBVacuum E s = curlB E s := by
  funext a c m
  fin_cases a <;> simp only [curlB, curlBVacuum, h] <;> ring

lemma curlBVacuum_like (E : Env K) (s : K) : CurlLike E (curlBVacuum E s) := by
  have := curlB_like { E with fmat := fun _ _ => 0 } s
  intro a c m n h
  have e := curlBVacuum_eq { E with fmat := fun _ _ => 0 } s (fun _ _ => rfl)
  have e' : curlBVacuum { E with fmat := fun _ _ => 0 } s = curlBVacuum E s := rfl
  rw [← e', e]
  exact this a c m n h

/-- `stepE` writes one component of `e` and `tca` and reads `jf` and `cb` of its stencil. -/
lemma stepE_local (E : Env K) (mat : Fin 3 → ℤ → ℕ) (curl : Fin 3 → Pos → FMem K → K)
    (hc : CurlLike E curl) (o : Fin 3 × Pos) :
    Local (V := fun _ => K) (EW E.g o) (ERd E.g o) (stepE E mat curl o) where
  frame m x hx := by
    simp only [EW, not_or] at hx
    simp only [stepE, setAt, Function.update_of_ne hx.1, Function.update_of_ne hx.2]
  dep m n h x hx := by
    have h1 := h (vox E.g o.2, .e o.1) (Or.inl (Or.inl rfl))
    have h2 := h (vox E.g o.2, .tca o.1) (Or.inl (Or.inr rfl))
    have h3 := h (vox E.g o.2, .jf o.1) (Or.inr (Or.inl rfl))
    have h4 : curl o.1 o.2 m = curl o.1 o.2 n := hc _ _ _ _ fun x hx => h x (Or.inr hx)
    have n1 : ((vox E.g o.2, FC.e o.1) : Addr) ≠ (vox E.g o.2, .tca o.1) := by simp
    have n2 : ((vox E.g o.2, FC.jf o.1) : Addr) ≠ (vox E.g o.2, .tca o.1) := by simp
    rcases hx with rfl | rfl
    · simp only [stepE, setAt, Function.update_self, Function.update_of_ne n1,
        Function.update_of_ne n2, h1, h2, h3, h4]
    · simp only [stepE, setAt, Function.update_self, Function.update_of_ne n1.symm, h2, h4]

lemma updateE_local (E : Env K) (o : Fin 3 × Pos) :
    Local (V := fun _ => K) (EW E.g o) (ERd E.g o) (updateE E o) :=
  stepE_local E _ _ (curlB_like E _) o

lemma updateEVacuum_local (E : Env K) (o : Fin 3 × Pos) :
    Local (V := fun _ => K) (EW E.g o) (ERd E.g o) (updateEVacuum E o) :=
  stepE_local E _ _ (curlBVacuum_like E _) o

lemma updateCurl_local (E : Env K) (o : Fin 3 × Pos) :
    Local (V := fun _ => K) (EW E.g o) (ERd E.g o) (updateCurl E o) := by
  refine Local.mono (F := fun y => y = (vox E.g o.2, .tca o.1)) (R := ERd E.g o) ?_
    (fun x hx => Or.inr hx) (fun x hx => Or.inr hx)
  exact setAt_local fun m n _ h => curlB_like E _ _ _ _ _ h

lemma updateCurlVacuum_local (E : Env K) (o : Fin 3 × Pos) :
    Local (V := fun _ => K) (EW E.g o) (ERd E.g o) (updateCurlVacuum E o) := by
  refine Local.mono (F := fun y => y = (vox E.g o.2, .tca o.1)) (R := ERd E.g o) ?_
    (fun x hx => Or.inr hx) (fun x hx => Or.inr hx)
  exact setAt_local fun m n _ h => curlBVacuum_like E _ _ _ _ _ h

/-- What a node update reads: `e` at the node and one step back along its axis, and the charges. -/
def NRd (g : LGrid) (T : FC) (c : Pos) (x : Addr) : Prop :=
  (x = (vox g c, .rhof) ∨ x = (vox g c, .rhob)) ∧ x.2 ≠ T ∨
    ∃ b, x = (vox g c, .e b) ∨ x = (vox g (dn b c), .e b)

lemma divEps_congr (E : Env K) (s : K) (T : FC) (c : Pos) (m n : FMem K)
    (h : ∀ x, NRd E.g T c x → m x = n x) : divEps E s c m = divEps E s c n := by
  have h0 : ∀ b, m (vox E.g c, .e b) = n (vox E.g c, .e b) := fun b => h _ (Or.inr ⟨b, Or.inl rfl⟩)
  have h1 : ∀ b, m (vox E.g (dn b c), .e b) = n (vox E.g (dn b c), .e b) :=
    fun b => h _ (Or.inr ⟨b, Or.inr rfl⟩)
  simp only [divEps, h0, h1]

lemma divEpsVacuum_eq (E : Env K) (s : K) (h : ∀ b v, E.emat b v = 0) :
    divEpsVacuum E s = divEps E s := by
  funext c m
  simp only [divEps, divEpsVacuum, h]
  ring

lemma divEpsVacuum_congr (E : Env K) (s : K) (T : FC) (c : Pos) (m n : FMem K)
    (h : ∀ x, NRd E.g T c x → m x = n x) : divEpsVacuum E s c m = divEpsVacuum E s c n := by
  have h0 : ∀ b, m (vox E.g c, .e b) = n (vox E.g c, .e b) := fun b => h _ (Or.inr ⟨b, Or.inl rfl⟩)
  have h1 : ∀ b, m (vox E.g (dn b c), .e b) = n (vox E.g (dn b c), .e b) :=
    fun b => h _ (Or.inr ⟨b, Or.inr rfl⟩)
  simp only [divEpsVacuum, h0, h1]

lemma updateDivE_local (E : Env K) (c : Pos) :
    Local (V := fun _ => K) (fun y => y = (vox E.g c, .divE)) (NRd E.g .divE c) (updateDivE E c) := by
  refine setAt_local ?_
  intro m n _ h
  rw [divEps_congr E 1 .divE c m n h, h _ (Or.inl ⟨Or.inl rfl, by simp⟩),
    h _ (Or.inl ⟨Or.inr rfl, by simp⟩)]

lemma updateDivEVacuum_local (E : Env K) (c : Pos) :
    Local (V := fun _ => K) (fun y => y = (vox E.g c, .divE)) (NRd E.g .divE c)
      (updateDivEVacuum E c) := by
  refine setAt_local ?_
  intro m n _ h
  rw [divEpsVacuum_congr E 1 .divE c m n h, h _ (Or.inl ⟨Or.inl rfl, by simp⟩),
    h _ (Or.inl ⟨Or.inr rfl, by simp⟩)]

lemma updateRhob_local (E : Env K) (c : Pos) :
    Local (V := fun _ => K) (fun y => y = (vox E.g c, .rhob)) (NRd E.g .rhob c) (updateRhob E c) := by
  refine setAt_local ?_
  intro m n _ h
  rw [divEps_congr E E.eps0 .rhob c m n h, h _ (Or.inl ⟨Or.inl rfl, by simp⟩)]

lemma updateRhobVacuum_local (E : Env K) (c : Pos) :
    Local (V := fun _ => K) (fun y => y = (vox E.g c, .rhob)) (NRd E.g .rhob c)
      (updateRhobVacuum E c) := by
  refine setAt_local ?_
  intro m n _ h
  rw [divEpsVacuum_congr E E.eps0 .rhob c m n h, h _ (Or.inl ⟨Or.inl rfl, by simp⟩)]

lemma updateDivB_local (E : Env K) (c : Pos) :
    Local (V := fun _ => K) (fun y => y = (vox E.g c, .divB)) (fun y => ∃ b, y.2 = .cb b)
      (updateDivB E c) := by
  refine setAt_local ?_
  intro m n _ h
  have he : ∀ v b, m (v, .cb b) = n (v, .cb b) := fun v b => h _ ⟨b, rfl⟩
  simp only [divBVal, he]

lemma marderB_local (E : Env K) (o : Fin 3 × Pos) :
    Local (V := fun _ => K) (fun y => y = (vox E.g o.2, .cb o.1))
      (fun y => y = (vox E.g o.2, .divB) ∨ y = (vox E.g (dn o.1 o.2), .divB)) (marderB E o) := by
  obtain ⟨a, c⟩ := o
  refine setAt_local ?_
  intro m n h0 h
  have h1 := h _ (Or.inl rfl)
  have h2 := h _ (Or.inr rfl)
  fin_cases a <;> simp at h0 h1 h2 <;> simp only [h0, h1, h2]

lemma marderE_local (E : Env K) (o : Fin 3 × Pos) :
    Local (V := fun _ => K) (fun y => y = (vox E.g o.2, .e o.1)) (fun y => y.2 = .divE)
      (marderE E o) := by
  obtain ⟨a, c⟩ := o
  refine setAt_local ?_
  intro m n h0 h
  have he : ∀ v, m (v, .divE) = n (v, .divE) := fun v => h _ rfl
  fin_cases a <;> simp at h0 <;> simp only [h0, he]

lemma marderEVacuum_local (E : Env K) (o : Fin 3 × Pos) :
    Local (V := fun _ => K) (fun y => y = (vox E.g o.2, .e o.1)) (fun y => y.2 = .divE)
      (marderEVacuum E o) := by
  obtain ⟨a, c⟩ := o
  refine setAt_local ?_
  intro m n h0 h
  have he : ∀ v, m (v, .divE) = n (v, .divE) := fun v => h _ rfl
  fin_cases a <;> simp at h0 <;> simp only [h0, he]

/-! ### Ghosts -/

/-- Addresses filled by a ghost exchange. -/
def Ghost (g : LGrid) (slots : Slots) (x : Addr) : Prop :=
  ∃ s : Fin 3 × Bool, ∃ q ∈ slots g s.1 (fillPlane g s), x = (vox g q.1, q.2)

lemma endRemote_mem {E : Env K} {slots : Slots} {recv : Fin 3 × Bool → Option (List K)}
    {rs : List (Step K)} (h : endRemote E slots recv = some rs) {f : Step K} (hf : f ∈ rs) :
    ∃ s : Fin 3 × Bool, ∃ q ∈ slots E.g s.1 (fillPlane E.g s), ∃ u v : K,
      f = setAt (vox E.g q.1, q.2) fun m => u + v * m (vox E.g (along s q.1), q.2) := by
  unfold endRemote at h
  cases hv : sides.mapM (recvSide E slots recv) with
  | none => rw [hv] at h; simp at h
  | some vs =>
    rw [hv] at h
    simp only [Option.map_some, Option.some.injEq] at h
    subst h
    obtain ⟨l, hl, hfl⟩ := List.mem_flatten.mp hf
    obtain ⟨-, h2⟩ := mapM_exists _ _ _ hv
    have : some l ∈ vs.map some := List.mem_map.mpr ⟨l, hl, rfl⟩
    rw [← h2] at this
    obtain ⟨s, -, hs⟩ := List.mem_map.mp this
    unfold recvSide at hs
    cases hr : recv s with
    | none => rw [hr] at hs; simp at hs; subst hs; simp at hfl
    | some msg =>
      rw [hr] at hs
      cases msg with
      | nil => simp [unpackGhost] at hs
      | cons r vals =>
        simp only [unpackGhost] at hs
        split at hs
        · simp at hs
        · simp only [Option.some.injEq] at hs
          subst hs
          rw [List.mem_iff_getElem] at hfl
          obtain ⟨i, hi, rfl⟩ := hfl
          rw [List.getElem_zipWith]
          exact ⟨s, _, List.getElem_mem _, _, _, rfl⟩

lemma endRemote_local {E : Env K} {slots : Slots} {recv : Fin 3 × Bool → Option (List K)}
    {rs : List (Step K)} (h : endRemote E slots recv = some rs) (kind : FC → Prop)
    (hk : ∀ X w, ∀ q ∈ slots E.g X w, kind q.2) :
    ∀ f ∈ rs, Local (V := fun _ => K) (Ghost E.g slots)
      (fun x => kind x.2 ∧ ¬ Ghost E.g slots x) f := by
  intro f hf
  obtain ⟨s, q, hq, u, v, rfl⟩ := endRemote_mem h hf
  refine Local.mono (F := fun y => y = (vox E.g q.1, q.2)) (R := fun y => kind y.2) ?_ ?_ ?_
  · refine setAt_local ?_
    intro m n _ hmn
    rw [hmn _ (hk _ _ q hq)]
  · rintro x rfl
    exact ⟨s, q, hq, rfl⟩
  · intro x hx
    by_cases hG : Ghost E.g slots x
    · exact Or.inl hG
    · exact Or.inr ⟨hx, hG⟩

/-- The slots of a plane lie in the plane and in the array. -/
structure PlaneSlots (g : LGrid) (slots : Slots) : Prop where
  plane : ∀ X w, ∀ q ∈ slots g X w, q.1 X = w
  inArr : ∀ X w, 0 ≤ w → w ≤ dims g X + 1 → ∀ q ∈ slots g X w, InArray g q.1

lemma mem_edgePlane {g : LGrid} {X o : Fin 3} {w : ℤ} {c : Pos} : c ∈ edgePlane g X o w ↔
    ∀ b, (if b = X then w else 1) ≤ c b ∧
      c b ≤ if b = X then w else if b = o then dims g b else dims g b + 1 := mem_box

lemma mem_nodePlane {g : LGrid} {X : Fin 3} {w : ℤ} {c : Pos} : c ∈ nodePlane g X w ↔
    ∀ b, (if b = X then w else 1) ≤ c b ∧ c b ≤ if b = X then w else dims g b + 1 := mem_box

lemma mem_facePlane {g : LGrid} {X : Fin 3} {w : ℤ} {c : Pos} : c ∈ facePlane g X w ↔
    ∀ b, (if b = X then w else 1) ≤ c b ∧ c b ≤ if b = X then w else dims g b := mem_box

lemma slotsTangB_plane (g : LGrid) : PlaneSlots g slotsTangB := by
  constructor
  · intro X w q hq
    simp only [slotsTangB, List.mem_append, List.mem_map, mem_edgePlane] at hq
    obtain ⟨c, h, rfl⟩ | ⟨c, h, rfl⟩ := hq <;> · have := h X; simp at this; simp; omega
  · intro X w h0 h1 q hq b
    simp only [slotsTangB, List.mem_append, List.mem_map, mem_edgePlane] at hq
    obtain ⟨c, h, rfl⟩ | ⟨c, h, rfl⟩ := hq <;>
    · have := h b
      by_cases hb : b = X
      · subst hb; simp at this ⊢; omega
      · simp [hb] at this ⊢
        split at this <;> omega

lemma slotsNormE_plane (g : LGrid) : PlaneSlots g slotsNormE := by
  constructor
  · intro X w q hq
    simp only [slotsNormE, List.mem_map, mem_nodePlane] at hq
    obtain ⟨c, h, rfl⟩ := hq
    have := h X; simp at this; simp; omega
  · intro X w h0 h1 q hq b
    simp only [slotsNormE, List.mem_map, mem_nodePlane] at hq
    obtain ⟨c, h, rfl⟩ := hq
    have := h b
    by_cases hb : b = X
    · subst hb; simp at this ⊢; omega
    · simp [hb] at this ⊢; omega

lemma slotsDivB_plane (g : LGrid) : PlaneSlots g slotsDivB := by
  constructor
  · intro X w q hq
    simp only [slotsDivB, List.mem_map, mem_facePlane] at hq
    obtain ⟨c, h, rfl⟩ := hq
    have := h X; simp at this; simp; omega
  · intro X w h0 h1 q hq b
    simp only [slotsDivB, List.mem_map, mem_facePlane] at hq
    obtain ⟨c, h, rfl⟩ := hq
    have := h b
    by_cases hb : b = X
    · subst hb; simp at this ⊢; omega
    · simp [hb] at this ⊢; omega

lemma slotsTangB_kind (g : LGrid) (X : Fin 3) (w : ℤ) : ∀ q ∈ slotsTangB g X w, ∃ b, q.2 = FC.cb b := by
  intro q hq
  simp only [slotsTangB, List.mem_append, List.mem_map] at hq
  obtain ⟨c, h, rfl⟩ | ⟨c, h, rfl⟩ := hq <;> exact ⟨_, rfl⟩

lemma slotsNormE_kind (g : LGrid) (X : Fin 3) (w : ℤ) : ∀ q ∈ slotsNormE g X w, ∃ b, q.2 = FC.e b := by
  intro q hq
  simp only [slotsNormE, List.mem_map] at hq
  obtain ⟨c, h, rfl⟩ := hq; exact ⟨_, rfl⟩

lemma slotsDivB_kind (g : LGrid) (X : Fin 3) (w : ℤ) : ∀ q ∈ slotsDivB g X w, q.2 = FC.divB := by
  intro q hq
  simp only [slotsDivB, List.mem_map] at hq
  obtain ⟨c, h, rfl⟩ := hq; rfl

/-- No ghost has all its coordinates within the mesh. -/
lemma not_ghost {g : LGrid} (hg : Mesh g) {slots : Slots} (hs : PlaneSlots g slots) {c : Pos}
    (hc : CellOn g c) (k : FC) : ¬ Ghost g slots (vox g c, k) := by
  rintro ⟨s, q, hq, he⟩
  have h1 := (Prod.mk.inj he).1
  have hp := hg.pos s.1
  have hin : InArray g q.1 := hs.inArr s.1 _ (by unfold fillPlane; split <;> omega)
    (by unfold fillPlane; split <;> omega) q hq
  have hpl := hs.plane _ _ q hq
  have := vox_inj hc.inArray hin h1
  have hcs := hc s.1
  rw [this, hpl] at hcs
  unfold fillPlane at hcs
  split at hcs <;> omega

/-! ### Volumes -/

lemma Mesh.volume {g : LGrid} (hg : Mesh g) (l : ℤ) (h0 : 1 ≤ l) (h1 : l ≤ 2) :
    (dims g 0 - l + 1) * (dims g 1 - l + 1) * (dims g 2 - l + 1) < 2 ^ 31 := by
  have hp := hg.pos
  have hf := hg.fits
  simp only [forall_axis, dims] at hp ⊢
  simp at hp ⊢
  obtain ⟨p0, p1, p2⟩ := hp
  have a0 : 0 ≤ g.nx - l + 1 := by omega
  have a1 : 0 ≤ g.ny - l + 1 := by omega
  have a2 : 0 ≤ g.nz - l + 1 := by omega
  have : (g.nx - l + 1) * (g.ny - l + 1) * (g.nz - l + 1) ≤ (g.nx + 2) * (g.ny + 2) * (g.nz + 2) := by
    apply mul_le_mul (mul_le_mul (by omega) (by omega) a1 (by omega)) (by omega) a2
    positivity
  omega

lemma Mesh.lo {g : LGrid} (hg : Mesh g) (l : ℤ) (h1 : l ≤ 2) (a : Fin 3) :
    (fun _ => l : Pos) a ≤ dims g a + 1 := by
  have := hg.pos a
  show l ≤ _
  omega

end Verif.Field
