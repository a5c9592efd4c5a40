import Verif.Field.World
import Verif.Grid.Walled

/-!
# The partition functions set up linked ranks (C32)
-/
namespace Verif.Field

open Grid

variable {K : Type*} [Field K]

/-- Number of the face of a side. -/
def faceOf (s : Fin 3 × Bool) : Fin 6 := ⟨if s.2 then s.1 else s.1 + 3, by split <;> omega⟩

lemma portOf_faceOf (s : Fin 3 × Bool) : sidePort s = portOf (faceOf s : ℕ) := by
  obtain ⟨a, b⟩ := s
  fin_cases a <;> cases b <;> rfl

lemma faceOf_opp (s : Fin 3 × Bool) : faceOf (opp s) = oppFace (faceOf s) := by
  obtain ⟨a, b⟩ := s
  fin_cases a <;> cases b <;> rfl

lemma dst_eq {n : ℕ} (W : World K n) (r r' : Fin n) (s : Fin 3 × Bool) :
    W.dst r s = some r' ↔ sideBC (W r).g s = (r' : ℕ) := by
  have := r'.2
  unfold World.dst
  constructor
  · intro h
    dsimp only at h
    split at h
    · rename_i hb
      have h := congrArg Fin.val (Option.some.inj h)
      simp only at h
      omega
    · simp at h
  · intro h
    simp only [h]
    rw [dif_pos (by omega)]
    simp

/-- Linked from the boundary codes: walls on outer ranks, neighbours elsewhere. -/
lemma linked_of_codes {n : ℕ} {W : World K n} {D : Decomp} (h : D.Valid n) (outer : ℕ → ℤ → Bool)
    (hout : ∀ r s : ℕ, r < n → s < n → ∀ f : Fin 6, D.nbrRank r (f : ℕ) = s →
      outer s (oppFace f : ℕ) = outer r (f : ℕ))
    (fbc : ℤ) (hneg : fbc < 0)
    (hbc : ∀ (r : Fin n) s, sideBC (W r).g s = if outer r (faceOf s : ℕ) then fbc else D.nbrRank r (faceOf s : ℕ))
    (r r' : Fin n) (s : Fin 3 × Bool) : W.dst r s = some r' ↔ W.src r' s = some r := by
  have dst_iff : ∀ (r r' : Fin n) s, W.dst r s = some r' ↔
      outer r (faceOf s : ℕ) = false ∧ D.nbrRank r (faceOf s : ℕ) = (r' : ℕ) := by
    intro r r' s
    rw [dst_eq, hbc]
    have := r'.2
    by_cases ho : outer r (faceOf s : ℕ)
    · simp [ho]
      omega
    · simp [ho]
  have src_dst : ∀ r s, W.src r s = W.dst r (opp s) := fun r s => rfl
  rw [src_dst, dst_iff, dst_iff, faceOf_opp]
  constructor
  · rintro ⟨h1, h2⟩
    exact ⟨(hout r r' r.2 r'.2 _ h2).trans h1, nbrRank_opp h r r' r.2 _ h2⟩
  · rintro ⟨h1, h2⟩
    have oo : ∀ f, oppFace (oppFace f) = f := by decide
    have h3 := hout r' r r'.2 r.2 _ h2
    have h4 := nbrRank_opp h r' r r'.2 _ h2
    rw [oo] at h3 h4
    exact ⟨h3.trans h1, h4⟩

/-- What the runs of a deck share: number of ranks, cell size, a mesh that fits an int. -/
structure SameCells {n : ℕ} (W : World K n) (D : Decomp) : Prop where
  ws : ∀ r, (W r).ws = n
  d : ∀ r r', (W r).d = (W r').d
  d0 : ∀ r a, (W r).d a + (W r).d a ≠ 0
  fits : localNv D < 2 ^ 31

lemma linked_mk {n : ℕ} {W : World K n} {D : Decomp} (h : D.Valid n) (hS : SameCells W D)
    (hd : ∀ r, (W r).g.nx = D.lx ∧ (W r).g.ny = D.ly ∧ (W r).g.nz = D.lz)
    (hl : ∀ r r' s, W.dst r s = some r' ↔ W.src r' s = some r) : W.Linked where
  ws := hS.ws
  d := hS.d
  d0 := hS.d0
  link := hl
  dims := by
    intro r r'
    obtain ⟨a1, a2, a3⟩ := hd r
    obtain ⟨b1, b2, b3⟩ := hd r'
    simp only [Verif.Field.dims, a1, a2, a3, b1, b2, b3]
  mesh := by
    intro r
    obtain ⟨a1, a2, a3⟩ := hd r
    have hlx := h.lx_pos
    have hly := h.ly_pos
    have hlz := h.lz_pos
    refine ⟨?_, ?_⟩
    · simp only [forall_axis, Verif.Field.dims, a1, a2, a3]
      simp; omega
    · have := hS.fits
      simp only [localNv] at this
      simp only [a1, a2, a3, Decomp.lx, Decomp.ly, Decomp.lz]
      exact this

/-- `partition_periodic_box` sets up linked ranks. -/
theorem periodic_world_linked {n : ℕ} {W : World K n} {D : Decomp} (hD : D.ok n = true)
    (t0 : ℕ → ℤ → ℤ) (hg : ∀ r : Fin n, gridOf D n t0 r = some (W r).g) (hS : SameCells W D) :
    W.Linked ∧ ∀ r s, ∃ r', W.src r s = some r' := by
  have h := (D.ok_iff n).mp hD
  have base : ∀ r : Fin n, ((W r).g.nx = D.lx ∧ (W r).g.ny = D.ly ∧ (W r).g.nz = D.lz) ∧
      ∀ s, sideBC (W r).g s = D.nbrRank r (faceOf s : ℕ) := by
    intro r
    obtain ⟨g, e, gx, gy, gz, -, -, -, gb, -, -⟩ :=
      partitionPeriodic_T h (fun _ => localNv D) (fun _ => rfl) (t0 r) r r.2
    have := hg r
    rw [gridOf, e] at this
    obtain rfl := Option.some.inj this
    refine ⟨⟨gx, gy, gz⟩, fun s => ?_⟩
    rw [sideBC, portOf_faceOf, gb _ (face_range _)]
  refine ⟨linked_mk h hS (fun r => (base r).1) (linked_of_codes h (fun _ _ => false) (fun _ _ _ _ _ _ => rfl) (-1)
    (by norm_num) (fun r s => by simpa using (base r).2 s)), ?_⟩
  intro r s
  obtain ⟨r', hr', e, -⟩ := indexToRank_spec h (D.cx r + fdx (faceOf (opp s) : ℕ)) (D.cy r + fdy (faceOf (opp s) : ℕ))
    (D.cz r + fdz (faceOf (opp s) : ℕ))
  refine ⟨⟨r', hr'⟩, ?_⟩
  unfold World.src
  have e2 : sideBC (W r).g (opp s) = r' := by rw [(base r).2]; exact e
  simp only [e2]
  rw [dif_pos (by omega)]
  simp

/-- `partition_absorbing_box` and `partition_metal_box` set up linked ranks. -/
theorem walled_world_linked {n : ℕ} {W : World K n} {D : Decomp} (hD : D.ok n = true)
    (t0 : ℕ → ℤ → ℤ) (fbc pbc : ℤ) (hp : pbc < 0) (hfb : fbc = -1 ∨ fbc = -2 ∨ fbc = -3 ∨ fbc = -4)
    (hg : ∀ r : Fin n, partitionWalled fbc pbc n (fun _ => localNv D) (t0 r) D r = some (W r).g)
    (hS : SameCells W D) : W.Linked := by
  have h := (D.ok_iff n).mp hD
  have base : ∀ r : Fin n, ((W r).g.nx = D.lx ∧ (W r).g.ny = D.ly ∧ (W r).g.nz = D.lz) ∧
      ∀ s, sideBC (W r).g s =
        if outerRank D r (faceOf s : ℕ) then fbc else D.nbrRank r (faceOf s : ℕ) := by
    intro r
    obtain ⟨g1, e, gx, gy, gz, -, -, -, gb, -, -⟩ :=
      partitionPeriodic_T h (fun _ => localNv D) (fun _ => rfl) (t0 r) r r.2
    obtain ⟨g2, a1, a2, a3, a4⟩ := partitionWalled_T h fbc pbc hp hfb _ (t0 r) r g1 e gx gy gz
    have := hg r
    rw [a1] at this
    obtain rfl := Option.some.inj this
    obtain ⟨m1, m2, m3, -⟩ := a2
    refine ⟨⟨m1.trans gx, m2.trans gy, m3.trans gz⟩, fun s => ?_⟩
    rw [sideBC, portOf_faceOf, a3 _ (face_range _), gb _ (face_range _)]
  exact linked_mk h hS (fun r => (base r).1) (linked_of_codes h (fun r f => outerRank D r f)
    (fun r s hr hs f e => outerRank_opp h r s hr hs f e) fbc (by omega) (fun r s => (base r).2 s))

/-! ### The same place of the global mesh -/

/-- Coordinate of a position of rank `r` in the global mesh. -/
def globalCoord (D : Decomp) (r : ℕ) (c : Pos) : Pos :=
  ![(r : ℤ) % D.gpx * (D.gnx / D.gpx) + (c 0 - 1),
    (r : ℤ) / D.gpx % D.gpy * (D.gny / D.gpy) + (c 1 - 1),
    (r : ℤ) / D.gpx / D.gpy * (D.gnz / D.gpz) + (c 2 - 1)]

/-- Number of cells of the global mesh. -/
def globalDims (D : Decomp) : Pos := ![D.gnx, D.gny, D.gnz]

lemma axis_same {P l p p' e x x' : ℤ} (hp : p' = (p + e) % P) (hx : x = x' + e * l) :
    (p * l + x) % (P * l) = (p' * l + x') % (P * l) := by
  rw [Int.emod_eq_emod_iff_emod_sub_eq_zero]
  apply Int.emod_eq_zero_of_dvd
  refine ⟨(p + e) / P, ?_⟩
  have := Int.emod_add_mul_ediv (p + e) P
  rw [hp, hx]
  have h2 : (p + e) % P = p + e - P * ((p + e) / P) := by omega
  rw [h2]
  ring

/-- **C32, same entity.**  In a periodic box the ghost position of rank `r` and the position its neighbour
packed are the same place of the global mesh (up to its periods). -/
theorem same_place {n : ℕ} {W : World K n} {D : Decomp} (hD : D.ok n = true)
    (t0 : ℕ → ℤ → ℤ) (hg : ∀ r : Fin n, gridOf D n t0 r = some (W r).g)
    (r r' : Fin n) (s : Fin 3 × Bool) (hs : W.src r s = some r') (c : Pos)
    (hc : c s.1 = fillPlane (W r).g s) (b : Fin 3) :
    globalCoord D r c b % globalDims D b =
      globalCoord D r' (Function.update c s.1 (sendPlane (W r').g s)) b % globalDims D b := by
  have h := (D.ok_iff n).mp hD
  have base : ∀ r : Fin n, ((W r).g.nx = D.lx ∧ (W r).g.ny = D.ly ∧ (W r).g.nz = D.lz) ∧
      ∀ s, sideBC (W r).g s = D.nbrRank r (faceOf s : ℕ) := by
    intro r
    obtain ⟨g, e, gx, gy, gz, -, -, -, gb, -, -⟩ :=
      partitionPeriodic_T h (fun _ => localNv D) (fun _ => rfl) (t0 r) r r.2
    have := hg r
    rw [gridOf, e] at this
    obtain rfl := Option.some.inj this
    refine ⟨⟨gx, gy, gz⟩, fun s => ?_⟩
    rw [sideBC, portOf_faceOf, gb _ (face_range _)]
  have e1 : sideBC (W r).g (opp s) = (r' : ℕ) := (dst_eq W r r' (opp s)).mp hs
  rw [(base r).2] at e1
  obtain ⟨u, -, eu, ux, uy, uz⟩ := indexToRank_spec h (D.cx r + fdx (faceOf (opp s) : ℕ))
    (D.cy r + fdy (faceOf (opp s) : ℕ)) (D.cz r + fdz (faceOf (opp s) : ℕ))
  have e3 : (u : ℤ) = (r' : ℕ) := by rw [← eu]; exact e1
  have e4 : u = (r' : ℕ) := by exact_mod_cast e3
  subst e4
  obtain ⟨⟨a1, a2, a3⟩, -⟩ := base r
  obtain ⟨⟨b1, b2, b3⟩, -⟩ := base r'
  have hX := h.gx
  have hY := h.gy
  have hZ := h.gz
  have cX : globalCoord D r c 0 = D.cx r * D.lx + (c 0 - 1) := rfl
  have cY : globalCoord D r c 1 = D.cy r * D.ly + (c 1 - 1) := rfl
  have cZ : globalCoord D r c 2 = D.cz r * D.lz + (c 2 - 1) := rfl
  have dX : ∀ c, globalCoord D r' c 0 = D.cx r' * D.lx + (c 0 - 1) := fun _ => rfl
  have dY : ∀ c, globalCoord D r' c 1 = D.cy r' * D.ly + (c 1 - 1) := fun _ => rfl
  have dZ : ∀ c, globalCoord D r' c 2 = D.cz r' * D.lz + (c 2 - 1) := fun _ => rfl
  have gX : globalDims D 0 = D.gpx * D.lx := h.gx
  have gY : globalDims D 1 = D.gpy * D.ly := h.gy
  have gZ : globalDims D 2 = D.gpz * D.lz := h.gz
  have key : ∀ b : Fin 3, c b - 1 = (Function.update c s.1 (sendPlane (W r').g s) b - 1) +
      (![fdx (faceOf (opp s) : ℕ), fdy (faceOf (opp s) : ℕ), fdz (faceOf (opp s) : ℕ)] : Pos) b *
      (![D.lx, D.ly, D.lz] : Pos) b := by
    intro b
    obtain ⟨X, t⟩ := s
    have hd : ∀ X, dims (W r).g X = (![D.lx, D.ly, D.lz] : Pos) X := by
      simp [forall_axis, Verif.Field.dims, a1, a2, a3]
    have hd' : ∀ X, dims (W r').g X = (![D.lx, D.ly, D.lz] : Pos) X := by
      simp [forall_axis, Verif.Field.dims, b1, b2, b3]
    simp only [fillPlane, hd] at hc
    simp only [sendPlane, hd']
    fin_cases X <;> cases t <;> fin_cases b <;>
      simp [opp, faceOf, fdx, fdy, fdz, Function.update] at hc ⊢ <;> omega
  fin_cases b
  · show globalCoord D r c 0 % globalDims D 0 = globalCoord D r' _ 0 % globalDims D 0
    rw [cX, dX, gX]
    exact axis_same ux (key 0)
  · show globalCoord D r c 1 % globalDims D 1 = globalCoord D r' _ 1 % globalDims D 1
    rw [cY, dY, gY]
    exact axis_same uy (key 1)
  · show globalCoord D r c 2 % globalDims D 2 = globalCoord D r' _ 2 % globalDims D 2
    rw [cZ, dZ, gZ]
    exact axis_same uz (key 2)

end Verif.Field
