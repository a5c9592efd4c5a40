import Verif.Grid.Props

/-!
# C04/C05 for boxes with walls

`partition_absorbing_box` and `partition_metal_box`: the neighbour table is that of the periodic
box except at the outer faces of resolved directions, where it holds the particle boundary code;
both sides of every wall stop communicating, so sends and receives still match.
-/
namespace Verif.Grid

lemma overrideFace_T (cond : Bool) (fbc pbc f : ℤ) (hf : 0 ≤ f ∧ f < 6) (hp : pbc < 0)
    (hfb : fbc = -1 ∨ fbc = -2 ∨ fbc = -3 ∨ fbc = -4) (g : LGrid)
    (hx : 1 ≤ g.nx) (hy : 1 ≤ g.ny) (hz : 1 ≤ g.nz) :
    ∃ g', overrideFace cond fbc pbc (portOf f) g = some g' ∧ g.Same g' ∧
      (∀ p, g'.bc p = if p = portOf f ∧ cond then fbc else g.bc p) ∧
      ∀ c, c.Interior g.nx g.ny g.nz → ∀ f', 0 ≤ f' ∧ f' < 6 →
        g'.T c f' = if f' = f ∧ atWall g.nx g.ny g.nz c f ∧ cond then pbc else g.T c f' := by
  cases cond with
  | false =>
    exact ⟨g, rfl, ⟨rfl, rfl, rfl, rfl, rfl, rfl⟩, by simp, by simp⟩
  | true =>
    have hs : setFbc g (portOf f) fbc = some { g with bc := store g.bc (portOf f) fbc } := by
      unfold setFbc
      rw [if_neg]
      have : ¬ (fbc ≠ antiSymmetricFields ∧ fbc ≠ symmetricFields ∧ fbc ≠ pmcFields ∧
          fbc ≠ absorbFields) := by
        simp only [antiSymmetricFields, symmetricFields, pmcFields, absorbFields]; omega
      rcases face_cases hf with h | h | h | h | h | h <;> subst h <;>
        simp only [portOf, BOUNDARY, this] <;> norm_num
    obtain ⟨g', a1, a2, a3, a4⟩ := setPbc_face { g with bc := store g.bc (portOf f) fbc } pbc hp f hf
      hx hy hz
    refine ⟨g', ?_, a2, ?_, ?_⟩
    · simp only [overrideFace, if_true, hs, Option.bind_eq_bind, Option.bind_some, a1]
    · intro p
      rw [a3]
      simp [store]
    · intro c hc f' hf'
      rw [a4 c hc f' hf']
      simp only [and_true]
      rfl

/-- Is rank `r` at the outer end of the decomposition through face `f`, with that direction
resolved? -/
def outerRank (D : Decomp) (r : ℤ) (f : ℤ) : Bool :=
  if f = 0 then decide (D.cx r = 0 ∧ D.gnx > 1)
  else if f = 3 then decide (D.cx r = D.gpx - 1 ∧ D.gnx > 1)
  else if f = 1 then decide (D.cy r = 0 ∧ D.gny > 1)
  else if f = 4 then decide (D.cy r = D.gpy - 1 ∧ D.gny > 1)
  else if f = 2 then decide (D.cz r = 0 ∧ D.gnz > 1)
  else decide (D.cz r = D.gpz - 1 ∧ D.gnz > 1)

lemma partitionWalled_T {D : Decomp} {ws : ℕ} (h : D.Valid ws) (fbc pbc : ℤ) (hp : pbc < 0)
    (hfb : fbc = -1 ∨ fbc = -2 ∨ fbc = -3 ∨ fbc = -4) (nvs : ℕ → ℤ) (t0 : ℤ → ℤ) (r : ℕ)
    (g0 : LGrid) (e0 : partitionPeriodic ws nvs t0 D r = some g0)
    (gx : g0.nx = D.lx) (gy : g0.ny = D.ly) (gz : g0.nz = D.lz) :
    ∃ g, partitionWalled fbc pbc ws nvs t0 D r = some g ∧ g0.Same g ∧
      (∀ f, 0 ≤ f ∧ f < 6 →
        g.bc (portOf f) = if outerRank D r f then fbc else g0.bc (portOf f)) ∧
      ∀ c, c.Interior D.lx D.ly D.lz → ∀ f, 0 ≤ f ∧ f < 6 →
        g.T c f = if atWall D.lx D.ly D.lz c f ∧ outerRank D r f then pbc else g0.T c f := by
  have hlx := h.lx_pos
  have hly := h.ly_pos
  have hlz := h.lz_pos
  have step : ∀ g, g0.Same g → ∀ f, 0 ≤ f ∧ f < 6 →
      ∃ g', overrideFace (outerRank D r f) fbc pbc (portOf f) g = some g' ∧ g0.Same g' ∧
      (∀ p, g'.bc p = if p = portOf f ∧ outerRank D r f then fbc else g.bc p) ∧
      ∀ c, c.Interior D.lx D.ly D.lz → ∀ f', 0 ≤ f' ∧ f' < 6 →
        g'.T c f' = if f' = f ∧ atWall D.lx D.ly D.lz c f ∧ outerRank D r f then pbc
          else g.T c f' := by
    intro g hg f hf
    obtain ⟨m1, m2, m3, m4, m5, m6⟩ := hg
    have n1 := m1.trans gx
    have n2 := m2.trans gy
    have n3 := m3.trans gz
    obtain ⟨g', a1, a2, a3, a4⟩ := overrideFace_T (outerRank D r f) fbc pbc f hf hp hfb g
      (by omega) (by omega) (by omega)
    rw [n1, n2, n3] at a4
    exact ⟨g', a1, LGrid.Same.trans ⟨m1, m2, m3, m4, m5, m6⟩ a2, a3, a4⟩
  have same0 : g0.Same g0 := ⟨rfl, rfl, rfl, rfl, rfl, rfl⟩
  obtain ⟨g1, a1, s1, b1, T1⟩ := step g0 same0 0 (by omega)
  obtain ⟨g2, a2, s2, b2, T2⟩ := step g1 s1 3 (by omega)
  obtain ⟨g3, a3, s3, b3, T3⟩ := step g2 s2 1 (by omega)
  obtain ⟨g4, a4, s4, b4, T4⟩ := step g3 s3 4 (by omega)
  obtain ⟨g5, a5, s5, b5, T5⟩ := step g4 s4 2 (by omega)
  obtain ⟨g6, a6, s6, b6, T6⟩ := step g5 s5 5 (by omega)
  refine ⟨g6, ?_, s6, ?_, ?_⟩
  · have p0 : portOf 0 = BOUNDARY (-1) 0 0 := rfl
    have p1 : portOf 1 = BOUNDARY 0 (-1) 0 := rfl
    have p2 : portOf 2 = BOUNDARY 0 0 (-1) := rfl
    have p3 : portOf 3 = BOUNDARY 1 0 0 := rfl
    have p4 : portOf 4 = BOUNDARY 0 1 0 := rfl
    have p5 : portOf 5 = BOUNDARY 0 0 1 := rfl
    simp only [outerRank, p0, p1, p2, p3, p4, p5] at a1 a2 a3 a4 a5 a6
    norm_num at a1 a2 a3 a4 a5 a6
    unfold partitionWalled
    rw [rankToIndex_eq]
    simp only [e0, Option.bind_eq_bind, Option.bind_some, gt_iff_lt, Bool.decide_and]
    simp only [a1, a2, a3, a4, a5, a6, Option.bind_some]
  · intro f hf
    rw [b6, b5, b4, b3, b2, b1]
    rcases face_cases hf with h | h | h | h | h | h <;> subst h <;> simp [portOf, BOUNDARY]
  · intro c hc f hf
    rw [T6 c hc f hf, T5 c hc f hf, T4 c hc f hf, T3 c hc f hf, T2 c hc f hf, T1 c hc f hf]
    rcases face_cases hf with h | h | h | h | h | h <;> subst h <;> norm_num

/-- Spec: going one step through face `f` from global position `p` leaves the global box, in a
direction with more than one cell. -/
def LeavesBox (D : Decomp) (p : ℤ × ℤ × ℤ) (f : Fin 6) : Prop :=
  (1 < D.gnx ∧ (p.1 + (faceDir f).1 < 0 ∨ D.gnx ≤ p.1 + (faceDir f).1)) ∨
  (1 < D.gny ∧ (p.2.1 + (faceDir f).2.1 < 0 ∨ D.gny ≤ p.2.1 + (faceDir f).2.1)) ∨
  (1 < D.gnz ∧ (p.2.2 + (faceDir f).2.2 < 0 ∨ D.gnz ≤ p.2.2 + (faceDir f).2.2))

lemma axis_first {P l p a : ℤ} (hp : 0 ≤ p) (hP : p < P) (ha : 1 ≤ a) (hl : a ≤ l) :
    (p * l + (a - 1) + -1 < 0 ↔ a = 1 ∧ p = 0) ∧ ¬ (P * l ≤ p * l + (a - 1) + -1) ∧
    (P * l ≤ p * l + (a - 1) + 1 ↔ a = l ∧ p = P - 1) ∧ ¬ (p * l + (a - 1) + 1 < 0) ∧
    ¬ (p * l + (a - 1) + 0 < 0) ∧ ¬ (P * l ≤ p * l + (a - 1) + 0) := by
  have h1 : (p + 1) * l ≤ P * l := mul_le_mul_of_nonneg_right (by omega) (by omega)
  have h1' : (p + 1) * l = p * l + l := by ring
  have h2 : 0 ≤ p * l := mul_nonneg hp (by omega)
  refine ⟨⟨fun h => ?_, ?_⟩, by omega, ⟨fun h => ?_, ?_⟩, by omega, by omega, by omega⟩
  · refine ⟨by omega, ?_⟩
    by_contra hne
    have : 1 * l ≤ p * l := mul_le_mul_of_nonneg_right (by omega) (by omega)
    omega
  · rintro ⟨rfl, rfl⟩; omega
  · refine ⟨by omega, ?_⟩
    by_contra hne
    have h3 : (p + 1 + 1) * l ≤ P * l := mul_le_mul_of_nonneg_right (by omega) (by omega)
    have h4 : (p + 1 + 1) * l = p * l + l + l := by ring
    omega
  · rintro ⟨rfl, hp⟩
    have : P = p + 1 := by omega
    rw [this]; omega

lemma leaves_iff {D : Decomp} {ws : ℕ} (h : D.Valid ws) (r : ℕ) (hr : r < ws) (c : Cell)
    (hc : IsInterior D c) (f : Fin 6) :
    LeavesBox D (globalPos D r c) f ↔
      (atWall D.lx D.ly D.lz c (f : ℕ) ∧ outerRank D r (f : ℕ) = true) := by
  obtain ⟨p1, p2, p3, p4, p5, p6⟩ := coord_bounds h r hr
  obtain ⟨i1, i2, i3, i4, i5, i6⟩ := hc
  obtain ⟨x1, x2, x3, x4, x5, x6⟩ := axis_first (l := D.lx) (a := c.x) p1 p2 i1 i2
  obtain ⟨y1, y2, y3, y4, y5, y6⟩ := axis_first (l := D.ly) (a := c.y) p3 p4 i3 i4
  obtain ⟨z1, z2, z3, z4, z5, z6⟩ := axis_first (l := D.lz) (a := c.z) p5 p6 i5 i6
  rw [← h.gx] at x2 x3 x6
  rw [← h.gy] at y2 y3 y6
  rw [← h.gz] at z2 z3 z6
  have e : globalPos D r c = (D.cx r * D.lx + (c.x - 1), D.cy r * D.ly + (c.y - 1),
        D.cz r * D.lz + (c.z - 1)) := rfl
  rw [e]
  fin_cases f <;> simp only [LeavesBox, faceDir, atWall, outerRank, x1, x2, x3, x4, x5, x6, y1, y2,
    y3, y4, y5, y6, z1, z2, z3, z4, z5, z6] <;> norm_num [and_comm, and_left_comm, and_assoc]

/-- **C04** for walled boxes (absorbing with any particle code `pbc < 0`, or metal): through a face
that leaves the box in a resolved direction the table holds the boundary code, everywhere else the
entry is the same as in the periodic box. -/
theorem walled_neighbor (D : Decomp) (ws : ℕ) (hD : D.ok ws = true) (t0 : ℕ → ℤ → ℤ)
    (fbc pbc : ℤ) (hp : pbc < 0) (hfb : fbc = -1 ∨ fbc = -2 ∨ fbc = -3 ∨ fbc = -4)
    (r : ℕ) (hr : r < ws) (g0 : LGrid) (hg0 : gridOf D ws t0 r = some g0) :
    ∃ g, partitionWalled fbc pbc ws (fun _ => localNv D) (t0 r) D r = some g ∧
      ∀ c, IsInterior D c → ∀ f : Fin 6,
        (LeavesBox D (globalPos D r c) f → nbr g c f = pbc) ∧
        (¬ LeavesBox D (globalPos D r c) f → nbr g c f = nbr g0 c f) := by
  have h := (D.ok_iff ws).mp hD
  obtain ⟨g1, e, gx, gy, gz, -, -⟩ :=
    partitionPeriodic_T h (fun _ => localNv D) (fun _ => rfl) (t0 r) r hr
  obtain rfl : g1 = g0 := by
    rw [gridOf] at hg0; rw [e] at hg0; exact Option.some.inj hg0
  obtain ⟨g, a1, a2, a3, a4⟩ := partitionWalled_T h fbc pbc hp hfb _ (t0 r) r g1 e gx gy gz
  refine ⟨g, a1, ?_⟩
  intro c hc f
  have e1 : nbr g c f = g.T c (f : ℕ) := rfl
  have e2 : nbr g1 c f = g1.T c (f : ℕ) := rfl
  rw [e1, e2, a4 c hc _ (face_range f), leaves_iff h r hr c hc f]
  constructor
  · intro hl; rw [if_pos hl]
  · intro hl; rw [if_neg hl]

lemma outerRank_opp {D : Decomp} {ws : ℕ} (h : D.Valid ws) (r s : ℕ) (hr : r < ws) (hs : s < ws)
    (f : Fin 6) (hs' : D.nbrRank r (f : ℕ) = s) :
    outerRank D s (oppFace f : ℕ) = outerRank D r (f : ℕ) := by
  obtain ⟨p1, p2, p3, p4, p5, p6⟩ := coord_bounds h r hr
  obtain ⟨q1, q2, q3, q4, q5, q6⟩ := coord_bounds h s hs
  obtain ⟨s', -, es, sx, sy, sz⟩ := indexToRank_spec h (D.cx r + fdx (f : ℕ)) (D.cy r + fdy (f : ℕ))
    (D.cz r + fdz (f : ℕ))
  have : (s' : ℤ) = s := by rw [← es]; exact hs'
  obtain rfl : s' = s := by exact_mod_cast this
  have lo : ∀ p P : ℤ, 0 ≤ p → p < P → ((p + -1) % P = P - 1 ↔ p = 0) := by
    intro p P h0 h1
    rcases eq_or_lt_of_le h0 with h | h
    · subst h
      rw [show (0 + -1 : ℤ) = (P - 1) + P * (-1) by ring, Int.add_mul_emod_self_left,
        Int.emod_eq_of_lt (by omega) (by omega)]
      simp
    · rw [Int.emod_eq_of_lt (by omega) (by omega)]; omega
  have hi : ∀ p P : ℤ, 0 ≤ p → p < P → ((p + 1) % P = 0 ↔ p = P - 1) := by
    intro p P h0 h1
    rcases eq_or_lt_of_le (show p + 1 ≤ P by omega) with h | h
    · rw [h, Int.emod_self]; omega
    · rw [Int.emod_eq_of_lt (by omega) h]; omega
  fin_cases f <;> simp only [fdx, fdy, fdz] at sx sy sz <;> norm_num at sx sy sz <;>
    simp only [outerRank, oppFace] <;> norm_num
  · simp only [sx, lo _ _ p1 p2]
  · simp only [sy, lo _ _ p3 p4]
  · simp only [sz, lo _ _ p5 p6]
  · simp only [sx, hi _ _ p1 p2]
  · simp only [sy, hi _ _ p3 p4]
  · simp only [sz, hi _ _ p5 p6]

/-- **C05** for walled boxes: rank `r` sends through face `f` iff its peer (if any) posts the
matching receive; at walls neither side communicates. -/
theorem walled_ports_match (D : Decomp) (ws : ℕ) (hD : D.ok ws = true) (t0 : ℕ → ℤ → ℤ)
    (fbc pbc : ℤ) (hp : pbc < 0) (hfb : fbc = -1 ∨ fbc = -2 ∨ fbc = -3 ∨ fbc = -4) (f : Fin 6)
    (r s : ℕ) (hr : r < ws) (hs : s < ws) (g g' : LGrid)
    (hg : partitionWalled fbc pbc ws (fun _ => localNv D) (t0 r) D r = some g)
    (hg' : partitionWalled fbc pbc ws (fun _ => localNv D) (t0 s) D s = some g') (tag : ℤ) :
    sendPort ws g (faceDir f).1 (faceDir f).2.1 (faceDir f).2.2 = some ⟨s, tag⟩ ↔
    recvPort ws g' (faceDir f).1 (faceDir f).2.1 (faceDir f).2.2 = some ⟨r, tag⟩ := by
  have h := (D.ok_iff ws).mp hD
  have base : ∀ (u : ℕ) (gu : LGrid), u < ws →
      partitionWalled fbc pbc ws (fun _ => localNv D) (t0 u) D u = some gu →
      ∀ k, 0 ≤ k ∧ k < 6 → gu.bc (portOf k) = if outerRank D u k then fbc else D.nbrRank u k := by
    intro u gu hu hgu k hk
    obtain ⟨g1, e, gx, gy, gz, -, -, -, gb, -, -⟩ :=
      partitionPeriodic_T h (fun _ => localNv D) (fun _ => rfl) (t0 u) u hu
    obtain ⟨g2, a1, a2, a3, a4⟩ := partitionWalled_T h fbc pbc hp hfb _ (t0 u) u g1 e gx gy gz
    obtain rfl : g2 = gu := by rw [a1] at hgu; exact Option.some.inj hgu
    rw [a3 k hk, gb k hk]
  have oppopp : oppFace (oppFace f) = f := by fin_cases f <;> rfl
  simp only [sendPort, recvPort]
  rw [← portOf_faceDir, ← portOf_opp, base r g hr hg _ (face_range f),
    base s g' hs hg' _ (face_range _)]
  have fneg : fbc < 0 := by omega
  constructor
  · intro hsend
    by_cases ho : outerRank D r (f : ℕ)
    · simp [ho, fneg] at hsend
    · rw [if_neg ho] at hsend
      split at hsend
      · simp at hsend
      · simp only [Option.some.injEq, Msg.mk.injEq] at hsend
        obtain ⟨e1, e2⟩ := hsend
        have e1' : D.nbrRank r (f : ℕ) = s := by simpa using e1
        have ho' := outerRank_opp h r s hr hs f e1'
        have e3 := nbrRank_opp h r s hr f e1'
        rw [ho', e3]
        rw [if_neg ho, if_neg (by omega)]
        simp [e2]
  · intro hrecv
    by_cases ho : outerRank D s (oppFace f : ℕ)
    · simp [ho, fneg] at hrecv
    · rw [if_neg ho] at hrecv
      split at hrecv
      · simp at hrecv
      · simp only [Option.some.injEq, Msg.mk.injEq] at hrecv
        obtain ⟨e1, e2⟩ := hrecv
        have e1' : D.nbrRank s (oppFace f : ℕ) = r := by simpa using e1
        have ho' := outerRank_opp h s r hs hr (oppFace f) e1'
        have e3 := nbrRank_opp h s r hs (oppFace f) e1'
        rw [oppopp] at ho' e3
        rw [ho', e3]
        rw [if_neg ho, if_neg (by omega)]
        simp [e2]

/-- Non-vacuity: a metal box on 2×1×1 ranks with an unresolved direction; both sides of the outer
x wall are silent, the inner face communicates. -/
example : (⟨4, 3, 1, 2, 1, 1⟩ : Decomp).ok 2 = true := by decide
example : LeavesBox ⟨4, 3, 1, 2, 1, 1⟩ (globalPos ⟨4, 3, 1, 2, 1, 1⟩ 1 ⟨2, 1, 1⟩) 3 := by
  unfold LeavesBox globalPos faceDir; decide
example : ¬ LeavesBox ⟨4, 3, 1, 2, 1, 1⟩ (globalPos ⟨4, 3, 1, 2, 1, 1⟩ 1 ⟨2, 1, 1⟩) 5 := by
  unfold LeavesBox globalPos faceDir; decide

end Verif.Grid
