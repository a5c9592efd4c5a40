import Verif.Inject.Props
import Mathlib.Algebra.Order.Archimedean.Basic
import Mathlib.Algebra.BigOperators.Group.Finset.Basic

/-!
# C59, C60: emission of particles
-/
namespace Verif.Inject

open Grid
open MoveP (Part Mover MState Accum moveP nvox LocalMesh)
open Deposit (accumulateRhob InCell inside)

variable {K : Type*} [Field K] [LinearOrder K] [IsStrictOrderedRing K]

/-! ### Specification -/

/-- Spec: the momentum of an emitted particle: along the axis of the face away from the face, with half-Maxwellian magnitude, and
Maxwellian along the face. -/
def drawU (cl : Params K) (rt : K → K) (X Y : Fin 3) (dir : K) (r : Draw K) : Fin 3 → K := fun k =>
  if k = X then dir * (cl.utPara * rt (2 * r.e)) else if k = Y then cl.utPerp * r.n1 else cl.utPerp * r.n2

/-- Spec: the place of an emitted particle on the face. -/
def drawD (X Y : Fin 3) (dir : K) (r : Draw K) : Fin 3 → K := fun k =>
  if k = X then -dir else if k = Y then 2 * r.c1 - 1 else 2 * r.c2 - 1

/-- Spec: the distance of light over the age, divided by the Lorentz factor. -/
def pushOf (G : Geom K) (rt : K → K) (u : Fin 3 → K) (X Y Z : Fin 3) (r : Draw K) : K :=
  r.age * G.cdt / rt (u X * u X + u Y * u Y + (u Z * u Z + 1))

/-- Spec: the random numbers of the positions are in [0,1]. -/
def Draw.Ok (r : Draw K) : Prop := 0 ≤ r.c1 ∧ r.c1 ≤ 1 ∧ 0 ≤ r.c2 ∧ r.c2 ≤ 1

/-- Spec: what emission did to the species and to the charge at the wall: `new` are the particles added.  The particles that were
to be emitted are added or counted as skipped, and skipped only when the storage is full; the wall is left with the opposite of
the charge of the particles. -/
structure Emitted (g : LGrid) (G : Geom K) (n : ℕ) (t t' : EState K) (new : List (Part K)) : Prop where
  particles : t'.s.sp.p = t.s.sp.p ++ new
  same : t'.s.sp.q = t.s.sp.q ∧ t'.s.sp.m = t.s.sp.m ∧ t'.s.sp.maxNp = t.s.sp.maxNp ∧ t'.s.sp.maxNm = t.s.sp.maxNm
  count : new.length + t'.npSkipped = t.npSkipped + n
  skipped : t.npSkipped ≤ t'.npSkipped ∧ (t'.npSkipped ≠ t.npSkipped → t.s.sp.maxNp ≤ t'.s.sp.p.length)
  fits : Fits t.s.sp → Fits t'.s.sp
  movers : ∃ l, t'.s.sp.pm = t.s.sp.pm ++ l ∧ l.length + (t'.nmSkipped - t.nmSkipped) ≤ new.length
  unaged : t.nmSkipped ≤ t'.nmSkipped ∧ (t'.nmSkipped ≠ t.nmSkipped → t.s.sp.maxNm ≤ t'.s.sp.pm.length)
  charge : ∑ v ∈ Finset.Ico 0 (nvox g), inside g v * (t'.s.rhob v - t.s.rhob v) =
    -(8 * G.r8V * (t.s.sp.q * (new.map fun p => p.w).sum))

/-- Spec: how the particles of a face started: on the face, at the places and with the momenta of the random numbers; and they
have been moved from there over a random part of the step, unless there was no mover. -/
def Started (g : LGrid) (G : Geom K) (rt : K → K) (cl : Params K) (i : ℤ) (c : Cell) (X Y Z : Fin 3) (dir : K) (rs : List (Draw K))
    (p : Part K) : Prop :=
  ∃ r ∈ rs, let q : Part K := { d := drawD X Y dir r, i := i, u := drawU cl rt X Y dir r, w := p.w }
    p = q ∨ ∃ b m a C' walls s,
      MoveP.Moved g (fun _ => True) (MoveP.wrappedVoxel g)
        ⟨q, fun k => pushOf G rt (drawU cl rt X Y dir r) X Y Z r * drawU cl rt X Y dir r k * G.rd k, a⟩ ![c.x - 1, c.y - 1, c.z - 1]
        b m C' walls s ∧ p = m.p

/-! ### Lemmas -/

omit [IsStrictOrderedRing K] in
lemma Emitted.refl (g : LGrid) (G : Geom K) (t : EState K) : Emitted g G 0 t t [] where
  particles := by simp
  same := ⟨rfl, rfl, rfl, rfl⟩
  count := by simp
  skipped := ⟨le_refl _, fun h => absurd rfl h⟩
  fits := id
  movers := ⟨[], by simp, by simp⟩
  unaged := ⟨le_refl _, fun h => absurd rfl h⟩
  charge := by simp

omit [IsStrictOrderedRing K] in
lemma Emitted.setW {g : LGrid} {G : Geom K} {n : ℕ} {t t' : EState K} {new : List (Part K)} (w : K)
    (h : Emitted g G n { t with w := w } t' new) : Emitted g G n t t' new := ⟨h.1, h.2, h.3, h.4, h.5, h.6, h.7, h.8⟩

omit [IsStrictOrderedRing K] in
lemma Emitted.trans {g : LGrid} {G : Geom K} {n n' : ℕ} {t t' t'' : EState K} {new new' : List (Part K)} (h : Emitted g G n t t' new)
    (h' : Emitted g G n' t' t'' new') : Emitted g G (n + n') t t'' (new ++ new') where
  particles := by rw [h'.particles, h.particles, List.append_assoc]
  same := by
    obtain ⟨a, b, c, d⟩ := h.same
    obtain ⟨a', b', c', d'⟩ := h'.same
    exact ⟨a'.trans a, b'.trans b, c'.trans c, d'.trans d⟩
  count := by
    have := h.count; have := h'.count
    simp only [List.length_append]; omega
  skipped := by
    refine ⟨h.skipped.1.trans h'.skipped.1, fun hs => ?_⟩
    have l : t'.s.sp.p.length ≤ t''.s.sp.p.length := by rw [h'.particles]; simp
    by_cases h1 : t'.npSkipped = t.npSkipped
    · have := h'.skipped.2 (by rw [h1]; exact hs)
      rw [h.same.2.2.1] at this
      exact this
    · exact (h.skipped.2 h1).trans l
  fits := fun hf => h'.fits (h.fits hf)
  movers := by
    obtain ⟨l, e, hl⟩ := h.movers
    obtain ⟨l', e', hl'⟩ := h'.movers
    have := h.unaged.1
    have := h'.unaged.1
    refine ⟨l ++ l', by rw [e', e, List.append_assoc], ?_⟩
    simp only [List.length_append]
    omega
  unaged := by
    refine ⟨h.unaged.1.trans h'.unaged.1, fun hs => ?_⟩
    have l : t'.s.sp.pm.length ≤ t''.s.sp.pm.length := by
      obtain ⟨l', e', _⟩ := h'.movers
      rw [e']; simp
    by_cases h1 : t'.nmSkipped = t.nmSkipped
    · have := h'.unaged.2 (by rw [h1]; exact hs)
      rw [h.same.2.2.2] at this
      exact this
    · exact (h.unaged.2 h1).trans l
  charge := by
    have e1 := h.charge
    have e2 := h'.charge
    rw [h.same.1] at e2
    have : ∀ v, inside g v * (t''.s.rhob v - t.s.rhob v) =
        inside g v * (t'.s.rhob v - t.s.rhob v) + inside g v * (t''.s.rhob v - t'.s.rhob v) := fun v => by ring
    simp only [this, Finset.sum_add_distrib, e1, e2, List.map_append, List.sum_append]
    ring

lemma drawD_range (X Y : Fin 3) (dir : K) (hdir : dir = 1 ∨ dir = -1) (r : Draw K) (hr : r.Ok) (k : Fin 3) :
    -1 ≤ drawD X Y dir r k ∧ drawD X Y dir r k ≤ 1 := by
  obtain ⟨a, b, c, d⟩ := hr
  unfold drawD
  split_ifs
  · rcases hdir with rfl | rfl <;> constructor <;> norm_num
  · constructor <;> linarith
  · constructor <;> linarith

/-- One emission. -/
lemma emitOne_spec [Archimedean K] {g : LGrid} (hg : LocalMesh g) (G : Geom K) (rt : K → K) (cl : Params K) (c : Cell)
    (hc : c.Interior g.nx g.ny g.nz) (X Y Z : Fin 3) (hXY : X ≠ Y) (hXZ : X ≠ Z) (hYZ : Y ≠ Z) (dir : K) (hdir : dir = 1 ∨ dir = -1)
    (r : Draw K) (hr : r.Ok) :
    ∃ fuel0, ∀ fuel, fuel0 ≤ fuel → ∀ t : EState K, ∃ t' new,
      emitOne g G rt fuel cl (VOXEL g.nx g.ny c.x c.y c.z) X Y Z dir r t = .ok t' ∧ Emitted g G 1 t t' new ∧
      (∀ p ∈ new, p.w = t.w ∧ Started g G rt cl (VOXEL g.nx g.ny c.x c.y c.z) c X Y Z dir [r] p) ∧
      t'.w = (if new = [] ∨ t.s.sp.maxNm ≤ t.s.sp.pm.length then t.w else pushOf G rt (drawU cl rt X Y dir r) X Y Z r) ∧
      (new = [] ↔ t.s.sp.maxNp ≤ t.s.sp.p.length) := by
  have hY : Y ≠ X := hXY.symm
  have hZX : Z ≠ X := hXZ.symm
  have hZY : Z ≠ Y := hYZ.symm
  obtain ⟨disp, hdisp⟩ : ∃ disp : Fin 3 → K,
    disp = fun k => pushOf G rt (drawU cl rt X Y dir r) X Y Z r * drawU cl rt X Y dir r k * G.rd k := ⟨_, rfl⟩
  choose n hn using fun k => exists_nat_ge |disp k|
  refine ⟨n 0 + n 1 + n 2 + 1, fun fuel hfuel t => ?_⟩
  obtain ⟨q, hq⟩ : ∃ q : Part K,
    q = { d := drawD X Y dir r, i := VOXEL g.nx g.ny c.x c.y c.z, u := drawU cl rt X Y dir r, w := t.w } := ⟨_, rfl⟩
  have hin : InCell g q c := ⟨hc, by rw [hq]⟩
  by_cases hfull : t.s.sp.p.length ≥ t.s.sp.maxNp
  · refine ⟨{ t with npSkipped := t.npSkipped + 1 }, [], by unfold emitOne; exact if_pos hfull, ?_, by simp, by simp, by simpa using hfull⟩
    exact { particles := by simp, same := ⟨rfl, rfl, rfl, rfl⟩, count := by simp, skipped := ⟨by simp, fun _ => hfull⟩, fits := id,
            movers := ⟨[], by simp, by simp⟩, unaged := ⟨le_refl _, fun h => absurd rfl h⟩, charge := by simp }
  · obtain ⟨rhob', er, ec, -, -⟩ := Deposit.rhob_conserves hg G.r8V (-t.s.sp.q) q c hin t.s.rhob
    have hqw : q.w = t.w := by rw [hq]
    have hch : ∀ w, w = t.w → ∑ v ∈ Finset.Ico 0 (nvox g), inside g v * (rhob' v - t.s.rhob v) =
        -(8 * G.r8V * (t.s.sp.q * w)) := by
      rintro w rfl
      rw [ec, hqw]
      ring
    have hq2 : (⟨fun k => if k = X then -dir else if k = Y then 2 * r.c1 - 1 else 2 * r.c2 - 1, VOXEL g.nx g.ny c.x c.y c.z,
      fun k => if k = X then dir * (cl.utPara * rt (2 * r.e)) else if k = Y then cl.utPerp * r.n1 else cl.utPerp * r.n2, t.w⟩ : Part K) = q :=
      hq.symm
    by_cases hmf : t.s.sp.pm.length ≥ t.s.sp.maxNm
    · refine ⟨{ t with s := { t.s with rhob := rhob', sp := { t.s.sp with p := t.s.sp.p ++ [q] } }, nmSkipped := t.nmSkipped + 1 }, [q],
        ?_, ?_, ?_, ?_, ?_⟩
      · unfold emitOne
        rw [if_neg hfull]
        simp only [hq2, er]
        rw [if_pos hmf]
      · exact { particles := rfl, same := ⟨rfl, rfl, rfl, rfl⟩, count := by simp; omega, skipped := ⟨le_refl _, fun h => absurd rfl h⟩
                fits := fun h => ⟨by simp; omega, h.2⟩, movers := ⟨[], by simp, by simp⟩, unaged := ⟨by simp, fun _ => hmf⟩
                charge := by simpa using hch q.w hqw }
      · intro p hp
        obtain rfl := List.mem_singleton.1 hp
        refine ⟨hqw, r, by simp, .inl ?_⟩
        rw [hqw, hq]
      · simp [hmf]
      · simpa using hfull
    · obtain ⟨b, m, C', walls, τ, em, hm⟩ := MoveP.move_p_trajectory g (fun _ => True) (MoveP.wrappedVoxel g)
        (MoveP.localMesh_covers g hg) t.s.sp.q ⟨q, disp, t.s.a⟩ ![c.x - 1, c.y - 1, c.z - 1] trivial
        (by
          have := MoveP.wrappedVoxel_self (g := g) (c := c) hc
          rw [hin.2]
          exact this.symm) (by rw [hq]; exact drawD_range X Y dir hdir r hr) n hn fuel (by omega)
      have hmw : m.p.w = t.w := hm.weight.trans hqw
      refine ⟨{ t with
          s := { t.s with
            rhob := rhob'
            sp := { t.s.sp with p := t.s.sp.p ++ [m.p], pm := if b then t.s.sp.pm ++ [{ disp := m.disp, i := t.s.sp.p.length }] else t.s.sp.pm }
            a := m.a }
          w := pushOf G rt (drawU cl rt X Y dir r) X Y Z r }, [m.p], ?_, ?_, ?_, ?_, ?_⟩
      · unfold emitOne
        rw [if_neg hfull]
        simp only [hq2, er]
        rw [if_neg hmf]
        have ew : r.age * G.cdt / rt (dir * (cl.utPara * rt (2 * r.e)) * (dir * (cl.utPara * rt (2 * r.e))) +
            cl.utPerp * r.n1 * (cl.utPerp * r.n1) + (cl.utPerp * r.n2 * (cl.utPerp * r.n2) + 1)) =
            pushOf G rt (drawU cl rt X Y dir r) X Y Z r := by
          simp [pushOf, drawU, hY, hZX, hZY]
        rw [ew]
        have ed : (fun k => pushOf G rt (drawU cl rt X Y dir r) X Y Z r *
            (if k = X then dir * (cl.utPara * rt (2 * r.e)) else if k = Y then cl.utPerp * r.n1 else cl.utPerp * r.n2) * G.rd k) = disp := by
          rw [hdisp]; rfl
        rw [ed]
        simp only [em]
      · exact { particles := rfl, same := ⟨rfl, rfl, rfl, rfl⟩, count := by simp; omega, skipped := ⟨le_refl _, fun h => absurd rfl h⟩
                fits := fun h => ⟨by simp; omega, by cases b <;> simp <;> omega⟩
                movers := by
                  cases b
                  · exact ⟨[], by simp, by simp⟩
                  · exact ⟨[{ disp := m.disp, i := t.s.sp.p.length }], by simp, by simp⟩
                unaged := ⟨le_refl _, fun h => absurd rfl h⟩
                charge := by simpa using hch m.p.w hmw }
      · intro p hp
        obtain rfl := List.mem_singleton.1 hp
        refine ⟨hmw, r, by simp, .inr ⟨b, m, t.s.a, C', walls, τ, ?_, rfl⟩⟩
        rw [hmw, ← hq, ← hdisp]
        exact hm
      · simp [hmf]
      · simpa using hfull

/-- The emissions of a face. -/
lemma emitMany_spec [Archimedean K] {g : LGrid} (hg : LocalMesh g) (G : Geom K) (rt : K → K) (cl : Params K) (c : Cell)
    (hc : c.Interior g.nx g.ny g.nz) (X Y Z : Fin 3) (hXY : X ≠ Y) (hXZ : X ≠ Z) (hYZ : Y ≠ Z) (dir : K) (hdir : dir = 1 ∨ dir = -1) :
    ∀ (rs : List (Draw K)), (∀ r ∈ rs, r.Ok) → ∃ fuel0, ∀ fuel, fuel0 ≤ fuel → ∀ t : EState K, ∃ t' new,
      emitMany g G rt fuel cl (VOXEL g.nx g.ny c.x c.y c.z) X Y Z dir rs t = .ok t' ∧ Emitted g G rs.length t t' new ∧
      (∀ p ∈ new, Started g G rt cl (VOXEL g.nx g.ny c.x c.y c.z) c X Y Z dir rs p) ∧
      (∀ p, new.head? = some p → p.w = t.w) ∧
      (t.s.sp.maxNm ≤ t.s.sp.pm.length → t'.w = t.w ∧ ∀ p ∈ new, p.w = t.w) := by
  intro rs
  induction rs with
  | nil => exact fun _ => ⟨0, fun fuel _ t => ⟨t, [], rfl, Emitted.refl g G t, by simp, by simp, by simp⟩⟩
  | cons r rs ih =>
    intro hr
    obtain ⟨f1, h1⟩ := emitOne_spec hg G rt cl c hc X Y Z hXY hXZ hYZ dir hdir r (hr r (by simp))
    obtain ⟨f2, h2⟩ := ih fun x hx => hr x (by simp [hx])
    refine ⟨max f1 f2, fun fuel hf t => ?_⟩
    obtain ⟨t1, n1, e1, m1, p1, w1, z1⟩ := h1 fuel (le_trans (le_max_left _ _) hf) t
    obtain ⟨t2, n2, e2, m2, p2, w2, z2⟩ := h2 fuel (le_trans (le_max_right _ _) hf) t1
    refine ⟨t2, n1 ++ n2, ?_, ?_, ?_, ?_, ?_⟩
    · unfold emitMany
      rw [e1]
      exact e2
    · have := m1.trans m2
      rw [List.length_cons, add_comm]
      exact this
    · intro p hp
      rcases List.mem_append.1 hp with hp | hp
      · obtain ⟨_, x, hx, h⟩ := p1 p hp
        obtain rfl := List.mem_singleton.1 hx
        exact ⟨x, by simp, h⟩
      · obtain ⟨x, hx, h⟩ := p2 p hp
        exact ⟨x, by simp [hx], h⟩
    · intro p hp
      cases n1 with
      | nil =>
        rw [w2 p (by simpa using hp), w1]
        simp
      | cons y l =>
        simp only [List.cons_append, List.head?_cons, Option.some.injEq] at hp
        subst hp
        exact (p1 y (by simp)).1
    · intro hm
      have hw : t1.w = t.w := by rw [w1]; simp [hm]
      have hm' : t1.s.sp.maxNm ≤ t1.s.sp.pm.length := by
        obtain ⟨l, e, _⟩ := m1.movers
        rw [m1.same.2.2.2, e]
        simp
        omega
      obtain ⟨a, b⟩ := z2 hm'
      refine ⟨a.trans hw, fun p hp => ?_⟩
      rcases List.mem_append.1 hp with hp | hp
      · exact (p1 p hp).1
      · exact (b p hp).trans hw

/-! ### Properties -/

/-- Spec: the six faces: axis `X` of the face, `Y` and `Z` along it, and the direction inwards. -/
def IsFace (X Y Z : Fin 3) (dir : K) : Prop := X ≠ Y ∧ X ≠ Z ∧ Y ≠ Z ∧ (dir = 1 ∨ dir = -1)

/-- Spec: the weight of all particles of a face: Child-Langmuir charge over the number of particles. -/
def faceWeight (G : Geom K) (rt : K → K) (eps0dt : K) (cl : Params K) (sp : Species K) (e : K) (X Y Z : Fin 3) : K :=
  normOf G rt eps0dt cl sp.q sp.m X Y Z * rt |e * e * e|

/-- **C60, partial.** A face emits iff the field pushes the particles inwards with more than the threshold; it then emits
`n_emit_per_face` particles as far as there is room, starting on the face and moving inwards, and leaves the opposite charge at the
wall.  The first particle has the weight of the Child-Langmuir law; all have if one particle is emitted per face, or if
there are no movers.  What is missing: the weight of the further particles is another one in general, see
`emitted_weights_differ`. -/
theorem emit_face_partial [Archimedean K] {g : LGrid} (hg : LocalMesh g) (G : Geom K) (rt : K → K) (eps0dt : K) (cl : Params K) (e : K)
    (c : Cell) (hc : c.Interior g.nx g.ny g.nz) (X Y Z : Fin 3) (dir : K) (hface : IsFace X Y Z dir) (draws : ℕ → Draw K)
    (hdraws : ∀ n, (draws n).Ok) :
    ∃ fuel0, ∀ fuel, fuel0 ≤ fuel → ∀ t : EState K, ∃ t' new,
      emitFace g G rt fuel eps0dt cl e (VOXEL g.nx g.ny c.x c.y c.z) X Y Z dir draws t = .ok t' ∧
      (dir * (t.s.sp.q * e) ≤ |t.s.sp.q| * cl.thresh → t'.s = t.s ∧ new = []) ∧
      (|t.s.sp.q| * cl.thresh < dir * (t.s.sp.q * e) →
        Emitted g G cl.nEmit t t' new ∧
        (∀ p ∈ new, Started g G rt cl (VOXEL g.nx g.ny c.x c.y c.z) c X Y Z dir ((List.range cl.nEmit).map draws) p) ∧
        (∀ p, new.head? = some p → p.w = faceWeight G rt eps0dt cl t.s.sp e X Y Z) ∧
        (cl.nEmit = 1 ∨ t.s.sp.maxNm ≤ t.s.sp.pm.length → ∀ p ∈ new, p.w = faceWeight G rt eps0dt cl t.s.sp e X Y Z)) := by
  obtain ⟨a, b, c', d⟩ := hface
  obtain ⟨f0, h0⟩ := emitMany_spec hg G rt cl c hc X Y Z a b c' dir d ((List.range cl.nEmit).map draws) (by
    intro r hr
    obtain ⟨n, _, rfl⟩ := List.mem_map.1 hr
    exact hdraws n)
  refine ⟨f0, fun fuel hf t => ?_⟩
  by_cases ht : dir * (t.s.sp.q * e) > |t.s.sp.q| * cl.thresh
  · obtain ⟨t', new, e1, e2, e3, e4, e5⟩ := h0 fuel hf { t with w := normOf G rt eps0dt cl t.s.sp.q t.s.sp.m X Y Z * rt |e * e * e| }
    refine ⟨t', new, by unfold emitFace; rw [if_pos ht]; exact e1, fun h => absurd ht (not_lt.2 h), fun _ => ⟨?_, e3, e4, ?_⟩⟩
    · have := e2.setW
      simpa using this
    · rintro (h1 | h1) p hp
      · have hl : new.length ≤ 1 := by
          have := e2.count
          have hm : t.npSkipped ≤ t'.npSkipped := e2.skipped.1
          simp only [List.length_map, List.length_range, h1] at this
          omega
        apply e4 p
        match new, hl, hp with
        | [y], _, hp => simpa using (List.mem_singleton.1 hp).symm
      · exact (e5 h1).2 p hp
  · exact ⟨{ t with w := e }, [], by unfold emitFace; rw [if_neg ht], fun _ => ⟨rfl, rfl⟩, fun h => absurd h ht⟩

/-- Spec: the faces among the kinds of components: axes and direction inwards. -/
def faceOfKind (K : Type*) [Field K] (kind : ℕ) : Option (Fin 3 × Fin 3 × Fin 3 × K) :=
  if kind = 12 then some (0, 1, 2, 1) else if kind = 10 then some (1, 2, 0, 1) else if kind = 4 then some (2, 0, 1, 1)
  else if kind = 14 then some (0, 1, 2, -1) else if kind = 16 then some (1, 2, 0, -1) else if kind = 22 then some (2, 0, 1, -1)
  else none

/-- Spec: the number of particles a component is to emit. -/
def attempts (cl : Params K) (fi : ℤ → Fin 3 → K) (q : K) (cc : ℕ) : ℕ :=
  match faceOfKind K (cc % 32) with
  | none => 0
  | some (X, _, _, dir) => if |q| * cl.thresh < dir * (q * fi (cc / 32 : ℕ) X) then cl.nEmit else 0

lemma emitComponent_spec [Archimedean K] {g : LGrid} (hg : LocalMesh g) (G : Geom K) (rt : K → K) (eps0dt : K) (cl : Params K)
    (fi : ℤ → Fin 3 → K) (cc : ℕ) (hcc : ∃ c : Cell, c.Interior g.nx g.ny g.nz ∧ ((cc / 32 : ℕ) : ℤ) = VOXEL g.nx g.ny c.x c.y c.z)
    (draws : ℕ → Draw K) (hdraws : ∀ n, (draws n).Ok) :
    ∃ fuel0, ∀ fuel, fuel0 ≤ fuel → ∀ t : EState K, ∃ t' new,
      emitComponent g G rt fuel eps0dt cl fi cc draws t = .ok t' ∧ Emitted g G (attempts cl fi t.s.sp.q cc) t t' new := by
  obtain ⟨c, hc, hi⟩ := hcc
  have face : ∀ X Y Z (dir : K), faceOfKind K (cc % 32) = some (X, Y, Z, dir) → IsFace X Y Z dir →
      (∀ fuel t, emitComponent g G rt fuel eps0dt cl fi cc draws t =
        emitFace g G rt fuel eps0dt cl (fi (cc / 32 : ℕ) X) (cc / 32 : ℕ) X Y Z dir draws t) →
      ∃ fuel0, ∀ fuel, fuel0 ≤ fuel → ∀ t : EState K, ∃ t' new,
        emitComponent g G rt fuel eps0dt cl fi cc draws t = .ok t' ∧ Emitted g G (attempts cl fi t.s.sp.q cc) t t' new := by
    intro X Y Z dir hk hf he
    obtain ⟨f0, h0⟩ := emit_face_partial hg G rt eps0dt cl (fi (cc / 32 : ℕ) X) c hc X Y Z dir hf draws hdraws
    refine ⟨f0, fun fuel hfu t => ?_⟩
    obtain ⟨t', new, e1, e2, e3⟩ := h0 fuel hfu t
    by_cases h : |t.s.sp.q| * cl.thresh < dir * (t.s.sp.q * fi (cc / 32 : ℕ) X)
    · refine ⟨t', new, by rw [he, hi]; rw [hi] at e1; exact e1, ?_⟩
      have : attempts cl fi t.s.sp.q cc = cl.nEmit := by
        unfold attempts
        rw [hk]
        exact if_pos h
      rw [this]
      exact (e3 h).1
    · have : attempts cl fi t.s.sp.q cc = 0 := by
        unfold attempts
        rw [hk]
        exact if_neg h
      refine ⟨{ t with w := fi (cc / 32 : ℕ) X }, [], ?_, ?_⟩
      · rw [he]; unfold emitFace; exact if_neg h
      · rw [this]
        have := Emitted.refl g G { t with w := fi (cc / 32 : ℕ) X }
        exact this.setW
  have h2 : (1 : ℤ) ≠ 0 := by norm_num
  have kinds : BOUNDARY (-1) 0 0 = 12 ∧ BOUNDARY 0 (-1) 0 = 10 ∧ BOUNDARY 0 0 (-1) = 4 ∧ BOUNDARY 1 0 0 = 14 ∧ BOUNDARY 0 1 0 = 16 ∧
      BOUNDARY 0 0 1 = 22 := by decide
  obtain ⟨k1, k2, k3, k4, k5, k6⟩ := kinds
  have cast : ∀ n : ℕ, ((cc % 32 : ℕ) : ℤ) = n ↔ cc % 32 = n := fun n => by norm_cast
  by_cases h1 : cc % 32 = 12
  · refine face 0 1 2 1 (by simp [faceOfKind, h1]) ⟨by decide, by decide, by decide, .inl rfl⟩ fun fuel t => ?_
    unfold emitComponent
    rw [k1]
    exact if_pos ((cast 12).2 h1)
  by_cases h2 : cc % 32 = 10
  · refine face 1 2 0 1 (by simp [faceOfKind, h2]) ⟨by decide, by decide, by decide, .inl rfl⟩ fun fuel t => ?_
    unfold emitComponent
    simp only [k1, k2, h2]
    rfl
  by_cases h3 : cc % 32 = 4
  · refine face 2 0 1 1 (by simp [faceOfKind, h3]) ⟨by decide, by decide, by decide, .inl rfl⟩ fun fuel t => ?_
    unfold emitComponent
    simp only [k1, k2, k3, h3]
    rfl
  by_cases h4 : cc % 32 = 14
  · refine face 0 1 2 (-1) (by simp [faceOfKind, h4]) ⟨by decide, by decide, by decide, .inr rfl⟩ fun fuel t => ?_
    unfold emitComponent
    simp only [k1, k2, k3, k4, h4]
    rfl
  by_cases h5 : cc % 32 = 16
  · refine face 1 2 0 (-1) (by simp [faceOfKind, h5]) ⟨by decide, by decide, by decide, .inr rfl⟩ fun fuel t => ?_
    unfold emitComponent
    simp only [k1, k2, k3, k4, k5, h5]
    rfl
  by_cases h6 : cc % 32 = 22
  · refine face 2 0 1 (-1) (by simp [faceOfKind, h6]) ⟨by decide, by decide, by decide, .inr rfl⟩ fun fuel t => ?_
    unfold emitComponent
    simp only [k1, k2, k3, k4, k5, k6, h6]
    rfl
  · refine ⟨0, fun fuel _ t => ⟨t, [], ?_, ?_⟩⟩
    · unfold emitComponent
      simp only [k1, k2, k3, k4, k5, k6]
      have c1 : ¬ ((cc % 32 : ℕ) : ℤ) = 12 := by omega
      have c2 : ¬ ((cc % 32 : ℕ) : ℤ) = 10 := by omega
      have c3 : ¬ ((cc % 32 : ℕ) : ℤ) = 4 := by omega
      have c4 : ¬ ((cc % 32 : ℕ) : ℤ) = 14 := by omega
      have c5 : ¬ ((cc % 32 : ℕ) : ℤ) = 16 := by omega
      have c6 : ¬ ((cc % 32 : ℕ) : ℤ) = 22 := by omega
      rw [if_neg c1, if_neg c2, if_neg c3, if_neg c4, if_neg c5, if_neg c6]
    · have : attempts cl fi t.s.sp.q cc = 0 := by
        unfold attempts faceOfKind
        simp only [h1, h2, h3, h4, h5, h6, if_false]
      rw [this]
      exact Emitted.refl g G t

/-- **C59, C60.** For every list of components of interior cells, every state and all random numbers, emission stays inside of the
particle and mover storage: the particles to be emitted are added to the list or counted in the warning, which happens only when the
storage is full; and the wall is left with exactly the opposite of the charge of the new particles. -/
theorem emit_storage_and_charge [Archimedean K] {g : LGrid} (hg : LocalMesh g) (G : Geom K) (rt : K → K) (eps0dt : K) (cl : Params K)
    (fi : ℤ → Fin 3 → K) (components : List (ℕ × (ℕ → Draw K)))
    (hcells : ∀ x ∈ components, ∃ c : Cell, c.Interior g.nx g.ny g.nz ∧ ((x.1 / 32 : ℕ) : ℤ) = VOXEL g.nx g.ny c.x c.y c.z)
    (hdraws : ∀ x ∈ components, ∀ n, (x.2 n).Ok) :
    ∃ fuel0, ∀ fuel, fuel0 ≤ fuel → ∀ s : Sim K, ∃ s' npSkipped nmSkipped new,
      emitChildLangmuir g G rt fuel eps0dt cl fi components s = .ok (s', npSkipped, nmSkipped) ∧
      s'.sp.p = s.sp.p ++ new ∧ (Fits s.sp → Fits s'.sp) ∧ s'.sp.maxNp = s.sp.maxNp ∧ s'.sp.maxNm = s.sp.maxNm ∧
      new.length + npSkipped = (components.map fun x => attempts cl fi s.sp.q x.1).sum ∧
      (npSkipped ≠ 0 → s.sp.maxNp ≤ s'.sp.p.length) ∧ (nmSkipped ≠ 0 → s.sp.maxNm ≤ s'.sp.pm.length) ∧
      ∑ v ∈ Finset.Ico 0 (nvox g), inside g v * (s'.rhob v - s.rhob v) = -(8 * G.r8V * (s.sp.q * (new.map fun p => p.w).sum)) := by
  have loop : ∀ l : List (ℕ × (ℕ → Draw K)), (∀ x ∈ l, x ∈ components) → ∃ fuel0, ∀ fuel, fuel0 ≤ fuel → ∀ t : EState K, ∃ t' new,
      emitLoop g G rt fuel eps0dt cl fi l t = .ok t' ∧ Emitted g G (l.map fun x => attempts cl fi t.s.sp.q x.1).sum t t' new := by
    intro l
    induction l with
    | nil => exact fun _ => ⟨0, fun fuel _ t => ⟨t, [], rfl, Emitted.refl g G t⟩⟩
    | cons x l ih =>
      intro hl
      obtain ⟨f1, h1⟩ := emitComponent_spec hg G rt eps0dt cl fi x.1 (hcells x (hl x (by simp))) x.2 (hdraws x (hl x (by simp)))
      obtain ⟨f2, h2⟩ := ih fun y hy => hl y (by simp [hy])
      refine ⟨max f1 f2, fun fuel hf t => ?_⟩
      obtain ⟨t1, n1, e1, m1⟩ := h1 fuel (le_trans (le_max_left _ _) hf) t
      obtain ⟨t2, n2, e2, m2⟩ := h2 fuel (le_trans (le_max_right _ _) hf) t1
      refine ⟨t2, n1 ++ n2, ?_, ?_⟩
      · unfold emitLoop
        rw [e1]
        exact e2
      · rw [m1.same.1] at m2
        exact m1.trans m2
  obtain ⟨f0, h0⟩ := loop components fun _ h => h
  refine ⟨f0, fun fuel hf s => ?_⟩
  obtain ⟨t', new, e, m⟩ := h0 fuel hf ⟨s, 0, 0, 0⟩
  refine ⟨t'.s, t'.npSkipped, t'.nmSkipped, new, ?_, m.particles, m.fits, m.same.2.2.1, m.same.2.2.2, ?_, m.skipped.2, m.unaged.2, m.charge⟩
  · unfold emitChildLangmuir
    rw [e]
    rfl
  · have := m.count
    simpa using this

/-- Finding: the second particle of a face has another weight than the first: the variable that holds the weight is used for the age
of the first particle. -/
theorem emitted_weights_differ {g : LGrid} (hg : LocalMesh g) (c : Cell) (hc : c.Interior g.nx g.ny g.nz) (rt : ℚ → ℚ) (h0 : rt 0 = 0)
    (h1 : rt 1 = 1) :
    let G : Geom ℚ := ⟨fun _ => 0, fun _ => 1, fun _ => 1, fun _ => 1, 1 / 8, 1 / 2⟩
    let cl : Params ℚ := ⟨2, 0, 0, 0, 1⟩
    let draws : ℕ → Draw ℚ := fun _ => ⟨0, 0, 0, 1 / 2, 1 / 2, 1 / 2⟩
    ∃ fuel0, ∀ fuel, fuel0 ≤ fuel → ∀ t : EState ℚ, t.s.sp.q = 1 → t.s.sp.m = 1 → t.s.sp.p = [] → 2 ≤ t.s.sp.maxNp →
      t.s.sp.pm.length < t.s.sp.maxNm → ∃ t' p1 p2,
      emitFace g G rt fuel 1 cl 1 (VOXEL g.nx g.ny c.x c.y c.z) 0 1 2 1 draws t = .ok t' ∧ t'.s.sp.p = [p1, p2] ∧
      p1.w = 1 / 2 ∧ p2.w = 1 / 4 ∧ faceWeight G rt 1 cl t.s.sp 1 0 1 2 = 1 / 2 := by
  intro G cl draws
  have hok : (draws 0).Ok := by unfold Draw.Ok; norm_num [draws]
  obtain ⟨f0, h⟩ := emitOne_spec hg G rt cl c hc 0 1 2 (by decide) (by decide) (by decide) 1 (.inl rfl) (draws 0) hok
  refine ⟨f0, fun fuel hf t hq hm hp hroom hmov => ?_⟩
  have hw : faceWeight G rt 1 cl t.s.sp 1 0 1 2 = 1 / 2 := by
    simp [faceWeight, normOf, hq, hm, G, cl, h1]
  obtain ⟨t1, n1, e1, m1, p1, w1, z1⟩ := h fuel hf { t with w := normOf G rt 1 cl t.s.sp.q t.s.sp.m 0 1 2 * rt |1 * 1 * 1| }
  obtain ⟨t2, n2, e2, m2, p2, w2, z2⟩ := h fuel hf t1
  have l1 : n1.length = 1 := by
    have := m1.count
    have hs := m1.skipped.1
    have : n1 ≠ [] := fun h => by
      have := z1.1 h
      simp only [hp, List.length_nil] at this
      omega
    have := List.length_pos_of_ne_nil this
    simp only at *
    omega
  have l2 : n2.length = 1 := by
    have := m2.count
    have hs := m2.skipped.1
    have : n2 ≠ [] := fun h => by
      have := z2.1 h
      rw [m1.particles, m1.same.2.2.1] at this
      simp only [hp, List.nil_append, l1] at this
      omega
    have := List.length_pos_of_ne_nil this
    omega
  obtain ⟨x, rfl⟩ := List.length_eq_one_iff.1 l1
  obtain ⟨y, rfl⟩ := List.length_eq_one_iff.1 l2
  refine ⟨t2, x, y, ?_, ?_, ?_, ?_, hw⟩
  · unfold emitFace
    have ht : (1 : ℚ) * (t.s.sp.q * 1) > |t.s.sp.q| * cl.thresh := by simp [hq, cl]
    rw [if_pos ht]
    have hr : (List.range cl.nEmit).map draws = [draws 0, draws 0] := rfl
    rw [hr]
    simp only [emitMany, e1, Except.bind, e2]
  · rw [m2.particles, m1.particles]
    simp [hp]
  · rw [(p1 x (by simp)).1]
    exact hw
  · rw [(p2 y (by simp)).1, w1, if_neg (by simpa using hmov)]
    simp [pushOf, drawU, G, cl, draws, h1]
    norm_num

end Verif.Inject
