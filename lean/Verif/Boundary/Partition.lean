import Verif.Boundary.Storage
import Verif.Grid.Walled

/-!
# The domains the code builds satisfy the hypotheses of the exchange theorems
-/
namespace Verif.Boundary

open Grid
open MoveP (LocalMesh periodic_localMesh walled_localMesh nvox voxel_range)

section
variable {K : Type} {S : Type*} [Field K] [LinearOrder K] [IsStrictOrderedRing K]

omit [Field K] [LinearOrder K] [IsStrictOrderedRing K] in
lemma oppFace_fin (f : Fin 6) : Boundary.oppFace ((f : ℕ) : ℤ) = ((Grid.oppFace f : ℕ) : ℤ) := by
  fin_cases f <;> rfl

omit [Field K] [LinearOrder K] [IsStrictOrderedRing K] in
lemma face_fin {f : ℤ} (h0 : 0 ≤ f) (h6 : f < 6) : ∃ k : Fin 6, f = ((k : ℕ) : ℤ) :=
  ⟨⟨f.toNat, by omega⟩, by simp [h0]⟩

omit [Field K] [LinearOrder K] [IsStrictOrderedRing K] in
lemma wrapCell_interior {nx ny nz : ℤ} (h1 : 1 ≤ nx) (h2 : 1 ≤ ny) (h3 : 1 ≤ nz) {c : Cell}
    (hc : c.Interior nx ny nz) (f : ℤ) : (wrapCell nx ny nz c f).Interior nx ny nz := by
  obtain ⟨a1, a2, a3, a4, a5, a6⟩ := hc
  unfold wrapCell Cell.Interior
  split_ifs <;> simp only <;> omega

omit [Field K] [LinearOrder K] [IsStrictOrderedRing K] in
/-- Away from the walls of the local domain the neighbour is local. -/
lemma inner_local (D : Decomp) (ws : ℕ) (hD : D.ok ws = true) (t0 : ℕ → ℤ → ℤ) (r : ℕ) (hr : r < ws) (g : LGrid)
    (hg : gridOf D ws t0 r = some g) (c : Cell) (hc : c.Interior D.lx D.ly D.lz) (f : ℤ) (h0 : 0 ≤ f) (h6 : f < 6)
    (hw : ¬ atWall D.lx D.ly D.lz c f) : g.rangel ≤ g.T c f ∧ g.T c f ≤ g.rangeh := by
  have h := (D.ok_iff ws).mp hD
  obtain ⟨g1, e, k1, k2, k3, k4, k5, k6, k7, -, k9⟩ := partitionPeriodic_T h (fun _ => localNv D) (fun _ => rfl) (t0 r) r hr
  obtain rfl : g1 = g := by
    rw [gridOf, e] at hg
    exact Option.some.inj hg
  have hm := periodic_localMesh D ws hD t0 r hr _ hg
  rw [k9 c hc f ⟨h0, h6⟩, if_neg hw]
  have hi : (stepCell c f).Interior D.lx D.ly D.lz := by
    obtain ⟨a1, a2, a3, a4, a5, a6⟩ := hc
    unfold atWall at hw
    unfold stepCell Cell.Interior
    obtain ⟨k, rfl⟩ := face_fin h0 h6
    fin_cases k <;> simp at hw ⊢ <;> omega
  have ho := voxel_range hm (c := stepCell c f) (by rw [k1, k2, k3]; exact hi.inMesh)
  rw [k1, k2] at ho
  rw [← k5]
  have := hm.rh
  omega

/-- **C12, C13 on periodic boxes.**  The ranks of a periodic box are joined. -/
theorem periodic_joined (D : Decomp) (ws : ℕ) (hD : D.ok ws = true) (t0 : ℕ → ℤ → ℤ) (W : Fin ws → Env K S)
    (hg : ∀ r : Fin ws, gridOf D ws t0 r = some (W r).g) (hws : ∀ r, (W r).ws = ws) (hrank : ∀ r : Fin ws, (W r).rank = r)
    (hnsp : ∀ r s, (W r).nsp = (W s).nsp) : Joined W := by
  have h := (D.ok_iff ws).mp hD
  have hro : ∀ i : ℕ, rangeOf (fun _ => localNv D) i = i * localNv D := rangeOf_const _ _ (fun _ => rfl)
  have hlx := h.lx_pos
  have hly := h.ly_pos
  have hlz := h.lz_pos
  have hpos : 0 < localNv D := by
    have e : localNv D = (D.lx + 2) * (D.ly + 2) * (D.lz + 2) := rfl
    rw [e]; positivity
  have key : ∀ r : Fin ws, (W r).g.nx = D.lx ∧ (W r).g.ny = D.ly ∧ (W r).g.nz = D.lz ∧
      (W r).g.range = (fun i => rangeOf (fun _ => localNv D) i.toNat) ∧
      (W r).g.rangel = rangeOf (fun _ => localNv D) r ∧ (W r).g.rangeh = rangeOf (fun _ => localNv D) (r + 1) - 1 ∧
      (∀ f, 0 ≤ f ∧ f < 6 → (W r).g.bc (portOf f) = D.nbrRank r f) ∧
      ∀ c, c.Interior D.lx D.ly D.lz → ∀ f, 0 ≤ f ∧ f < 6 →
        (W r).g.T c f = if atWall D.lx D.ly D.lz c f then
            rangeOf (fun _ => localNv D) (D.nbrRank r f).toNat + VOXEL D.lx D.ly (wrapCell D.lx D.ly D.lz c f).x
              (wrapCell D.lx D.ly D.lz c f).y (wrapCell D.lx D.ly D.lz c f).z
          else rangeOf (fun _ => localNv D) r +
            VOXEL D.lx D.ly (stepCell c f).x (stepCell c f).y (stepCell c f).z := by
    intro r
    obtain ⟨g1, e, k1, k2, k3, k4, k5, k6, k7, -, k9⟩ :=
      partitionPeriodic_T h (fun _ => localNv D) (fun _ => rfl) (t0 r) r r.2
    have : g1 = (W r).g := by
      have := hg r
      rw [gridOf, e] at this
      exact Option.some.inj this
    subst this
    exact ⟨k1, k2, k3, k4, k5, k6, k7, k9⟩
  have hnb : ∀ (r : Fin ws) (f : ℤ), 0 ≤ f → f < 6 → ∃ s : Fin ws, D.nbrRank r f = (s : ℕ) := by
    intro r f h0 h6
    obtain ⟨k, rfl⟩ := face_fin h0 h6
    obtain ⟨s, hs, es, -⟩ := indexToRank_spec h (D.cx r + fdx (k : ℕ)) (D.cy r + fdy (k : ℕ)) (D.cz r + fdz (k : ℕ))
    exact ⟨⟨s, hs⟩, es⟩
  refine ⟨hws, hrank, hnsp, fun r => periodic_localMesh D ws hD t0 r r.2 _ (hg r), ?_, ?_, ?_, ?_, ?_⟩
  · intro r s
    rw [(key r).2.2.2.1, (key s).2.2.2.2.1]
    simp
  · intro r
    rw [(key r).2.2.2.1, (key r).2.2.2.2.2.1]
    simp only [hro, Int.toNat_natCast]
    have : ((r : ℕ) + 1 : ℤ) ≤ ws := by have := r.2; omega
    have := mul_le_mul_of_nonneg_right this hpos.le
    push_cast
    omega
  · intro r s hrs
    rw [(key r).2.2.2.2.2.1, (key s).2.2.2.2.1, hro, hro]
    have hrs : (r : ℕ) < (s : ℕ) := hrs
    have : (((r : ℕ) + 1 : ℕ) : ℤ) ≤ ((s : ℕ) : ℤ) := by omega
    have := mul_le_mul_of_nonneg_right this hpos.le
    omega
  · intro r f h0 h6 hs s hb
    obtain ⟨k, rfl⟩ := face_fin h0 h6
    rw [(key r).2.2.2.2.2.2.1 _ ⟨h0, h6⟩] at hb
    rw [oppFace_fin, (key s).2.2.2.2.2.2.1 _ (face_range _)]
    exact nbrRank_opp h r s r.2 k hb
  · intro r c hc f h0 h6 nn hnn n0 n1 hout
    obtain ⟨k1, k2, k3, k4, k5, k6, k7, k9⟩ := key r
    rw [k1, k2, k3] at hc
    have hT : (W r).g.T c f = nn := hnn
    rw [k9 c hc f ⟨h0, h6⟩] at hT
    obtain ⟨s, hs⟩ := hnb r f h0 h6
    have own : ∀ c' : Cell, c'.Interior D.lx D.ly D.lz →
        0 ≤ VOXEL D.lx D.ly c'.x c'.y c'.z ∧ VOXEL D.lx D.ly c'.x c'.y c'.z < localNv D := by
      intro c' hc'
      have := voxel_range (periodic_localMesh D ws hD t0 r r.2 _ (hg r)) (c := c') (by
        rw [k1, k2, k3]; exact hc'.inMesh)
      rw [k1, k2] at this
      have e : nvox (W r).g = localNv D := by
        unfold nvox
        rw [k1, k2, k3]
        have e : localNv D = (D.lx + 2) * (D.ly + 2) * (D.lz + 2) := rfl
        rw [e]; ring
      rw [e] at this
      exact this
    have hrl : (W r).g.rangeh = (W r).g.rangel + localNv D - 1 := by
      rw [k5, k6, hro, hro]; push_cast; ring
    split_ifs at hT with hw
    · have hi := wrapCell_interior hlx hly hlz hc f
      have ho := own _ hi
      rw [hs, Int.toNat_natCast] at hT
      have hne : s ≠ r := by
        intro e
        subst e
        rw [← k5] at hT
        omega
      refine ⟨?_, s, wrapCell D.lx D.ly D.lz c f, by rw [k7 f ⟨h0, h6⟩, hs], ?_, ?_⟩
      · unfold Env.shared
        rw [k7 f ⟨h0, h6⟩, hs, hws, hrank]
        refine ⟨by omega, by have := s.2; omega, ?_⟩
        intro e
        exact hne (Fin.ext (by omega))
      · rw [(key s).1, (key s).2.1, (key s).2.2.1]; exact hi
      · rw [(key s).1, (key s).2.1, (key s).2.2.2.2.1]; exact hT.symm
    · have := inner_local D ws hD t0 r r.2 _ (hg r) c hc f h0 h6 hw
      have e : (W r).g.T c f = nn := hnn
      omega

/-- **C12, C13 on walled boxes.**  The ranks of a box with walls (absorbing, reflecting or with a handler) are joined. -/
theorem walled_joined (D : Decomp) (ws : ℕ) (hD : D.ok ws = true) (t0 : ℕ → ℤ → ℤ) (fbc pbc : ℤ) (hp : pbc < 0)
    (hfb : fbc = -1 ∨ fbc = -2 ∨ fbc = -3 ∨ fbc = -4) (W : Fin ws → Env K S)
    (hg : ∀ r : Fin ws, partitionWalled fbc pbc ws (fun _ => localNv D) (t0 r) D r = some (W r).g)
    (hws : ∀ r, (W r).ws = ws) (hrank : ∀ r : Fin ws, (W r).rank = r)
    (hnsp : ∀ r s, (W r).nsp = (W s).nsp) : Joined W := by
  have h := (D.ok_iff ws).mp hD
  have hex : ∀ r : Fin ws, ∃ g0, gridOf D ws t0 r = some g0 ∧ g0.Same (W r).g ∧
      (∀ f, 0 ≤ f ∧ f < 6 → (W r).g.bc (portOf f) = if outerRank D r f then fbc else g0.bc (portOf f)) ∧
      ∀ c, c.Interior D.lx D.ly D.lz → ∀ f, 0 ≤ f ∧ f < 6 →
        (W r).g.T c f = if atWall D.lx D.ly D.lz c f ∧ outerRank D r f then pbc else g0.T c f := by
    intro r
    obtain ⟨g1, e, k1, k2, k3, -⟩ := partitionPeriodic_T h (fun _ => localNv D) (fun _ => rfl) (t0 r) r r.2
    obtain ⟨g, a1, a2, a3, a4⟩ := partitionWalled_T h fbc pbc hp hfb _ (t0 r) r g1 e k1 k2 k3
    have : g = (W r).g := by
      have := hg r
      rw [a1] at this
      exact Option.some.inj this
    subst this
    exact ⟨g1, e, a2, a3, a4⟩
  choose g0 b1 b2 b3 b4 using hex
  set W0 : Fin ws → Env K S := fun r => { W r with g := g0 r } with hW0
  have hJ := periodic_joined D ws hD t0 W0 b1 hws hrank hnsp
  have hsz : ∀ r : Fin ws, (g0 r).nx = D.lx ∧ (g0 r).ny = D.ly ∧ (g0 r).nz = D.lz := by
    intro r
    obtain ⟨g1, e, k1, k2, k3, -⟩ := partitionPeriodic_T h (fun _ => localNv D) (fun _ => rfl) (t0 r) r r.2
    have : g1 = g0 r := by
      have := b1 r
      rw [gridOf, e] at this
      exact Option.some.inj this
    subst this
    exact ⟨k1, k2, k3⟩
  have hf : fbc < 0 := by omega
  have hsh : ∀ r f, 0 ≤ f → f < 6 → (W r).shared f → ¬ outerRank D r f = true ∧ (W0 r).shared f := by
    intro r f h0 h6 hs
    unfold Env.shared at hs ⊢
    rw [b3 r f ⟨h0, h6⟩] at hs
    split_ifs at hs with ho
    · omega
    · exact ⟨ho, hs⟩
  refine ⟨hws, hrank, hnsp, fun r => walled_localMesh D ws hD t0 fbc pbc hp hfb r r.2 _ (hg r), ?_, ?_, ?_, ?_, ?_⟩
  · intro r s
    have := hJ.range r s
    obtain ⟨-, -, -, s4, -⟩ := b2 r
    obtain ⟨-, -, -, -, s5, -⟩ := b2 s
    rw [s4, s5]; exact this
  · intro r
    have := hJ.total r
    obtain ⟨-, -, -, s4, s5, s6⟩ := b2 r
    rw [s4, s6]; exact this
  · intro r s hrs
    have := hJ.order r s hrs
    obtain ⟨-, -, -, -, -, s6⟩ := b2 r
    obtain ⟨-, -, -, -, s5, -⟩ := b2 s
    rw [s5, s6]; exact this
  · intro r f h0 h6 hs s hb
    obtain ⟨k, rfl⟩ := face_fin h0 h6
    have hm := (walled_ports_match D ws hD t0 fbc pbc hp hfb k r s r.2 s.2 _ _ (hg r) (hg s)
      (BOUNDARY (faceDir k).1 (faceDir k).2.1 (faceDir k).2.2)).mp (by
        unfold sendPort
        rw [portOf_faceDir] at hb
        simp only [hb]
        rw [if_neg (by have := s.2; omega)])
    unfold recvPort at hm
    rw [oppFace_fin, portOf_opp]
    dsimp only at hm
    split_ifs at hm
    simp only [Option.some.injEq, Msg.mk.injEq, and_true] at hm
    exact hm
  · intro r c hc f h0 h6 nn hnn n0 n1 hout
    obtain ⟨s1, s2, s3, s4, s5, s6⟩ := b2 r
    rw [s1, s2, s3] at hc
    have hT : (W r).g.T c f = nn := hnn
    rw [b4 r c (by obtain ⟨a, b, d⟩ := hsz r; rw [← a, ← b, ← d]; exact hc) f ⟨h0, h6⟩] at hT
    split_ifs at hT with hw
    · omega
    · obtain ⟨k1, s, c', k2, k3, k4⟩ := hJ.land r c hc f h0 h6 nn hT n0 (by rw [s4] at n1; exact n1)
        (by rw [s5, s6] at hout; exact hout)
      have hat : atWall D.lx D.ly D.lz c f := by
        by_contra hna
        have := inner_local D ws hD t0 r r.2 _ (b1 r) c
          (by obtain ⟨a, b, d⟩ := hsz r; rw [← a, ← b, ← d]; exact hc) f h0 h6 hna
        omega
      have ho : ¬ outerRank D r f = true := fun ho => hw ⟨hat, ho⟩
      have hbc := b3 r f ⟨h0, h6⟩
      rw [if_neg ho] at hbc
      obtain ⟨t1, t2, -, -, t5, -⟩ := b2 s
      refine ⟨?_, s, c', by rw [hbc]; exact k2, ?_, ?_⟩
      · unfold Env.shared at k1 ⊢
        rw [hbc]
        exact k1
      · obtain ⟨u1, u2, u3, -⟩ := b2 s
        rw [u1, u2, u3]; exact k3
      · rw [t1, t2, t5]; exact k4

end

end Verif.Boundary
