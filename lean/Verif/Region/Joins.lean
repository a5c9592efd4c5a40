import Verif.Region.Ranks
import Verif.Region.Bc

/-! # Periodic boxes join well with periodic regions -/
namespace Verif.Region

open Grid (LGrid Decomp Cell IsInterior gridOf nbr cellId globalPos periodicShift faceDir neighbor_is_adjacent cellId_injective stepCell localNv VOXEL)
open Field (Pos FC FMem vox dims InArray ranksOf)
open Inject (Geom geomOf)
open Charge (siteAt)
open MoveP (LocalMesh localNext localNext_interior periodic_localMesh)

variable {K : Type} [Field K] [LinearOrder K] [IsStrictOrderedRing K]

/-- **C99.** In a periodic box, the cell that a particle enters through a face, on whichever rank, is in a periodic region exactly if the
cell beyond the face is. -/
theorem neighbor_in_region {B : Inject.Box K} {D : Decomp} {ws : ℕ} (hD : D.ok ws = true) (t0 : ℕ → ℤ → ℤ) (cdt : K)
    {rgn : (Fin 3 → K) → Bool} (hr : Periodic B rgn) (r r' : Fin ws) (g : LGrid) (hg : gridOf D ws t0 r = some g)
    (c c' : Cell) (hc : IsInterior D c) (hc' : IsInterior D c') (f : Fin 6) (hn : nbr g c f = cellId D r' c') :
    CellIn (geomOf B D r' cdt) rgn c' ↔ CellIn (geomOf B D r cdt) rgn (stepCell c (f : ℕ)) := by
  have h := (D.ok_iff ws).mp hD
  obtain ⟨g1, e, -, -, T⟩ := neighbor_is_adjacent D ws hD t0 r r.2
  obtain rfl : g1 = g := by rw [e] at hg; exact Option.some.inj hg
  obtain ⟨s, d, hs, hd, ed, pd⟩ := T c hc f
  have toCell : ∀ d, IsInterior D d → Grid.IsCell D d := by
    rintro d ⟨a, b, c, d, e, f⟩
    refine ⟨?_, ?_, ?_, ?_, ?_, ?_⟩ <;> omega
  obtain ⟨rfl, rfl⟩ := cellId_injective D ws hD s r' d c' (toCell d hd) (toCell c' hc') (ed.symm.trans hn)
  have hx := h.gx
  have hy := h.gy
  have hz := h.gz
  have hsite : siteAt D r (toPos (stepCell c (f : ℕ))) = siteAt D r' (toPos d) := by
    simp only [globalPos, periodicShift, Prod.mk.injEq] at pd
    obtain ⟨p1, p2, p3⟩ := pd
    have key : ∀ {a b x y z n m : ℤ}, n = m → y = (x + z) % n → a = x + z → b = y → a % m = b % m := by
      rintro a b x y z n m rfl rfl rfl rfl
      rw [Int.emod_emod_of_dvd _ dvd_rfl]
    funext a
    fin_cases a
    · refine key hx p1 ?_ rfl
      show D.cx r * D.lx + ((stepCell c (f : ℕ)).x - 1) = _
      simp only [Decomp.cx, Decomp.lx]
      fin_cases f <;> simp [stepCell, faceDir] <;> ring
    · refine key hy p2 ?_ rfl
      show D.cy r * D.ly + ((stepCell c (f : ℕ)).y - 1) = _
      simp only [Decomp.cy, Decomp.ly]
      fin_cases f <;> simp [stepCell, faceDir] <;> ring
    · refine key hz p3 ?_ rfl
      show D.cz r * D.lz + ((stepCell c (f : ℕ)).z - 1) = _
      simp only [Decomp.cz, Decomp.lz]
      fin_cases f <;> simp [stepCell, faceDir] <;> ring
  have := inside_same (B := B) hD hD rfl cdt cdt r r' _ _ hsite hr 0
  simpa [CellIn] using this

/-- **C99.** In a periodic box every periodic region meets the hypothesis of `region_surface_not_crossed`, on every rank of every
decomposition. -/
theorem periodic_joins {B : Inject.Box K} {D : Decomp} {ws : ℕ} (hD : D.ok ws = true) (t0 : ℕ → ℤ → ℤ) (cdt : K)
    {rgn : (Fin 3 → K) → Bool} (hr : Periodic B rgn) (r : Fin ws) (g : LGrid) (hg : gridOf D ws t0 r = some g) :
    LocalMesh g ∧ JoinsWell g (geomOf B D r cdt) rgn := by
  have hm := periodic_localMesh D ws hD t0 r r.2 g hg
  refine ⟨hm, fun c hc f hf h1 h2 => ?_⟩
  have hi := localNext_interior hm hc hf
  have hadj := hm.adj c hc f hf h1 h2
  have h := (D.ok_iff ws).mp hD
  obtain ⟨g1, e, gx, gy, gz, -, gl, -⟩ :=
    Grid.partitionPeriodic_T h (fun _ => localNv D) (fun _ => rfl) (t0 r) r r.2
  have e' : g1 = g := by unfold gridOf at hg; rw [e] at hg; exact Option.some.inj hg
  subst e'
  rw [Grid.rangeOf_const _ _ (fun _ => rfl)] at gl
  rw [gx, gy, gz] at hc hi
  have hn : nbr g1 c ⟨f.toNat, by omega⟩ = cellId D r (localNext g1 c f) := by
    have hf' : ((f.toNat : ℕ) : ℤ) = f := Int.toNat_of_nonneg hf.1
    have hv : nbr g1 c ⟨f.toNat, by omega⟩ = g1.neighbor (6 * VOXEL g1.nx g1.ny c.x c.y c.z + f) := by
      unfold nbr
      simp only [hf']
      rfl
    rw [hv]
    rw [gl, gx, gy] at hadj
    rw [gx, gy]
    unfold cellId
    rw [sub_eq_iff_eq_add'] at hadj
    rw [hadj]
    rfl
  have := neighbor_in_region hD t0 cdt hr r r g1 hg c (localNext g1 c f) hc hi ⟨f.toNat, by omega⟩ hn
  simpa only [Int.toNat_of_nonneg hf.1] using this

end Verif.Region
