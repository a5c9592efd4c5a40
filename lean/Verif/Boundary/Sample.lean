import Verif.Boundary.Conserve
import Verif.Boundary.Handlers
import Mathlib.Data.Rat.Floor
import Mathlib.Tactic.NormNum
import Mathlib.Analysis.Real.Sqrt

/-!
# C11 to C14, C68 on concrete ranks

A box of 4 by 3 by 2 cells on two ranks with one species of three particles per rank; the second particle of each rank is
stopped at the upper x face and has to go to the other rank.
-/
namespace Verif.Boundary

open Grid (LGrid Cell VOXEL portOf Decomp gridOf localNv neighbor_is_adjacent partitionPeriodic_T cellId)
open MoveP (Part Mover Accum MState moveP nvox LocalMesh voxel_range periodic_localMesh)
open AdvanceP (moverList)

/-- The box. -/
def sampleD : Decomp := ⟨4, 3, 2, 2, 1, 1⟩

/-- The ranks, given their grids. -/
def sampleEnv (g : Fin 2 → LGrid) (fuel : ℕ) (r : Fin 2) : Env ℚ (ℕ → ℕ) where
  g := g r
  ws := 2
  rank := r
  nsp := 1
  nb := 1
  interact := fun _ => absorbTally
  r8V := 1
  freshP := fun _ => ⟨fun _ => 0, 0, fun _ => 0, 0⟩
  freshM := fun _ => ⟨fun _ => 0, 0⟩
  fuel := fuel

/-- The particles: in cell (2,1,1), the second at its upper x face. -/
def sampleSpecies : Species ℚ where
  q := -1
  p := fun i => if i = 1 then ⟨![1, 1/2, 0], 8 * 26 + 3, ![1, 0, 0], 7⟩ else ⟨fun _ => 0, 26, fun _ => 0, i⟩
  np := 3
  max_np := 4
  pm := fun _ => ⟨![1/4, 0, 0], 1⟩
  nm := 1
  max_nm := 2

/-- The state of every rank. -/
def sampleRank : Rank ℚ (ℕ → ℕ) := ⟨fun _ => sampleSpecies, fun _ _ => 0, fun _ => 0, fun _ => 0, 0, 0⟩

lemma sample_grids : ∃ g : Fin 2 → LGrid, ∀ r : Fin 2, gridOf sampleD 2 (fun _ _ => 77) r = some (g r) ∧
    (g r).nx = 2 ∧ (g r).ny = 3 ∧ (g r).nz = 2 ∧ (g r).range 2 = 160 := by
  have hD : sampleD.ok 2 = true := by decide
  have h := (Decomp.ok_iff _ 2).mp hD
  have ex : ∀ r : Fin 2, ∃ g, gridOf sampleD 2 (fun _ _ => 77) r = some g ∧ g.nx = 2 ∧ g.ny = 3 ∧ g.nz = 2 ∧
      g.range 2 = 160 := by
    intro r
    obtain ⟨g, e, gx, gy, gz, gr, -⟩ :=
      partitionPeriodic_T h (fun _ => localNv sampleD) (fun _ => rfl) (fun _ => 77) r r.2
    exact ⟨g, e, by rw [gx]; rfl, by rw [gy]; rfl, by rw [gz]; rfl, by rw [gr]; decide⟩
  choose g h1 h2 h3 h4 h5 using ex
  exact ⟨g, fun r => ⟨h1 r, h2 r, h3 r, h4 r, h5 r⟩⟩

lemma sample_atFace {g : LGrid} (h1 : g.nx = 2) (h2 : g.ny = 3) (h3 : g.nz = 2) :
    AtFace g (sampleSpecies.p 1) ⟨2, 1, 1⟩ 3 := by
  refine ⟨by rw [h1, h2, h3]; unfold Cell.Interior; decide, by decide, by rw [h1, h2]; decide, ?_, ?_⟩
  · simp [sampleSpecies, axisOf]
  · intro k
    fin_cases k <;> norm_num [sampleSpecies]

lemma sample_movers : moverList sampleSpecies.pm sampleSpecies.nm = [⟨![1/4, 0, 0], 1⟩] := rfl

lemma sample_ready {g : Fin 2 → LGrid} (fuel : ℕ) (r : Fin 2) (h1 : (g r).nx = 2) (h2 : (g r).ny = 3)
    (h3 : (g r).nz = 2) : Ready (sampleEnv g fuel r) sampleRank := by
  intro id _
  refine ⟨show 3 ≤ 4 by decide, show 1 ≤ 2 by decide, ⟨?_, ?_⟩, ?_⟩
  · show ((moverList sampleSpecies.pm sampleSpecies.nm).map Mover.i).Pairwise (· < ·)
    rw [sample_movers]; simp
  · show ∀ m ∈ moverList sampleSpecies.pm sampleSpecies.nm, _
    rw [sample_movers]; simp [sampleRank, sampleSpecies]
  · show ∀ m ∈ moverList sampleSpecies.pm sampleSpecies.nm, _
    rw [sample_movers]
    intro m hm
    simp only [List.mem_singleton] at hm
    subst hm
    exact ⟨_, _, sample_atFace h1 h2 h3⟩

/-- C11, C12, C13, C68: one exchange on the two ranks takes place, a particle changes rank on each of them, and there are
six particles before and after. -/
example : ∃ (W : Fin 2 → Env ℚ (ℕ → ℕ)) (R' : Fin 2 → Rank ℚ (ℕ → ℕ)),
    Joined W ∧ (∀ r, Conforming (W r)) ∧ (∀ r, Ready (W r) sampleRank) ∧ Round W (fun _ => sampleRank) R' ∧
    (∃ h ∈ waiting (W 0) sampleRank, goesTo W 0 1 h) ∧
    ((R' 0).sp 0).np + ((R' 1).sp 0).np = 6 := by
  obtain ⟨g, hg⟩ := sample_grids
  have hD : sampleD.ok 2 = true := by decide
  have hJ : ∀ fuel, Joined (sampleEnv g fuel) := fun fuel =>
    periodic_joined sampleD 2 hD (fun _ _ => 77) (sampleEnv g fuel) (fun r => (hg r).1) (fun _ => rfl) (fun _ => rfl)
      (fun _ _ => rfl)
  have hC : ∀ fuel r, Conforming (sampleEnv g fuel r) := fun fuel r =>
    conforming_of_handlers _ fun k _ => absorb_tally_conforms _
  have hR : ∀ fuel r, Ready (sampleEnv g fuel r) sampleRank := fun fuel r =>
    sample_ready fuel r (hg r).2.1 (hg r).2.2.1 (hg r).2.2.2.1
  obtain ⟨N, hN⟩ := round_exists (hJ 0) (hC 0) (fun _ => sampleRank) (hR 0) (fun _ => by show 1 ≤ 32; omega)
    (fun _ => by show 1 ≤ 32; omega) (fun _ => by show fitsMsg 1; decide)
    (by
      intro r id _
      show grow (3 + ∑ s : Fin 2, 1) < 2 ^ 31
      decide)
  obtain ⟨R', hround⟩ := hN N le_rfl
  have hround : Round (sampleEnv g N) (fun _ => sampleRank) R' := hround
  have hwait : ∀ r, waiting (sampleEnv g N r) sampleRank = [⟨0, -1, sampleSpecies.p 1, ![1/4, 0, 0]⟩] := fun r => rfl
  -- the neighbour behind the face
  have hnn : ∀ r : Fin 2, (⟨0, -1, sampleSpecies.p 1, ![1/4, 0, 0]⟩ : Hit ℚ).nn (sampleEnv g N r) =
      cellId sampleD (1 - r : Fin 2) ⟨1, 1, 1⟩ := by
    intro r
    obtain ⟨g1, e1, -, -, hadj⟩ := neighbor_is_adjacent sampleD 2 hD (fun _ _ => 77) r r.2
    have e := (hg r).1
    rw [e1] at e
    obtain rfl := Option.some.inj e
    obtain ⟨r', c', hr', hc', hn, hp⟩ := hadj ⟨2, 1, 1⟩ (by refine ⟨?_, ?_, ?_, ?_, ?_, ?_⟩ <;> decide) 3
    have hv : (⟨0, -1, sampleSpecies.p 1, ![1/4, 0, 0]⟩ : Hit ℚ).nn (sampleEnv g N r) = Grid.nbr (g r) ⟨2, 1, 1⟩ 3 := by
      unfold Grid.nbr
      rw [(hg r).2.1, (hg r).2.2.1]
      show (g r).neighbor (6 * ((8 * 26 + 3) / 8) + (8 * 26 + 3) % 8) = _
      norm_num
    rw [hv, hn]
    obtain ⟨x, y, z⟩ := c'
    obtain ⟨i1, i2, i3, i4, i5, i6⟩ := hc'
    simp only [Grid.globalPos, Grid.periodicShift, Grid.faceDir, sampleD, Prod.mk.injEq] at hp i1 i2 i3 i4 i5 i6
    obtain ⟨p1, p2, p3⟩ := hp
    have hr2 : r' = 0 ∨ r' = 1 := by omega
    have key : r' = (1 - r : Fin 2) ∧ x = 1 ∧ y = 1 ∧ z = 1 := by
      fin_cases r <;> rcases hr2 with rfl | rfl <;> norm_num at p1 p2 p3 i1 i2 i3 i4 i5 i6 ⊢ <;> omega
    obtain ⟨rfl, rfl, rfl, rfl⟩ := key
    rfl
  have hrange : ∀ r : Fin 2, (sampleEnv g N r).g.rangel = (r : ℕ) * 80 ∧
      (sampleEnv g N r).g.rangeh = ((r : ℕ) + 1) * 80 - 1 := by
    intro r
    obtain ⟨g1, e1, k1, k2, -⟩ := neighbor_is_adjacent sampleD 2 hD (fun _ _ => 77) r r.2
    have e := (hg r).1
    rw [e1] at e
    obtain rfl := Option.some.inj e
    exact ⟨k1, k2⟩
  have hfate : ∀ r : Fin 2, (⟨0, -1, sampleSpecies.p 1, ![1/4, 0, 0]⟩ : Hit ℚ).fate (sampleEnv g N r) = .send := by
    intro r
    unfold Hit.fate
    rw [hnn, (hrange r).1, (hrange r).2]
    have : (sampleEnv g N r).g.range (sampleEnv g N r).ws = 160 := (hg r).2.2.2.2
    rw [this]
    fin_cases r <;> rfl
  refine ⟨sampleEnv g N, R', hJ N, hC N, hR N, hround, ⟨_, by rw [hwait]; exact List.mem_singleton.mpr rfl, hfate 0, ?_⟩, ?_⟩
  · rw [hnn, (hrange 1).1, (hrange 1).2]
    decide
  · have := round_counts (hJ N) (hC N) (fun _ => sampleRank) R' (hR N) hround 0 (fun _ => by show 0 < 1; omega)
    simp only [hwait, Fin.sum_univ_two, customRun, hfate, List.filter_cons, List.filter_nil] at this
    have h3 : (sampleRank.sp 0).np = 3 := rfl
    rw [h3] at this
    simpa using this

/-- C11, C14 on the same species: the end of a step removes the stopped particle and adds its charge. -/
example : ∃ g sp' rhob', LocalMesh g ∧ finishSpecies g 1 sampleSpecies (fun _ => 0) = some (sp', rhob') ∧ sp'.np = 2 := by
  obtain ⟨g, hg⟩ := sample_grids
  have hD : sampleD.ok 2 = true := by decide
  have hm := periodic_localMesh sampleD 2 hD (fun _ _ => 77) _ (0 : Fin 2).2 (g 0) (hg 0).1
  obtain ⟨sp', rhob', h1, -, h2, -⟩ := end_of_step hm 1 sampleSpecies (by decide) (by rw [sample_movers]; simp)
    (by
      rw [sample_movers]
      intro m h
      simp only [List.mem_singleton] at h
      subst h
      exact ⟨by simp, by simp [sampleSpecies], _, _, sample_atFace (hg 0).2.1 (hg 0).2.2.1 (hg 0).2.2.2.1⟩) (fun _ => 0)
  refine ⟨g 0, sp', rhob', hm, h1, ?_⟩
  have : sp'.np + 1 = 3 := h2
  omega

/-- C68: the hypotheses about a refluxing boundary can be met. -/
noncomputable def sampleReflux : Reflux ℝ ℕ where
  para := fun _ => 1/10
  perp := fun _ => 1/5
  dx := fun _ => 1/2
  rdx := fun _ => 2
  sqrt2 := √2
  fltMin := 1/1000
  rt := Real.sqrt
  draw := fun n => ((n, -1, 1), n + 1)

/-- C68 at the upper y face: the refluxed particle moves down. -/
example : ∃ pi, (reflux sampleReflux 3 0 (-1) ⟨![1/2, 1, 0], 26, ![1, 1, 0], 7⟩ ![1/4, 1/4, 0] 4).2.2 = [pi] ∧
    pi.disp 1 ≤ 0 ∧ pi.w = 7 ∧ pi.i = 26 := by
  obtain ⟨u', disp', k, hk, e, -, h, -⟩ := reflux_spec sampleReflux 3 0 (-1) ⟨![1/2, 1, 0], 26, ![1, 1, 0], 7⟩ ![1/4, 1/4, 0] 4
    (by decide) (fun x hx => ⟨Real.sqrt_nonneg x, Real.mul_self_sqrt hx⟩) (by norm_num [sampleReflux])
    (fun k => by norm_num [sampleReflux]) (fun k => by norm_num [sampleReflux]) (by norm_num [sampleReflux])
    (Real.sqrt_nonneg 2) (by norm_num [sampleReflux])
  have : k = 1 := by
    have hk : (k : ℤ) = 1 := hk
    exact Fin.ext (by exact_mod_cast hk)
  subst this
  rw [if_neg (by decide)] at h
  rw [e]
  exact ⟨_, rfl, h.2, rfl, rfl⟩

end Verif.Boundary
