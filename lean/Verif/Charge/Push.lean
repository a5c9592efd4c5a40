import Verif.Charge.Support
import Verif.Charge.Rounds

/-!
# All species pushed

Model of the loop over the species in `advance` (/repo/src/vpic/advance.cc:49-50) and the charge balance of it.
-/
namespace Verif.Charge

open Grid Deposit SfInterface MoveP
open AdvanceP (Args Mem pushOne PushEnds PushOk Unfinished accBase Advance moverList)
open Boundary (AtFace settled Species Env Rank Ready ReadySp live ids waiting)
open Distribute (upTo Rounding)

section Model
variable {K : Type} [Field K] [LinearOrder K]

/-- What the push takes from the grid and the interpolators: the square root, the interpolators, `qdt_2mc` of each species and
`cdt_dx, cdt_dy, cdt_dz` (/repo/src/species_advance/standard/pipeline/advance_p_pipeline.cc:272-289). -/
structure PushPar (K : Type) where
  rt : K → K
  f0 : ℤ → Boris.Interp K
  qdt_2mc : ℕ → K
  cdt_d : Fin 3 → K

/-- The arguments of `advance_p` for species `id`, same lines. -/
def pushArgs (g : LGrid) (fuel : ℕ) (X : PushPar K) (id : ℕ) (s : Species K) : Args K :=
  ⟨g, X.rt, X.f0, X.qdt_2mc id, X.cdt_d, s.q, s.np, s.max_nm, fuel⟩

/-- `LIST_FOR_EACH( sp, species_list ) advance_p( sp, accumulator_array, interpolator_array )`,
/repo/src/vpic/advance.cc:49-50, with `P` pipelines: the species in the order of the list, each with any interleaving of the
pipelines.  `acc` are the accumulators of the host and all pipelines. -/
inductive Pushes (Rd : Rounding) (g : LGrid) (fuel : ℕ) (X : PushPar K) (P : ℕ) :
    List ℕ → (ℕ → Species K) → (ℤ → Fin 12 → K) → (ℕ → Species K) → (ℤ → Fin 12 → K) → Prop
  | nil (sp acc) : Pushes Rd g fuel X P [] sp acc sp acc
  | cons (id : ℕ) (l : List ℕ) (sp : ℕ → Species K) (m m' : Mem K) (pm : ℤ → Mover K) (nm : ℕ) (sp' acc') :
      m.part = (sp id).p → m.mover = (sp id).pm →
      Advance Rd (pushArgs g fuel X id (sp id)) P m m' (some (pm, nm)) →
      Pushes Rd g fuel X P l (Function.update sp id { sp id with p := m'.part, pm := pm, nm := nm }) m'.acc sp' acc' →
      Pushes Rd g fuel X P (id :: l) sp m.acc sp' acc'

end Model

section
variable {K : Type} {S : Type*} [Field K] [LinearOrder K] [IsStrictOrderedRing K]

/-- Spec: the sum of the accumulators of the host and of all pipelines. -/
def totalOf (g : LGrid) (P : ℕ) (acc : ℤ → Fin 12 → K) : Accum K := fun v k =>
  if 0 ≤ v ∧ v < nvox g then ((List.range (P + 1)).map fun r => acc (accBase g P r + v) k).sum else 0

/-- Spec: a species before the push: all particles inside interior cells, storage of representable size, and enough passes
allowed to `move_p`. -/
structure Pushable (g : LGrid) (fuel : ℕ) (X : PushPar K) (id : ℕ) (s : Species K) : Prop where
  np : s.np ≤ s.max_np
  np31 : s.np < 2 ^ 31
  nm31 : s.max_nm < 2 ^ 31
  within : ∀ i : ℤ, 0 ≤ i → i < s.np → Within g (s.p i)
  ok : ∀ i : ℤ, 0 ≤ i → i < s.np → PushOk (pushArgs g fuel X id s) (s.p i)

/-- Spec: a species between the push and the end of the step: movers name the particles that are stopped at a face they cannot
pass, all others are inside interior cells. -/
structure SoundSp (g : LGrid) (s : Species K) : Prop extends ReadySp g s where
  stuck : ∀ m ∈ moverList s.pm s.nm, Stuck g (s.p m.i)
  within : ∀ p ∈ s.placed, Within g p

/-- What a push leaves behind. -/
lemma push_sound [Archimedean K] (Rd : Rounding) (hRd : Rd.Accurate) (g : LGrid) (h : LocalMesh g) (fuel : ℕ)
    (X : PushPar K) (P : ℕ) (hP : 0 < P) (hP2 : P ≤ 2 ^ 16) (id : ℕ) (s : Species K) (hs : Pushable g fuel X id s)
    (m m' : Mem K) (hm : m.part = s.p) (pm : ℤ → Mover K) (nm : ℕ)
    (hadv : Advance Rd (pushArgs g fuel X id s) P m m' (some (pm, nm))) :
    SoundSp g { s with p := m'.part, pm := pm, nm := nm } := by
  have hv : 0 ≤ nvox g := by
    have := h.nx; have := h.ny; have := h.nz
    unfold nvox; positivity
  have hw : ∀ i : ℤ, 0 ≤ i → i < s.np → Within g (m.part i) := by rw [hm]; exact hs.within
  have hok : ∀ i : ℤ, 0 ≤ i → i < s.np → PushOk (pushArgs g fuel X id s) (m.part i) := by rw [hm]; exact hs.ok
  obtain ⟨pm1, nm1, e1, e2, e3, e4, ⟨D, d1, d2, d3, d4⟩, e6⟩ :=
    AdvanceP.advance_p_movers Rd hRd (pushArgs g fuel X id s) P hP hP2 hs.np31 hs.nm31 hv m m' hok _ hadv
  simp only [Option.some.injEq, Prod.mk.injEq] at e1
  obtain ⟨rfl, rfl⟩ := e1
  have hpl : Species.placed { s with p := m'.part, pm := pm, nm := nm } =
      (upTo s.np).map (AdvanceP.placed (moverList pm nm) m') := rfl
  have hrange : ∀ i, i ∈ upTo s.np ↔ 0 ≤ i ∧ i < s.np := by
    intro i
    simp only [upTo, List.mem_map, List.mem_range]
    constructor
    · rintro ⟨a, ha, rfl⟩; omega
    · rintro ⟨h0, h1⟩; exact ⟨i.toNat, by omega, by omega⟩
  have hin : ∀ p ∈ Species.placed { s with p := m'.part, pm := pm, nm := nm }, Within g p := by
    rw [hpl]
    intro p hp
    obtain ⟨i, hi, rfl⟩ := List.mem_map.mp hp
    obtain ⟨h0, h1⟩ := (hrange i).mp hi
    by_cases hu : Unfinished (pushArgs g fuel X id s) (m.part i)
    · rcases d4 i h0 h1 hu with ⟨hmv, -⟩ | ⟨hmv, hD⟩
      · rw [AdvanceP.placed, if_pos hmv]
        obtain ⟨mv, hmv2, rfl⟩ := List.mem_map.mp hmv
        obtain ⟨-, -, p', ⟨a, hp1⟩, hp2⟩ := e4 mv hmv2
        rw [hp2]
        exact (push_ends _ h (hw mv.i h0 h1) hp1).2.1
      · rw [AdvanceP.placed, if_neg hmv]
        obtain ⟨-, -, p', disp, ⟨a, hp1⟩, hp2⟩ := d3 i hD
        rw [hp2]
        exact (push_ends _ h (hw i h0 h1) hp1).2.1
    · have hmv : i ∉ (moverList pm nm).map Mover.i := by
        intro hmv
        obtain ⟨mv, hmv2, rfl⟩ := List.mem_map.mp hmv
        obtain ⟨-, -, q, hq1, hq2⟩ := e4 mv hmv2
        exact hu ⟨q, mv.disp, hq1⟩
      rw [AdvanceP.placed, if_neg hmv]
      obtain ⟨a, hp1⟩ := e6 i h0 h1 hu
      exact (push_ends _ h (hw i h0 h1) hp1).2.1
  have hend : ∀ mv ∈ moverList pm nm, (∃ c f, AtFace g (m'.part mv.i) c f) ∧ Stuck g (m'.part mv.i) := by
    intro mv hmv
    obtain ⟨h0, h1, p', ⟨a, hp1⟩, hp2⟩ := e4 mv hmv
    rw [hp2]
    exact (push_ends _ h (hw mv.i h0 h1) hp1).2.2 rfl
  refine ⟨⟨hs.np, e2, ⟨e3, fun mv hmv => ?_⟩, fun mv hmv => (hend mv hmv).1⟩, fun mv hmv => (hend mv hmv).2, hin⟩
  obtain ⟨h0, h1, -⟩ := e4 mv hmv
  exact ⟨h0, h1⟩

/-- One species pushed. -/
lemma push_species [Archimedean K] (Rd : Rounding) (hRd : Rd.Accurate) (g : LGrid) (h : LocalMesh g) (fuel : ℕ)
    (X : PushPar K) (P : ℕ) (hP : 0 < P) (hP2 : P ≤ 2 ^ 16) (id : ℕ) (s : Species K) (hs : Pushable g fuel X id s)
    (sc : Scales K) (hdt : sc.dt ≠ 0) (hV : sc.r8V = sc.rd 0 * sc.rd 1 * sc.rd 2 * (1 / 8)) {J : Fin 3 → Bool}
    (hJ : JoinedOn g J) {φ : ℤ → K} (hφ : OnClasses g J φ) (m m' : Mem K) (hm : m.part = s.p) (pm : ℤ → Mover K) (nm : ℕ)
    (hadv : Advance Rd (pushArgs g fuel X id s) P m m' (some (pm, nm))) (ht : TidyAll g P m.acc) :
    SoundSp g { s with p := m'.part, pm := pm, nm := nm } ∧ TidyAll g P m'.acc ∧
    ((Species.placed { s with p := m'.part, pm := pm, nm := nm }).map (weigh g φ (s.q * sc.r8V))).sum / sc.dt +
        nodeSum g φ (divJ g sc (totalOf g P m'.acc)) =
      ((live s.p s.np).map (weigh g φ (s.q * sc.r8V))).sum / sc.dt + nodeSum g φ (divJ g sc (totalOf g P m.acc)) := by
  have hv : 0 ≤ nvox g := by
    have := h.nx; have := h.ny; have := h.nz
    unfold nvox; positivity
  have hw : ∀ i : ℤ, 0 ≤ i → i < s.np → Within g (m.part i) := by rw [hm]; exact hs.within
  have hok : ∀ i : ℤ, 0 ≤ i → i < s.np → PushOk (pushArgs g fuel X id s) (m.part i) := by rw [hm]; exact hs.ok
  obtain ⟨pm2, nm2, ρ, ρ', f1, f2, f3, f4⟩ := AdvanceP.advance_p_conserves_charge Rd hRd (pushArgs g fuel X id s) P hP hP2
    hs.np31 hs.nm31 h sc hdt hV J hJ m m' (fun i h0 h1 => hw i h0 h1) hok _ hadv
  simp only [Option.some.injEq, Prod.mk.injEq] at f1
  obtain ⟨rfl, rfl⟩ := f1
  have hpl : Species.placed { s with p := m'.part, pm := pm, nm := nm } =
      (upTo s.np).map (AdvanceP.placed (moverList pm nm) m') := rfl
  have hrange : ∀ i, i ∈ upTo s.np ↔ 0 ≤ i ∧ i < s.np := by
    intro i
    simp only [upTo, List.mem_map, List.mem_range]
    constructor
    · rintro ⟨a, ha, rfl⟩; omega
    · rintro ⟨h0, h1⟩; exact ⟨i.toNat, by omega, by omega⟩
  have hsd := push_sound Rd hRd g h fuel X P hP hP2 id s hs m m' hm pm nm hadv
  have hin := hsd.within
  refine ⟨hsd, advance_tidy Rd hRd _ P hP hP2 hs.np31 hs.nm31 h m m' hw hok _ hadv ht, ?_⟩
  · have key := weak_of_classes hφ f4
    obtain ⟨ρ1, r1, r2⟩ := accumulateRhoP_weigh h φ sc.r8V s.q _ hin (fun _ => 0)
    obtain ⟨ρ2, r3, r4⟩ := accumulateRhoP_weigh h φ sc.r8V s.q (live s.p s.np) (by
      intro p hp
      obtain ⟨i, hi, rfl⟩ := List.mem_map.mp hp
      obtain ⟨h0, h1⟩ := (hrange i).mp hi
      exact hs.within i h0 h1) (fun _ => 0)
    have g1 : ρ1 = ρ' := by
      have : some ρ1 = some ρ' := by rw [← r1, hpl]; exact f3
      exact Option.some.inj this
    have g2 : ρ2 = ρ := by
      have : some ρ2 = some ρ := by
        rw [← r3]
        refine Eq.trans ?_ f2
        rw [hm]
        rfl
      exact Option.some.inj this
    subst g1 g2
    rw [nodeSum_zero, zero_add] at r2 r4
    rw [← r2, ← r4]
    have e5 : nodeSum g φ (fun n => (ρ1 n - ρ2 n) / sc.dt + (divJ g sc (totalOf g P m'.acc) n -
        divJ g sc (totalOf g P m.acc) n)) = (nodeSum g φ ρ1 - nodeSum g φ ρ2) / sc.dt +
        (nodeSum g φ (divJ g sc (totalOf g P m'.acc)) - nodeSum g φ (divJ g sc (totalOf g P m.acc))) := by
      simp only [nodeSum]
      rw [← Finset.sum_sub_distrib, ← Finset.sum_sub_distrib, Finset.sum_div, ← Finset.sum_add_distrib]
      refine Finset.sum_congr rfl fun n _ => ?_
      ring
    have key2 : nodeSum g φ (fun n => (ρ1 n - ρ2 n) / sc.dt + (divJ g sc (totalOf g P m'.acc) n -
        divJ g sc (totalOf g P m.acc) n)) = 0 := key
    rw [e5] at key2
    linear_combination key2

/-- All species of a list pushed. -/
lemma pushes_result [Archimedean K] (Rd : Rounding) (hRd : Rd.Accurate) (g : LGrid) (h : LocalMesh g) (fuel : ℕ)
    (X : PushPar K) (P : ℕ) (hP : 0 < P) (hP2 : P ≤ 2 ^ 16)
    (sc : Scales K) (hdt : sc.dt ≠ 0) (hV : sc.r8V = sc.rd 0 * sc.rd 1 * sc.rd 2 * (1 / 8)) {J : Fin 3 → Bool}
    (hJ : JoinedOn g J) {φ : ℤ → K} (hφ : OnClasses g J φ) {l : List ℕ} {sp sp' : ℕ → Species K}
    {acc acc' : ℤ → Fin 12 → K} (hp : Pushes Rd g fuel X P l sp acc sp' acc') (hl : l.Nodup)
    (hs : ∀ id ∈ l, Pushable g fuel X id (sp id)) (ht : TidyAll g P acc) :
    (∀ id ∈ l, SoundSp g (sp' id) ∧ (sp' id).q = (sp id).q) ∧ (∀ id, id ∉ l → sp' id = sp id) ∧ TidyAll g P acc' ∧
    (l.map fun id => ((sp' id).placed.map (weigh g φ ((sp' id).q * sc.r8V))).sum).sum / sc.dt +
        nodeSum g φ (divJ g sc (totalOf g P acc')) =
      (l.map fun id => ((live (sp id).p (sp id).np).map (weigh g φ ((sp id).q * sc.r8V))).sum).sum / sc.dt +
        nodeSum g φ (divJ g sc (totalOf g P acc)) := by
  induction hp with
  | nil sp acc => exact ⟨by simp, fun _ _ => rfl, ht, by simp⟩
  | cons id l sp m m' pm nm sp' acc' hm1 hm2 hadv _ ih =>
    rw [List.nodup_cons] at hl
    obtain ⟨k1, k2, k3⟩ := push_species Rd hRd g h fuel X P hP hP2 id (sp id) (hs id (by simp)) sc hdt hV hJ hφ m m' hm1 pm
      nm hadv ht
    have up : ∀ j, j ≠ id → Function.update sp id { sp id with p := m'.part, pm := pm, nm := nm } j = sp j :=
      fun j hj => Function.update_of_ne hj _ _
    obtain ⟨i1, i2, i3, i4⟩ := ih hl.2 (fun j hj => by
      rw [up j (fun e => hl.1 (e ▸ hj))]
      exact hs j (by simp [hj])) k2
    have e := i2 id hl.1
    rw [Function.update_self] at e
    refine ⟨?_, ?_, i3, ?_⟩
    · intro j hj
      rcases List.mem_cons.mp hj with rfl | hj
      · rw [e]; exact ⟨k1, rfl⟩
      · have := i1 j hj
        rwa [up j (fun e => hl.1 (e ▸ hj))] at this
    · intro j hj
      rw [List.mem_cons, not_or] at hj
      rw [i2 j hj.2, up j hj.1]
    · have cong : (l.map fun j => ((live (Function.update sp id { sp id with p := m'.part, pm := pm, nm := nm } j).p
          (Function.update sp id { sp id with p := m'.part, pm := pm, nm := nm } j).np).map (weigh g φ
          ((Function.update sp id { sp id with p := m'.part, pm := pm, nm := nm } j).q * sc.r8V))).sum) =
          l.map fun j => ((live (sp j).p (sp j).np).map (weigh g φ ((sp j).q * sc.r8V))).sum := by
        apply List.map_congr_left
        intro j hj
        rw [up j (fun e => hl.1 (e ▸ hj))]
      rw [cong] at i4
      simp only [List.map_cons, List.sum_cons, e]
      linear_combination i4 + k3

end

end Verif.Charge
