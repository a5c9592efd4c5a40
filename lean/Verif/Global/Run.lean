import Verif.Global.Props
import Verif.Global.Load
import Verif.Global.Current
import Verif.Global.Rms
import Verif.Threads.Props

/-!
# A run on ranks is a run in the box: fields
-/
namespace Verif.Global

open Grid MoveP Charge Torus Threads
open Field (Pos FC FMem World EntOn fieldExt vox NodeOn CellOn)
open Boundary (Rank Env live)
open SfInterface (Scales)

section
variable {K : Type} {S : Type*} [Field K] [LinearOrder K] [IsStrictOrderedRing K]

/-- The members of the field array that a run carries from step to step. -/
def Kept (k : FC) : Prop := Shared k ∨ k = .rhob

/-- Spec: the field arrays of all ranks hold E, B, the damped curl and the bound charge of `G`. -/
def Shows {n : ℕ} (Z : Setup K S n) (m : Fin n → FMem K) (G : Fields K) : Prop := ∀ k, Kept k → Holds Z.D Z.F m G k

/-- Spec: the box that `Z` cuts into ranks, with the charges `q` of the species. -/
def universeOf {n : ℕ} (Z : Setup K S n) (q : ℕ → K) : Universe K := ⟨Torus.sizeOf Z.D, Z.C, Z.M, Z.sc, Z.nsp, q⟩

omit [LinearOrder K] [IsStrictOrderedRing K] in
lemma holds_move {n : ℕ} {D : Decomp} {F : World K n} {m m' : Fin n → FMem K} {G G' : Fields K} {k : FC} (h : Holds D F m G k)
    (hm : ∀ r v, m' r (v, k) = m r (v, k)) (hG : ∀ s, G' k s = G k s) : Holds D F m' G' k := fun r c hc => by
  rw [hm, h r c hc, hG]

variable {n : ℕ} {Z : Setup K S n} {q : ℕ → K}

omit [IsStrictOrderedRing K] in
lemma Shows.e {m : Fin n → FMem K} {G : Fields K} (h : Shows Z m G) (a : Fin 3) : Holds Z.D Z.F m G (.e a) := h _ (.inl (.inl ⟨a, rfl⟩))
omit [IsStrictOrderedRing K] in
lemma Shows.cb {m : Fin n → FMem K} {G : Fields K} (h : Shows Z m G) (a : Fin 3) : Holds Z.D Z.F m G (.cb a) :=
  h _ (.inl (.inr (.inl ⟨a, rfl⟩)))
omit [IsStrictOrderedRing K] in
lemma Shows.tca {m : Fin n → FMem K} {G : Fields K} (h : Shows Z m G) (a : Fin 3) : Holds Z.D Z.F m G (.tca a) :=
  h _ (.inl (.inr (.inr ⟨a, rfl⟩)))
omit [IsStrictOrderedRing K] in
lemma Shows.rhob {m : Fin n → FMem K} {G : Fields K} (h : Shows Z m G) : Holds Z.D Z.F m G .rhob := h _ (.inr rfl)

omit [IsStrictOrderedRing K] in
lemma Shows.mk {m : Fin n → FMem K} {G : Fields K} (he : ∀ a, Holds Z.D Z.F m G (.e a)) (hc : ∀ a, Holds Z.D Z.F m G (.cb a))
    (ht : ∀ a, Holds Z.D Z.F m G (.tca a)) (hr : Holds Z.D Z.F m G .rhob) : Shows Z m G := by
  rintro k ((⟨a, rfl⟩ | ⟨a, rfl⟩ | ⟨a, rfl⟩) | rfl)
  · exact he a
  · exact hc a
  · exact ht a
  · exact hr

/-- What a run needs of a setup: a periodic box, the same constants and material everywhere. -/
structure Cut {n : ℕ} (Z : Setup K S n) (V : Drive K) : Prop where
  whole : Whole Z
  fits : Z.Fits
  sane : Sane Z V
  volume : ∃ v, v ≠ 0 ∧ ∀ r, (Z.F r).dV = v

variable {V : Drive K} (hZ : Cut Z V)
include hZ

/-- The cleaning loop of E. -/
lemma roundsE_global {rt : K → K} {N i : ℤ} {m m' : Fin n → FMem K} {l : List (Msg K)} (h : RoundsE Z rt N i m m' l) {G : Fields K}
    (hG : Shows Z m G) (hf : Holds Z.D Z.F m G .rhof) :
    Shows Z m' (roundsE (universeOf Z q) rt N (N - i).toNat i G).1 ∧ l = (roundsE (universeOf Z q) rt N (N - i).toNat i G).2 := by
  obtain ⟨v, hv, hV⟩ := hZ.volume
  have one : ∀ {m m1 m2 : Fin n → FMem K} {G : Fields K}, Shows Z m G → Holds Z.D Z.F m G .rhof → RanksDivE Z.F m m1 → RanksCleanE Z m1 m2 →
      (∀ {err}, RmsE Z rt m1 err → err = rmsOf rt (universeOf Z q) (gaussErr (Torus.sizeOf Z.D) Z.C Z.M G)) ∧
      Shows Z m2 (setE (marderEOf (Torus.sizeOf Z.D) Z.C Z.M (gaussErr (Torus.sizeOf Z.D) Z.C Z.M G) G) G) ∧
      Holds Z.D Z.F m2 (setE (marderEOf (Torus.sizeOf Z.D) Z.C Z.M (gaussErr (Torus.sizeOf Z.D) Z.C Z.M G) G) G) .rhof := by
    intro m m1 m2 G hG hf h1 h2
    have d := fun r c hc => compute_div_e_global hZ.fits.box.ok Z.t0 hZ.fits.box.grid hZ.fits.box.cells hZ.fits.resolved
      hZ.fits.consts hZ.fits.made hG.e hf hG.rhob h1 r c hc
    obtain ⟨f1, f2⟩ := div_e_frame hZ.fits h1
    obtain ⟨c1, c2⟩ := clean_e_global hZ.fits h2 (G := G) (fun a => f1 G a (hG.e a)) d
    have fr : ∀ k, (∀ a, k ≠ .e a) → k ≠ .divE → ∀ r v, m2 r (v, k) = m r (v, k) := fun k k1 k2 r v => by
      rw [c2 r _ k1, f2 r _ k2 k1]
    refine ⟨fun he => rms_e_global hZ.fits hv hV he d, Shows.mk (fun a => c1 a) (fun a => ?_) (fun a => ?_) ?_, ?_⟩
    · exact holds_move (hG.cb a) (fr _ (by simp) (by simp)) fun _ => rfl
    · exact holds_move (hG.tca a) (fr _ (by simp) (by simp)) fun _ => rfl
    · exact holds_move hG.rhob (fr _ (by simp) (by simp)) fun _ => rfl
    · exact holds_move hf (fr _ (by simp) (by simp)) fun _ => rfl
  induction h generalizing G with
  | @done i m hi =>
    have : (N - i).toNat = 0 := by omega
    rw [this]
    exact ⟨hG, rfl⟩
  | @loud i m m1 m2 m' err l hi h1 hl h3 h4 _ ih =>
    obtain ⟨o1, o2, o3⟩ := one hG hf h1 h4
    have e : (N - i).toNat = (N - (i + 1)).toNat + 1 := by omega
    obtain ⟨j1, j2⟩ := ih o2 o3
    rw [e]
    refine ⟨j1, ?_⟩
    show _ = (if i = 0 ∨ i = N - 1 then _ else _) ++ _
    rw [if_pos hl, o1 h3, j2]
    rfl
  | @quiet i m m1 m2 m' l hi h1 hl h4 _ ih =>
    obtain ⟨o1, o2, o3⟩ := one hG hf h1 h4
    have e : (N - i).toNat = (N - (i + 1)).toNat + 1 := by omega
    obtain ⟨j1, j2⟩ := ih o2 o3
    rw [e]
    refine ⟨j1, ?_⟩
    show _ = (if i = 0 ∨ i = N - 1 then _ else _) ++ _
    rw [if_neg hl, j2]
    rfl

/-- The cleaning loop of B. -/
lemma roundsB_global' {rt : K → K} {N i : ℤ} {m m' : Fin n → FMem K} {l : List (Msg K)} (h : RoundsB Z rt N i m m' l) {G : Fields K}
    (hG : Shows Z m G) :
    Shows Z m' (roundsB (universeOf Z q) rt N (N - i).toNat i G).1 ∧ l = (roundsB (universeOf Z q) rt N (N - i).toNat i G).2 := by
  obtain ⟨v, hv, hV⟩ := hZ.volume
  have one : ∀ {m m1 m2 : Fin n → FMem K} {G : Fields K}, Shows Z m G → RanksDivB Z m m1 → RanksCleanB Z m1 m2 →
      (∀ {err}, RmsB Z rt m1 err → err = rmsOf rt (universeOf Z q) (divBAt (Torus.sizeOf Z.D) Z.C G)) ∧
      Shows Z m2 (setB (marderBOf (Torus.sizeOf Z.D) Z.C G) G) := by
    intro m m1 m2 G hG h1 h2
    have d := (div_b_global hZ.fits h1).2 G hG.cb
    obtain ⟨c1, c2⟩ := clean_b_global hZ.fits h1 h2 (G := G) hG.cb
    refine ⟨fun he => rms_b_global hZ.fits hv hV he d, Shows.mk (fun a => ?_) (fun a => c1 a) (fun a => ?_) ?_⟩
    · exact holds_move (hG.e a) (fun r v => c2 r _ (by simp) (by simp)) fun _ => rfl
    · exact holds_move (hG.tca a) (fun r v => c2 r _ (by simp) (by simp)) fun _ => rfl
    · exact holds_move hG.rhob (fun r v => c2 r _ (by simp) (by simp)) fun _ => rfl
  induction h generalizing G with
  | @done i m hi =>
    have : (N - i).toNat = 0 := by omega
    rw [this]
    exact ⟨hG, rfl⟩
  | @loud i m m1 m2 m' err l hi h1 hl h3 h4 _ ih =>
    obtain ⟨o1, o2⟩ := one hG h1 h4
    have e : (N - i).toNat = (N - (i + 1)).toNat + 1 := by omega
    obtain ⟨j1, j2⟩ := ih o2
    rw [e]
    refine ⟨j1, ?_⟩
    show _ = (if i = 0 ∨ i = N - 1 then _ else _) ++ _
    rw [if_pos hl, o1 h3, j2]
    rfl
  | @quiet i m m1 m2 m' l hi h1 hl h4 _ ih =>
    obtain ⟨o1, o2⟩ := one hG h1 h4
    have e : (N - i).toNat = (N - (i + 1)).toNat + 1 := by omega
    obtain ⟨j1, j2⟩ := ih o2
    rw [e]
    refine ⟨j1, ?_⟩
    show _ = (if i = 0 ∨ i = N - 1 then _ else _) ++ _
    rw [if_neg hl, j2]
    rfl

/-- The fields over one step. -/
lemma fields_global {A : Settings} {step : ℤ} {R' : Fin n → Rank K S} {m m1 m2 m3 m4 m5 m6 m7 : Fin n → FMem K}
    {l1 l2 l3 : List (Msg K)} {G : Fields K} (hG : Shows Z m G) (ht : ∀ r, Tidy (Z.F r).g (R' r).a)
    (hw : ∀ r, ∀ id < Z.nsp, ∀ p ∈ live ((R' r).sp id).p ((R' r).sp id).np, Within (Z.F r).g p)
    (hq : ∀ r, ∀ id < Z.nsp, ((R' r).sp id).q = q id)
    (h1 : CurrentPhase Z.F Z.Rd Z.P Z.sc (fun r => (R' r).a) m m1) (h2 : RanksB Z.F (1 / 2) m1 m2) (h3 : RanksE Z.F m2 m3)
    (h4 : RanksB Z.F (1 / 2) m3 m4) (h5 : PartE Z V.rt A step R' m4 m5 l1) (h6 : PartB Z V.rt A step m5 m6 l2)
    (h7 : PartSync Z A step m6 m7 l3) :
    let y := fieldStep (universeOf Z q) V.rt A step (current (Torus.sizeOf Z.D) Z.sc (∑ r, spread Z.D r (Z.F r).g (R' r).a))
      (density (universeOf Z q) (gather Z.D Z.B R')) G
    Shows Z m7 y.1 ∧ l1 ++ l2 ++ l3 = y.2 := by
  classical
  have hb := hZ.fits.box
  obtain ⟨c1, c2⟩ := current_global hb.ok Z.t0 hb.grid hb.cells hZ.fits.rounding hZ.fits.threads.1 hZ.fits.threads.2 ht h1
  set J := current (Torus.sizeOf Z.D) Z.sc (∑ r, spread Z.D r (Z.F r).g (R' r).a) with hJ
  have u1 : ∀ k, Used k → Holds Z.D Z.F m1 (setJ J G) k := by
    rintro k (⟨a, rfl⟩ | ⟨a, rfl⟩ | ⟨a, rfl⟩ | ⟨a, rfl⟩)
    · exact holds_move (hG.e a) (fun r v => c2 r _ (by simp)) fun _ => rfl
    · exact holds_move (hG.cb a) (fun r v => c2 r _ (by simp)) fun _ => rfl
    · exact holds_move (hG.tca a) (fun r v => c2 r _ (by simp)) fun _ => rfl
    · exact c1 G a
  have og := fun o {m m'} {G : Fields K} => op_global hb.ok Z.t0 hb.grid hb.cells hZ.fits.resolved hZ.fits.consts hZ.fits.made o
    (m := m) (m' := m') (G := G)
  have u2 := og (.b (1 / 2)) u1 h2
  have u3 := og .e u2 h3
  have u4 := og (.b (1 / 2)) u3 h4
  have fB := fun {m m' : Fin n → FMem K} {G : Fields K} (he : ∀ a, Holds Z.D Z.F m G (.e a)) (hb' : ∀ a, Holds Z.D Z.F m G (.cb a))
    (h : RanksB Z.F (1 / 2) m m') => (advance_b_global hb.ok Z.t0 hb.grid hb.cells hZ.fits.resolved hZ.fits.consts he hb' h).2
  have r4 : Holds Z.D Z.F m4 (stepped (Torus.sizeOf Z.D) Z.C Z.M (setJ J G)) .rhob := by
    refine holds_move hG.rhob (fun r v => ?_) fun _ => rfl
    rw [fB (fun a => u3 _ (.inl ⟨a, rfl⟩)) (fun a => u3 _ (.inr (.inl ⟨a, rfl⟩))) h4 _ (by simp),
      (advance_e_global hb.ok Z.t0 hb.grid hb.cells hZ.fits.resolved hZ.fits.consts hZ.fits.made u2 h3).2 _ (by simp [Used]),
      fB (fun a => u1 _ (.inl ⟨a, rfl⟩)) (fun a => u1 _ (.inr (.inl ⟨a, rfl⟩))) h2 _ (by simp), c2 r _ (by simp)]
  have s4 : Shows Z m4 (stepped (Torus.sizeOf Z.D) Z.C Z.M (setJ J G)) := Shows.mk (fun a => u4 _ (.inl ⟨a, rfl⟩))
    (fun a => u4 _ (.inr (.inl ⟨a, rfl⟩))) (fun a => u4 _ (.inr (.inr (.inl ⟨a, rfl⟩)))) r4
  unfold fieldStep
  intro y
  have s5 : ∀ x, x = (if due A.clean_div_e_interval step then roundsE (universeOf Z q) V.rt A.num_div_e_round A.num_div_e_round.toNat 0
      (setRho (density (universeOf Z q) (gather Z.D Z.B R')) (stepped (Torus.sizeOf Z.D) Z.C Z.M (setJ J G)))
      else (stepped (Torus.sizeOf Z.D) Z.C Z.M (setJ J G), [])) → Shows Z m5 x.1 ∧ l1 = x.2 := by
    rintro x rfl
    rcases h5 with ⟨hd, mm, g1, g2⟩ | ⟨hd, rfl, rfl⟩
    · obtain ⟨k1, k2, k3⟩ := measure_holds hb.ok Z.t0 hb.grid hb.cells hw g1 s4.rhob
      rw [if_pos hd]
      have := roundsE_global (q := q) hZ g2 (G := setRho (density (universeOf Z q) (gather Z.D Z.B R'))
        (stepped (Torus.sizeOf Z.D) Z.C Z.M (setJ J G))) (Shows.mk (fun a => ?_) (fun a => ?_) (fun a => ?_) ?_) ?_
      · simpa using this
      · exact holds_move (s4.e a) (fun r v => k3 r _ (by simp) (by simp)) fun _ => rfl
      · exact holds_move (s4.cb a) (fun r v => k3 r _ (by simp) (by simp)) fun _ => rfl
      · exact holds_move (s4.tca a) (fun r v => k3 r _ (by simp) (by simp)) fun _ => rfl
      · exact holds_move k2 (fun _ _ => rfl) fun _ => rfl
      · intro r c hc
        rw [k1 r c (Field.entOn_node.1.mp hc), rho_global hZ.fits hq hw]
        rfl
    · rw [if_neg hd]
      exact ⟨s4, rfl⟩
  have key : ∀ x y, x = (if due A.clean_div_e_interval step then roundsE (universeOf Z q) V.rt A.num_div_e_round A.num_div_e_round.toNat 0
      (setRho (density (universeOf Z q) (gather Z.D Z.B R')) (stepped (Torus.sizeOf Z.D) Z.C Z.M (setJ J G)))
      else (stepped (Torus.sizeOf Z.D) Z.C Z.M (setJ J G), [])) →
      y = (if due A.clean_div_b_interval step then roundsB (universeOf Z q) V.rt A.num_div_b_round A.num_div_b_round.toNat 0 x.1
        else (x.1, [])) →
      Shows Z m7 y.1 ∧ l1 ++ l2 ++ l3 = x.2 ++ y.2 ++ if due A.sync_shared_interval step then [.sync 0] else [] := by
    intro x y hx hy
    obtain ⟨s5, e5⟩ := s5 x hx
    have s6 : Shows Z m6 y.1 ∧ l2 = y.2 := by
      rw [hy]
      rcases h6 with ⟨hd, g⟩ | ⟨hd, rfl, rfl⟩
      · rw [if_pos hd]
        simpa using roundsB_global' (q := q) hZ g s5
      · rw [if_neg hd]
        exact ⟨s5, rfl⟩
    rw [e5, s6.2]
    rcases h7 with ⟨hd, err, g, rfl⟩ | ⟨hd, rfl, rfl⟩
    · obtain ⟨z, s7, f7⟩ := sync_keeps hb.ok Z.t0 hb.grid hb.cells g (G := y.1) (fun k hk => s6.1 k (.inl hk))
      rw [if_pos hd, z]
      refine ⟨?_, rfl⟩
      rintro k (hk | rfl)
      · exact s7 k hk
      · exact holds_move s6.1.rhob (fun r v => f7 r _ (by simp [Shared])) fun _ => rfl
    · rw [if_neg hd]
      exact ⟨s6.1, rfl⟩
  exact key _ _ rfl rfl

omit hZ in
lemma within_of_fit {V : Drive K} (hZ : Cut Z V) {μ : Machine K S n} (hμ : Fit Z μ) :
    ∀ r, ∀ id < Z.nsp, ∀ p ∈ live ((μ.R r).sp id).p ((μ.R r).sp id).np, Within (Z.F r).g p := fun r id hid => by
  rw [← hZ.sane.grid r]
  exact settled_live (hμ.particles r id (by rw [hZ.whole.nsp r]; exact hid))

/-- Spec: the ranks hold the box `x`: particles, charges and fields. -/
structure Holding {n : ℕ} (Z : Setup K S n) (q : ℕ → K) (μ : Machine K S n) (x : Box K) : Prop where
  parts : ∀ id < Z.nsp, gather Z.D Z.B μ.R id = x.parts id
  charges : ∀ r, ∀ id < Z.nsp, ((μ.R r).sp id).q = q id
  fields : Shows Z μ.m x.f

omit hZ in
lemma density_congr (U : Universe K) {P P' : ℕ → Multiset (GPart K)} (h : ∀ id < U.nsp, P id = P' id) : density U P = density U P' := by
  funext s
  exact Finset.sum_congr rfl fun id hid => by rw [h id (Finset.mem_range.mp hid)]

lemma interpolates {m : Fin n → FMem K} {fi : Fin n → ℤ → Boris.Interp K} {μ' : Machine K S n} (h : LoadAll Z m fi μ'.fi) {G : Fields K}
    (hG : Shows Z m G) : Interpolates Z μ' (interpOf (Torus.sizeOf Z.D) G) := by
  intro r c hc
  rw [hZ.sane.grid r]
  refine load_global hZ.fits h hG.e hG.cb r ![c.x, c.y, c.z] ?_
  have := Charge.dims_cells hZ.fits.box.ok Z.t0 hZ.fits.box.grid r
  intro a
  rw [this]
  obtain ⟨b1, b2, b3, b4, b5, b6⟩ := hc
  fin_cases a
  · exact ⟨b1, b2⟩
  · exact ⟨b3, b4⟩
  · exact ⟨b5, b6⟩

/-- One call of `advance` on the ranks is one in the box. -/
lemma cycle_global [Archimedean K] {A : Settings} {step : ℤ} {μ μ' : Machine K S n} {l : List (Msg K)} (h : Cycle Z V A step μ μ' l) (hμ : Fit Z μ)
    {x : Box K} (hx : Holding Z q μ x) (hfi : Interpolates Z μ (interpOf (Torus.sizeOf Z.D) x.f)) :
    ∃ x', BoxCycle (universeOf Z q) V A step x x' l ∧ Holding Z q μ' x' ∧ Interpolates Z μ' (interpOf (Torus.sizeOf Z.D) x'.f) ∧
      Fit Z μ' := by
  classical
  obtain ⟨p1, p2, p3, p4, p5⟩ := moved_box hZ.whole.box hZ.sane hZ.whole.rounds hZ.whole.nsp hμ hfi hx.charges h.moved
  obtain ⟨k1, k2⟩ := moved_keeps hZ.sane hμ h.moved μ'.m μ'.fi
  have hfit : Fit Z μ' := k1
  obtain ⟨m1, m2, m3, m4, m5, m6, l1, l2, l3, h1, h2, h3, h4, h5, h6, h7, h8, rfl⟩ := h.run
  have e0 : (fun r => withRhob (μ.m r) (μ'.R r).rhob) = μ.m := by
    funext r ⟨v, k⟩
    cases k <;> first | rfl | exact p5 r v
  rw [e0] at h1
  obtain ⟨y1, y2⟩ := fields_global (q := q) hZ hx.fields (fun r => by rw [← hZ.sane.grid r]; exact k2 r) (within_of_fit hZ hfit)
    (fun r id hid => (p4 r id hid).1) h1 h2 h3 h4 h5 h6 h7
  have eJ : (∑ r, spread Z.D r (Z.F r).g (μ'.R r).a) = ∑ id ∈ Finset.range Z.nsp, ((x.parts id).map fun p =>
      (adv (Torus.sizeOf Z.D) (interpOf (Torus.sizeOf Z.D) x.f) (lawAt V q id) p).2).sum := by
    have : (∑ r, spread Z.D r (Z.F r).g (μ'.R r).a) = ∑ r, spread Z.D r (Z.B r).g (μ'.R r).a :=
      Finset.sum_congr rfl fun r _ => by rw [hZ.sane.grid r]
    rw [this, p3]
    exact Finset.sum_congr rfl fun id hid => by rw [hx.parts id (Finset.mem_range.mp hid)]; rfl
  rw [eJ] at y1 y2
  have eP : ∀ id < Z.nsp, gather Z.D Z.B μ'.R id = (x.parts id).map fun p =>
      (adv (Torus.sizeOf Z.D) (interpOf (Torus.sizeOf Z.D) x.f) (lawAt V q id) p).1 := fun id hid => by
    rw [p2 id hid, hx.parts id hid]; rfl
  let parts' : ℕ → Multiset (GPart K) := fun id => if id < Z.nsp then (x.parts id).map fun p =>
      (adv (Torus.sizeOf Z.D) (interpOf (Torus.sizeOf Z.D) x.f) (lawAt V q id) p).1 else x.parts id
  have eD : density (universeOf Z q) (gather Z.D Z.B μ'.R) = density (universeOf Z q) parts' :=
    density_congr _ fun id hid => by
      have hid : id < Z.nsp := hid
      show _ = if id < Z.nsp then _ else _
      rw [if_pos hid, eP id hid]
  rw [eD] at y1 y2
  refine ⟨⟨parts', _⟩, ⟨h.go, fun id => adv (Torus.sizeOf Z.D) (interpOf (Torus.sizeOf Z.D) x.f) (lawAt V q id), ?_, ?_, ?_⟩,
    ⟨?_, fun r id hid => (p4 r id hid).1, y1⟩, interpolates hZ h8 y1, hfit⟩
  · intro id hid p hp
    exact p1 id hid p (by rw [hx.parts id hid]; exact hp)
  · intro id; rfl
  · rw [y2]; rfl
  · intro id hid
    show _ = if id < Z.nsp then _ else _
    rw [if_pos hid, eP id hid]

/-- The particles after `uncenter_p`. -/
lemma uncenter_global {R R' : Fin n → Rank K S} {fi : Fin n → ℤ → Boris.Interp K} {id : ℕ} {G : Fields K}
    (hw : ∀ r, ∀ p ∈ live ((R r).sp id).p ((R r).sp id).np, Within (Z.F r).g p)
    (hfi : ∀ r c, CellOn (Z.F r).g c → fi r (vox (Z.F r).g c) = interpOf (Torus.sizeOf Z.D) G (siteAt Z.D r c))
    (h31 : ∀ r, ((R r).sp id).np < 2 ^ 31)
    (h : ∀ r, ∃ p', Boris.UncenterP V.rt (V.qdt_2mc id) (fi r) Z.Rd ((R r).sp id).np Z.P ((R r).sp id).p p' ∧
      (R' r).sp id = { (R r).sp id with p := p' }) :
    gather Z.D Z.B R' id = (gather Z.D Z.B R id).map (uncenter (Torus.sizeOf Z.D) G (lawAt V q id)) := by
  unfold gather
  rw [← Multiset.mapAddMonoidHom_apply, map_sum]
  refine Finset.sum_congr rfl fun r _ => ?_
  obtain ⟨p', h1, h2⟩ := h r
  have u := Boris.updates_each_once Z.Rd hZ.fits.rounding _ Z.P (h31 r) hZ.fits.threads.1 hZ.fits.threads.2 _ _ _ h1
  have e : live ((R' r).sp id).p ((R' r).sp id).np = (live ((R r).sp id).p ((R r).sp id).np).map
      (Boris.uncenterPart V.rt (V.qdt_2mc id) (fi r)) := by
    rw [h2]
    unfold Boundary.live
    rw [List.map_map]
    refine List.map_congr_left fun i hi => ?_
    obtain ⟨j, hj, rfl⟩ := List.mem_map.mp hi
    have : j < ((R r).sp id).np := List.mem_range.mp hj
    show p' _ = _
    rw [u, if_pos ⟨by omega, by omega⟩]
    rfl
  rw [e, Multiset.mapAddMonoidHom_apply, Multiset.map_map, ← Multiset.map_coe, Multiset.map_map]
  refine Multiset.map_congr rfl fun p hp => ?_
  obtain ⟨⟨c, hc, hi⟩, -⟩ := hw r p (by simpa using hp)
  have hm := grid_mesh hZ.fits.box.ok Z.t0 (G := fun r => (Z.F r).g) hZ.fits.box.grid r
  have e1 : posOf (Z.F r).g p.i = ![c.x, c.y, c.z] := by
    obtain ⟨b1, b2, b3, b4, b5, b6⟩ := hc
    rw [hi]
    exact posOf_voxel hm (x := c.x) (y := c.y) (z := c.z) ⟨by omega, by omega⟩ ⟨by omega, by omega⟩
  have e2 : fi r p.i = interpOf (Torus.sizeOf Z.D) G (siteAt Z.D r (posOf (Z.F r).g p.i)) := by
    rw [e1, hi]
    refine hfi r ![c.x, c.y, c.z] fun a => ?_
    obtain ⟨b1, b2, b3, b4, b5, b6⟩ := hc
    fin_cases a
    · exact ⟨b1, b2⟩
    · exact ⟨b3, b4⟩
    · exact ⟨b5, b6⟩
  show lift Z.D r (Z.B r).g (Boris.uncenterPart V.rt (V.qdt_2mc id) (fi r) p) = uncenter _ G (lawAt V q id) (lift Z.D r (Z.B r).g p)
  unfold lift uncenter Boris.uncenterPart
  rw [hZ.sane.grid r]
  simp only [e2]
  rfl

/-- `initialize` on the ranks is the one of the box. -/
lemma begin_global {μ μ' : Machine K S n} {l : List (Msg K)} (h : Begin Z V μ μ' l) (hμ : Fit Z μ) {x : Box K} (hx : Holding Z q μ x) :
    l = (boxBegin (universeOf Z q) V x).2 ∧ Holding Z q μ' (boxBegin (universeOf Z q) V x).1 ∧
      Interpolates Z μ' (interpOf (Torus.sizeOf Z.D) (boxBegin (universeOf Z q) V x).1.f) ∧ Fit Z μ' := by
  have hb := hZ.fits.box
  obtain ⟨v, hv, hV⟩ := hZ.volume
  obtain ⟨m1, m2, m3, m4, m5, m6, m7, m8, e1, e2, e3, e4, i1, i2, i3, i4, i5, i6, i7, i8, i9, i10, i11, i12, rfl⟩ := h.run
  obtain ⟨z1, g1, f1⟩ := sync_keeps hb.ok Z.t0 hb.grid hb.cells i1 (G := x.f) (fun k hk => hx.fields k (.inl hk))
  have s1 : Shows Z m1 x.f := by
    rintro k (hk | rfl)
    · exact g1 k hk
    · exact holds_move hx.fields.rhob (fun r v => f1 r _ (by simp [Shared])) fun _ => rfl
  have z2 := rms_b_global hZ.fits hv hV i3 ((div_b_global hZ.fits i2).2 x.f s1.cb)
  obtain ⟨g3, f3⟩ := clean_b_global hZ.fits i2 i4 (G := x.f) s1.cb
  have s3 : Shows Z m3 (setB (marderBOf (Torus.sizeOf Z.D) Z.C x.f) x.f) := Shows.mk
    (fun a => holds_move (s1.e a) (fun r v => f3 r _ (by simp) (by simp)) fun _ => rfl) g3
    (fun a => holds_move (s1.tca a) (fun r v => f3 r _ (by simp) (by simp)) fun _ => rfl)
    (holds_move s1.rhob (fun r v => f3 r _ (by simp) (by simp)) fun _ => rfl)
  set G1 := setB (marderBOf (Torus.sizeOf Z.D) Z.C x.f) x.f with hG1
  obtain ⟨t4, b4, e4', f4⟩ := curl_b_global hZ.fits i5 (G := G1) s3.cb
  have s4 : Shows Z m4 (setT (fun a s => Z.C.cvac * Z.C.dt * curlH (Torus.sizeOf Z.D) Z.C Z.M G1 a s) G1) := Shows.mk
    (fun a => holds_move (e4' a (s3.e a)) (fun _ _ => rfl) fun _ => rfl) (fun a => holds_move (b4 a) (fun _ _ => rfl) fun _ => rfl)
    t4 (holds_move s3.rhob (fun r v => f4 r _ (by simp)) fun _ => rfl)
  set G2 := setT (fun a s => Z.C.cvac * Z.C.dt * curlH (Torus.sizeOf Z.D) Z.C Z.M G1 a s) G1 with hG2
  have hw := within_of_fit hZ hμ
  obtain ⟨r5, b5, f5⟩ := measure_holds hb.ok Z.t0 hb.grid hb.cells hw i6 s4.rhob
  set ρ := density (universeOf Z q) x.parts with hρ
  have rf5 : Holds Z.D Z.F m5 (setRho ρ G2) .rhof := by
    intro r c hc
    rw [r5 r c (Field.entOn_node.1.mp hc), rho_global hZ.fits hx.charges hw]
    exact Finset.sum_congr rfl fun id hid => by rw [hx.parts id (Finset.mem_range.mp hid)]; rfl
  have s5 : Shows Z m5 (setRho ρ G2) := Shows.mk
    (fun a => holds_move (s4.e a) (fun r v => f5 r _ (by simp) (by simp)) fun _ => rfl)
    (fun a => holds_move (s4.cb a) (fun r v => f5 r _ (by simp) (by simp)) fun _ => rfl)
    (fun a => holds_move (s4.tca a) (fun r v => f5 r _ (by simp) (by simp)) fun _ => rfl)
    (holds_move b5 (fun _ _ => rfl) fun _ => rfl)
  set G3 := setRho ρ G2 with hG3
  obtain ⟨b6, e6, f6⟩ := rhob_global hZ.fits i7 (G := G3) s5.e rf5
  have s6 : Shows Z m6 (setRhob (boundCharge (universeOf Z q) G3) G3) := Shows.mk
    (fun a => holds_move (e6 a) (fun _ _ => rfl) fun _ => rfl)
    (fun a => holds_move (s5.cb a) (fun r v => f6 r _ (by simp) (by simp)) fun _ => rfl)
    (fun a => holds_move (s5.tca a) (fun r v => f6 r _ (by simp) (by simp)) fun _ => rfl) b6
  have rf6 : Holds Z.D Z.F m6 (setRhob (boundCharge (universeOf Z q) G3) G3) .rhof :=
    holds_move rf5 (fun r v => f6 r _ (by simp) (by simp)) fun _ => rfl
  set G4 := setRhob (boundCharge (universeOf Z q) G3) G3 with hG4
  have d7 := fun r c hc => compute_div_e_global hb.ok Z.t0 hb.grid hb.cells hZ.fits.resolved hZ.fits.consts hZ.fits.made
    (G := G4) s6.e rf6 s6.rhob i8 r c hc
  have z3 := rms_e_global hZ.fits hv hV i9 d7
  obtain ⟨e7, f7⟩ := div_e_frame hZ.fits i8
  obtain ⟨e8, f8⟩ := clean_e_global hZ.fits i10 (G := G4) (fun a => e7 G4 a (s6.e a)) d7
  have fr : ∀ k, (∀ a, k ≠ .e a) → k ≠ .divE → ∀ r v, m8 r (v, k) = m6 r (v, k) := fun k k1 k2 r v => by
    rw [f8 r _ k1, f7 r _ k2 k1]
  set G5 := setE (marderEOf (Torus.sizeOf Z.D) Z.C Z.M (gaussErr (Torus.sizeOf Z.D) Z.C Z.M G4) G4) G4 with hG5
  have s8 : Shows Z m8 G5 := Shows.mk e8
    (fun a => holds_move (s6.cb a) (fr _ (by simp) (by simp)) fun _ => rfl)
    (fun a => holds_move (s6.tca a) (fr _ (by simp) (by simp)) fun _ => rfl)
    (holds_move s6.rhob (fr _ (by simp) (by simp)) fun _ => rfl)
  obtain ⟨z4, g9, f9⟩ := sync_keeps hb.ok Z.t0 hb.grid hb.cells i11 (G := G5) (fun k hk => s8 k (.inl hk))
  have s9 : Shows Z μ'.m G5 := by
    rintro k (hk | rfl)
    · exact g9 k hk
    · exact holds_move s8.rhob (fun r v => f9 r _ (by simp [Shared])) fun _ => rfl
  have hfit := begin_fit hZ.sane hμ h
  refine ⟨?_, ⟨fun id hid => ?_, fun r id hid => ?_, s9⟩, interpolates hZ i12 s9, hfit⟩
  · rw [z1, z2, z3, z4]
    rfl
  · show _ = if id < Z.nsp then _ else _
    rw [if_pos hid, ← hx.parts id hid]
    refine uncenter_global hZ (fi := μ'.fi) (fun r => hw r id hid) (load_global hZ.fits i12 s9.e s9.cb)
      (fun r => (hμ.particles r id (by rw [hZ.whole.nsp r]; exact hid)).np31) fun r => ?_
    obtain ⟨sp', a1, a2⟩ := h.ranks r
    obtain ⟨p', u1, u2⟩ := (a2 id).1 (by rw [hZ.whole.nsp r]; exact hid)
    exact ⟨p', u1, by rw [a1]; exact u2⟩
  · obtain ⟨sp', a1, a2⟩ := h.ranks r
    obtain ⟨p', u1, u2⟩ := (a2 id).1 (by rw [hZ.whole.nsp r]; exact hid)
    rw [a1]
    show (sp' id).q = _
    rw [u2]
    exact hx.charges r id hid

end

end Verif.Global
