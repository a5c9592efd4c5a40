import Verif.Global.ShiftProps
import Mathlib.Data.Finsupp.Basic
import Mathlib.LinearAlgebra.Finsupp.LinearCombination

/-!
# Particles as sources (lemmas for C103)
-/
namespace Verif.Global

open Grid MoveP Charge Torus Threads
open Field (Pos FC)
open SfInterface (Scales unloadC)

variable {K : Type} [Field K]

/-- Where a particle is and how fast: all of it but its weight. -/
abbrev Spot (K : Type) := Pos × (Fin 3 → K) × (Fin 3 → K)

/-- The spot of a particle. -/
def GPart.spot (p : GPart K) : Spot K := (p.cell, p.d, p.u)

/-- The charge at each spot, by charge to mass ratio: the total over all species and particles. -/
noncomputable def charges (nsp : ℕ) (q qdt : ℕ → K) (parts : ℕ → Multiset (GPart K)) : K × Spot K →₀ K :=
  ∑ id ∈ Finset.range nsp, ((parts id).map fun p => Finsupp.single (qdt id, p.spot) (q id * p.w)).sum

lemma accumulateJ_mul (c q d a b v : K) : accumulateJ (c * q) d a b (c * v) =
    (c * (accumulateJ q d a b v).1, c * (accumulateJ q d a b v).2.1, c * (accumulateJ q d a b v).2.2.1, c * (accumulateJ q d a b v).2.2.2) := by
  unfold accumulateJ
  simp only [Prod.mk.injEq]
  refine ⟨?_, ?_, ?_, ?_⟩ <;> ring

lemma streakJ_mul (c : K) (mid disp : Fin 3 → K) : streakJ c mid disp = c • streakJ 1 mid disp := by
  have h := fun d a b v => accumulateJ_mul c (1 : K) d a b v
  unfold streakJ
  simp only
  rw [show c * disp 0 * disp 1 * disp 2 * (1 / 3) = c * (1 * disp 0 * disp 1 * disp 2 * (1 / 3)) by ring]
  simp only [mul_one] at h
  simp only [h]
  funext k
  fin_cases k <;> rfl

lemma inCellJ_mul (c : K) (mid disp : Fin 3 → K) : AdvanceP.inCellJ c mid disp = c • streakJ 1 mid disp := by
  rw [← streakJ_mul]; rfl

lemma put_smul (c : K) (s : Pos) (j : Fin 12 → K) : put s (c • j) = c • put s j := by
  funext t k
  show (if t = s then c * j k else 0) = c * (if t = s then j k else 0)
  split_ifs <;> ring

variable [LinearOrder K]

/-- The walk does not depend on the weight, and the current is proportional to the charge. -/
lemma walk_charge {N : Pos} (c : K) (fuel : ℕ) : ∀ (p : GPart K) (w : K) (disp : Fin 3 → K),
    walk N c fuel { p with w := w } disp = (walk N 1 fuel { p with w := 1 } disp).map fun x => ({ x.1 with w := w }, c • x.2) := by
  induction fuel with
  | zero => intro p w disp; rfl
  | succ fuel ih =>
    intro p w disp
    unfold walk
    rcases hst : (streakOf p.d disp).2.1 with _ | a
    · simp only [hst, Option.map_some, Option.some.injEq, Prod.mk.injEq]
      refine ⟨trivial, ?_⟩
      rw [streakJ_mul, put_smul]
    · simp only [hst]
      rw [ih ⟨beyond N a (decide (0 < disp a)) p.cell, Function.update (fun k => p.d k + ((streakOf p.d disp).2.2 k + (streakOf p.d disp).2.2 k)) a (-sdir (disp a)), p.u, w⟩ w,
        Option.map_map, Option.map_map]
      congr 1
      funext x
      simp only [Function.comp, Prod.mk.injEq, smul_add]
      refine ⟨trivial, ?_⟩
      rw [streakJ_mul, put_smul]

/-- Likewise for the push. -/
lemma push_charge {N : Pos} {fi : Pos → Boris.Interp K} (L : Law K) (fuel : ℕ) (p : GPart K) :
    push N fi L fuel p = (push N fi { L with q := 1 } fuel { p with w := 1 }).map fun x => ({ x.1 with w := p.w }, (L.q * p.w) • x.2) := by
  unfold push
  simp only
  split_ifs with hb
  · simp only [Option.map_some, Option.some.injEq, Prod.mk.injEq]
    refine ⟨trivial, ?_⟩
    rw [inCellJ_mul, put_smul, inCellJ_mul (1 * 1 : K), put_smul, one_mul, one_smul, mul_comm]
  · rw [one_mul]
    exact walk_charge (N := N) (L.q * p.w) fuel ⟨p.cell, p.d, Boris.pushU L.rt L.qdt_2mc (fi p.cell) p.d p.u, p.w⟩ p.w _

omit [LinearOrder K] in
lemma triWeights_mul (d : Fin 3 → K) (c : K) (k : Fin 8) : Deposit.triWeights d c k = c * Deposit.triWeights d 1 k := by
  unfold Deposit.triWeights
  fin_cases k <;> simp [Deposit.FMA, Deposit.FNMS] <;> ring

/-- A particle of weight one at a spot. -/
def unit (c : Spot K) : GPart K := ⟨c.1, c.2.1, c.2.2, 1⟩

omit [LinearOrder K] in
lemma share_charge (N : Pos) (q r : K) (p : GPart K) (s : Pos) : share N (q * r) p s = (q * p.w) * share N r (unit p.spot) s := by
  unfold share
  rw [Finset.mul_sum]
  refine Finset.sum_congr rfl fun k _ => ?_
  rw [triWeights_mul, triWeights_mul _ ((unit p.spot).w * r)]
  show _ = q * p.w * ((if corner N p.cell k = s then 1 else 0) * (1 * r * Deposit.triWeights p.d 1 k))
  ring

omit [LinearOrder K] in
/-- A sum over all particles of charge times a function of the spot depends on the charges only. -/
lemma sum_charges {M : Type*} [AddCommGroup M] [Module K M] (nsp : ℕ) (q qdt : ℕ → K) (parts : ℕ → Multiset (GPart K)) (H : K × Spot K → M) :
    ∑ id ∈ Finset.range nsp, ((parts id).map fun p => (q id * p.w) • H (qdt id, p.spot)).sum =
      Finsupp.linearCombination K H (charges nsp q qdt parts) := by
  unfold charges
  rw [map_sum]
  refine Finset.sum_congr rfl fun id _ => ?_
  rw [map_multiset_sum, Multiset.map_map]
  congr 1
  refine Multiset.map_congr rfl fun p _ => ?_
  simp only [Function.comp, Finsupp.linearCombination_single]

omit [LinearOrder K] in
/-- A motion of the spots moves the charges. -/
lemma charges_move (nsp : ℕ) (q qdt : ℕ → K) (parts : ℕ → Multiset (GPart K)) (mv : ℕ → GPart K → GPart K) (H : K × Spot K → K × Spot K)
    (h : ∀ id < nsp, ∀ p ∈ parts id, (mv id p).w = p.w ∧ H (qdt id, p.spot) = (qdt id, (mv id p).spot)) :
    charges nsp q qdt (fun id => if id < nsp then (parts id).map (mv id) else parts id) = Finsupp.mapDomain H (charges nsp q qdt parts) := by
  unfold charges
  rw [show ∀ x : K × Spot K →₀ K, Finsupp.mapDomain H x = Finsupp.mapDomain.addMonoidHom H x from fun _ => rfl, map_sum]
  refine Finset.sum_congr rfl fun id hid => ?_
  have hid : id < nsp := Finset.mem_range.mp hid
  rw [map_multiset_sum]
  simp only [if_pos hid]
  rw [Multiset.map_map, Multiset.map_map]
  congr 1
  refine Multiset.map_congr rfl fun p hp => ?_
  obtain ⟨h1, h2⟩ := h id hid p hp
  simp only [Function.comp, Finsupp.mapDomain.addMonoidHom_apply, Finsupp.mapDomain_single, h1, h2]

/-- Two boxes that differ in the particles only: same mesh, medium and factors. -/
structure SameWorld (U1 U2 : Universe K) (V1 V2 : Drive K) : Prop where
  N : U2.N = U1.N
  C : U2.C = U1.C
  M : U2.M = U1.M
  sc : U2.sc = U1.sc
  rt : V2.rt = V1.rt
  cdt_d : V2.cdt_d = V1.cdt_d

/-- The charges of a box. -/
noncomputable def Box.charges (U : Universe K) (V : Drive K) (x : Box K) : K × Spot K →₀ K := Global.charges U.nsp U.q V.qdt_2mc x.parts

/-- Same fields, same charges. -/
structure SameSources (U1 U2 : Universe K) (V1 V2 : Drive K) (x1 x2 : Box K) : Prop where
  f : x2.f = x1.f
  charges : x2.charges U2 V2 = x1.charges U1 V1

variable {U1 U2 : Universe K} {V1 V2 : Drive K}

omit [LinearOrder K] in
lemma density_charges (U : Universe K) (V : Drive K) (parts : ℕ → Multiset (GPart K)) (s : Pos) :
    density U parts s = Finsupp.linearCombination K (fun c : K × Spot K => share U.N U.sc.r8V (unit c.2) s) (charges U.nsp U.q V.qdt_2mc parts) := by
  rw [← sum_charges]
  unfold density
  refine Finset.sum_congr rfl fun id _ => ?_
  congr 1
  refine Multiset.map_congr rfl fun p _ => ?_
  rw [share_charge, smul_eq_mul]

omit [LinearOrder K] in
lemma density_same (h : SameWorld U1 U2 V1 V2) {p1 p2 : ℕ → Multiset (GPart K)}
    (hc : charges U2.nsp U2.q V2.qdt_2mc p2 = charges U1.nsp U1.q V1.qdt_2mc p1) : density U2 p2 = density U1 p1 := by
  funext s
  rw [density_charges U2 V2, density_charges U1 V1, hc, h.N, h.sc]

omit [LinearOrder K] in
lemma roundsE_world (h : SameWorld U1 U2 V1 V2) (rt : K → K) (R : ℤ) (k : ℕ) : ∀ (i : ℤ) (G : Fields K),
    roundsE U2 rt R k i G = roundsE U1 rt R k i G := by
  induction k with
  | zero => intro i G; rfl
  | succ k ih =>
    intro i G
    unfold roundsE
    simp only [ih, h.N, h.C, h.M, rmsOf]

omit [LinearOrder K] in
lemma roundsB_world (h : SameWorld U1 U2 V1 V2) (rt : K → K) (R : ℤ) (k : ℕ) : ∀ (i : ℤ) (G : Fields K),
    roundsB U2 rt R k i G = roundsB U1 rt R k i G := by
  induction k with
  | zero => intro i G; rfl
  | succ k ih =>
    intro i G
    unfold roundsB
    simp only [ih, h.N, h.C, rmsOf]

omit [LinearOrder K] in
lemma fieldStep_world (h : SameWorld U1 U2 V1 V2) (rt : K → K) (A : Settings) (step : ℤ) (J : Fin 3 → Pos → K) (ρ : Pos → K) (G : Fields K) :
    fieldStep U2 rt A step J ρ G = fieldStep U1 rt A step J ρ G := by
  unfold fieldStep
  simp only [roundsE_world h, roundsB_world h, h.N, h.C, h.M]

/-- Where a unit charge at a spot goes in one step, and what current it makes. -/
def fate (N : Pos) (fi : Pos → Boris.Interp K) (rt : K → K) (cdt_d : Fin 3 → K) (c : K × Spot K) : Option (GPart K × GAccum K) :=
  push N fi ⟨rt, c.1, cdt_d, 1⟩ 4 (unit c.2)

lemma push_fate {N : Pos} {fi : Pos → Boris.Interp K} {V : Drive K} {q : ℕ → K} {id : ℕ} {p : GPart K} {x : GPart K × GAccum K}
    (h : push N fi (lawAt V q id) 4 p = some x) :
    ∃ y, fate N fi V.rt V.cdt_d (V.qdt_2mc id, p.spot) = some y ∧ x.1 = { y.1 with w := p.w } ∧ x.2 = (q id * p.w) • y.2 := by
  rw [push_charge] at h
  obtain ⟨y, h1, rfl⟩ := Option.map_eq_some_iff.mp h
  exact ⟨y, h1, rfl, rfl⟩

/-- The spot after the step. -/
def destiny (N : Pos) (fi : Pos → Boris.Interp K) (rt : K → K) (cdt_d : Fin 3 → K) (c : K × Spot K) : K × Spot K :=
  match fate N fi rt cdt_d c with
  | some y => (c.1, y.1.spot)
  | none => c

/-- The current of a unit charge. -/
def stream (N : Pos) (fi : Pos → Boris.Interp K) (rt : K → K) (cdt_d : Fin 3 → K) (c : K × Spot K) : GAccum K :=
  match fate N fi rt cdt_d c with
  | some y => y.2
  | none => 0

/-- One step of a box: what it does to the charges and, by them, to the fields. -/
lemma boxCycle_charges {U : Universe K} {V : Drive K} {A : Settings} {step : ℤ} {x y : Box K} {l : List (Msg K)} (h : BoxCycle U V A step x y l) :
    y.charges U V = Finsupp.mapDomain (destiny U.N (interpOf U.N x.f) V.rt V.cdt_d) (x.charges U V) ∧
    (y.f, l) = fieldStep U V.rt A step (current U.N U.sc (Finsupp.linearCombination K (stream U.N (interpOf U.N x.f) V.rt V.cdt_d) (x.charges U V)))
      (density U y.parts) x.f := by
  obtain ⟨adv, a1, a2, a3⟩ := h.run
  refine ⟨?_, ?_⟩
  · unfold Box.charges
    rw [← charges_move U.nsp U.q V.qdt_2mc x.parts (fun id p => (adv id p).1) _ fun id hid p hp => ?_]
    · exact congrArg _ (funext a2)
    · obtain ⟨z, b1, b2, -⟩ := push_fate (a1 id hid p hp)
      refine ⟨by rw [b2], ?_⟩
      unfold destiny
      rw [b1, b2]
      rfl
  · rw [a3]
    congr 2
    unfold Box.charges
    rw [← sum_charges]
    refine Finset.sum_congr rfl fun id hid => ?_
    congr 1
    refine Multiset.map_congr rfl fun p hp => ?_
    obtain ⟨z, b1, -, b3⟩ := push_fate (a1 id (Finset.mem_range.mp hid) p hp)
    rw [b3]
    unfold stream
    rw [b1]

/-- One step of two boxes with the same sources. -/
lemma boxCycle_sources (h : SameWorld U1 U2 V1 V2) {A : Settings} {step : ℤ} {x1 x2 y1 y2 : Box K} {l1 l2 : List (Msg K)}
    (hx : SameSources U1 U2 V1 V2 x1 x2) (h1 : BoxCycle U1 V1 A step x1 y1 l1) (h2 : BoxCycle U2 V2 A step x2 y2 l2) :
    SameSources U1 U2 V1 V2 y1 y2 ∧ l2 = l1 := by
  obtain ⟨g1, k1⟩ := boxCycle_charges h1
  obtain ⟨g2, k2⟩ := boxCycle_charges h2
  have hc : y2.charges U2 V2 = y1.charges U1 V1 := by
    rw [g1, g2, hx.charges, hx.f, h.N, h.rt, h.cdt_d]
  have hd : density U2 y2.parts = density U1 y1.parts := density_same h hc
  have e : (y2.f, l2) = (y1.f, l1) := by
    rw [k1, k2, hd, hx.charges, hx.f, h.N, h.rt, h.cdt_d, h.sc]
    exact fieldStep_world h _ _ _ _ _ _
  exact ⟨⟨congrArg Prod.fst e, hc⟩, congrArg Prod.snd e⟩

/-- Give a particle another weight, which depends on its weight. -/
def reweigh (φ : K → K) (p : GPart K) : GPart K := { p with w := φ p.w }

lemma boxCycle_twin (h : SameWorld U1 U2 V1 V2) {A : Settings} {step : ℤ} {x1 x2 y1 y2 : Box K} {l1 l2 : List (Msg K)}
    (hx : SameSources U1 U2 V1 V2 x1 x2) (h1 : BoxCycle U1 V1 A step x1 y1 l1) (h2 : BoxCycle U2 V2 A step x2 y2 l2) {id1 id2 : ℕ}
    (hid1 : id1 < U1.nsp) (hid2 : id2 < U2.nsp) (hq : V2.qdt_2mc id2 = V1.qdt_2mc id1) (φ : K → K)
    (hp : x2.parts id2 = (x1.parts id1).map (reweigh φ)) : y2.parts id2 = (y1.parts id1).map (reweigh φ) := by
  obtain ⟨a, a1, a2, -⟩ := h1.run
  obtain ⟨b, b1, b2, -⟩ := h2.run
  rw [a2, b2, if_pos hid1, if_pos hid2, hp, Multiset.map_map, Multiset.map_map]
  refine Multiset.map_congr rfl fun p hm => ?_
  obtain ⟨y, c1, c2, -⟩ := push_fate (a1 id1 hid1 p hm)
  obtain ⟨z, d1, d2, -⟩ := push_fate (b1 id2 hid2 (reweigh φ p) (by rw [hp]; exact Multiset.mem_map_of_mem _ hm))
  rw [h.N, h.rt, h.cdt_d, hx.f, hq] at d1
  obtain rfl : y = z := Option.some.inj (c1.symm.trans d1)
  simp only [Function.comp, c2, d2]
  rfl

/-- Any number of steps. -/
lemma boxCycles_sources (h : SameWorld U1 U2 V1 V2) {A : Settings} {i j : ℤ} {x1 x2 y1 y2 : Box K} {l1 l2 : List (Msg K)}
    (hx : SameSources U1 U2 V1 V2 x1 x2) (h1 : BoxCycles U1 V1 A i x1 j y1 l1) (h2 : BoxCycles U2 V2 A i x2 j y2 l2) :
    SameSources U1 U2 V1 V2 y1 y2 ∧ l2 = l1 ∧ ∀ id1 < U1.nsp, ∀ id2 < U2.nsp, V2.qdt_2mc id2 = V1.qdt_2mc id1 → ∀ φ,
      x2.parts id2 = (x1.parts id1).map (reweigh φ) → y2.parts id2 = (y1.parts id1).map (reweigh φ) := by
  induction h1 generalizing y2 l2 with
  | refl =>
    cases h2 with
    | refl => exact ⟨hx, rfl, fun _ _ _ _ _ _ h => h⟩
    | step g1 g2 => have := boxCycles_le g1; omega
  | @step j z1 z2 k1 k2 g1 g2 ih =>
    generalize hj : j + 1 = j' at h2
    cases h2 with
    | refl => have := boxCycles_le g1; omega
    | @step j2 w1 _ m1 m2 e1 e2 =>
      obtain rfl : j = j2 := by omega
      obtain ⟨s, rfl, t⟩ := ih e1
      obtain ⟨s', rfl⟩ := boxCycle_sources h s g2 e2
      exact ⟨s', rfl, fun id1 hid1 id2 hid2 hq φ hp => boxCycle_twin h s g2 e2 hid1 hid2 hq φ (t id1 hid1 id2 hid2 hq φ hp)⟩

omit [LinearOrder K] in
/-- `initialize` of a box: what it does to the charges. -/
lemma boxBegin_charges (U : Universe K) (V : Drive K) (x : Box K) : (boxBegin U V x).1.charges U V = Finsupp.mapDomain (fun c =>
    (c.1, (uncenter U.N (beginFields U (density U x.parts) x.f).2 ⟨V.rt, c.1, V.cdt_d, 1⟩ (unit c.2)).spot)) (x.charges U V) := by
  unfold Box.charges
  rw [← charges_move U.nsp U.q V.qdt_2mc x.parts (fun id => uncenter U.N (beginFields U (density U x.parts) x.f).2 (lawAt V U.q id)) _
    fun id hid p hp => ⟨rfl, rfl⟩]
  rfl

omit [LinearOrder K] in
/-- `initialize` of two boxes with the same sources. -/
lemma boxBegin_sources (h : SameWorld U1 U2 V1 V2) {x1 x2 : Box K} (hx : SameSources U1 U2 V1 V2 x1 x2) :
    SameSources U1 U2 V1 V2 (boxBegin U1 V1 x1).1 (boxBegin U2 V2 x2).1 ∧ (boxBegin U2 V2 x2).2 = (boxBegin U1 V1 x1).2 := by
  have hd : density U2 x2.parts = density U1 x1.parts := density_same h hx.charges
  have hb : beginFields U2 (density U2 x2.parts) x2.f = beginFields U1 (density U1 x1.parts) x1.f := by
    rw [hd, hx.f]
    unfold beginFields boundCharge
    simp only [h.N, h.C, h.M]
  refine ⟨⟨?_, ?_⟩, ?_⟩
  · show (beginFields U2 (density U2 x2.parts) x2.f).2 = (beginFields U1 (density U1 x1.parts) x1.f).2
    rw [hb]
  · rw [boxBegin_charges, boxBegin_charges, hb, hx.charges, h.N, h.rt, h.cdt_d]
  · show [Msg.sync 0, .divB (rmsOf V2.rt U2 (divBAt U2.N U2.C x2.f)),
      .divE (rmsOf V2.rt U2 (gaussErr U2.N U2.C U2.M (beginFields U2 (density U2 x2.parts) x2.f).1)), .sync 0] =
      [Msg.sync 0, .divB (rmsOf V1.rt U1 (divBAt U1.N U1.C x1.f)),
      .divE (rmsOf V1.rt U1 (gaussErr U1.N U1.C U1.M (beginFields U1 (density U1 x1.parts) x1.f).1)), .sync 0]
    rw [hb]
    simp only [rmsOf, h.N, h.C, h.M, h.rt, hx.f]

omit [LinearOrder K] in
lemma boxBegin_twin (h : SameWorld U1 U2 V1 V2) {x1 x2 : Box K} (hx : SameSources U1 U2 V1 V2 x1 x2) {id1 id2 : ℕ}
    (hid1 : id1 < U1.nsp) (hid2 : id2 < U2.nsp) (hq : V2.qdt_2mc id2 = V1.qdt_2mc id1) (φ : K → K)
    (hp : x2.parts id2 = (x1.parts id1).map (reweigh φ)) :
    (boxBegin U2 V2 x2).1.parts id2 = ((boxBegin U1 V1 x1).1.parts id1).map (reweigh φ) := by
  have hf : (beginFields U2 (density U2 x2.parts) x2.f).2 = (beginFields U1 (density U1 x1.parts) x1.f).2 := (boxBegin_sources h hx).1.f
  show (if id2 < U2.nsp then (x2.parts id2).map (uncenter U2.N (beginFields U2 (density U2 x2.parts) x2.f).2 (lawAt V2 U2.q id2)) else x2.parts id2) =
    (if id1 < U1.nsp then (x1.parts id1).map (uncenter U1.N (beginFields U1 (density U1 x1.parts) x1.f).2 (lawAt V1 U1.q id1)) else x1.parts id1).map (reweigh φ)
  rw [if_pos hid1, if_pos hid2, hp, hf, Multiset.map_map, Multiset.map_map]
  refine Multiset.map_congr rfl fun p _ => ?_
  simp only [Function.comp, uncenter, lawAt, reweigh, h.N, h.rt, hq]

end Verif.Global
