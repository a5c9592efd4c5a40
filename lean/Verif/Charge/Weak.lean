import Verif.AdvanceP.Charge
import Verif.Boundary.Props

/-!
# Charge weighted by a function of the nodes

The continuity equation of `move_p` and `advance_p`, summed over nodes with weights.
-/
namespace Verif.Charge

open Grid Deposit SfInterface MoveP
open Distribute (upTo)

section
variable {K : Type*} [Field K] [LinearOrder K] [IsStrictOrderedRing K]

/-- Spec: the charge density a particle of a species of charge `q` puts on the nodes, each node weighted with `φ`. -/
def weigh (g : LGrid) (φ : ℤ → K) (q8V : K) (p : Part K) : K :=
  ∑ k, φ (p.i + nodeOff g k) * triWeights p.d (p.w * q8V) k

/-- Spec: the same for a density on the nodes. -/
def nodeSum (g : LGrid) (φ ρ : ℤ → K) : K := ∑ n ∈ Finset.Ico 0 (nvox g), φ n * ρ n

/-- Spec: a particle inside an interior cell. -/
def Within (g : LGrid) (p : Part K) : Prop :=
  (∃ c : Cell, c.Interior g.nx g.ny g.nz ∧ p.i = VOXEL g.nx g.ny c.x c.y c.z) ∧ ∀ k, -1 ≤ p.d k ∧ p.d k ≤ 1

/-- Spec: `φ` is the same on nodes of the same class. -/
def OnClasses (g : LGrid) (J : Fin 3 → Bool) (φ : ℤ → K) : Prop :=
  ∀ n n', nodeClass g J n = nodeClass g J n' → φ n = φ n'

lemma weak_of_classes {g : LGrid} {J : Fin 3 → Bool} {φ f : ℤ → K} (hφ : OnClasses g J φ)
    (hf : ∀ N, ∑ n ∈ (Finset.Ico 0 (nvox g)).filter (fun n => nodeClass g J n = N), f n = 0) :
    nodeSum g φ f = 0 := by
  unfold nodeSum
  rw [← Finset.sum_fiberwise_of_maps_to (s := Finset.Ico 0 (nvox g))
    (t := (Finset.Ico 0 (nvox g)).image (nodeClass g J)) (g := nodeClass g J)
    (fun n hn => Finset.mem_image_of_mem _ hn)]
  refine Finset.sum_eq_zero fun N hN => ?_
  obtain ⟨n0, -, rfl⟩ := Finset.mem_image.mp hN
  rw [← mul_zero (φ n0), ← hf (nodeClass g J n0), Finset.mul_sum]
  refine Finset.sum_congr rfl fun n hn => ?_
  rw [hφ n n0 (Finset.mem_filter.mp hn).2]

lemma nodeSum_nodeCharge {g : LGrid} (h : LocalMesh g) (φ : ℤ → K) {c : Cell} (hc : c.Interior g.nx g.ny g.nz)
    (w : Fin 8 → K) : nodeSum g φ (nodeCharge g (VOXEL g.nx g.ny c.x c.y c.z) w) =
      ∑ k, φ (VOXEL g.nx g.ny c.x c.y c.z + nodeOff g k) * w k := by
  unfold nodeSum nodeCharge
  simp only [Finset.mul_sum]
  rw [Finset.sum_comm]
  refine Finset.sum_congr rfl fun k _ => ?_
  simp only [mul_ite, mul_zero]
  rw [Finset.sum_ite_eq']
  rw [if_pos (Finset.mem_Ico.mpr (nodes_range h hc k))]

lemma nodeSum_add (g : LGrid) (φ ρ ρ' : ℤ → K) :
    nodeSum g φ (fun n => ρ n + ρ' n) = nodeSum g φ ρ + nodeSum g φ ρ' := by
  simp only [nodeSum, mul_add, Finset.sum_add_distrib]

lemma nodeSum_zero (g : LGrid) (φ : ℤ → K) : nodeSum g φ (fun _ => 0) = 0 := by simp [nodeSum]

lemma rhoP_weigh {g : LGrid} (h : LocalMesh g) (φ : ℤ → K) (q8V : K) {p : Part K} (hp : Within g p) (ρ : ℤ → K) :
    ∃ ρ', rhoP g q8V p ρ = some ρ' ∧ nodeSum g φ ρ' = nodeSum g φ ρ + weigh g φ q8V p := by
  obtain ⟨⟨c, hc, hi⟩, -⟩ := hp
  refine ⟨_, by unfold rhoP; rw [hi, addNodes_eq _ _ ⟨(voxel_range h hc.inMesh).1, (nodes_range h hc 7).2⟩], ?_⟩
  rw [nodeSum_add, nodeSum_nodeCharge h φ hc, weigh, hi]

lemma accumulateRhoP_weigh {g : LGrid} (h : LocalMesh g) (φ : ℤ → K) (r8V q : K) (ps : List (Part K))
    (hp : ∀ p ∈ ps, Within g p) : ∀ ρ : ℤ → K, ∃ ρ', accumulateRhoP g r8V q ps ρ = some ρ' ∧
      nodeSum g φ ρ' = nodeSum g φ ρ + (ps.map (weigh g φ (q * r8V))).sum := by
  induction ps with
  | nil => exact fun ρ => ⟨ρ, rfl, by simp⟩
  | cons p ps ih =>
    intro ρ
    obtain ⟨ρ1, e1, h1⟩ := rhoP_weigh h φ (q * r8V) (hp p (by simp)) ρ
    obtain ⟨ρ2, e2, h2⟩ := ih (fun x hx => hp x (by simp [hx])) ρ1
    refine ⟨ρ2, by rw [accumulateRhoP, e1]; exact e2, ?_⟩
    rw [h2, h1, List.map_cons, List.sum_cons, add_assoc]

/-- The divergence is linear in the accumulators. -/
lemma divJ_add (g : LGrid) (m : Scales K) (a b : Accum K) (n : ℤ) :
    divJ g m (fun v k => a v k + b v k) n = divJ g m a n + divJ g m b n := by
  simp only [divJ, unloadAt, Matrix.cons_val_zero, Matrix.cons_val_one, Matrix.cons_val]
  ring

lemma divJ_zero (g : LGrid) (m : Scales K) (n : ℤ) : divJ g m (fun _ _ => 0) n = 0 := by
  simp [divJ, unloadAt]

/-- A move, weighted. -/
lemma moveP_weak {K : Type} [Field K] [LinearOrder K] [IsStrictOrderedRing K] {g : LGrid} (h : LocalMesh g) (m : Scales K) (hdt : m.dt ≠ 0)
    (hV : m.r8V = m.rd 0 * m.rd 1 * m.rd 2 * (1 / 8)) {J : Fin 3 → Bool} (hJ : JoinedOn g J) {φ : ℤ → K}
    (hφ : OnClasses g J φ) (q : K) (fuel : ℕ) (p : Part K) (disp : Fin 3 → K) (hp : Within g p)
    (r : Bool × MState K) (e : moveP g q fuel ⟨p, disp, fun _ _ => 0⟩ = some r) :
    weigh g φ (q * m.r8V) (Boundary.settled r) / m.dt + nodeSum g φ (divJ g m r.2.a) = weigh g φ (q * m.r8V) p / m.dt := by
  obtain ⟨b, s'⟩ := r
  obtain ⟨⟨c, hc, hi⟩, hd⟩ := hp
  obtain ⟨c', k1, k2, k3, k4⟩ := loop_charge h m hdt hV hJ q fuel ⟨p, disp, fun _ _ => 0⟩ c hc hi hd b s' e
  have key := weak_of_classes hφ (f := fun n =>
    (nodeCharge g (VOXEL g.nx g.ny c'.x c'.y c'.z) (triWeights s'.p.d (p.w * (q * m.r8V))) n / m.dt
      + divJ g m s'.a n) +
    -(nodeCharge g (VOXEL g.nx g.ny c.x c.y c.z) (triWeights p.d (p.w * (q * m.r8V))) n / m.dt)) (by
    intro N
    have := k4 N
    unfold balance classSum at this
    simp only [divJ_zero, add_zero] at this
    rw [Finset.sum_add_distrib, this, ← Finset.sum_add_distrib]
    simp)
  have lin : ∀ f : ℤ → K, nodeSum g φ (fun n => f n / m.dt) = nodeSum g φ f / m.dt := by
    intro f
    simp only [nodeSum, mul_div_assoc', Finset.sum_div]
  have neg : ∀ f : ℤ → K, nodeSum g φ (fun n => - f n) = - nodeSum g φ f := by
    intro f
    simp only [nodeSum, mul_neg, Finset.sum_neg_distrib]
  rw [nodeSum_add, nodeSum_add, neg, lin, lin, nodeSum_nodeCharge h φ k1, nodeSum_nodeCharge h φ hc] at key
  have e1 : weigh g φ (q * m.r8V) (Boundary.settled (b, s')) =
      ∑ k, φ (VOXEL g.nx g.ny c'.x c'.y c'.z + nodeOff g k) * triWeights s'.p.d (p.w * (q * m.r8V)) k := by
    unfold weigh Boundary.settled
    dsimp only
    rw [k2, k3]
  have e2 : weigh g φ (q * m.r8V) p =
      ∑ k, φ (VOXEL g.nx g.ny c.x c.y c.z + nodeOff g k) * triWeights p.d (p.w * (q * m.r8V)) k := by
    unfold weigh
    rw [hi]
  rw [e1, e2]
  linear_combination key

end

end Verif.Charge
