import Verif.Global.Spec
import Verif.Torus.RunLemmas
import Verif.Torus.Energy
import Verif.Threads.Model

/-!
# A whole run in a periodic box without ranks (C92)

`initialize` and `advance` as they should act on one periodic mesh with one list of particles: no ranks, voxels, ghosts,
copies, messages, movers or threads.
-/
namespace Verif.Global

open Grid MoveP Charge Torus
open Field (Pos FC)
open SfInterface (Scales unloadC)
open Threads (Drive)

section
variable {K : Type}

/-- All that a run changes, for the whole box: the particles of each species and the fields. -/
structure Box (K : Type) where
  parts : ℕ → Multiset (GPart K)
  f : Fields K

/-- All that a run does not change: size of the box, constants, medium, factors of the currents, number of species, their
charges. -/
structure Universe (K : Type) where
  N : Pos
  C : Consts K
  M : Medium K
  sc : Scales K
  nsp : ℕ
  q : ℕ → K

variable [Field K]

/-- The constants of the push of species `id`. -/
def lawAt (V : Drive K) (q : ℕ → K) (id : ℕ) : Law K := ⟨V.rt, V.qdt_2mc id, V.cdt_d, q id⟩

/-! ### From fields to particles -/

/-- `f` of the four copies of E along `a` around the cell `s`: far, near, and the two others. -/
def edge4 (N : Pos) (G : Fields K) (a : Fin 3) (s : Pos) (f : K → K → K → K → K) : K :=
  f (G (.e a) (next N (a + 2) (next N (a + 1) s))) (G (.e a) s) (G (.e a) (next N (a + 1) s)) (G (.e a) (next N (a + 2) s))

/-- The mean, the slopes and the mixed slope of four values. -/
def mean4 (w3 w0 w1 w2 : K) : K := 1 / 4 * ((w3 + w0) + (w1 + w2))
/-- See `mean4`. -/
def slope1 (w3 w0 w1 w2 : K) : K := 1 / 4 * ((w3 - w0) + (w1 - w2))
/-- See `mean4`. -/
def slope2 (w3 w0 w1 w2 : K) : K := 1 / 4 * ((w3 - w0) - (w1 - w2))
/-- See `mean4`. -/
def mixed (w3 w0 w1 w2 : K) : K := 1 / 4 * ((w3 + w0) - (w1 + w2))

/-- The field inside the cell `s`: E bilinear, B linear. -/
def interpOf (N : Pos) (G : Fields K) (s : Pos) : Boris.Interp K where
  ex := edge4 N G 0 s mean4
  dexdy := edge4 N G 0 s slope1
  dexdz := edge4 N G 0 s slope2
  d2exdydz := edge4 N G 0 s mixed
  ey := edge4 N G 1 s mean4
  deydz := edge4 N G 1 s slope1
  deydx := edge4 N G 1 s slope2
  d2eydzdx := edge4 N G 1 s mixed
  ez := edge4 N G 2 s mean4
  dezdx := edge4 N G 2 s slope1
  dezdy := edge4 N G 2 s slope2
  d2ezdxdy := edge4 N G 2 s mixed
  cbx := 1 / 2 * (G (.cb 0) (next N 0 s) + G (.cb 0) s)
  dcbxdx := 1 / 2 * (G (.cb 0) (next N 0 s) - G (.cb 0) s)
  cby := 1 / 2 * (G (.cb 1) (next N 1 s) + G (.cb 1) s)
  dcbydy := 1 / 2 * (G (.cb 1) (next N 1 s) - G (.cb 1) s)
  cbz := 1 / 2 * (G (.cb 2) (next N 2 s) + G (.cb 2) s)
  dcbzdz := 1 / 2 * (G (.cb 2) (next N 2 s) - G (.cb 2) s)

/-! ### From particles to fields -/

/-- The `i`-th of the four currents along `a` of a cell. -/
def slot12 (a : Fin 3) (i : Fin 4) : Fin 12 := ⟨4 * a.1 + i.1, by omega⟩

/-- The current density on the edge along `a` at `s`: from the four cells around the edge. -/
def current (N : Pos) (sc : Scales K) (A : GAccum K) (a : Fin 3) (s : Pos) : K :=
  unloadC sc a * (A s (slot12 a 0) + A (prev N (a + 1) s) (slot12 a 1) + A (prev N (a + 2) s) (slot12 a 2) +
    A (prev N (a + 2) (prev N (a + 1) s)) (slot12 a 3))

/-- Corner `k` of the cell `s`: bit `a` of `k` says which side along axis `a`. -/
def corner (N : Pos) (s : Pos) (k : Fin 8) : Pos := fun a => (s a + (k.1 / 2 ^ a.1 % 2 : ℕ)) % N a

/-- What one particle adds to the charge density at node `s`: trilinear weights. -/
def share (N : Pos) (q8V : K) (p : GPart K) (s : Pos) : K :=
  ∑ k, (if corner N p.cell k = s then 1 else 0) * Deposit.triWeights p.d (p.w * q8V) k

/-- The charge density of all particles. -/
def density (U : Universe K) (parts : ℕ → Multiset (GPart K)) (s : Pos) : K :=
  ∑ id ∈ Finset.range U.nsp, ((parts id).map fun p => share U.N (U.q id * U.sc.r8V) p s).sum

/-! ### Fields -/

/-- Replace the current density. -/
def setJ (J : Fin 3 → Pos → K) (G : Fields K) : Fields K := fun k s => match k with | .jf a => J a s | k => G k s
/-- Replace the electric field. -/
def setE (E : Fin 3 → Pos → K) (G : Fields K) : Fields K := fun k s => match k with | .e a => E a s | k => G k s
/-- Replace the magnetic field. -/
def setB (B : Fin 3 → Pos → K) (G : Fields K) : Fields K := fun k s => match k with | .cb a => B a s | k => G k s
/-- Replace the damped curl. -/
def setT (T : Fin 3 → Pos → K) (G : Fields K) : Fields K := fun k s => match k with | .tca a => T a s | k => G k s
/-- Replace the free charge density. -/
def setRho (ρ : Pos → K) (G : Fields K) : Fields K := fun k s => match k with | .rhof => ρ s | k => G k s
/-- Replace the bound charge density. -/
def setRhob (ρ : Pos → K) (G : Fields K) : Fields K := fun k s => match k with | .rhob => ρ s | k => G k s

/-- The bound charge that Gauss's law asks for. -/
def boundCharge (U : Universe K) (G : Fields K) (s : Pos) : K :=
  (U.M.node s).nonconductive * (U.C.eps0 * ∑ a, U.C.rd a * ((U.M.edge a s).eps a * G (.e a) s -
    (U.M.edge a (prev U.N a s)).eps a * G (.e a) (prev U.N a s)) - G .rhof s)

/-- The error that is printed: root of the mean square. -/
noncomputable def rmsOf (rt : K → K) (U : Universe K) (E : Pos → K) : K :=
  U.C.eps0 * rt ((∑ s ∈ sites U.N, E s ^ 2) / ((U.N 0 * U.N 1 * U.N 2 : ℤ) : K))

open Classical in
/-- `k` more rounds of cleaning of E, the next one being round `i` of `R`. -/
noncomputable def roundsE (U : Universe K) (rt : K → K) (R : ℤ) : ℕ → ℤ → Fields K → Fields K × List (Msg K)
  | 0, _, G => (G, [])
  | k + 1, i, G =>
    let E := gaussErr U.N U.C U.M G
    let x := roundsE U rt R k (i + 1) (setE (marderEOf U.N U.C U.M E G) G)
    (x.1, (if i = 0 ∨ i = R - 1 then [.divE (rmsOf rt U E)] else []) ++ x.2)

open Classical in
/-- `k` more rounds of cleaning of B. -/
noncomputable def roundsB (U : Universe K) (rt : K → K) (R : ℤ) : ℕ → ℤ → Fields K → Fields K × List (Msg K)
  | 0, _, G => (G, [])
  | k + 1, i, G =>
    let E := divBAt U.N U.C G
    let x := roundsB U rt R k (i + 1) (setB (marderBOf U.N U.C G) G)
    (x.1, (if i = 0 ∨ i = R - 1 then [.divB (rmsOf rt U E)] else []) ++ x.2)

open Classical in
/-- The fields over one step with currents `J`, and charge density `ρ` at its end. -/
noncomputable def fieldStep (U : Universe K) (rt : K → K) (A : Settings) (step : ℤ) (J : Fin 3 → Pos → K) (ρ : Pos → K)
    (G : Fields K) : Fields K × List (Msg K) :=
  let G1 := stepped U.N U.C U.M (setJ J G)
  let x := if due A.clean_div_e_interval step then roundsE U rt A.num_div_e_round A.num_div_e_round.toNat 0 (setRho ρ G1)
    else (G1, [])
  let y := if due A.clean_div_b_interval step then roundsB U rt A.num_div_b_round A.num_div_b_round.toNat 0 x.1 else (x.1, [])
  (y.1, x.2 ++ y.2 ++ if due A.sync_shared_interval step then [.sync 0] else [])

variable [LinearOrder K]

/-- One call of `advance` in the box: every particle is pushed in the field of its cell, the currents of all particles drive
the fields. -/
structure BoxCycle (U : Universe K) (V : Drive K) (A : Settings) (step : ℤ) (x x' : Box K) (l : List (Msg K)) : Prop where
  go : ¬ (0 < A.num_step ∧ A.num_step ≤ step)
  run : ∃ adv : ℕ → GPart K → GPart K × GAccum K,
    (∀ id < U.nsp, ∀ p ∈ x.parts id, push U.N (interpOf U.N x.f) (lawAt V U.q id) 4 p = some (adv id p)) ∧
    (∀ id, x'.parts id = if id < U.nsp then (x.parts id).map fun p => (adv id p).1 else x.parts id) ∧
    (x'.f, l) = fieldStep U V.rt A step
      (current U.N U.sc (∑ id ∈ Finset.range U.nsp, ((x.parts id).map fun p => (adv id p).2).sum)) (density U x'.parts) x.f

/-- Any number of calls of `advance` in the box. -/
inductive BoxCycles (U : Universe K) (V : Drive K) (A : Settings) : ℤ → Box K → ℤ → Box K → List (Msg K) → Prop
  | refl (i x) : BoxCycles U V A i x i x []
  | step {i x j x1 x2 l l'} : BoxCycles U V A i x j x1 l → BoxCycle U V A j x1 x2 l' → BoxCycles U V A i x (j + 1) x2 (l ++ l')

omit [LinearOrder K] in
/-- The momentum of a particle half a step back. -/
def uncenter (N : Pos) (G : Fields K) (L : Law K) (p : GPart K) : GPart K :=
  { p with u := Boris.uncenterU L.rt L.qdt_2mc (interpOf N G p.cell) p.d p.u }

/-- The fields after `initialize`. -/
noncomputable def beginFields (U : Universe K) (ρ : Pos → K) (G : Fields K) : Fields K × Fields K :=
  let G1 := setB (marderBOf U.N U.C G) G
  let G2 := setT (fun a s => U.C.cvac * U.C.dt * curlH U.N U.C U.M G1 a s) G1
  let G3 := setRho ρ G2
  let G4 := setRhob (boundCharge U G3) G3
  (G4, setE (marderEOf U.N U.C U.M (gaussErr U.N U.C U.M G4) G4) G4)

/-- `initialize` in the box: B is cleaned, the damped curl and the bound charge are set, E is cleaned, the momenta go back half
a step. -/
noncomputable def boxBegin (U : Universe K) (V : Drive K) (x : Box K) : Box K × List (Msg K) :=
  let y := beginFields U (density U x.parts) x.f
  (⟨fun id => if id < U.nsp then (x.parts id).map (uncenter U.N y.2 (lawAt V U.q id)) else x.parts id, y.2⟩,
    [.sync 0, .divB (rmsOf V.rt U (divBAt U.N U.C x.f)), .divE (rmsOf V.rt U (gaussErr U.N U.C U.M y.1)), .sync 0])

end

end Verif.Global
