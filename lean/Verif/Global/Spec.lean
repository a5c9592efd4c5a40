import Verif.Torus.Spec
import Verif.Charge.Whole

/-!
# Particles in a periodic box without ranks (C91)

What one time step should do with a particle of the whole box: a push and a walk from cell to cell of one periodic mesh,
written without ranks, voxels, ghosts, movers, messages or threads.  What happens inside a cell (`Boris.pushU`, `streakOf`,
`streakJ`, `inCellJ`) is that of the single domain, the subject of C05, C14 and C16.
-/
namespace Verif.Global

open Grid MoveP Charge Torus
open Field (Pos)
open Boundary (Rank Env live)

section
variable {K : Type}

/-- A particle of the box: its cell, place in the cell, momentum, weight. -/
structure GPart (K : Type) where
  cell : Pos
  d : Fin 3 → K
  u : Fin 3 → K
  w : K

/-- Accumulators of the box: twelve numbers for each cell. -/
abbrev GAccum (K : Type) := Pos → Fin 12 → K

/-- The cell behind a face. -/
def beyond (N : Pos) (a : Fin 3) (up : Bool) (s : Pos) : Pos := if up then next N a s else prev N a s

variable [Field K]

/-- Twelve numbers in one cell, zero elsewhere. -/
def put (s : Pos) (j : Fin 12 → K) : GAccum K := fun t k => if t = s then j k else 0

variable [LinearOrder K]

/-- A particle at `p.d` of its cell goes half displacements `disp`, one streak for each cell it visits.  Result: where it
ends, and the currents.  At most `fuel` cells. -/
def walk (N : Pos) (q : K) : ℕ → GPart K → (Fin 3 → K) → Option (GPart K × GAccum K)
  | 0, _, _ => none
  | fuel + 1, p, disp =>
    let st := streakOf p.d disp
    let half := st.2.2
    let j := put p.cell (streakJ q (fun k => p.d k + half k) half)
    let d : Fin 3 → K := fun k => p.d k + (half k + half k)
    match st.2.1 with
    | none => some ({ p with d := d }, j)
    | some a =>
      (walk N q fuel { p with cell := beyond N a (decide (0 < disp a)) p.cell, d := Function.update d a (-sdir (disp a)) }
        fun k => disp k - half k).map fun x => (x.1, j + x.2)

/-- The constants of the push of one species: square root, `q dt/(2 m c)`, `c dt/dx, …`, charge. -/
structure Law (K : Type) where
  rt : K → K
  qdt_2mc : K
  cdt_d : Fin 3 → K
  q : K

/-- One time step of a particle in the fields `fi` of all cells. -/
def push (N : Pos) (fi : Pos → Boris.Interp K) (L : Law K) (fuel : ℕ) (p : GPart K) : Option (GPart K × GAccum K) :=
  let u := Boris.pushU L.rt L.qdt_2mc (fi p.cell) p.d p.u
  let v : K := 1 / L.rt (1 + (u 0 * u 0 + (u 1 * u 1 + u 2 * u 2)))
  let half : Fin 3 → K := fun k => u k * L.cdt_d k * v
  let mid : Fin 3 → K := fun k => p.d k + half k
  let new : Fin 3 → K := fun k => mid k + half k
  if AdvanceP.inBounds new then
    some ({ p with d := new, u := u }, put p.cell (AdvanceP.inCellJ (p.w * L.q) mid half))
  else walk N (L.q * p.w) fuel { p with u := u } half

end

section
variable {K : Type} {S : Type*}

/-- The particle of the box that particle `p` of rank `r` is. -/
def lift (D : Decomp) {n : ℕ} (r : Fin n) (g : LGrid) (p : MoveP.Part K) : GPart K :=
  ⟨siteAt D r (posOf g p.i), p.d, p.u, p.w⟩

/-- The particles of a species on all ranks, as particles of the box. -/
def gather {n : ℕ} (D : Decomp) (B : Fin n → Env K S) (R : Fin n → Rank K S) (id : ℕ) : Multiset (GPart K) :=
  ∑ r, ((live ((R r).sp id).p ((R r).sp id).np : List (MoveP.Part K)) : Multiset (MoveP.Part K)).map (lift D r (B r).g)

end

end Verif.Global
