import Mathlib.Data.Nat.Digits.Lemmas

/-!
`vpic_simulation::modify` (/repo/src/vpic/misc.cc:98-163), which reads new values of some parameters from a text file, and the parts of `fgets` and `sscanf`
it uses. A text is its list of characters, none of which is zero; `fd` is what `%le` finds at the front of a text.
-/
namespace Verif.Modify

/-- The parameters it can change; `EXTEND_MODIFY` is not defined. -/
structure Vars (E : Type) where
  quota : E
  numStep : ℤ
  checkpt : ℤ
  hydro : ℤ
  field : ℤ
  particle : ℤ
deriving DecidableEq

/-- `isspace`. -/
def space (c : Char) : Bool := c = ' ' || c = '\t' || c = '\n' || c = '\x0b' || c = '\x0c' || c = '\r'

/-- The unsigned number with the given digits. -/
def digitsVal (l : List Char) : ℕ := l.foldl (fun v c => 10 * v + (c.toNat - '0'.toNat)) 0

/-- Outcome of a conversion: no match, a value, or a value out of the range of `int`, which is undefined. -/
inductive Scan (α : Type) | no | value (v : α) | undef

/-- `%d`: white space, sign, digits. -/
def scanInt (t : List Char) : Scan ℤ :=
  let t := t.dropWhile space
  let (neg, t) := match t with
    | '-' :: r => (true, r)
    | '+' :: r => (false, r)
    | r => (false, r)
  let ds := t.takeWhile Char.isDigit
  if ds = [] then .no
  else
    let v : ℤ := if neg then -(digitsVal ds : ℤ) else digitsVal ds
    if -2 ^ 31 ≤ v ∧ v < 2 ^ 31 then .value v else .undef

/-- `sscanf( line, N " %d", … )`: the literal characters, any white space, the number. -/
def scanKey {α : Type} (conv : List Char → Scan α) (key : List Char) (line : List Char) : Scan α :=
  if key <+: line then conv ((line.drop key.length).dropWhile space) else .no

/-- `ITEST`, `DTEST`, /repo/src/vpic/misc.cc:125-129: `set` stores the value. -/
def test {α σ : Type} (conv : List Char → Scan α) (key : String) (set : α → σ → σ) (line : List Char) (s : σ) : Option σ :=
  match scanKey conv key.toList line with
  | .no => some s
  | .value v => some (set v s)
  | .undef => none

/-- `(iarg<0 ? 0 : iarg)`. -/
def clamp (v : ℤ) : ℤ := if v < 0 then 0 else v

variable {E : Type} (fd : List Char → Scan E)

/-- The body of the loop, /repo/src/vpic/misc.cc:142-148. -/
def modifyLine (line : List Char) (s : Vars E) : Option (Vars E) := do
  let s ← test fd "quota" (fun v s => { s with quota := v }) line s
  let s ← test scanInt "num_step" (fun v s => { s with numStep := v }) line s
  let s ← test scanInt "checkpt_interval" (fun v s => { s with checkpt := clamp v }) line s
  let s ← test scanInt "hydro_interval" (fun v s => { s with hydro := clamp v }) line s
  let s ← test scanInt "field_interval" (fun v s => { s with field := clamp v }) line s
  test scanInt "particle_interval" (fun v s => { s with particle := clamp v }) line s

/-- What one `fgets( line, n + 1, handle )` takes: up to a line break (included), at most `n` characters. -/
def gets : ℕ → List Char → List Char × List Char
  | 0, t => ([], t)
  | _, [] => ([], [])
  | n + 1, c :: t => if c = '\n' then ([c], t) else let r := gets n t; (c :: r.1, r.2)

/-- The pieces that the calls of `fgets` take until the end of the file; `fuel` calls. -/
def pieces (n : ℕ) : ℕ → List Char → List (List Char)
  | 0, _ => []
  | _, [] => []
  | fuel + 1, t => (gets n t).1 :: pieces n fuel (gets n t).2

/-- `vpic_simulation::modify`, /repo/src/vpic/misc.cc:133-163: `none` if undefined. Each call of `fgets` takes at least one character. -/
def modify (text : List Char) (s : Vars E) : Option (Vars E) :=
  (pieces 126 text.length text).foldlM (fun s line => modifyLine fd line s) s

end Verif.Modify
