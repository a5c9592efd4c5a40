import Verif.Dump.Text
import Verif.Dump.NamesProps

/-! # C112: the text dumps can be read back -/
namespace Verif.Dump

/-! ## Specification -/

/-- The lines of a text whose lines all end with a line break. -/
def linesOf (t : List Char) : List (List Char) := (t.splitOn '\n').dropLast

/-- The words of a line. -/
def wordsOf (l : List Char) : List (List Char) := l.splitOn ' '

/-- The table in a file: the words of the lines that are not comments. -/
def tableOf (t : List Char) : List (List (List Char)) := ((linesOf t).filter fun l => l.head? ≠ some '%').map wordsOf

/-- Printed numbers have no spaces, line breaks or percent signs, and have at least a character. -/
def Clean (w : List Char) : Prop := ' ' ∉ w ∧ '\n' ∉ w ∧ '%' ∉ w ∧ w ≠ []

/-- The calls since the last one that started the file anew, if any. -/
def sinceNew {E : Type} : List (Bool × Energies E) → List (Bool × Energies E)
  | [] => []
  | c :: l => if ∃ d ∈ l, d.1 = false then sinceNew l else c :: l

/-- The row for a call: step, six energies of the field, one for each species. -/
def rowOf {E : Type} (fe : E → List Char) (S : Energies E) : List (List Char) :=
  dec S.step :: ((List.ofFn S.field).map fe ++ S.species.map fun s => fe s.2)

/-! ## Lemmas -/

theorem lines_cons {l t : List Char} (h : '\n' ∉ l) : linesOf (l ++ '\n' :: t) = l :: linesOf t := by
  unfold linesOf
  rw [List.splitOn_append_cons_self_of_not_mem h, List.dropLast_cons_of_ne_nil (List.splitOn_ne_nil _ _)]

theorem lines_nil : linesOf [] = [] := rfl

theorem lines_append : ∀ (ls : List (List Char)), (∀ l ∈ ls, '\n' ∉ l) → ∀ t, linesOf ((ls.flatMap fun l => l ++ ['\n']) ++ t) = ls ++ linesOf t
  | [], _, t => rfl
  | l :: ls, h, t => by
    rw [List.flatMap_cons, List.append_assoc, List.append_assoc, List.singleton_append, lines_cons (h l (by simp)),
      lines_append ls (fun l hl => h l (by simp [hl])), List.cons_append]

/-- Words put together with spaces. -/
def joined (w : List Char) (ws : List (List Char)) : List Char := w ++ ws.flatMap fun x => ' ' :: x

theorem joined_eq (w : List Char) (ws : List (List Char)) : joined w ws = [' '].intercalate (w :: ws) := by
  unfold joined
  induction ws generalizing w with
  | nil => simp [List.intercalate]
  | cons x ws ih =>
    rw [List.flatMap_cons]
    have := ih x
    simp only [List.intercalate, List.intersperse] at this ⊢
    cases ws with
    | nil => simp
    | cons y ws => simp_all

theorem words_joined {w : List Char} {ws : List (List Char)} (h : ' ' ∉ w) (hs : ∀ x ∈ ws, ' ' ∉ x) : wordsOf (joined w ws) = w :: ws := by
  unfold wordsOf
  rw [joined_eq, List.splitOn_intercalate]
  · intro l hl
    rcases List.mem_cons.1 hl with rfl | hl
    · exact h
    · exact hs l hl
  · simp

variable {E : Type} (fe : E → List Char)

theorem dec_clean (v : ℤ) : Clean (dec v) := by
  refine ⟨dec_not v _ (by decide) (by decide), dec_not v _ (by decide) (by decide), dec_not v _ (by decide) (by decide), ?_⟩
  rw [dec_eq]
  have := (mag_mem v.natAbs).2
  simp [this]

theorem row_joined (S : Energies E) :
    energyRow fe S = joined (dec S.step) ((List.ofFn S.field).map fe ++ S.species.map fun s => fe s.2) ++ ['\n'] := by
  unfold energyRow joined
  have : (List.ofFn S.field) = [S.field 0, S.field 1, S.field 2, S.field 3, S.field 4, S.field 5] := by
    simp [List.ofFn_succ]
  rw [this]
  simp [List.append_assoc, List.flatMap_append, List.flatMap_map]

theorem row_words (S : Energies E) (hc : ∀ x, Clean (fe x)) :
    wordsOf (joined (dec S.step) ((List.ofFn S.field).map fe ++ S.species.map fun s => fe s.2)) = rowOf fe S := by
  refine words_joined (dec_clean _).1 ?_
  intro x hx
  rcases List.mem_append.1 hx with hx | hx
  · obtain ⟨y, -, rfl⟩ := List.mem_map.1 hx; exact (hc y).1
  · obtain ⟨y, -, rfl⟩ := List.mem_map.1 hx; exact (hc y.2).1

theorem joined_line {w : List Char} {ws : List (List Char)} (c : Char) (hcs : c ≠ ' ') (h : c ∉ w) (hs : ∀ x ∈ ws, c ∉ x) : c ∉ joined w ws := by
  unfold joined
  rw [List.mem_append, List.mem_flatMap]
  rintro (h' | ⟨x, hx, h'⟩)
  · exact h h'
  · rcases List.mem_cons.1 h' with h' | h'
    · exact hcs h'
    · exact hs x hx h'

/-- One more row. -/
theorem table_row (S : Energies E) (hc : ∀ x, Clean (fe x)) (ls : List (List Char)) (hl : ∀ l ∈ ls, '\n' ∉ l) :
    ∃ r, '\n' ∉ r ∧ r.head? ≠ some '%' ∧ wordsOf r = rowOf fe S ∧
      (ls.flatMap fun l => l ++ ['\n']) ++ energyRow fe S = (ls ++ [r]).flatMap fun l => l ++ ['\n'] := by
  refine ⟨_, ?_, ?_, row_words fe S hc, ?_⟩
  · refine joined_line _ (by decide) (dec_clean _).2.1 ?_
    intro x hx
    rcases List.mem_append.1 hx with hx | hx
    · obtain ⟨y, -, rfl⟩ := List.mem_map.1 hx; exact (hc y).2.1
    · obtain ⟨y, -, rfl⟩ := List.mem_map.1 hx; exact (hc y.2).2.1
  · unfold joined
    have h := dec_clean S.step
    cases e : dec S.step with
    | nil => exact absurd e h.2.2.2
    | cons c l =>
      rw [e] at h
      simp only [List.cons_append, List.head?_cons, ne_eq, Option.some.injEq]
      rintro rfl
      exact h.2.2.1 (by simp)
  · rw [row_joined, List.flatMap_append, List.flatMap_singleton]

/-- The names in the first line. -/
theorem layout_lines (S : Energies E) (hc : ∀ x, Clean (fe x)) (hn : ∀ s ∈ S.species, '\n' ∉ s.1) :
    ∃ l, layout fe S = ["% Layout".toList, l, "% timestep = ".toList ++ fe S.dt].flatMap (fun l => l ++ ['\n']) ∧ '\n' ∉ l ∧ l.head? = some '%' ∧
      l = joined ['%'] (["step", "ex", "ey", "ez", "bx", "by", "bz"].map String.toList ++ S.species.map fun s => '"' :: s.1 ++ ['"']) := by
  refine ⟨_, ?_, ?_, ?_, rfl⟩
  · unfold layout joined
    simp [List.append_assoc, List.flatMap_append, List.flatMap_map]
  · refine joined_line _ (by decide) (by decide) ?_
    intro x hx
    rcases List.mem_append.1 hx with hx | hx
    · have : ∀ x ∈ ["step", "ex", "ey", "ez", "bx", "by", "bz"].map String.toList, '\n' ∉ x := by decide
      exact this x hx
    · obtain ⟨s, hs, rfl⟩ := List.mem_map.1 hx
      have := hn s hs
      simp [this]
  · rfl

/-- A file with the lines `ls`, none with a line break inside. -/
def IsFile (file : List Char) (ls : List (List Char)) : Prop := file = (ls.flatMap fun l => l ++ ['\n']) ∧ ∀ l ∈ ls, '\n' ∉ l

theorem IsFile.lines {file : List Char} {ls : List (List Char)} (h : IsFile file ls) : linesOf file = ls := by
  have := lines_append ls h.2 []
  rw [List.append_nil, ← h.1] at this
  rw [this, lines_nil, List.append_nil]

/-- The table of a file with the lines `ls`. -/
def tableLines (ls : List (List Char)) : List (List (List Char)) := (ls.filter fun l => l.head? ≠ some '%').map wordsOf

theorem dump_lines (append : Bool) (S : Energies E) (hc : ∀ x, Clean (fe x)) (hn : ∀ s ∈ S.species, '\n' ∉ s.1) {file : List Char}
    {ls : List (List Char)} (h : IsFile file ls) :
    ∃ ls', IsFile (dumpEnergies fe append S file) ls' ∧ tableLines ls' = (if append then tableLines ls else []) ++ [rowOf fe S] := by
  have main : ∀ (f : List Char) (ms : List (List Char)), IsFile f ms →
      ∃ ls', IsFile (f ++ energyRow fe S) ls' ∧ tableLines ls' = tableLines ms ++ [rowOf fe S] := by
    intro f ms hf
    obtain ⟨r, h1, h2, h3, h4⟩ := table_row fe S hc ms hf.2
    refine ⟨ms ++ [r], ⟨by rw [hf.1, h4], ?_⟩, ?_⟩
    · intro l hl
      rcases List.mem_append.1 hl with hl | hl
      · exact hf.2 l hl
      · rw [List.mem_singleton.1 hl]; exact h1
    · unfold tableLines
      rw [List.filter_append, List.map_append]
      congr 1
      rw [List.filter_cons, if_pos (by simpa using h2), List.filter_nil, List.map_singleton, h3]
  unfold dumpEnergies
  cases append with
  | true => exact main file ls h
  | false =>
    obtain ⟨l, h1, h2, h3, -⟩ := layout_lines fe S hc hn
    obtain ⟨ls', h4, h5⟩ := main (layout fe S) _ ⟨h1, by
      intro x hx
      simp only [List.mem_cons, List.not_mem_nil, or_false] at hx
      rcases hx with rfl | rfl | rfl
      · decide
      · exact h2
      · rw [List.mem_append]
        rintro (h | h)
        · revert h; decide
        · exact (hc S.dt).2.1 h⟩
    refine ⟨ls', h4, ?_⟩
    rw [h5]
    congr 1
    unfold tableLines
    rw [List.filter_cons, if_neg (by decide), List.filter_cons, if_neg (by simp [h3]), List.filter_cons, if_neg (by simp)]
    rfl

theorem series_lines (hc : ∀ x, Clean (fe x)) : ∀ (calls : List (Bool × Energies E)), (∀ c ∈ calls, ∀ s ∈ c.2.species, '\n' ∉ s.1) →
    ∀ (file : List Char) (ls : List (List Char)), IsFile file ls →
    ∃ ls', IsFile (dumpSeries fe calls file) ls' ∧
      tableLines ls' = (if ∃ c ∈ calls, c.1 = false then [] else tableLines ls) ++ (sinceNew calls).map fun c => rowOf fe c.2
  | [], _, file, ls, h => ⟨ls, h, by simp [sinceNew]⟩
  | (append, S) :: calls, hn, file, ls, h => by
    obtain ⟨ms, h1, h2⟩ := dump_lines fe append S hc (hn _ List.mem_cons_self) h
    obtain ⟨ls', h3, h4⟩ := series_lines hc calls (fun c hc => hn c (List.mem_cons_of_mem _ hc)) _ ms h1
    refine ⟨ls', h3, ?_⟩
    rw [h4]
    by_cases hx : ∃ c ∈ calls, c.1 = false
    · rw [if_pos hx, if_pos (by obtain ⟨c, hc, e⟩ := hx; exact ⟨c, List.mem_cons_of_mem _ hc, e⟩)]
      rw [sinceNew, if_pos hx]
    · have hs : sinceNew calls = calls := by
        cases calls with
        | nil => rfl
        | cons c l => rw [sinceNew, if_neg]; rintro ⟨d, hd, e⟩; exact hx ⟨d, List.mem_cons_of_mem _ hd, e⟩
      rw [if_neg hx, h2, sinceNew, if_neg hx, hs, List.map_cons]
      cases append with
      | true =>
        rw [if_pos rfl, if_neg]
        · simp
        · rintro ⟨c, hc, e⟩
          rcases List.mem_cons.1 hc with rfl | hc
          · cases e
          · exact hx ⟨c, hc, e⟩
      | false =>
        rw [if_neg (by simp), if_pos ⟨_, List.mem_cons_self, rfl⟩]
        simp

theorem series_start : ∀ (calls : List (Bool × Energies E)), (∃ c ∈ calls, c.1 = false) → ∀ file, dumpSeries fe calls file = dumpSeries fe calls []
  | [], h, _ => by obtain ⟨c, hc, -⟩ := h; cases hc
  | (append, S) :: calls, h, file => by
    unfold dumpSeries
    by_cases hx : ∃ c ∈ calls, c.1 = false
    · rw [series_start calls hx, series_start calls hx (dumpEnergies fe append S [])]
    · obtain ⟨c, hc, e⟩ := h
      rcases List.mem_cons.1 hc with rfl | hc
      · have e : append = false := e
        subst e
        rfl
      · exact absurd ⟨c, hc, e⟩ hx

/-! ## Theorems -/

/-- **C112**, energies: whatever the series of calls, once one of them has started the file (or it was empty), its table has one row for each call since the last
start, in order: the step, the six energies of the field, the energy of each species in the order of the list. -/
theorem energies_table (hc : ∀ x, Clean (fe x)) (calls : List (Bool × Energies E)) (hn : ∀ c ∈ calls, ∀ s ∈ c.2.species, '\n' ∉ s.1)
    (file : List Char) (hf : file = [] ∨ ∃ c ∈ calls, c.1 = false) :
    tableOf (dumpSeries fe calls file) = (sinceNew calls).map fun c => rowOf fe c.2 := by
  have h0 : dumpSeries fe calls file = dumpSeries fe calls [] := by
    rcases hf with rfl | h
    · rfl
    · exact series_start fe calls h file
  obtain ⟨ls, h1, h2⟩ := series_lines fe hc calls hn [] [] ⟨rfl, by simp⟩
  rw [h0]
  show tableLines (linesOf _) = _
  rw [h1.lines, h2]
  have : (if ∃ c ∈ calls, c.1 = false then ([] : List (List (List Char))) else tableLines []) = [] := by split <;> rfl
  rw [this, List.nil_append]

/-- **C112**: the file that a call starts has, in its second line, the label of each column of its rows. -/
theorem energies_labels (hc : ∀ x, Clean (fe x)) (S : Energies E) (file : List Char) (hn : ∀ s ∈ S.species, '\n' ∉ s.1 ∧ ' ' ∉ s.1) :
    ∃ l₁ l₂ l₃ rows, linesOf (dumpEnergies fe false S file) = l₁ :: l₂ :: l₃ :: rows ∧
      wordsOf l₂ = ['%'] :: (["step", "ex", "ey", "ez", "bx", "by", "bz"].map String.toList ++ S.species.map fun s => '"' :: s.1 ++ ['"']) ∧
      l₃ = "% timestep = ".toList ++ fe S.dt ∧ (wordsOf l₂).length = (rowOf fe S).length + 1 := by
  obtain ⟨l, h1, h2, h3, h4⟩ := layout_lines fe S hc fun s hs => (hn s hs).1
  have hw : wordsOf l = ['%'] :: (["step", "ex", "ey", "ez", "bx", "by", "bz"].map String.toList ++ S.species.map fun s => '"' :: s.1 ++ ['"']) := by
    rw [h4]
    refine words_joined (by decide) ?_
    intro x hx
    rcases List.mem_append.1 hx with hx | hx
    · have : ∀ x ∈ ["step", "ex", "ey", "ez", "bx", "by", "bz"].map String.toList, ' ' ∉ x := by decide
      exact this x hx
    · obtain ⟨s, hs, rfl⟩ := List.mem_map.1 hx
      have := (hn s hs).2
      simp [this]
  refine ⟨"% Layout".toList, l, "% timestep = ".toList ++ fe S.dt, linesOf (energyRow fe S), ?_, hw, rfl, ?_⟩
  · unfold dumpEnergies
    rw [if_neg (by simp), h1, lines_append]
    · rfl
    · intro x hx
      simp only [List.mem_cons, List.not_mem_nil, or_false] at hx
      rcases hx with rfl | rfl | rfl
      · decide
      · exact h2
      · rw [List.mem_append]
        rintro (h | h)
        · revert h; decide
        · exact (hc S.dt).2.1 h
  · rw [hw]
    unfold rowOf
    simp

/-- What the five lines for a material say. -/
def materialLines (m : MaterialLine E) : List (List (List Char)) :=
  [[m.name], [dec m.id], (List.ofFn m.eps).map fe, (List.ofFn m.mu).map fe, (List.ofFn m.sigma).map fe]

/-- A reader of materials: five lines for each; the first is the name as it is, the others have words. -/
def readMaterials : List (List Char) → List (List (List (List Char)))
  | a :: b :: c :: d :: e :: l => [[a], wordsOf b, wordsOf c, wordsOf d, wordsOf e] :: readMaterials l
  | _ => []

theorem threeE_eq (v : Fin 3 → E) : threeE fe v = joined (fe (v 0)) [fe (v 1), fe (v 2)] ++ ['\n'] := by
  unfold threeE joined
  simp [List.append_assoc]

/-- **C112**, materials: name, id, and the nine constants of every material, in the order of the list. -/
theorem materials_read_back (hc : ∀ x, Clean (fe x)) (l : List (MaterialLine E)) (hn : ∀ m ∈ l, '\n' ∉ m.name) :
    readMaterials (linesOf (dumpMaterials fe l)) = l.map (materialLines fe) := by
  have hv : ∀ v : Fin 3 → E, '\n' ∉ joined (fe (v 0)) [fe (v 1), fe (v 2)] := by
    intro v
    refine joined_line _ (by decide) (hc _).2.1 ?_
    intro x hx
    simp only [List.mem_cons, List.not_mem_nil, or_false] at hx
    rcases hx with rfl | rfl <;> exact (hc _).2.1
  have hw : ∀ v : Fin 3 → E, wordsOf (joined (fe (v 0)) [fe (v 1), fe (v 2)]) = (List.ofFn v).map fe := by
    intro v
    rw [words_joined (hc _).1]
    · simp [List.ofFn_succ]
    · intro x hx
      simp only [List.mem_cons, List.not_mem_nil, or_false] at hx
      rcases hx with rfl | rfl <;> exact (hc _).1
  induction l with
  | nil => rfl
  | cons m l ih =>
    have e : dumpMaterials fe (m :: l) = m.name ++ '\n' :: (dec m.id ++ '\n' :: (joined (fe (m.eps 0)) [fe (m.eps 1), fe (m.eps 2)] ++ '\n' ::
        (joined (fe (m.mu 0)) [fe (m.mu 1), fe (m.mu 2)] ++ '\n' :: (joined (fe (m.sigma 0)) [fe (m.sigma 1), fe (m.sigma 2)] ++ '\n' :: dumpMaterials fe l)))) := by
      unfold dumpMaterials
      rw [List.flatMap_cons, threeE_eq, threeE_eq, threeE_eq]
      simp only [List.append_assoc, List.singleton_append, List.cons_append, List.nil_append]
    rw [e, lines_cons (hn m (by simp)), lines_cons (dec_clean _).2.1, lines_cons (hv _), lines_cons (hv _), lines_cons (hv _)]
    unfold readMaterials
    rw [ih fun m hm => hn m (by simp [hm]), hw, hw, hw, List.map_cons]
    have hd : wordsOf (dec m.id) = [dec m.id] := List.splitOn_eq_singleton (dec_clean _).1
    rw [hd]
    rfl

/-- Everything up to the next `c`. -/
def upToChar (c : Char) (t : List Char) : List Char × List Char := (t.takeWhile (· ≠ c), (t.dropWhile (· ≠ c)).drop 1)

/-- A reader of species: name, id and charge end with a space, the mass ends three characters after its `e`. `n` is an upper bound for the number of species. -/
def readSpecies : ℕ → List Char → List (List (List Char))
  | 0, _ => []
  | _, [] => []
  | n + 1, t =>
    let a := upToChar ' ' t
    let b := upToChar ' ' a.2
    let c := upToChar ' ' b.2
    let d := upToChar 'e' c.2
    [a.1, b.1, c.1, d.1 ++ 'e' :: d.2.take 3] :: readSpecies n (d.2.drop 3)

/-- The form in which `%e` prints a finite single precision number: the exponent has a sign and two digits. -/
def ShortE (w : List Char) : Prop := ∃ a b, w = a ++ 'e' :: b ∧ 'e' ∉ a ∧ b.length = 3

theorem upToChar_eq {c : Char} {a b : List Char} (h : c ∉ a) : upToChar c (a ++ c :: b) = (a, b) := by
  have hp : ∀ x ∈ a, (decide (x ≠ c)) = true := fun x hx => by
    rw [decide_eq_true_iff]
    rintro rfl
    exact h hx
  unfold upToChar
  rw [List.takeWhile_append_of_pos hp, List.dropWhile_append_of_pos hp]
  simp

/-- **C112**, species: name, id, charge and mass of every species can be told apart, although no line ends after a species. -/
theorem species_read_back (hc : ∀ x, Clean (fe x)) (l : List (SpeciesLine E)) (hn : ∀ s ∈ l, ' ' ∉ s.name)
    (hm : ∀ s ∈ l, ShortE (fe s.m)) :
    readSpecies l.length (dumpSpecies fe l) = l.map fun s => [s.name, dec s.id, fe s.q, fe s.m] := by
  induction l with
  | nil => rfl
  | cons s l ih =>
    obtain ⟨a, b, hab, ha, hb⟩ := hm s (by simp)
    have e : dumpSpecies fe (s :: l) = s.name ++ ' ' :: (dec s.id ++ ' ' :: (fe s.q ++ ' ' :: (a ++ 'e' :: (b ++ dumpSpecies fe l)))) := by
      unfold dumpSpecies
      rw [List.flatMap_cons, hab]
      simp only [List.append_assoc, List.singleton_append, List.cons_append, List.nil_append]
    have hne : ∃ c t, dumpSpecies fe (s :: l) = c :: t := by
      rw [e]
      cases s.name with
      | nil => exact ⟨_, _, rfl⟩
      | cons c n => exact ⟨_, _, rfl⟩
    obtain ⟨c, t, hct⟩ := hne
    rw [hct, List.length_cons, readSpecies, ← hct, e]
    · rw [upToChar_eq (hn s (by simp))]
      dsimp only
      rw [upToChar_eq (dec_clean _).1]
      dsimp only
      rw [upToChar_eq (hc _).1]
      dsimp only
      rw [upToChar_eq ha]
      dsimp only
      rw [List.take_left' hb, List.drop_left' hb, ih (fun s hs => hn s (by simp [hs])) fun s hs => hm s (by simp [hs]), List.map_cons, hab]
    · simp

/-- **C112**: the file of species has no line breaks: it is one line, however many species there are. -/
theorem species_one_line (hc : ∀ x, Clean (fe x)) (l : List (SpeciesLine E)) (hn : ∀ s ∈ l, '\n' ∉ s.name) : '\n' ∉ dumpSpecies fe l := by
  unfold dumpSpecies
  rw [List.mem_flatMap]
  rintro ⟨s, hs, h⟩
  simp only [List.append_assoc, List.mem_append, List.mem_singleton] at h
  rcases h with h | h | h | h | h | h | h
  · exact hn s hs h
  · revert h; decide
  · exact (dec_clean _).2.1 h
  · revert h; decide
  · exact (hc _).2.1 h
  · revert h; decide
  · exact (hc _).2.1 h

end Verif.Dump
