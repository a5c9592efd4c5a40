import Verif.Dump.Header
import Verif.Dump.Props

/-! # C111: what the global header announces is what the files in bands hold -/
namespace Verif.Dump

/-- The variables (bits) of a group. -/
def block (g : ℕ × Info) : List ℕ := List.range' g.1 g.2.elements

/-- The selection takes groups as a whole (as all the constants in /repo/src/vpic/vpic.h:39-51, 66-70 do). -/
def WholeGroups (table : List (ℕ × Info)) (vars : BitVec 32) : Prop :=
  ∀ g ∈ table, ∀ b ∈ block g, vars.getLsbD b = vars.getLsbD g.1

theorem filter_groups (vars : BitVec 32) : ∀ (table : List (ℕ × Info)), WholeGroups table vars →
    (table.flatMap block).filter (fun b => vars.getLsbD b) = (table.filter fun g => vars.getLsbD g.1).flatMap block
  | [], _ => rfl
  | g :: l, h => by
    rw [List.flatMap_cons, List.filter_append, filter_groups vars l fun g hg => h g (by simp [hg]), List.filter_cons]
    have hb : ∀ b ∈ block g, vars.getLsbD b = vars.getLsbD g.1 := h g (by simp)
    cases hg : vars.getLsbD g.1 with
    | true =>
      rw [if_pos rfl, List.flatMap_cons]
      congr 1
      exact List.filter_eq_self.2 fun b h => by rw [hb b h, hg]
    | false =>
      rw [if_neg (by simp)]
      have : (block g).filter (fun b => vars.getLsbD b) = [] := List.filter_eq_nil_iff.2 fun b h => by rw [hb b h, hg]; simp
      rw [this, List.nil_append]

theorem announce_eq (table : List (ℕ × Info)) (ht : ∀ g ∈ table, g.1 < 32) (vars : BitVec 32) :
    announce table vars = some ((table.filter fun g => vars.getLsbD g.1).map (·.2)) := by
  have hset : table.filter (fun g => Util.bitset vars g.1 == some true) = table.filter fun g => vars.getLsbD g.1 := by
    apply List.filter_congr
    intro g hg
    rw [Util.bitset_eq vars g.1 (ht g hg)]
    cases vars.getLsbD g.1 <;> rfl
  unfold announce
  rw [Util.bitsumOf_eq _ _ fun i hi => by
    obtain ⟨g, hg, rfl⟩ := List.mem_map.1 hi
    exact ht g hg]
  dsimp only
  rw [hset, Nat.zero_add, List.countP_map, List.countP_eq_length_filter]
  have hle : (table.filter ((fun b => vars.getLsbD b) ∘ fun x => x.1)).length ≤ table.length := List.length_filter_le _ _
  rw [Nat.min_eq_left hle]
  exact if_pos rfl

/-- **C111**: the header lists, in order, the groups whose first variable is selected. -/
theorem header_lists (vars : BitVec 32) :
    announce fieldGroups vars = some ((fieldGroups.filter fun g => vars.getLsbD g.1).map (·.2)) ∧
      announce hydroGroups vars = some ((hydroGroups.filter fun g => vars.getLsbD g.1).map (·.2)) :=
  ⟨announce_eq _ (by decide) _, announce_eq _ (by decide) _⟩

/-- **C111**, fields: if groups are selected as a whole and no material is, the bands of the file are those of the listed groups one after the other;
each has as many bands as listed elements, of four bytes as listed. -/
theorem field_header_partial (vars : BitVec 32) (h : WholeGroups fieldGroups vars) (hm : ∀ b, 16 ≤ b → vars.getLsbD b = false) :
    ∃ gs : List (ℕ × Info), gs.Sublist fieldGroups ∧ announce fieldGroups vars = some (gs.map (·.2)) ∧ selected vars 24 = gs.flatMap block ∧
      (∀ g ∈ gs, (block g).length = g.2.elements ∧ g.2.bytes = 4) ∧ 4 * (selected vars 24).length = (gs.map fun g => g.2.elements * g.2.bytes).sum := by
  have hs : selected vars 24 = (fieldGroups.filter fun g => vars.getLsbD g.1).flatMap block := by
    rw [← filter_groups vars fieldGroups h]; rfl
  have hb : ∀ g ∈ fieldGroups.filter (fun g => vars.getLsbD g.1), g.2.bytes = 4 := by
    intro g hg
    rw [List.mem_filter] at hg
    have h16 : g.1 < 16 := by
      by_contra hc
      rw [hm g.1 (by omega)] at hg
      exact absurd hg.2 (by simp)
    have : ∀ g ∈ fieldGroups, g.1 < 16 → g.2.bytes = 4 := by decide
    exact this g hg.1 h16
  refine ⟨_, List.filter_sublist, (header_lists vars).1, hs, fun g hg => ⟨by simp [block], hb g hg⟩, ?_⟩
  rw [hs, List.length_flatMap]
  have : ∀ l : List (ℕ × Info), (∀ g ∈ l, g.2.bytes = 4) → 4 * (l.map fun g => (block g).length).sum = (l.map fun g => g.2.elements * g.2.bytes).sum := by
    intro l
    induction l with
    | nil => intro _; rfl
    | cons g l ih =>
      intro h
      rw [List.map_cons, List.map_cons, List.sum_cons, List.sum_cons, Nat.mul_add, ih fun g hg => h g (by simp [hg]), h g (by simp)]
      simp [block, Nat.mul_comm]
  exact this _ hb

/-- **C111**, moments. -/
theorem hydro_header_partial (vars : BitVec 32) (h : WholeGroups hydroGroups vars) :
    ∃ gs : List (ℕ × Info), gs.Sublist hydroGroups ∧ announce hydroGroups vars = some (gs.map (·.2)) ∧ selected vars 14 = gs.flatMap block ∧
      ∀ g ∈ gs, (block g).length = g.2.elements ∧ g.2.bytes = 4 := by
  have hs : selected vars 14 = (hydroGroups.filter fun g => vars.getLsbD g.1).flatMap block := by
    rw [← filter_groups vars hydroGroups h]; rfl
  have hb : ∀ g ∈ hydroGroups, g.2.bytes = 4 := by decide
  exact ⟨_, List.filter_sublist, (header_lists vars).2, hs, fun g hg => ⟨by simp [block], hb g (List.mem_of_mem_filter hg)⟩⟩

/-- **C111** fails for single components: the second component of the electric field alone is not announced, the first alone announced as three. -/
theorem component_not_announced :
    announce fieldGroups 0b10 = some [] ∧ (selected 0b10 24).length = 1 ∧
      announce fieldGroups 0b1 = some [⟨"Electric Field", 3, 4⟩] ∧ (selected 0b1 24).length = 1 := by
  refine ⟨by decide, by decide, by decide, by decide⟩

/-- **C111** fails for materials: three numbers of two bytes are announced, three words of four bytes written. -/
theorem materials_misannounced :
    announce fieldGroups 0x70000 = some [⟨"Edge Material", 3, 2⟩] ∧ 4 * (selected 0x70000 24).length = 12 := by
  refine ⟨by decide, by decide⟩

theorem createLoop_eq (vars : BitVec 32) : ∀ (l : List (ℕ × Info)), (∀ g ∈ l, g.1 < 32) → ∀ (i : ℕ) (pass : Bool) (s : List Char), (i = 0 → pass = false) →
    createLoop vars l i pass s =
      s ++ if pass then ((l.filter fun g => vars.getLsbD g.1).map fun g => [',', ' '] ++ g.2.name.toList).flatten
        else [',', ' '].intercalate ((l.filter fun g => vars.getLsbD g.1).map fun g => g.2.name.toList) := by
  intro l
  induction l with
  | nil => intro _ i pass s _; cases pass <;> simp [createLoop]
  | cons g l ih =>
    intro hl i pass s hi
    obtain ⟨b, g⟩ := g
    have hg : (Util.bitset vars b == some true) = vars.getLsbD b := by
      rw [Util.bitset_eq vars b (hl (b, g) (by simp))]
      cases vars.getLsbD b <;> rfl
    have hl' : ∀ g ∈ l, g.1 < 32 := fun g hg => hl g (by simp [hg])
    unfold createLoop
    rw [hg, List.filter_cons]
    cases hb : vars.getLsbD b with
    | false =>
      simp only [Bool.false_eq_true, if_false]
      exact ih hl' (i + 1) pass s (by omega)
    | true =>
      rw [if_pos rfl, if_pos rfl]
      cases pass with
      | true =>
        rw [if_pos ⟨by by_contra hc; exact absurd (hi (by omega)) (by simp), rfl⟩, ih hl' (i + 1) true _ (by omega)]
        simp [List.append_assoc]
      | false =>
        rw [if_neg (by simp), ih hl' (i + 1) true _ (by omega)]
        simp only [if_true, Bool.false_eq_true, if_false, List.map_cons, List.append_assoc]
        congr 1
        generalize (List.filter (fun g => vars.getLsbD g.1) l) = m
        generalize g.name.toList = x
        induction m generalizing x with
        | nil => simp [List.intercalate]
        | cons y m ihm =>
          rw [List.map_cons, List.map_cons, List.flatten_cons]
          have := ihm y.2.name.toList
          simp only [List.intercalate, List.intersperse] at this ⊢
          cases m with
          | nil => simp
          | cons z m => simp_all

/-- **C111**: the printed list of names, fields or moments, is the names of the listed groups separated by commas. -/
theorem list_names (table : List (ℕ × Info)) (h : table = fieldGroups ∨ table = hydroGroups) (vars : BitVec 32) :
    ∃ gs, announce table vars = some gs ∧ createList table vars = [',', ' '].intercalate (gs.map fun g => g.name.toList) := by
  have ht : ∀ g ∈ table, g.1 < 32 := by
    rcases h with rfl | rfl <;> decide
  refine ⟨_, announce_eq table ht vars, ?_⟩
  unfold createList
  rw [createLoop_eq vars table ht 0 false [] (fun _ => rfl), List.map_map]
  rfl

end Verif.Dump
