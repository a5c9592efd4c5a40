import Verif.Vector.FactsV4Neon

/-! The two functions for rows of eight words of /repo/src/util/v4/v4_neon.h, which do not do what their names say. No pipeline calls them. -/
namespace Verif.Vector

variable {α : Type}

/-- `load_4x8_tr` of `v4_neon.h` is right where the second row follows the first one and the fourth the third one: it does not look at these two pointers. -/
theorem neon_load_4x8_tr_partial (m : Memory α) (p : Fin 1 → Fin 4 → ℕ) (h1 : p 0 1 = p 0 0 + 8) (h3 : p 0 3 = p 0 2 + 8) :
    ∀ j q l, V4Neon.load_4x8_tr m p j q l = m (p q l + j) := by
  intro j
  refine all1 ?_
  revert j
  refine all8 ?_ ?_ ?_ ?_ ?_ ?_ ?_ ?_
  all_goals
    refine all4 rfl ?_ rfl ?_
    · rw [h1]; rfl
    · rw [h3]; rfl

/-- Elsewhere it is wrong, for rows far apart too. -/
theorem neon_load_4x8_tr_wrong : ¬ LoadsTr (α := ℕ) 1 (fun m p => some (V4Neon.load_4x8_tr m p)) := by
  intro h
  obtain ⟨r, e, hr⟩ := (h id fun _ l => 16 * l).1 fun _ _ => Nat.mod_one _
  have := hr 0 0 1
  cases e
  exact absurd this (by decide)

/-- `store_4x8_tr` of `v4_neon.h` writes, in the fifth word behind the first pointer, the third word of the first vector instead of the first word of the fifth,
wherever the rows lie as the function wants them. -/
theorem neon_store_4x8_tr_fifth (m : Memory α) (v : Fin 8 → Reg 1 α) (p : Fin 1 → Fin 4 → ℕ) (h : p 0 0 + 16 ≤ p 0 2) :
    V4Neon.store_4x8_tr m v p (p 0 0 + 4) = v 0 0 2 := by
  have : V4Neon.store_4x8_tr m v p (p 0 0 + 4) = puts (puts m (words (p 0 0) (quad (v 0 0 0) (v 1 0 0) (v 2 0 0) (v 3 0 0)) ++
      words (p 0 0 + 4) (quad (v 0 0 2) (v 1 0 2) (v 2 0 2) (v 3 0 2)) ++ words (p 0 0 + 8) (quad (v 4 0 0) (v 5 0 0) (v 6 0 0) (v 7 0 0)) ++
      words (p 0 0 + 12) (quad (v 4 0 2) (v 5 0 2) (v 6 0 2) (v 7 0 2)))) (words (p 0 2) (quad (v 0 0 1) (v 1 0 1) (v 2 0 1) (v 3 0 1)) ++
      words (p 0 2 + 4) (quad (v 0 0 3) (v 1 0 3) (v 2 0 3) (v 3 0 3)) ++ words (p 0 2 + 8) (quad (v 4 0 1) (v 5 0 1) (v 6 0 1) (v 7 0 1)) ++
      words (p 0 2 + 12) (quad (v 4 0 3) (v 5 0 3) (v 6 0 3) (v 7 0 3))) (p 0 0 + 4) := by kernel_rfl
  rw [this]
  simp only [puts, words, put, quad, List.foldl, List.cons_append, List.nil_append]
  repeat rw [if_neg (by omega)]
  exact if_pos trivial

/-- So what it stores is not what `load_4x8_tr` loads back. -/
theorem neon_store_4x8_tr_wrong : ∃ (v : Fin 8 → Reg 1 ℕ) (p : Fin 1 → Fin 4 → ℕ), p 0 1 = p 0 0 + 8 ∧ p 0 3 = p 0 2 + 8 ∧ Apart 8 p ∧
    V4Neon.load_4x8_tr (V4Neon.store_4x8_tr (fun _ => 0) v p) p ≠ v := by
  refine ⟨fun j _ l => 10 * j + l, fun _ l => 8 * l, rfl, rfl, ?_, ?_⟩
  · intro q l q' l' j j' e
    have := j.2
    have := j'.2
    replace e : 8 * (l : ℕ) + j = 8 * l' + j' := e
    exact ⟨Subsingleton.elim _ _, Fin.ext (by omega), Fin.ext (by omega)⟩
  · intro h
    have := congrFun (congrFun (congrFun h 4) 0) 0
    revert this
    decide +kernel

end Verif.Vector
