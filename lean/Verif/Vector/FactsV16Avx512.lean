import Verif.Vector.V16Avx512
import Verif.Vector.Lemmas

/-! The functions of `Verif/Vector/V16Avx512.lean` do what they shall; written by `tools/gen_vector_facts.py`. -/
namespace Verif.Vector.FactsV16Avx512

variable {α : Type}

theorem swap : Exchanges (α := α) V16Avx512.swap := fun v => ⟨by cells_rfl, by cells_rfl⟩

theorem transpose : Transposes (α := α) (n := 4) V16Avx512.transpose := by
  intro v
  cases_rfl

theorem load_16x1 : Loads (α := α) 1 (fun m p => some (V16Avx512.load_16x1 m p)) := by
  intro m p
  refine ⟨fun _ => ⟨_, rfl, ?_⟩, fun h => absurd (Nat.mod_one _) h⟩
  cases_rfl

theorem store_16x1 : Stores (α := α) 1 (fun m v p => some (V16Avx512.store_16x1 m v p)) :=
  stores_of (fun _ _ _ _ => by kernel_rfl) fun _ _ _ h => absurd (Nat.mod_one _) h

theorem stream_16x1 : Stores (α := α) 1 (fun m v p => some (V16Avx512.stream_16x1 m v p)) :=
  stores_of (fun _ _ _ _ => by kernel_rfl) fun _ _ _ h => absurd (Nat.mod_one _) h

theorem clear_16x1 [Zero α] : Clears (α := α) 4 1 (fun m p => some (V16Avx512.clear_16x1 m p)) :=
  clears_of (fun _ _ _ => by kernel_rfl) fun _ _ h => absurd (Nat.mod_one _) h

theorem copy_16x1 : Copies (α := α) 4 1 (fun m a b => some (V16Avx512.copy_16x1 m a b)) := copies_of_words fun _ _ _ => by kernel_rfl

theorem swap_16x1 : Swaps (α := α) 4 1 (fun m a b => some (V16Avx512.swap_16x1 m a b)) := swaps_of_words fun _ _ _ => by kernel_rfl

theorem load_16x1_tr : LoadsTr (α := α) 1 (fun m p => some (fun _ : Fin 1 => V16Avx512.load_16x1_tr m p)) := by
  intro m p
  refine ⟨fun _ => ⟨_, rfl, ?_⟩, fun ⟨q, l, h⟩ => absurd (Nat.mod_one _) h⟩
  cases_rfl

theorem load_16x2_tr : LoadsTr (α := α) 16 V16Avx512.load_16x2_tr := by
  intro m p
  have hb : ∀ q l, p q l % 16 ≠ 0 → V16Avx512.load_16x2_tr m p = none := by
    refine_rows (skip_bind V16Avx512.load_16x2_tr load4_bad)
  refine ⟨fun h => ?_, fun ⟨q, l, h⟩ => hb q l h⟩
  · unfold V16Avx512.load_16x2_tr
    rw [load4_ok (h 0 0), load4_ok (h 0 1), load4_ok (h 0 2), load4_ok (h 0 3), load4_ok (h 1 0), load4_ok (h 1 1), load4_ok (h 1 2), load4_ok (h 1 3),
      load4_ok (h 2 0), load4_ok (h 2 1), load4_ok (h 2 2), load4_ok (h 2 3), load4_ok (h 3 0), load4_ok (h 3 1), load4_ok (h 3 2), load4_ok (h 3 3)]
    refine ⟨_, rfl, ?_⟩
    cases_rfl

theorem load_16x3_tr : LoadsTr (α := α) 16 V16Avx512.load_16x3_tr := by
  intro m p
  have hb : ∀ q l, p q l % 16 ≠ 0 → V16Avx512.load_16x3_tr m p = none := by
    refine_rows (skip_bind V16Avx512.load_16x3_tr load4_bad)
  refine ⟨fun h => ?_, fun ⟨q, l, h⟩ => hb q l h⟩
  · unfold V16Avx512.load_16x3_tr
    rw [load4_ok (h 0 0), load4_ok (h 0 1), load4_ok (h 0 2), load4_ok (h 0 3), load4_ok (h 1 0), load4_ok (h 1 1), load4_ok (h 1 2), load4_ok (h 1 3),
      load4_ok (h 2 0), load4_ok (h 2 1), load4_ok (h 2 2), load4_ok (h 2 3), load4_ok (h 3 0), load4_ok (h 3 1), load4_ok (h 3 2), load4_ok (h 3 3)]
    refine ⟨_, rfl, ?_⟩
    cases_rfl

theorem load_16x4_tr : LoadsTr (α := α) 16 V16Avx512.load_16x4_tr := by
  intro m p
  have hb : ∀ q l, p q l % 16 ≠ 0 → V16Avx512.load_16x4_tr m p = none := by
    refine_rows (skip_bind V16Avx512.load_16x4_tr load4_bad)
  refine ⟨fun h => ?_, fun ⟨q, l, h⟩ => hb q l h⟩
  · unfold V16Avx512.load_16x4_tr
    rw [load4_ok (h 0 0), load4_ok (h 0 1), load4_ok (h 0 2), load4_ok (h 0 3), load4_ok (h 1 0), load4_ok (h 1 1), load4_ok (h 1 2), load4_ok (h 1 3),
      load4_ok (h 2 0), load4_ok (h 2 1), load4_ok (h 2 2), load4_ok (h 2 3), load4_ok (h 3 0), load4_ok (h 3 1), load4_ok (h 3 2), load4_ok (h 3 3)]
    refine ⟨_, rfl, ?_⟩
    cases_rfl

theorem load_16x8_tr : LoadsTr (α := α) 16 V16Avx512.load_16x8_tr := by
  intro m p
  have hb : ∀ q l, p q l % 16 ≠ 0 → V16Avx512.load_16x8_tr m p = none := by
    refine_rows (skip_bind V16Avx512.load_16x8_tr load4_bad)
  refine ⟨fun h => ?_, fun ⟨q, l, h⟩ => hb q l h⟩
  · unfold V16Avx512.load_16x8_tr
    rw [load4_ok (h 0 0), load4_ok (h 0 1), load4_ok (h 0 2), load4_ok (h 0 3), load4_ok (h 1 0), load4_ok (h 1 1), load4_ok (h 1 2), load4_ok (h 1 3),
      load4_ok (h 2 0), load4_ok (h 2 1), load4_ok (h 2 2), load4_ok (h 2 3), load4_ok (h 3 0), load4_ok (h 3 1), load4_ok (h 3 2), load4_ok (h 3 3)]
    refine ⟨_, rfl, ?_⟩
    cases_rfl

theorem load_16x16_tr : LoadsTr (α := α) 16 V16Avx512.load_16x16_tr := by
  intro m p
  have hb : ∀ q l, p q l % 16 ≠ 0 → V16Avx512.load_16x16_tr m p = none := by
    refine_rows (skip_bind V16Avx512.load_16x16_tr load4_bad)
  refine ⟨fun h => ?_, fun ⟨q, l, h⟩ => hb q l h⟩
  · unfold V16Avx512.load_16x16_tr
    rw [load4_ok (h 0 0), load4_ok (h 0 1), load4_ok (h 0 2), load4_ok (h 0 3), load4_ok (h 1 0), load4_ok (h 1 1), load4_ok (h 1 2), load4_ok (h 1 3),
      load4_ok (h 2 0), load4_ok (h 2 1), load4_ok (h 2 2), load4_ok (h 2 3), load4_ok (h 3 0), load4_ok (h 3 1), load4_ok (h 3 2), load4_ok (h 3 3)]
    refine ⟨_, rfl, ?_⟩
    cases_rfl

theorem load_16x8_tr_p : LoadsPairs (α := α) 16 V16Avx512.load_16x8_tr_p := by
  intro m p
  have hb : ∀ q l, p q l % 16 ≠ 0 → V16Avx512.load_16x8_tr_p m p = none := by
    refine_rows (skip_bind V16Avx512.load_16x8_tr_p load4_bad)
  refine ⟨fun h => ?_, fun ⟨q, l, h⟩ => hb q l h⟩
  · unfold V16Avx512.load_16x8_tr_p
    rw [load4_ok (h 0 0), load4_ok (h 0 1), load4_ok (h 0 2), load4_ok (h 0 3), load4_ok (h 1 0), load4_ok (h 1 1), load4_ok (h 1 2), load4_ok (h 1 3)]
    refine ⟨_, rfl, ?_⟩
    cases_rfl

theorem load_16x16_tr_p : LoadsPairs2 (α := α) 16 V16Avx512.load_16x16_tr_p := by
  intro m p
  have hb : ∀ q l, p q l % 16 ≠ 0 → V16Avx512.load_16x16_tr_p m p = none := by
    refine_rows (skip_bind V16Avx512.load_16x16_tr_p load4_bad)
  refine ⟨fun h => ?_, fun ⟨q, l, h⟩ => hb q l h⟩
  · unfold V16Avx512.load_16x16_tr_p
    rw [load4_ok (h 0 0), load4_ok (h 0 1), load4_ok (h 0 2), load4_ok (h 0 3), load4_ok (h 1 0), load4_ok (h 1 1), load4_ok (h 1 2), load4_ok (h 1 3),
      load4_ok (h 2 0), load4_ok (h 2 1), load4_ok (h 2 2), load4_ok (h 2 3), load4_ok (h 3 0), load4_ok (h 3 1), load4_ok (h 3 2), load4_ok (h 3 3)]
    refine ⟨_, rfl, ?_, ?_⟩
    · cases_rfl
    · cases_rfl

theorem store_16x1_tr : StoresTr (α := α) 1 (fun m v p => some (V16Avx512.store_16x1_tr m v p)) :=
  storesTr_of (order 4 1) mem_order (fun _ _ _ _ => by kernel_rfl) fun _ _ _ _ _ h => absurd (Nat.mod_one _) h

theorem store_16x2_tr : StoresTr (α := α) 1 (fun m v p => some (V16Avx512.store_16x2_tr m v p)) :=
  storesTr_of (order 4 2) mem_order (fun _ _ _ _ => by kernel_rfl) fun _ _ _ _ _ h => absurd (Nat.mod_one _) h

theorem store_16x3_tr : StoresTr (α := α) 1 (fun m v p => some (V16Avx512.store_16x3_tr m v p)) :=
  storesTr_of (order 4 3) mem_order (fun _ _ _ _ => by kernel_rfl) fun _ _ _ _ _ h => absurd (Nat.mod_one _) h

theorem store_16x4_tr : StoresTr (α := α) 1 (fun m v p => some (V16Avx512.store_16x4_tr m v p)) :=
  storesTr_of (order 4 4) mem_order (fun _ _ _ _ => by kernel_rfl) fun _ _ _ _ _ h => absurd (Nat.mod_one _) h

theorem store_16x8_tr : StoresTr (α := α) 1 (fun m v p => some (V16Avx512.store_16x8_tr m v p)) :=
  storesTr_of (order 4 8) mem_order (fun _ _ _ _ => by kernel_rfl) fun _ _ _ _ _ h => absurd (Nat.mod_one _) h

theorem store_16x16_tr : StoresTr (α := α) 16 V16Avx512.store_16x16_tr := by
  refine storesTr_of (order 4 16) mem_order (fun m v p h => ?_) (fun m v p => ?_)
  · unfold V16Avx512.store_16x16_tr
    refine (store4_bind (h 0 0)).trans ?_
    refine (store4_bind (h 0 1)).trans ?_
    refine (store4_bind (h 0 2)).trans ?_
    refine (store4_bind (h 0 3)).trans ?_
    refine (store4_bind (h 1 0)).trans ?_
    refine (store4_bind (h 1 1)).trans ?_
    refine (store4_bind (h 1 2)).trans ?_
    refine (store4_bind (h 1 3)).trans ?_
    refine (store4_bind (h 2 0)).trans ?_
    refine (store4_bind (h 2 1)).trans ?_
    refine (store4_bind (h 2 2)).trans ?_
    refine (store4_bind (h 2 3)).trans ?_
    refine (store4_bind (h 3 0)).trans ?_
    refine (store4_bind (h 3 1)).trans ?_
    refine (store4_bind (h 3 2)).trans ?_
    refine (store4_ok (h 3 3)).trans ?_
    kernel_rfl
  · refine_rows (skip_bind V16Avx512.store_16x16_tr store4_bad)

theorem store_16x8_tr_p : StoresPairs (α := α) 16 V16Avx512.store_16x8_tr_p := by
  refine storesPairs_of (fun m v p h => ?_) (fun m v p => ?_)
  · unfold V16Avx512.store_16x8_tr_p
    refine (store4_bind (h 0 0)).trans ?_
    refine (store4_bind (h 0 1)).trans ?_
    refine (store4_bind (h 0 2)).trans ?_
    refine (store4_bind (h 0 3)).trans ?_
    refine (store4_bind (h 1 0)).trans ?_
    refine (store4_bind (h 1 1)).trans ?_
    refine (store4_bind (h 1 2)).trans ?_
    refine (store4_ok (h 1 3)).trans ?_
    kernel_rfl
  · refine_rows (skip_bind V16Avx512.store_16x8_tr_p store4_bad)

theorem store_16x16_tr_p : StoresPairs2 (α := α) 16 V16Avx512.store_16x16_tr_p := by
  refine storesPairs2_of (fun m v p h => ?_) (fun m v p => ?_)
  · unfold V16Avx512.store_16x16_tr_p
    refine (store4_bind (h 0 0)).trans ?_
    refine (store4_bind (h 0 1)).trans ?_
    refine (store4_bind (h 0 2)).trans ?_
    refine (store4_bind (h 0 3)).trans ?_
    refine (store4_bind (h 1 0)).trans ?_
    refine (store4_bind (h 1 1)).trans ?_
    refine (store4_bind (h 1 2)).trans ?_
    refine (store4_bind (h 1 3)).trans ?_
    refine (store4_bind (h 2 0)).trans ?_
    refine (store4_bind (h 2 1)).trans ?_
    refine (store4_bind (h 2 2)).trans ?_
    refine (store4_bind (h 2 3)).trans ?_
    refine (store4_bind (h 3 0)).trans ?_
    refine (store4_bind (h 3 1)).trans ?_
    refine (store4_bind (h 3 2)).trans ?_
    refine (store4_ok (h 3 3)).trans ?_
    kernel_rfl
  · refine_rows (skip_bind V16Avx512.store_16x16_tr_p store4_bad)

end Verif.Vector.FactsV16Avx512
