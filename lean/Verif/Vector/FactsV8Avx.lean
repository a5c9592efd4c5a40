import Verif.Vector.V8Avx
import Verif.Vector.Lemmas

/-! The functions of `Verif/Vector/V8Avx.lean` do what they shall; written by `tools/gen_vector_facts.py`. -/
namespace Verif.Vector.FactsV8Avx

variable {α : Type}

theorem swap : Exchanges (α := α) V8Avx.swap := fun v => ⟨by cells_rfl, by cells_rfl⟩

theorem transpose [Zero α] : Transposes (α := α) (n := 2) V8Avx.transpose := by
  intro v
  cases_rfl

theorem load_8x1 : Loads (α := α) 1 (fun m p => some (V8Avx.load_8x1 m p)) := by
  intro m p
  refine ⟨fun _ => ⟨_, rfl, ?_⟩, fun h => absurd (Nat.mod_one _) h⟩
  cases_rfl

theorem store_8x1 : Stores (α := α) 1 (fun m v p => some (V8Avx.store_8x1 m v p)) :=
  stores_of (fun _ _ _ _ => by kernel_rfl) fun _ _ _ h => absurd (Nat.mod_one _) h

theorem stream_8x1 : Stores (α := α) 1 (fun m v p => some (V8Avx.stream_8x1 m v p)) :=
  stores_of (fun _ _ _ _ => by kernel_rfl) fun _ _ _ h => absurd (Nat.mod_one _) h

theorem clear_8x1 [Zero α] : Clears (α := α) 2 1 (fun m p => some (V8Avx.clear_8x1 m p)) :=
  clears_of (fun _ _ _ => by kernel_rfl) fun _ _ h => absurd (Nat.mod_one _) h

theorem copy_8x1 : Copies (α := α) 2 1 (fun m a b => some (V8Avx.copy_8x1 m a b)) := copies_of_words fun _ _ _ => by kernel_rfl

theorem swap_8x1 : Swaps (α := α) 2 1 (fun m a b => some (V8Avx.swap_8x1 m a b)) := swaps_of_words fun _ _ _ => by kernel_rfl

theorem load_8x1_tr : LoadsTr (α := α) 1 (fun m p => some (fun _ : Fin 1 => V8Avx.load_8x1_tr m p)) := by
  intro m p
  refine ⟨fun _ => ⟨_, rfl, ?_⟩, fun ⟨q, l, h⟩ => absurd (Nat.mod_one _) h⟩
  cases_rfl

theorem load_8x2_tr [Zero α] : LoadsTr (α := α) 1 (fun m p => some (V8Avx.load_8x2_tr m p)) := by
  intro m p
  refine ⟨fun _ => ⟨_, rfl, ?_⟩, fun ⟨q, l, h⟩ => absurd (Nat.mod_one _) h⟩
  cases_rfl

theorem load_8x3_tr : LoadsTr (α := α) 1 (fun m p => some (V8Avx.load_8x3_tr m p)) := by
  intro m p
  refine ⟨fun _ => ⟨_, rfl, ?_⟩, fun ⟨q, l, h⟩ => absurd (Nat.mod_one _) h⟩
  cases_rfl

theorem load_8x4_tr : LoadsTr (α := α) 4 V8Avx.load_8x4_tr := by
  intro m p
  have hb : ∀ q l, p q l % 4 ≠ 0 → V8Avx.load_8x4_tr m p = none := by
    refine_rows (skip_bind V8Avx.load_8x4_tr load1_bad)
  refine ⟨fun h => ?_, fun ⟨q, l, h⟩ => hb q l h⟩
  · unfold V8Avx.load_8x4_tr
    rw [load1_ok (h 0 0), load1_ok (h 0 1), load1_ok (h 0 2), load1_ok (h 0 3), load1_ok (h 1 0), load1_ok (h 1 1), load1_ok (h 1 2), load1_ok (h 1 3)]
    refine ⟨_, rfl, ?_⟩
    cases_rfl

theorem load_8x8_tr [Zero α] : LoadsTr (α := α) 8 V8Avx.load_8x8_tr := by
  intro m p
  have hb : ∀ q l, p q l % 8 ≠ 0 → V8Avx.load_8x8_tr m p = none := by
    refine_rows (skip_bind V8Avx.load_8x8_tr load2_bad)
  refine ⟨fun h => ?_, fun ⟨q, l, h⟩ => hb q l h⟩
  · unfold V8Avx.load_8x8_tr
    rw [load2_ok (h 0 0), load2_ok (h 0 1), load2_ok (h 0 2), load2_ok (h 0 3), load2_ok (h 1 0), load2_ok (h 1 1), load2_ok (h 1 2), load2_ok (h 1 3)]
    refine ⟨_, rfl, ?_⟩
    cases_rfl

theorem store_8x1_tr : StoresTr (α := α) 1 (fun m v p => some (V8Avx.store_8x1_tr m v p)) :=
  storesTr_of (order 2 1) mem_order (fun _ _ _ _ => by kernel_rfl) fun _ _ _ _ _ h => absurd (Nat.mod_one _) h

theorem store_8x2_tr : StoresTr (α := α) 1 (fun m v p => some (V8Avx.store_8x2_tr m v p)) :=
  storesTr_of (order 2 2) mem_order (fun _ _ _ _ => by kernel_rfl) fun _ _ _ _ _ h => absurd (Nat.mod_one _) h

theorem store_8x3_tr : StoresTr (α := α) 1 (fun m v p => some (V8Avx.store_8x3_tr m v p)) :=
  storesTr_of (order 2 3) mem_order (fun _ _ _ _ => by kernel_rfl) fun _ _ _ _ _ h => absurd (Nat.mod_one _) h

theorem store_8x4_tr : StoresTr (α := α) 4 V8Avx.store_8x4_tr := by
  refine storesTr_of (order 2 4) mem_order (fun m v p h => ?_) (fun m v p => ?_)
  · unfold V8Avx.store_8x4_tr
    refine (store1_bind (h 0 0)).trans ?_
    refine (store1_bind (h 0 1)).trans ?_
    refine (store1_bind (h 0 2)).trans ?_
    refine (store1_bind (h 0 3)).trans ?_
    refine (store1_bind (h 1 0)).trans ?_
    refine (store1_bind (h 1 1)).trans ?_
    refine (store1_bind (h 1 2)).trans ?_
    refine (store1_ok (h 1 3)).trans ?_
    kernel_rfl
  · refine_rows (skip_bind V8Avx.store_8x4_tr store1_bad)

theorem store_8x8_tr [Zero α] : StoresTr (α := α) 8 V8Avx.store_8x8_tr := by
  refine storesTr_of (order 2 8) mem_order (fun m v p h => ?_) (fun m v p => ?_)
  · unfold V8Avx.store_8x8_tr
    refine (store2_bind (h 0 0)).trans ?_
    refine (store2_bind (h 0 1)).trans ?_
    refine (store2_bind (h 0 2)).trans ?_
    refine (store2_bind (h 0 3)).trans ?_
    refine (store2_bind (h 1 0)).trans ?_
    refine (store2_bind (h 1 1)).trans ?_
    refine (store2_bind (h 1 2)).trans ?_
    refine (store2_ok (h 1 3)).trans ?_
    kernel_rfl
  · refine_rows (skip_bind V8Avx.store_8x8_tr store2_bad)

end Verif.Vector.FactsV8Avx
