import Verif.Vector.V8Portable
import Verif.Vector.Lemmas

/-! The functions of `Verif/Vector/V8Portable.lean` do what they shall; written by `tools/gen_vector_facts.py`. -/
namespace Verif.Vector.FactsV8Portable

variable {α : Type}

theorem swap : Exchanges (α := α) V8Portable.swap := fun v => ⟨by cells_rfl, by cells_rfl⟩

theorem transpose : Transposes (α := α) (n := 2) V8Portable.transpose := by
  intro v
  cases_rfl

theorem load_8x1 : Loads (α := α) 1 (fun m p => some (V8Portable.load_8x1 m p)) := by
  intro m p
  refine ⟨fun _ => ⟨_, rfl, ?_⟩, fun h => absurd (Nat.mod_one _) h⟩
  cases_rfl

theorem store_8x1 : Stores (α := α) 1 (fun m v p => some (V8Portable.store_8x1 m v p)) :=
  stores_of (fun _ _ _ _ => by kernel_rfl) fun _ _ _ h => absurd (Nat.mod_one _) h

theorem stream_8x1 : Stores (α := α) 1 (fun m v p => some (V8Portable.stream_8x1 m v p)) :=
  stores_of (fun _ _ _ _ => by kernel_rfl) fun _ _ _ h => absurd (Nat.mod_one _) h

theorem clear_8x1 [Zero α] : Clears (α := α) 2 1 (fun m p => some (V8Portable.clear_8x1 m p)) :=
  clears_of (fun _ _ _ => by kernel_rfl) fun _ _ h => absurd (Nat.mod_one _) h

theorem copy_8x1 : Copies (α := α) 2 1 (fun m a b => some (V8Portable.copy_8x1 m a b)) := copies_of_words fun _ _ _ => by kernel_rfl

theorem swap_8x1 : Swaps (α := α) 2 1 (fun m a b => some (V8Portable.swap_8x1 m a b)) := swaps_of_words fun _ _ _ => by kernel_rfl

theorem load_8x1_tr : LoadsTr (α := α) 1 (fun m p => some (fun _ : Fin 1 => V8Portable.load_8x1_tr m p)) := by
  intro m p
  refine ⟨fun _ => ⟨_, rfl, ?_⟩, fun ⟨q, l, h⟩ => absurd (Nat.mod_one _) h⟩
  cases_rfl

theorem load_8x2_tr : LoadsTr (α := α) 1 (fun m p => some (V8Portable.load_8x2_tr m p)) := by
  intro m p
  refine ⟨fun _ => ⟨_, rfl, ?_⟩, fun ⟨q, l, h⟩ => absurd (Nat.mod_one _) h⟩
  cases_rfl

theorem load_8x3_tr : LoadsTr (α := α) 1 (fun m p => some (V8Portable.load_8x3_tr m p)) := by
  intro m p
  refine ⟨fun _ => ⟨_, rfl, ?_⟩, fun ⟨q, l, h⟩ => absurd (Nat.mod_one _) h⟩
  cases_rfl

theorem load_8x4_tr : LoadsTr (α := α) 1 (fun m p => some (V8Portable.load_8x4_tr m p)) := by
  intro m p
  refine ⟨fun _ => ⟨_, rfl, ?_⟩, fun ⟨q, l, h⟩ => absurd (Nat.mod_one _) h⟩
  cases_rfl

theorem load_8x8_tr : LoadsTr (α := α) 1 (fun m p => some (V8Portable.load_8x8_tr m p)) := by
  intro m p
  refine ⟨fun _ => ⟨_, rfl, ?_⟩, fun ⟨q, l, h⟩ => absurd (Nat.mod_one _) h⟩
  cases_rfl

theorem store_8x1_tr : StoresTr (α := α) 1 (fun m v p => some (V8Portable.store_8x1_tr m v p)) :=
  storesTr_of (order 2 1) mem_order (fun _ _ _ _ => by kernel_rfl) fun _ _ _ _ _ h => absurd (Nat.mod_one _) h

theorem store_8x2_tr : StoresTr (α := α) 1 (fun m v p => some (V8Portable.store_8x2_tr m v p)) :=
  storesTr_of (order 2 2) mem_order (fun _ _ _ _ => by kernel_rfl) fun _ _ _ _ _ h => absurd (Nat.mod_one _) h

theorem store_8x3_tr : StoresTr (α := α) 1 (fun m v p => some (V8Portable.store_8x3_tr m v p)) :=
  storesTr_of (order 2 3) mem_order (fun _ _ _ _ => by kernel_rfl) fun _ _ _ _ _ h => absurd (Nat.mod_one _) h

theorem store_8x4_tr : StoresTr (α := α) 1 (fun m v p => some (V8Portable.store_8x4_tr m v p)) :=
  storesTr_of (order 2 4) mem_order (fun _ _ _ _ => by kernel_rfl) fun _ _ _ _ _ h => absurd (Nat.mod_one _) h

theorem store_8x8_tr : StoresTr (α := α) 1 (fun m v p => some (V8Portable.store_8x8_tr m v p)) :=
  storesTr_of (order 2 8) mem_order (fun _ _ _ _ => by kernel_rfl) fun _ _ _ _ _ h => absurd (Nat.mod_one _) h

end Verif.Vector.FactsV8Portable
