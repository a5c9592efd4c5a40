import Verif.Vector.V16Portable
import Verif.Vector.Lemmas

/-! The functions of `Verif/Vector/V16Portable.lean` do what they shall; written by `tools/gen_vector_facts.py`. -/
namespace Verif.Vector.FactsV16Portable

variable {α : Type}

theorem swap : Exchanges (α := α) V16Portable.swap := fun v => ⟨by cells_rfl, by cells_rfl⟩

theorem transpose : Transposes (α := α) (n := 4) V16Portable.transpose := by
  intro v
  cases_rfl

theorem load_16x1 : Loads (α := α) 1 (fun m p => some (V16Portable.load_16x1 m p)) := by
  intro m p
  refine ⟨fun _ => ⟨_, rfl, ?_⟩, fun h => absurd (Nat.mod_one _) h⟩
  cases_rfl

theorem store_16x1 : Stores (α := α) 1 (fun m v p => some (V16Portable.store_16x1 m v p)) :=
  stores_of (fun _ _ _ _ => by kernel_rfl) fun _ _ _ h => absurd (Nat.mod_one _) h

theorem stream_16x1 : Stores (α := α) 1 (fun m v p => some (V16Portable.stream_16x1 m v p)) :=
  stores_of (fun _ _ _ _ => by kernel_rfl) fun _ _ _ h => absurd (Nat.mod_one _) h

theorem clear_16x1 [Zero α] : Clears (α := α) 4 1 (fun m p => some (V16Portable.clear_16x1 m p)) :=
  clears_of (fun _ _ _ => by kernel_rfl) fun _ _ h => absurd (Nat.mod_one _) h

theorem copy_16x1 : Copies (α := α) 4 1 (fun m a b => some (V16Portable.copy_16x1 m a b)) := copies_of_words fun _ _ _ => by kernel_rfl

theorem swap_16x1 : Swaps (α := α) 4 1 (fun m a b => some (V16Portable.swap_16x1 m a b)) := swaps_of_words fun _ _ _ => by kernel_rfl

theorem load_16x1_tr : LoadsTr (α := α) 1 (fun m p => some (fun _ : Fin 1 => V16Portable.load_16x1_tr m p)) := by
  intro m p
  refine ⟨fun _ => ⟨_, rfl, ?_⟩, fun ⟨q, l, h⟩ => absurd (Nat.mod_one _) h⟩
  cases_rfl

theorem load_16x2_tr : LoadsTr (α := α) 1 (fun m p => some (V16Portable.load_16x2_tr m p)) := by
  intro m p
  refine ⟨fun _ => ⟨_, rfl, ?_⟩, fun ⟨q, l, h⟩ => absurd (Nat.mod_one _) h⟩
  cases_rfl

theorem load_16x3_tr : LoadsTr (α := α) 1 (fun m p => some (V16Portable.load_16x3_tr m p)) := by
  intro m p
  refine ⟨fun _ => ⟨_, rfl, ?_⟩, fun ⟨q, l, h⟩ => absurd (Nat.mod_one _) h⟩
  cases_rfl

theorem load_16x4_tr : LoadsTr (α := α) 1 (fun m p => some (V16Portable.load_16x4_tr m p)) := by
  intro m p
  refine ⟨fun _ => ⟨_, rfl, ?_⟩, fun ⟨q, l, h⟩ => absurd (Nat.mod_one _) h⟩
  cases_rfl

theorem load_16x8_tr : LoadsTr (α := α) 1 (fun m p => some (V16Portable.load_16x8_tr m p)) := by
  intro m p
  refine ⟨fun _ => ⟨_, rfl, ?_⟩, fun ⟨q, l, h⟩ => absurd (Nat.mod_one _) h⟩
  cases_rfl

theorem load_16x16_tr : LoadsTr (α := α) 1 (fun m p => some (V16Portable.load_16x16_tr m p)) := by
  intro m p
  refine ⟨fun _ => ⟨_, rfl, ?_⟩, fun ⟨q, l, h⟩ => absurd (Nat.mod_one _) h⟩
  cases_rfl

theorem load_16x8_tr_p : LoadsPairs (α := α) 1 (fun m p => some (V16Portable.load_16x8_tr_p m p)) := by
  intro m p
  refine ⟨fun _ => ⟨_, rfl, ?_⟩, fun ⟨q, l, h⟩ => absurd (Nat.mod_one _) h⟩
  cases_rfl

theorem load_16x16_tr_p : LoadsPairs2 (α := α) 1 (fun m p => some (V16Portable.load_16x16_tr_p m p)) := by
  intro m p
  refine ⟨fun _ => ⟨_, rfl, ?_, ?_⟩, fun ⟨q, l, h⟩ => absurd (Nat.mod_one _) h⟩
  · cases_rfl
  · cases_rfl

theorem store_16x1_tr : StoresTr (α := α) 1 (fun m v p => some (V16Portable.store_16x1_tr m v p)) :=
  storesTr_of (order 4 1) mem_order (fun _ _ _ _ => by kernel_rfl) fun _ _ _ _ _ h => absurd (Nat.mod_one _) h

theorem store_16x2_tr : StoresTr (α := α) 1 (fun m v p => some (V16Portable.store_16x2_tr m v p)) :=
  storesTr_of (order 4 2) mem_order (fun _ _ _ _ => by kernel_rfl) fun _ _ _ _ _ h => absurd (Nat.mod_one _) h

theorem store_16x3_tr : StoresTr (α := α) 1 (fun m v p => some (V16Portable.store_16x3_tr m v p)) :=
  storesTr_of (order 4 3) mem_order (fun _ _ _ _ => by kernel_rfl) fun _ _ _ _ _ h => absurd (Nat.mod_one _) h

theorem store_16x4_tr : StoresTr (α := α) 1 (fun m v p => some (V16Portable.store_16x4_tr m v p)) :=
  storesTr_of (order 4 4) mem_order (fun _ _ _ _ => by kernel_rfl) fun _ _ _ _ _ h => absurd (Nat.mod_one _) h

theorem store_16x8_tr : StoresTr (α := α) 1 (fun m v p => some (V16Portable.store_16x8_tr m v p)) :=
  storesTr_of (order 4 8) mem_order (fun _ _ _ _ => by kernel_rfl) fun _ _ _ _ _ h => absurd (Nat.mod_one _) h

theorem store_16x16_tr : StoresTr (α := α) 1 (fun m v p => some (V16Portable.store_16x16_tr m v p)) :=
  storesTr_of (order 4 16) mem_order (fun _ _ _ _ => by kernel_rfl) fun _ _ _ _ _ h => absurd (Nat.mod_one _) h

theorem store_16x8_tr_p : StoresPairs (α := α) 1 (fun m v p => some (V16Portable.store_16x8_tr_p m v p)) :=
  storesPairs_of (fun _ _ _ _ => by kernel_rfl) fun _ _ _ _ _ h => absurd (Nat.mod_one _) h

theorem store_16x16_tr_p : StoresPairs2 (α := α) 1 (fun m v p => some (V16Portable.store_16x16_tr_p m v p)) :=
  storesPairs2_of (fun _ _ _ _ => by kernel_rfl) fun _ _ _ _ _ h => absurd (Nat.mod_one _) h

end Verif.Vector.FactsV16Portable
