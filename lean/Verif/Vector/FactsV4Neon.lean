import Verif.Vector.V4Neon
import Verif.Vector.Lemmas

/-! The functions of `Verif/Vector/V4Neon.lean` do what they shall; written by `tools/gen_vector_facts.py`. -/
namespace Verif.Vector.FactsV4Neon

variable {α : Type}

theorem swap : Exchanges (α := α) V4Neon.swap := fun v => ⟨by cells_rfl, by cells_rfl⟩

theorem transpose : Transposes (α := α) (n := 1) V4Neon.transpose := by
  intro v
  cases_rfl

theorem load_4x1 : Loads (α := α) 1 (fun m p => some (V4Neon.load_4x1 m p)) := by
  intro m p
  refine ⟨fun _ => ⟨_, rfl, ?_⟩, fun h => absurd (Nat.mod_one _) h⟩
  cases_rfl

theorem store_4x1 : Stores (α := α) 1 (fun m v p => some (V4Neon.store_4x1 m v p)) :=
  stores_of (fun _ _ _ _ => by kernel_rfl) fun _ _ _ h => absurd (Nat.mod_one _) h

theorem stream_4x1 : Stores (α := α) 1 (fun m v p => some (V4Neon.stream_4x1 m v p)) :=
  stores_of (fun _ _ _ _ => by kernel_rfl) fun _ _ _ h => absurd (Nat.mod_one _) h

theorem clear_4x1 [Zero α] : Clears (α := α) 1 1 (fun m p => some (V4Neon.clear_4x1 m p)) :=
  clears_of (fun _ _ _ => by kernel_rfl) fun _ _ h => absurd (Nat.mod_one _) h

theorem copy_4x1 : Copies (α := α) 1 1 (fun m a b => some (V4Neon.copy_4x1 m a b)) := copies_of_quad fun _ _ _ => rfl

theorem swap_4x1 : Swaps (α := α) 1 1 (fun m a b => some (V4Neon.swap_4x1 m a b)) := swaps_of_quad fun _ _ _ => rfl

theorem load_4x1_tr : LoadsTr (α := α) 1 (fun m p => some (fun _ : Fin 1 => V4Neon.load_4x1_tr m p)) := by
  intro m p
  refine ⟨fun _ => ⟨_, rfl, ?_⟩, fun ⟨q, l, h⟩ => absurd (Nat.mod_one _) h⟩
  cases_rfl

theorem load_4x2_tr : LoadsTr (α := α) 1 (fun m p => some (V4Neon.load_4x2_tr m p)) := by
  intro m p
  refine ⟨fun _ => ⟨_, rfl, ?_⟩, fun ⟨q, l, h⟩ => absurd (Nat.mod_one _) h⟩
  cases_rfl

theorem load_4x3_tr : LoadsTr (α := α) 1 (fun m p => some (V4Neon.load_4x3_tr m p)) := by
  intro m p
  refine ⟨fun _ => ⟨_, rfl, ?_⟩, fun ⟨q, l, h⟩ => absurd (Nat.mod_one _) h⟩
  cases_rfl

theorem load_4x4_tr : LoadsTr (α := α) 1 (fun m p => some (V4Neon.load_4x4_tr m p)) := by
  intro m p
  refine ⟨fun _ => ⟨_, rfl, ?_⟩, fun ⟨q, l, h⟩ => absurd (Nat.mod_one _) h⟩
  cases_rfl

theorem load_4x16_tr : LoadsTr (α := α) 1 (fun m p => some (V4Neon.load_4x16_tr m p)) := by
  intro m p
  refine ⟨fun _ => ⟨_, rfl, ?_⟩, fun ⟨q, l, h⟩ => absurd (Nat.mod_one _) h⟩
  cases_rfl

theorem store_4x1_tr : StoresTr (α := α) 1 (fun m v p => some (V4Neon.store_4x1_tr m v p)) :=
  storesTr_of (order 1 1) mem_order (fun _ _ _ _ => by kernel_rfl) fun _ _ _ _ _ h => absurd (Nat.mod_one _) h

theorem store_4x2_tr : StoresTr (α := α) 1 (fun m v p => some (V4Neon.store_4x2_tr m v p)) :=
  storesTr_of (order 1 2) mem_order (fun _ _ _ _ => by kernel_rfl) fun _ _ _ _ _ h => absurd (Nat.mod_one _) h

theorem store_4x3_tr : StoresTr (α := α) 1 (fun m v p => some (V4Neon.store_4x3_tr m v p)) :=
  storesTr_of (order 1 3) mem_order (fun _ _ _ _ => by kernel_rfl) fun _ _ _ _ _ h => absurd (Nat.mod_one _) h

theorem store_4x4_tr : StoresTr (α := α) 1 (fun m v p => some (V4Neon.store_4x4_tr m v p)) :=
  storesTr_of (order 1 4) mem_order (fun _ _ _ _ => by kernel_rfl) fun _ _ _ _ _ h => absurd (Nat.mod_one _) h

end Verif.Vector.FactsV4Neon
