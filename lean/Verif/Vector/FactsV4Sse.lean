import Verif.Vector.V4Sse
import Verif.Vector.Lemmas

/-! The functions of `Verif/Vector/V4Sse.lean` do what they shall; written by `tools/gen_vector_facts.py`. -/
namespace Verif.Vector.FactsV4Sse

variable {α : Type}

theorem swap : Exchanges (α := α) V4Sse.swap := fun v => ⟨by cells_rfl, by cells_rfl⟩

theorem transpose : Transposes (α := α) (n := 1) V4Sse.transpose := by
  intro v
  cases_rfl

theorem load_4x1 : Loads (α := α) 4 V4Sse.load_4x1 := by
  intro m p
  refine ⟨fun h => ?_, fun h => ?_⟩
  · unfold V4Sse.load_4x1
    rw [load1_ok h]
    refine ⟨_, rfl, ?_⟩
    cases_rfl
  · exact bind_bad (load1_bad h)

theorem store_4x1 : Stores (α := α) 4 V4Sse.store_4x1 :=
  stores_of (fun _ _ _ h => (store1_ok h).trans rfl) fun _ _ _ h => store1_bad h

theorem stream_4x1 : Stores (α := α) 4 V4Sse.stream_4x1 :=
  stores_of (fun _ _ _ h => (store1_ok h).trans rfl) fun _ _ _ h => store1_bad h

theorem clear_4x1 [Zero α] : Clears (α := α) 1 4 V4Sse.clear_4x1 :=
  clears_of (fun _ _ h => (store1_ok h).trans rfl) fun _ _ h => store1_bad h

theorem copy_4x1 : Copies (α := α) 1 4 V4Sse.copy_4x1 := copies_of_1 fun _ _ _ => rfl

theorem swap_4x1 : Swaps (α := α) 1 4 V4Sse.swap_4x1 := swaps_of_1 fun _ _ _ => rfl

theorem load_4x1_tr : LoadsTr (α := α) 1 (fun m p => some (fun _ : Fin 1 => V4Sse.load_4x1_tr m p)) := by
  intro m p
  refine ⟨fun _ => ⟨_, rfl, ?_⟩, fun ⟨q, l, h⟩ => absurd (Nat.mod_one _) h⟩
  cases_rfl

theorem load_4x2_tr [Zero α] : LoadsTr (α := α) 1 (fun m p => some (V4Sse.load_4x2_tr m p)) := by
  intro m p
  refine ⟨fun _ => ⟨_, rfl, ?_⟩, fun ⟨q, l, h⟩ => absurd (Nat.mod_one _) h⟩
  cases_rfl

theorem load_4x3_tr : LoadsTr (α := α) 4 V4Sse.load_4x3_tr := by
  intro m p
  have hb : ∀ q l, p q l % 4 ≠ 0 → V4Sse.load_4x3_tr m p = none := by
    refine_rows (skip_bind V4Sse.load_4x3_tr load1_bad)
  refine ⟨fun h => ?_, fun ⟨q, l, h⟩ => hb q l h⟩
  · unfold V4Sse.load_4x3_tr
    rw [load1_ok (h 0 0), load1_ok (h 0 1), load1_ok (h 0 2), load1_ok (h 0 3)]
    refine ⟨_, rfl, ?_⟩
    cases_rfl

theorem load_4x4_tr : LoadsTr (α := α) 4 V4Sse.load_4x4_tr := by
  intro m p
  have hb : ∀ q l, p q l % 4 ≠ 0 → V4Sse.load_4x4_tr m p = none := by
    refine_rows (skip_bind V4Sse.load_4x4_tr load1_bad)
  refine ⟨fun h => ?_, fun ⟨q, l, h⟩ => hb q l h⟩
  · unfold V4Sse.load_4x4_tr
    rw [load1_ok (h 0 0), load1_ok (h 0 1), load1_ok (h 0 2), load1_ok (h 0 3)]
    refine ⟨_, rfl, ?_⟩
    cases_rfl

theorem store_4x1_tr : StoresTr (α := α) 1 (fun m v p => some (V4Sse.store_4x1_tr m v p)) :=
  storesTr_of (order 1 1) mem_order (fun _ _ _ _ => by kernel_rfl) fun _ _ _ _ _ h => absurd (Nat.mod_one _) h

theorem store_4x2_tr : StoresTr (α := α) 1 (fun m v p => some (V4Sse.store_4x2_tr m v p)) :=
  storesTr_of (order 1 2) mem_order (fun _ _ _ _ => by kernel_rfl) fun _ _ _ _ _ h => absurd (Nat.mod_one _) h

theorem store_4x3_tr : StoresTr (α := α) 1 (fun m v p => some (V4Sse.store_4x3_tr m v p)) :=
  storesTr_of (order3 1) mem_order3 (fun _ _ _ _ => by kernel_rfl) fun _ _ _ _ _ h => absurd (Nat.mod_one _) h

theorem store_4x4_tr : StoresTr (α := α) 4 V4Sse.store_4x4_tr := by
  refine storesTr_of (order 1 4) mem_order (fun m v p h => ?_) (fun m v p => ?_)
  · unfold V4Sse.store_4x4_tr
    refine (store1_bind (h 0 0)).trans ?_
    refine (store1_bind (h 0 1)).trans ?_
    refine (store1_bind (h 0 2)).trans ?_
    refine (store1_ok (h 0 3)).trans ?_
    kernel_rfl
  · refine_rows (skip_bind V4Sse.store_4x4_tr store1_bad)

end Verif.Vector.FactsV4Sse
