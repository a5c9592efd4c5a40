import Verif.Vector.FactsV4Portable
import Verif.Vector.FactsV4Sse
import Verif.Vector.FactsV4Avx
import Verif.Vector.FactsV4Avx2
import Verif.Vector.FactsV4Neon
import Verif.Vector.FactsV8Portable
import Verif.Vector.FactsV8Avx
import Verif.Vector.FactsV8Avx2
import Verif.Vector.FactsV16Portable
import Verif.Vector.FactsV16Avx512

/-! # C114: the implementations of the vector classes move the same words

The transcribed functions are in the modules `V4Portable` to `V16Avx512`, what they shall do in `Verif/Vector/Spec.lean`. The number after the name of the
specification is the alignment in words that a function needs. -/
namespace Verif.Vector

variable {α : Type}

/-- Every function that loads columns of rows into vectors of 4 words loads the words it shall, whatever the instructions. -/
theorem loads_4 [Zero α] :
    LoadsTr (α := α) 1 (fun m p => some (fun _ : Fin 1 => V4Portable.load_4x1_tr m p)) ∧
    LoadsTr (α := α) 1 (fun m p => some (V4Portable.load_4x2_tr m p)) ∧
    LoadsTr (α := α) 1 (fun m p => some (V4Portable.load_4x3_tr m p)) ∧
    LoadsTr (α := α) 1 (fun m p => some (V4Portable.load_4x4_tr m p)) ∧
    LoadsTr (α := α) 1 (fun m p => some (fun _ : Fin 1 => V4Sse.load_4x1_tr m p)) ∧
    LoadsTr (α := α) 1 (fun m p => some (V4Sse.load_4x2_tr m p)) ∧
    LoadsTr (α := α) 4 V4Sse.load_4x3_tr ∧
    LoadsTr (α := α) 4 V4Sse.load_4x4_tr ∧
    LoadsTr (α := α) 1 (fun m p => some (fun _ : Fin 1 => V4Avx.load_4x1_tr m p)) ∧
    LoadsTr (α := α) 1 (fun m p => some (V4Avx.load_4x2_tr m p)) ∧
    LoadsTr (α := α) 4 V4Avx.load_4x3_tr ∧
    LoadsTr (α := α) 4 V4Avx.load_4x4_tr ∧
    LoadsTr (α := α) 1 (fun m p => some (fun _ : Fin 1 => V4Avx2.load_4x1_tr m p)) ∧
    LoadsTr (α := α) 1 (fun m p => some (V4Avx2.load_4x2_tr m p)) ∧
    LoadsTr (α := α) 4 V4Avx2.load_4x3_tr ∧
    LoadsTr (α := α) 4 V4Avx2.load_4x4_tr ∧
    LoadsTr (α := α) 1 (fun m p => some (fun _ : Fin 1 => V4Neon.load_4x1_tr m p)) ∧
    LoadsTr (α := α) 1 (fun m p => some (V4Neon.load_4x2_tr m p)) ∧
    LoadsTr (α := α) 1 (fun m p => some (V4Neon.load_4x3_tr m p)) ∧
    LoadsTr (α := α) 1 (fun m p => some (V4Neon.load_4x4_tr m p)) ∧
    LoadsTr (α := α) 1 (fun m p => some (V4Neon.load_4x16_tr m p)) :=
  ⟨FactsV4Portable.load_4x1_tr, FactsV4Portable.load_4x2_tr, FactsV4Portable.load_4x3_tr, FactsV4Portable.load_4x4_tr,
    FactsV4Sse.load_4x1_tr, FactsV4Sse.load_4x2_tr, FactsV4Sse.load_4x3_tr, FactsV4Sse.load_4x4_tr,
    FactsV4Avx.load_4x1_tr, FactsV4Avx.load_4x2_tr, FactsV4Avx.load_4x3_tr, FactsV4Avx.load_4x4_tr,
    FactsV4Avx2.load_4x1_tr, FactsV4Avx2.load_4x2_tr, FactsV4Avx2.load_4x3_tr, FactsV4Avx2.load_4x4_tr,
    FactsV4Neon.load_4x1_tr, FactsV4Neon.load_4x2_tr, FactsV4Neon.load_4x3_tr, FactsV4Neon.load_4x4_tr,
    FactsV4Neon.load_4x16_tr⟩

/-- Every function that stores vectors of 4 words as columns of rows stores each word in its place and nothing else. -/
theorem stores_4 [Zero α] :
    StoresTr (α := α) 1 (fun m v p => some (V4Portable.store_4x1_tr m v p)) ∧
    StoresTr (α := α) 1 (fun m v p => some (V4Portable.store_4x2_tr m v p)) ∧
    StoresTr (α := α) 1 (fun m v p => some (V4Portable.store_4x3_tr m v p)) ∧
    StoresTr (α := α) 1 (fun m v p => some (V4Portable.store_4x4_tr m v p)) ∧
    StoresTr (α := α) 1 (fun m v p => some (V4Sse.store_4x1_tr m v p)) ∧
    StoresTr (α := α) 1 (fun m v p => some (V4Sse.store_4x2_tr m v p)) ∧
    StoresTr (α := α) 1 (fun m v p => some (V4Sse.store_4x3_tr m v p)) ∧
    StoresTr (α := α) 4 V4Sse.store_4x4_tr ∧
    StoresTr (α := α) 1 (fun m v p => some (V4Avx.store_4x1_tr m v p)) ∧
    StoresTr (α := α) 1 (fun m v p => some (V4Avx.store_4x2_tr m v p)) ∧
    StoresTr (α := α) 1 (fun m v p => some (V4Avx.store_4x3_tr m v p)) ∧
    StoresTr (α := α) 4 V4Avx.store_4x4_tr ∧
    StoresTr (α := α) 1 (fun m v p => some (V4Avx2.store_4x1_tr m v p)) ∧
    StoresTr (α := α) 1 (fun m v p => some (V4Avx2.store_4x2_tr m v p)) ∧
    StoresTr (α := α) 1 (fun m v p => some (V4Avx2.store_4x3_tr m v p)) ∧
    StoresTr (α := α) 4 V4Avx2.store_4x4_tr ∧
    StoresTr (α := α) 1 (fun m v p => some (V4Neon.store_4x1_tr m v p)) ∧
    StoresTr (α := α) 1 (fun m v p => some (V4Neon.store_4x2_tr m v p)) ∧
    StoresTr (α := α) 1 (fun m v p => some (V4Neon.store_4x3_tr m v p)) ∧
    StoresTr (α := α) 1 (fun m v p => some (V4Neon.store_4x4_tr m v p)) :=
  ⟨FactsV4Portable.store_4x1_tr, FactsV4Portable.store_4x2_tr, FactsV4Portable.store_4x3_tr, FactsV4Portable.store_4x4_tr,
    FactsV4Sse.store_4x1_tr, FactsV4Sse.store_4x2_tr, FactsV4Sse.store_4x3_tr, FactsV4Sse.store_4x4_tr,
    FactsV4Avx.store_4x1_tr, FactsV4Avx.store_4x2_tr, FactsV4Avx.store_4x3_tr, FactsV4Avx.store_4x4_tr,
    FactsV4Avx2.store_4x1_tr, FactsV4Avx2.store_4x2_tr, FactsV4Avx2.store_4x3_tr, FactsV4Avx2.store_4x4_tr,
    FactsV4Neon.store_4x1_tr, FactsV4Neon.store_4x2_tr, FactsV4Neon.store_4x3_tr, FactsV4Neon.store_4x4_tr⟩

/-- The functions that move one vector of 4 words, exchange two, or transpose as many as there are words. -/
theorem moves_4 [Zero α] :
    Exchanges (α := α) V4Portable.swap ∧
    Transposes (α := α) (n := 1) V4Portable.transpose ∧
    Loads (α := α) 1 (fun m p => some (V4Portable.load_4x1 m p)) ∧
    Stores (α := α) 1 (fun m v p => some (V4Portable.store_4x1 m v p)) ∧
    Stores (α := α) 1 (fun m v p => some (V4Portable.stream_4x1 m v p)) ∧
    Clears (α := α) 1 1 (fun m p => some (V4Portable.clear_4x1 m p)) ∧
    Copies (α := α) 1 1 (fun m a b => some (V4Portable.copy_4x1 m a b)) ∧
    Swaps (α := α) 1 1 (fun m a b => some (V4Portable.swap_4x1 m a b)) ∧
    Exchanges (α := α) V4Sse.swap ∧
    Transposes (α := α) (n := 1) V4Sse.transpose ∧
    Loads (α := α) 4 V4Sse.load_4x1 ∧
    Stores (α := α) 4 V4Sse.store_4x1 ∧
    Stores (α := α) 4 V4Sse.stream_4x1 ∧
    Clears (α := α) 1 4 V4Sse.clear_4x1 ∧
    Copies (α := α) 1 4 V4Sse.copy_4x1 ∧
    Swaps (α := α) 1 4 V4Sse.swap_4x1 ∧
    Exchanges (α := α) V4Avx.swap ∧
    Transposes (α := α) (n := 1) V4Avx.transpose ∧
    Loads (α := α) 4 V4Avx.load_4x1 ∧
    Stores (α := α) 4 V4Avx.store_4x1 ∧
    Stores (α := α) 4 V4Avx.stream_4x1 ∧
    Clears (α := α) 1 4 V4Avx.clear_4x1 ∧
    Copies (α := α) 1 4 V4Avx.copy_4x1 ∧
    Swaps (α := α) 1 4 V4Avx.swap_4x1 ∧
    Exchanges (α := α) V4Avx2.swap ∧
    Transposes (α := α) (n := 1) V4Avx2.transpose ∧
    Loads (α := α) 4 V4Avx2.load_4x1 ∧
    Stores (α := α) 4 V4Avx2.store_4x1 ∧
    Stores (α := α) 4 V4Avx2.stream_4x1 ∧
    Clears (α := α) 1 4 V4Avx2.clear_4x1 ∧
    Copies (α := α) 1 4 V4Avx2.copy_4x1 ∧
    Swaps (α := α) 1 4 V4Avx2.swap_4x1 ∧
    Exchanges (α := α) V4Neon.swap ∧
    Transposes (α := α) (n := 1) V4Neon.transpose ∧
    Loads (α := α) 1 (fun m p => some (V4Neon.load_4x1 m p)) ∧
    Stores (α := α) 1 (fun m v p => some (V4Neon.store_4x1 m v p)) ∧
    Stores (α := α) 1 (fun m v p => some (V4Neon.stream_4x1 m v p)) ∧
    Clears (α := α) 1 1 (fun m p => some (V4Neon.clear_4x1 m p)) ∧
    Copies (α := α) 1 1 (fun m a b => some (V4Neon.copy_4x1 m a b)) ∧
    Swaps (α := α) 1 1 (fun m a b => some (V4Neon.swap_4x1 m a b)) :=
  ⟨FactsV4Portable.swap, FactsV4Portable.transpose, FactsV4Portable.load_4x1, FactsV4Portable.store_4x1,
    FactsV4Portable.stream_4x1, FactsV4Portable.clear_4x1, FactsV4Portable.copy_4x1, FactsV4Portable.swap_4x1,
    FactsV4Sse.swap, FactsV4Sse.transpose, FactsV4Sse.load_4x1, FactsV4Sse.store_4x1,
    FactsV4Sse.stream_4x1, FactsV4Sse.clear_4x1, FactsV4Sse.copy_4x1, FactsV4Sse.swap_4x1,
    FactsV4Avx.swap, FactsV4Avx.transpose, FactsV4Avx.load_4x1, FactsV4Avx.store_4x1,
    FactsV4Avx.stream_4x1, FactsV4Avx.clear_4x1, FactsV4Avx.copy_4x1, FactsV4Avx.swap_4x1,
    FactsV4Avx2.swap, FactsV4Avx2.transpose, FactsV4Avx2.load_4x1, FactsV4Avx2.store_4x1,
    FactsV4Avx2.stream_4x1, FactsV4Avx2.clear_4x1, FactsV4Avx2.copy_4x1, FactsV4Avx2.swap_4x1,
    FactsV4Neon.swap, FactsV4Neon.transpose, FactsV4Neon.load_4x1, FactsV4Neon.store_4x1,
    FactsV4Neon.stream_4x1, FactsV4Neon.clear_4x1, FactsV4Neon.copy_4x1, FactsV4Neon.swap_4x1⟩

/-- Every function that loads columns of rows into vectors of 8 words loads the words it shall, whatever the instructions. -/
theorem loads_8 [Zero α] :
    LoadsTr (α := α) 1 (fun m p => some (fun _ : Fin 1 => V8Portable.load_8x1_tr m p)) ∧
    LoadsTr (α := α) 1 (fun m p => some (V8Portable.load_8x2_tr m p)) ∧
    LoadsTr (α := α) 1 (fun m p => some (V8Portable.load_8x3_tr m p)) ∧
    LoadsTr (α := α) 1 (fun m p => some (V8Portable.load_8x4_tr m p)) ∧
    LoadsTr (α := α) 1 (fun m p => some (V8Portable.load_8x8_tr m p)) ∧
    LoadsTr (α := α) 1 (fun m p => some (fun _ : Fin 1 => V8Avx.load_8x1_tr m p)) ∧
    LoadsTr (α := α) 1 (fun m p => some (V8Avx.load_8x2_tr m p)) ∧
    LoadsTr (α := α) 1 (fun m p => some (V8Avx.load_8x3_tr m p)) ∧
    LoadsTr (α := α) 4 V8Avx.load_8x4_tr ∧
    LoadsTr (α := α) 8 V8Avx.load_8x8_tr ∧
    LoadsTr (α := α) 1 (fun m p => some (fun _ : Fin 1 => V8Avx2.load_8x1_tr m p)) ∧
    LoadsTr (α := α) 1 (fun m p => some (V8Avx2.load_8x2_tr m p)) ∧
    LoadsTr (α := α) 1 (fun m p => some (V8Avx2.load_8x3_tr m p)) ∧
    LoadsTr (α := α) 4 V8Avx2.load_8x4_tr ∧
    LoadsTr (α := α) 8 V8Avx2.load_8x8_tr :=
  ⟨FactsV8Portable.load_8x1_tr, FactsV8Portable.load_8x2_tr, FactsV8Portable.load_8x3_tr, FactsV8Portable.load_8x4_tr,
    FactsV8Portable.load_8x8_tr, FactsV8Avx.load_8x1_tr, FactsV8Avx.load_8x2_tr, FactsV8Avx.load_8x3_tr,
    FactsV8Avx.load_8x4_tr, FactsV8Avx.load_8x8_tr, FactsV8Avx2.load_8x1_tr, FactsV8Avx2.load_8x2_tr,
    FactsV8Avx2.load_8x3_tr, FactsV8Avx2.load_8x4_tr, FactsV8Avx2.load_8x8_tr⟩

/-- Every function that stores vectors of 8 words as columns of rows stores each word in its place and nothing else. -/
theorem stores_8 [Zero α] :
    StoresTr (α := α) 1 (fun m v p => some (V8Portable.store_8x1_tr m v p)) ∧
    StoresTr (α := α) 1 (fun m v p => some (V8Portable.store_8x2_tr m v p)) ∧
    StoresTr (α := α) 1 (fun m v p => some (V8Portable.store_8x3_tr m v p)) ∧
    StoresTr (α := α) 1 (fun m v p => some (V8Portable.store_8x4_tr m v p)) ∧
    StoresTr (α := α) 1 (fun m v p => some (V8Portable.store_8x8_tr m v p)) ∧
    StoresTr (α := α) 1 (fun m v p => some (V8Avx.store_8x1_tr m v p)) ∧
    StoresTr (α := α) 1 (fun m v p => some (V8Avx.store_8x2_tr m v p)) ∧
    StoresTr (α := α) 1 (fun m v p => some (V8Avx.store_8x3_tr m v p)) ∧
    StoresTr (α := α) 4 V8Avx.store_8x4_tr ∧
    StoresTr (α := α) 8 V8Avx.store_8x8_tr ∧
    StoresTr (α := α) 1 (fun m v p => some (V8Avx2.store_8x1_tr m v p)) ∧
    StoresTr (α := α) 1 (fun m v p => some (V8Avx2.store_8x2_tr m v p)) ∧
    StoresTr (α := α) 1 (fun m v p => some (V8Avx2.store_8x3_tr m v p)) ∧
    StoresTr (α := α) 4 V8Avx2.store_8x4_tr ∧
    StoresTr (α := α) 8 V8Avx2.store_8x8_tr :=
  ⟨FactsV8Portable.store_8x1_tr, FactsV8Portable.store_8x2_tr, FactsV8Portable.store_8x3_tr, FactsV8Portable.store_8x4_tr,
    FactsV8Portable.store_8x8_tr, FactsV8Avx.store_8x1_tr, FactsV8Avx.store_8x2_tr, FactsV8Avx.store_8x3_tr,
    FactsV8Avx.store_8x4_tr, FactsV8Avx.store_8x8_tr, FactsV8Avx2.store_8x1_tr, FactsV8Avx2.store_8x2_tr,
    FactsV8Avx2.store_8x3_tr, FactsV8Avx2.store_8x4_tr, FactsV8Avx2.store_8x8_tr⟩

/-- The functions that move one vector of 8 words, exchange two, or transpose as many as there are words. -/
theorem moves_8 [Zero α] :
    Exchanges (α := α) V8Portable.swap ∧
    Transposes (α := α) (n := 2) V8Portable.transpose ∧
    Loads (α := α) 1 (fun m p => some (V8Portable.load_8x1 m p)) ∧
    Stores (α := α) 1 (fun m v p => some (V8Portable.store_8x1 m v p)) ∧
    Stores (α := α) 1 (fun m v p => some (V8Portable.stream_8x1 m v p)) ∧
    Clears (α := α) 2 1 (fun m p => some (V8Portable.clear_8x1 m p)) ∧
    Copies (α := α) 2 1 (fun m a b => some (V8Portable.copy_8x1 m a b)) ∧
    Swaps (α := α) 2 1 (fun m a b => some (V8Portable.swap_8x1 m a b)) ∧
    Exchanges (α := α) V8Avx.swap ∧
    Transposes (α := α) (n := 2) V8Avx.transpose ∧
    Loads (α := α) 1 (fun m p => some (V8Avx.load_8x1 m p)) ∧
    Stores (α := α) 1 (fun m v p => some (V8Avx.store_8x1 m v p)) ∧
    Stores (α := α) 1 (fun m v p => some (V8Avx.stream_8x1 m v p)) ∧
    Clears (α := α) 2 1 (fun m p => some (V8Avx.clear_8x1 m p)) ∧
    Copies (α := α) 2 1 (fun m a b => some (V8Avx.copy_8x1 m a b)) ∧
    Swaps (α := α) 2 1 (fun m a b => some (V8Avx.swap_8x1 m a b)) ∧
    Exchanges (α := α) V8Avx2.swap ∧
    Transposes (α := α) (n := 2) V8Avx2.transpose ∧
    Loads (α := α) 1 (fun m p => some (V8Avx2.load_8x1 m p)) ∧
    Stores (α := α) 1 (fun m v p => some (V8Avx2.store_8x1 m v p)) ∧
    Stores (α := α) 1 (fun m v p => some (V8Avx2.stream_8x1 m v p)) ∧
    Clears (α := α) 2 1 (fun m p => some (V8Avx2.clear_8x1 m p)) ∧
    Copies (α := α) 2 1 (fun m a b => some (V8Avx2.copy_8x1 m a b)) ∧
    Swaps (α := α) 2 1 (fun m a b => some (V8Avx2.swap_8x1 m a b)) :=
  ⟨FactsV8Portable.swap, FactsV8Portable.transpose, FactsV8Portable.load_8x1, FactsV8Portable.store_8x1,
    FactsV8Portable.stream_8x1, FactsV8Portable.clear_8x1, FactsV8Portable.copy_8x1, FactsV8Portable.swap_8x1,
    FactsV8Avx.swap, FactsV8Avx.transpose, FactsV8Avx.load_8x1, FactsV8Avx.store_8x1,
    FactsV8Avx.stream_8x1, FactsV8Avx.clear_8x1, FactsV8Avx.copy_8x1, FactsV8Avx.swap_8x1,
    FactsV8Avx2.swap, FactsV8Avx2.transpose, FactsV8Avx2.load_8x1, FactsV8Avx2.store_8x1,
    FactsV8Avx2.stream_8x1, FactsV8Avx2.clear_8x1, FactsV8Avx2.copy_8x1, FactsV8Avx2.swap_8x1⟩

/-- Every function that loads columns of rows into vectors of 16 words loads the words it shall, whatever the instructions. -/
theorem loads_16 [Zero α] :
    LoadsTr (α := α) 1 (fun m p => some (fun _ : Fin 1 => V16Portable.load_16x1_tr m p)) ∧
    LoadsTr (α := α) 1 (fun m p => some (V16Portable.load_16x2_tr m p)) ∧
    LoadsTr (α := α) 1 (fun m p => some (V16Portable.load_16x3_tr m p)) ∧
    LoadsTr (α := α) 1 (fun m p => some (V16Portable.load_16x4_tr m p)) ∧
    LoadsTr (α := α) 1 (fun m p => some (V16Portable.load_16x8_tr m p)) ∧
    LoadsTr (α := α) 1 (fun m p => some (V16Portable.load_16x16_tr m p)) ∧
    LoadsPairs (α := α) 1 (fun m p => some (V16Portable.load_16x8_tr_p m p)) ∧
    LoadsPairs2 (α := α) 1 (fun m p => some (V16Portable.load_16x16_tr_p m p)) ∧
    LoadsTr (α := α) 1 (fun m p => some (fun _ : Fin 1 => V16Avx512.load_16x1_tr m p)) ∧
    LoadsTr (α := α) 16 V16Avx512.load_16x2_tr ∧
    LoadsTr (α := α) 16 V16Avx512.load_16x3_tr ∧
    LoadsTr (α := α) 16 V16Avx512.load_16x4_tr ∧
    LoadsTr (α := α) 16 V16Avx512.load_16x8_tr ∧
    LoadsTr (α := α) 16 V16Avx512.load_16x16_tr ∧
    LoadsPairs (α := α) 16 V16Avx512.load_16x8_tr_p ∧
    LoadsPairs2 (α := α) 16 V16Avx512.load_16x16_tr_p :=
  ⟨FactsV16Portable.load_16x1_tr, FactsV16Portable.load_16x2_tr, FactsV16Portable.load_16x3_tr, FactsV16Portable.load_16x4_tr,
    FactsV16Portable.load_16x8_tr, FactsV16Portable.load_16x16_tr, FactsV16Portable.load_16x8_tr_p, FactsV16Portable.load_16x16_tr_p,
    FactsV16Avx512.load_16x1_tr, FactsV16Avx512.load_16x2_tr, FactsV16Avx512.load_16x3_tr, FactsV16Avx512.load_16x4_tr,
    FactsV16Avx512.load_16x8_tr, FactsV16Avx512.load_16x16_tr, FactsV16Avx512.load_16x8_tr_p, FactsV16Avx512.load_16x16_tr_p⟩

/-- Every function that stores vectors of 16 words as columns of rows stores each word in its place and nothing else. -/
theorem stores_16 [Zero α] :
    StoresTr (α := α) 1 (fun m v p => some (V16Portable.store_16x1_tr m v p)) ∧
    StoresTr (α := α) 1 (fun m v p => some (V16Portable.store_16x2_tr m v p)) ∧
    StoresTr (α := α) 1 (fun m v p => some (V16Portable.store_16x3_tr m v p)) ∧
    StoresTr (α := α) 1 (fun m v p => some (V16Portable.store_16x4_tr m v p)) ∧
    StoresTr (α := α) 1 (fun m v p => some (V16Portable.store_16x8_tr m v p)) ∧
    StoresTr (α := α) 1 (fun m v p => some (V16Portable.store_16x16_tr m v p)) ∧
    StoresPairs (α := α) 1 (fun m v p => some (V16Portable.store_16x8_tr_p m v p)) ∧
    StoresPairs2 (α := α) 1 (fun m v p => some (V16Portable.store_16x16_tr_p m v p)) ∧
    StoresTr (α := α) 1 (fun m v p => some (V16Avx512.store_16x1_tr m v p)) ∧
    StoresTr (α := α) 1 (fun m v p => some (V16Avx512.store_16x2_tr m v p)) ∧
    StoresTr (α := α) 1 (fun m v p => some (V16Avx512.store_16x3_tr m v p)) ∧
    StoresTr (α := α) 1 (fun m v p => some (V16Avx512.store_16x4_tr m v p)) ∧
    StoresTr (α := α) 1 (fun m v p => some (V16Avx512.store_16x8_tr m v p)) ∧
    StoresTr (α := α) 16 V16Avx512.store_16x16_tr ∧
    StoresPairs (α := α) 16 V16Avx512.store_16x8_tr_p ∧
    StoresPairs2 (α := α) 16 V16Avx512.store_16x16_tr_p :=
  ⟨FactsV16Portable.store_16x1_tr, FactsV16Portable.store_16x2_tr, FactsV16Portable.store_16x3_tr, FactsV16Portable.store_16x4_tr,
    FactsV16Portable.store_16x8_tr, FactsV16Portable.store_16x16_tr, FactsV16Portable.store_16x8_tr_p, FactsV16Portable.store_16x16_tr_p,
    FactsV16Avx512.store_16x1_tr, FactsV16Avx512.store_16x2_tr, FactsV16Avx512.store_16x3_tr, FactsV16Avx512.store_16x4_tr,
    FactsV16Avx512.store_16x8_tr, FactsV16Avx512.store_16x16_tr, FactsV16Avx512.store_16x8_tr_p, FactsV16Avx512.store_16x16_tr_p⟩

/-- The functions that move one vector of 16 words, exchange two, or transpose as many as there are words. -/
theorem moves_16 [Zero α] :
    Exchanges (α := α) V16Portable.swap ∧
    Transposes (α := α) (n := 4) V16Portable.transpose ∧
    Loads (α := α) 1 (fun m p => some (V16Portable.load_16x1 m p)) ∧
    Stores (α := α) 1 (fun m v p => some (V16Portable.store_16x1 m v p)) ∧
    Stores (α := α) 1 (fun m v p => some (V16Portable.stream_16x1 m v p)) ∧
    Clears (α := α) 4 1 (fun m p => some (V16Portable.clear_16x1 m p)) ∧
    Copies (α := α) 4 1 (fun m a b => some (V16Portable.copy_16x1 m a b)) ∧
    Swaps (α := α) 4 1 (fun m a b => some (V16Portable.swap_16x1 m a b)) ∧
    Exchanges (α := α) V16Avx512.swap ∧
    Transposes (α := α) (n := 4) V16Avx512.transpose ∧
    Loads (α := α) 1 (fun m p => some (V16Avx512.load_16x1 m p)) ∧
    Stores (α := α) 1 (fun m v p => some (V16Avx512.store_16x1 m v p)) ∧
    Stores (α := α) 1 (fun m v p => some (V16Avx512.stream_16x1 m v p)) ∧
    Clears (α := α) 4 1 (fun m p => some (V16Avx512.clear_16x1 m p)) ∧
    Copies (α := α) 4 1 (fun m a b => some (V16Avx512.copy_16x1 m a b)) ∧
    Swaps (α := α) 4 1 (fun m a b => some (V16Avx512.swap_16x1 m a b)) :=
  ⟨FactsV16Portable.swap, FactsV16Portable.transpose, FactsV16Portable.load_16x1, FactsV16Portable.store_16x1,
    FactsV16Portable.stream_16x1, FactsV16Portable.clear_16x1, FactsV16Portable.copy_16x1, FactsV16Portable.swap_16x1,
    FactsV16Avx512.swap, FactsV16Avx512.transpose, FactsV16Avx512.load_16x1, FactsV16Avx512.store_16x1,
    FactsV16Avx512.stream_16x1, FactsV16Avx512.clear_16x1, FactsV16Avx512.copy_16x1, FactsV16Avx512.swap_16x1⟩

/-- `load_16x2_bc` spreads the two words behind a pointer over two vectors; it is undefined unless the pointer is a multiple of sixteen words. -/
theorem load_16x2_bc_iff (m : Memory α) (p : Fin 1 → Fin 4 → ℕ) :
    (p 0 0 % 16 = 0 → ∃ r, V16Avx512.load_16x2_bc m p = some r ∧ ∀ j q l, r j q l = m (p 0 0 + j)) ∧ (p 0 0 % 16 ≠ 0 → V16Avx512.load_16x2_bc m p = none) := by
  refine ⟨fun h => ?_, fun h => bind_bad (load4_bad h)⟩
  unfold V16Avx512.load_16x2_bc
  rw [load4_ok h]
  refine ⟨_, rfl, ?_⟩
  cases_rfl

/-- Two functions that load rows give the same vectors wherever the pointers are aligned for both. -/
theorem loads_agree {n k w w' : ℕ} {f f' : Memory α → (Fin n → Fin 4 → ℕ) → Option (Fin k → Reg n α)} (hf : LoadsTr w f) (hf' : LoadsTr w' f')
    (m : Memory α) (p : Fin n → Fin 4 → ℕ) (h : ∀ q l, p q l % w = 0) (h' : ∀ q l, p q l % w' = 0) : f m p = f' m p := by
  obtain ⟨r, e, hr⟩ := (hf m p).1 h
  obtain ⟨r', e', hr'⟩ := (hf' m p).1 h'
  rw [e, e']
  congr 1
  funext j q l
  rw [hr, hr']

/-- Two functions that store rows leave the same memory wherever the pointers are aligned for both. -/
theorem stores_agree {n k w w' : ℕ} {f f' : Memory α → (Fin k → Reg n α) → (Fin n → Fin 4 → ℕ) → Option (Memory α)} (hf : StoresTr w f) (hf' : StoresTr w' f')
    (m : Memory α) (v : Fin k → Reg n α) (p : Fin n → Fin 4 → ℕ) (ha : Apart k p) (h : ∀ q l, p q l % w = 0) (h' : ∀ q l, p q l % w' = 0) :
    f m v p = f' m v p := by
  obtain ⟨r, e, h1, h2⟩ := (hf m v p).1 h ha
  obtain ⟨r', e', h1', h2'⟩ := (hf' m v p).1 h' ha
  rw [e, e']
  congr 1
  funext x
  by_cases hx : ∀ q l (j : Fin k), x ≠ p q l + j
  · rw [h2 x hx, h2' x hx]
  · simp only [not_forall, not_not] at hx
    obtain ⟨q, l, j, rfl⟩ := hx
    rw [h1, h1']

/-- What is stored as columns of rows is what is loaded back from them, with any two implementations. -/
theorem load_store {n k w w' : ℕ} {f : Memory α → (Fin k → Reg n α) → (Fin n → Fin 4 → ℕ) → Option (Memory α)}
    {g : Memory α → (Fin n → Fin 4 → ℕ) → Option (Fin k → Reg n α)} (hf : StoresTr w f) (hg : LoadsTr w' g) (m : Memory α) (v : Fin k → Reg n α)
    (p : Fin n → Fin 4 → ℕ) (ha : Apart k p) (h : ∀ q l, p q l % w = 0) (h' : ∀ q l, p q l % w' = 0) :
    ∃ m', f m v p = some m' ∧ g m' p = some v := by
  obtain ⟨m', e, h1, -⟩ := (hf m v p).1 h ha
  obtain ⟨r, e', hr⟩ := (hg m' p).1 h'
  refine ⟨m', e, e'.trans ?_⟩
  congr 1
  funext j q l
  rw [hr, h1]

end Verif.Vector
