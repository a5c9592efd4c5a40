import Verif.Vector.Props

/-! # C115: are the vector accesses of the pipelines aligned?

Where the arrays that the pipelines access through vectors lie. All of them start at a multiple of 128 bytes (`MALLOC_ALIGNED( ..., 128 )`), which is 32
words. -/
namespace Verif.Vector

variable {α : Type}

/-- The start of an array: /repo/src/field_advance/standard/sfa.cc:104,197, /repo/src/species_advance/species_advance.cc:138,
/repo/src/sf_interface/interpolator_array.cc:29. -/
def Start (base : ℕ) : Prop := base % 32 = 0

/-- Word `c` of the field at voxel `v`: `field_t`, /repo/src/field_advance/field_advance.h:152-160, sixteen floats and eight material numbers of 16 bits. The
electric field is at 0, the magnetic field at 4, the TCA field at 8, the free current at 12. -/
def fieldAt (base v c : ℕ) : ℕ := base + 20 * v + c

/-- Word `c` of the particle `n`: `particle_t`, eight words. -/
def particleAt (base n c : ℕ) : ℕ := base + 8 * n + c

/-- Word `c` of the interpolator of voxel `v` where it has `size` words: 18 floats and the padding of /repo/src/sf_interface/sf_interface.h:26-70. -/
def interpAt (size base v c : ℕ) : ℕ := base + size * v + c

/-- Words of an interpolator: with vectors of 16 words 18 + 14, of 8 words 18 + 6, otherwise 18 + 2. -/
def interp16 : ℕ := 32
@[inherit_doc interp16] def interp8 : ℕ := 24
@[inherit_doc interp16] def interp4 : ℕ := 20

/-- Word `c` of the coefficients of the material `i`: `material_coefficient_t`, /repo/src/field_advance/standard/sfa_private.h:14-23, sixteen words. -/
def materialAt (base i c : ℕ) : ℕ := base + 16 * i + c

/-- Where the vectors of the fields begin. -/
def Part (c : ℕ) : Prop := c = 0 ∨ c = 4 ∨ c = 8 ∨ c = 12

/-! ### Vectors of four and eight words -/

theorem field_mod {base v c : ℕ} (hb : Start base) (hc : Part c) : fieldAt base v c % 4 = 0 := by
  unfold Start at hb; unfold fieldAt; rcases hc with rfl | rfl | rfl | rfl <;> omega

theorem field_apart {n k : ℕ} {base c : ℕ} {v : Fin n → Fin 4 → ℕ} (hv : ∀ q l q' l', v q l = v q' l' → q = q' ∧ l = l') (hk : k ≤ 20) :
    Apart k fun q l => fieldAt base (v q l) c := by
  intro q l q' l' j j' e
  simp only [fieldAt] at e
  have hj := j.2
  have hj' := j'.2
  obtain ⟨rfl, rfl⟩ := hv q l q' l' (by omega)
  exact ⟨rfl, rfl, Fin.ext (by omega)⟩

theorem loadsTr_of {n k w : ℕ} {f : Memory α → (Fin n → Fin 4 → ℕ) → Option (Fin k → Reg n α)} (hf : LoadsTr w f) (m : Memory α) (p : Fin n → Fin 4 → ℕ)
    (hp : ∀ q l, p q l % w = 0) : ∃ r, f m p = some r ∧ ∀ j q l, r j q l = m (p q l + j) := (hf m p).1 hp

/-- What a vector function for `k` words of the fields at `4 n` voxels does: it loads these words. -/
def LoadsFields {n k : ℕ} (f : Memory α → (Fin n → Fin 4 → ℕ) → Option (Fin k → Reg n α)) : Prop :=
  ∀ m base c (v : Fin n → Fin 4 → ℕ), Start base → Part c →
    ∃ r, f m (fun q l => fieldAt base (v q l) c) = some r ∧ ∀ j q l, r j q l = m (fieldAt base (v q l) (c + j))

/-- What a vector function for `k` words of the fields at `4 n` different voxels does: it stores these words and nothing else. -/
def StoresFields {n k : ℕ} (f : Memory α → (Fin k → Reg n α) → (Fin n → Fin 4 → ℕ) → Option (Memory α)) : Prop :=
  ∀ m x base c (v : Fin n → Fin 4 → ℕ), Start base → Part c → (∀ q l q' l', v q l = v q' l' → q = q' ∧ l = l') →
    ∃ m', f m x (fun q l => fieldAt base (v q l) c) = some m' ∧ (∀ q l (j : Fin k), m' (fieldAt base (v q l) (c + j)) = x j q l) ∧
      ∀ y, (∀ q l (j : Fin k), y ≠ fieldAt base (v q l) (c + j)) → m' y = m y

theorem loadsFields_of {n k w : ℕ} {f : Memory α → (Fin n → Fin 4 → ℕ) → Option (Fin k → Reg n α)} (hf : LoadsTr w f) (hw : w ∣ 4) : LoadsFields f := by
  intro m base c v hb hc
  obtain ⟨r, e, h⟩ := (hf m _).1 fun q l => Nat.mod_eq_zero_of_dvd (Nat.dvd_trans hw (Nat.dvd_of_mod_eq_zero (field_mod hb hc)))
  exact ⟨r, e, fun j q l => by rw [h]; simp only [fieldAt, Nat.add_assoc]⟩

theorem storesFields_of {n k w : ℕ} {f : Memory α → (Fin k → Reg n α) → (Fin n → Fin 4 → ℕ) → Option (Memory α)} (hf : StoresTr w f) (hw : w ∣ 4) (hk : k ≤ 20) :
    StoresFields f := by
  intro m x base c v hb hc hv
  obtain ⟨m', e, h1, h2⟩ := (hf m x _).1 (fun q l => Nat.mod_eq_zero_of_dvd (Nat.dvd_trans hw (Nat.dvd_of_mod_eq_zero (field_mod hb hc)))) (field_apart hv hk)
  refine ⟨m', e, fun q l j => ?_, fun y hy => h2 y fun q l j => ?_⟩
  · rw [← h1]; simp only [fieldAt, Nat.add_assoc]
  · have := hy q l j
    simpa only [fieldAt, Nat.add_assoc] using this

/-- With vectors of four words every access of the field pipelines to the fields is aligned and moves the words it shall, with each implementation. -/
theorem fields_4 [Zero α] :
    (LoadsFields (α := α) (k := 2) (fun m p => some (V4Sse.load_4x2_tr m p)) ∧ LoadsFields (α := α) V4Sse.load_4x3_tr ∧ LoadsFields (α := α) V4Sse.load_4x4_tr ∧
      StoresFields (α := α) (k := 3) (fun m v p => some (V4Sse.store_4x3_tr m v p)) ∧ StoresFields (α := α) V4Sse.store_4x4_tr) ∧
    (LoadsFields (α := α) (k := 2) (fun m p => some (V4Avx.load_4x2_tr m p)) ∧ LoadsFields (α := α) V4Avx.load_4x3_tr ∧ LoadsFields (α := α) V4Avx.load_4x4_tr ∧
      StoresFields (α := α) (k := 3) (fun m v p => some (V4Avx.store_4x3_tr m v p)) ∧ StoresFields (α := α) V4Avx.store_4x4_tr) ∧
    (LoadsFields (α := α) (k := 2) (fun m p => some (V4Avx2.load_4x2_tr m p)) ∧ LoadsFields (α := α) V4Avx2.load_4x3_tr ∧
      LoadsFields (α := α) V4Avx2.load_4x4_tr ∧ StoresFields (α := α) (k := 3) (fun m v p => some (V4Avx2.store_4x3_tr m v p)) ∧
      StoresFields (α := α) V4Avx2.store_4x4_tr) :=
  ⟨⟨loadsFields_of FactsV4Sse.load_4x2_tr (by decide), loadsFields_of FactsV4Sse.load_4x3_tr (by decide), loadsFields_of FactsV4Sse.load_4x4_tr (by decide),
      storesFields_of FactsV4Sse.store_4x3_tr (by decide) (by decide), storesFields_of FactsV4Sse.store_4x4_tr (by decide) (by decide)⟩,
    ⟨loadsFields_of FactsV4Avx.load_4x2_tr (by decide), loadsFields_of FactsV4Avx.load_4x3_tr (by decide), loadsFields_of FactsV4Avx.load_4x4_tr (by decide),
      storesFields_of FactsV4Avx.store_4x3_tr (by decide) (by decide), storesFields_of FactsV4Avx.store_4x4_tr (by decide) (by decide)⟩,
    ⟨loadsFields_of FactsV4Avx2.load_4x2_tr (by decide), loadsFields_of FactsV4Avx2.load_4x3_tr (by decide), loadsFields_of FactsV4Avx2.load_4x4_tr (by decide),
      storesFields_of FactsV4Avx2.store_4x3_tr (by decide) (by decide), storesFields_of FactsV4Avx2.store_4x4_tr (by decide) (by decide)⟩⟩

/-- The same with vectors of eight words. -/
theorem fields_8 [Zero α] :
    (LoadsFields (α := α) (k := 2) (fun m p => some (V8Avx.load_8x2_tr m p)) ∧ LoadsFields (α := α) (k := 3) (fun m p => some (V8Avx.load_8x3_tr m p)) ∧
      LoadsFields (α := α) V8Avx.load_8x4_tr ∧ StoresFields (α := α) (k := 3) (fun m v p => some (V8Avx.store_8x3_tr m v p)) ∧
      StoresFields (α := α) V8Avx.store_8x4_tr) ∧
    (LoadsFields (α := α) (k := 2) (fun m p => some (V8Avx2.load_8x2_tr m p)) ∧ LoadsFields (α := α) (k := 3) (fun m p => some (V8Avx2.load_8x3_tr m p)) ∧
      LoadsFields (α := α) V8Avx2.load_8x4_tr ∧ StoresFields (α := α) (k := 3) (fun m v p => some (V8Avx2.store_8x3_tr m v p)) ∧
      StoresFields (α := α) V8Avx2.store_8x4_tr) :=
  ⟨⟨loadsFields_of FactsV8Avx.load_8x2_tr (by decide), loadsFields_of FactsV8Avx.load_8x3_tr (by decide), loadsFields_of FactsV8Avx.load_8x4_tr (by decide),
      storesFields_of FactsV8Avx.store_8x3_tr (by decide) (by decide), storesFields_of FactsV8Avx.store_8x4_tr (by decide) (by decide)⟩,
    ⟨loadsFields_of FactsV8Avx2.load_8x2_tr (by decide), loadsFields_of FactsV8Avx2.load_8x3_tr (by decide), loadsFields_of FactsV8Avx2.load_8x4_tr (by decide),
      storesFields_of FactsV8Avx2.store_8x3_tr (by decide) (by decide), storesFields_of FactsV8Avx2.store_8x4_tr (by decide) (by decide)⟩⟩

/-- The whole particle, the interpolator in two parts of eight words: `advance_p` and `hydro_p` with vectors of eight words, any particles and voxels. -/
theorem particles_8 [Zero α] (f : Memory α → (Fin 2 → Fin 4 → ℕ) → Option (Fin 8 → Reg 2 α)) (hf : f = V8Avx.load_8x8_tr ∨ f = V8Avx2.load_8x8_tr)
    (m : Memory α) (bp bi : ℕ) (hp : Start bp) (hi : Start bi) (n v : Fin 2 → Fin 4 → ℕ) :
    (∃ r, f m (fun q l => particleAt bp (n q l) 0) = some r ∧ ∀ j q l, r j q l = m (particleAt bp (n q l) j)) ∧
    (∃ r, f m (fun q l => interpAt interp8 bi (v q l) 0) = some r ∧ ∀ j q l, r j q l = m (interpAt interp8 bi (v q l) j)) ∧
    ∃ r, f m (fun q l => interpAt interp8 bi (v q l) 8) = some r ∧ ∀ j q l, r j q l = m (interpAt interp8 bi (v q l) (8 + j)) := by
  unfold Start at hp hi
  have hL : LoadsTr 8 f := by
    rcases hf with rfl | rfl
    · exact FactsV8Avx.load_8x8_tr
    · exact FactsV8Avx2.load_8x8_tr
  refine ⟨?_, ?_, ?_⟩
  · obtain ⟨r, e, h⟩ := (hL m fun q l => particleAt bp (n q l) 0).1 fun q l => by unfold particleAt; omega
    exact ⟨r, e, fun j q l => by rw [h]; simp only [particleAt, Nat.add_zero]⟩
  · obtain ⟨r, e, h⟩ := (hL m fun q l => interpAt interp8 bi (v q l) 0).1 fun q l => by unfold interpAt interp8; omega
    exact ⟨r, e, fun j q l => by rw [h]; simp only [interpAt, Nat.add_zero]⟩
  · obtain ⟨r, e, h⟩ := (hL m fun q l => interpAt interp8 bi (v q l) 8).1 fun q l => by unfold interpAt interp8; omega
    exact ⟨r, e, fun j q l => by rw [h]; simp only [interpAt, Nat.add_assoc]⟩

/-! ### Vectors of sixteen words -/

/-- `advance_p`, `center_p`, `uncenter_p`, `hydro_p` with vectors of sixteen words: sixteen particles one after the other from an even one on, in pairs, and the
interpolators of any voxels, in two parts. -/
theorem particles_16_partial (m : Memory α) (bp bi : ℕ) (hp : Start bp) (hi : Start bi) (n : ℕ) (hn : n % 2 = 0) (v : Fin 4 → Fin 4 → ℕ) :
    (∃ r, V16Avx512.load_16x8_tr_p m (fun q l => particleAt bp (n + 2 * (4 * q + l)) 0) = some r ∧
      ∀ j q l, r j q l = m (particleAt bp (n + (4 * q + l)) j)) ∧
    (∃ r, V16Avx512.load_16x16_tr m (fun q l => interpAt interp16 bi (v q l) 0) = some r ∧ ∀ j q l, r j q l = m (interpAt interp16 bi (v q l) j)) ∧
    ∃ r, V16Avx512.load_16x2_tr m (fun q l => interpAt interp16 bi (v q l) 16) = some r ∧ ∀ j q l, r j q l = m (interpAt interp16 bi (v q l) (16 + j)) := by
  unfold Start at hp hi
  refine ⟨?_, ?_, ?_⟩
  · obtain ⟨r, e, h⟩ := (FactsV16Avx512.load_16x8_tr_p m fun q l => particleAt bp (n + 2 * (4 * q + l)) 0).1 fun q l => by unfold particleAt; omega
    refine ⟨r, e, fun j q l => ?_⟩
    rw [h]
    congr 1
    simp only [particleAt, pairs]
    omega
  · obtain ⟨r, e, h⟩ := (FactsV16Avx512.load_16x16_tr m fun q l => interpAt interp16 bi (v q l) 0).1 fun q l => by unfold interpAt interp16; omega
    exact ⟨r, e, fun j q l => by rw [h]; simp only [interpAt, Nat.add_zero]⟩
  · obtain ⟨r, e, h⟩ := (FactsV16Avx512.load_16x2_tr m fun q l => interpAt interp16 bi (v q l) 16).1 fun q l => by unfold interpAt interp16; omega
    exact ⟨r, e, fun j q l => by rw [h]; simp only [interpAt, Nat.add_assoc]⟩

/-- Not so the field pipelines with vectors of sixteen words: as soon as two of the sixteen voxels do not lie a multiple of four voxels apart, which is so for
neighbours, loading their fields is undefined. -/
theorem fields_16_undefined (m : Memory α) (base c : ℕ) (hb : Start base) (v : Fin 4 → Fin 4 → ℕ) (q l q' l' : Fin 4) (hv : v q l % 4 ≠ v q' l' % 4) :
    V16Avx512.load_16x2_tr m (fun q l => fieldAt base (v q l) c) = none ∧ V16Avx512.load_16x3_tr m (fun q l => fieldAt base (v q l) c) = none ∧
    V16Avx512.load_16x4_tr m (fun q l => fieldAt base (v q l) c) = none := by
  unfold Start at hb
  have h : ∃ q l, fieldAt base (v q l) c % 16 ≠ 0 := by
    by_contra hn
    simp only [not_exists, not_not] at hn
    have h1 := hn q l
    have h2 := hn q' l'
    unfold fieldAt at h1 h2
    omega
  exact ⟨(FactsV16Avx512.load_16x2_tr m _).2 h, (FactsV16Avx512.load_16x3_tr m _).2 h, (FactsV16Avx512.load_16x4_tr m _).2 h⟩

/-- `advance_b_pipeline_v16.cc:79` and its like: sixteen voxels one after the other in a row. -/
theorem field_row_16_undefined (m : Memory α) (base c v : ℕ) (hb : Start base) :
    V16Avx512.load_16x3_tr m (fun q l => fieldAt base (v + (4 * q + l)) c) = none :=
  (fields_16_undefined m base c hb (fun q l => v + (4 * q + l)) 0 0 0 1 (by simp only [Fin.isValue, Fin.val_zero, Fin.val_one]; omega)).2.1

/-- `energy_p_pipeline_v16.cc:65`: sixteen particles one after the other; loading their first four words is undefined. -/
theorem energy_16_undefined (m : Memory α) (base n c : ℕ) (hb : Start base) :
    V16Avx512.load_16x4_tr m (fun q l => particleAt base (n + (4 * q + l)) c) = none := by
  unfold Start at hb
  refine (FactsV16Avx512.load_16x4_tr m _).2 ?_
  by_contra hn
  simp only [not_exists, not_not] at hn
  have h1 := hn 0 0
  have h2 := hn 0 1
  simp only [particleAt, Fin.isValue, Fin.val_zero, Fin.val_one] at h1 h2
  omega

/-- The coefficients of a material in `advance_e_pipeline_v16.cc:161-181`: those of the first axis are aligned, those of the others never. -/
theorem materials_16 (m : Memory α) (base : ℕ) (hb : Start base) (i : Fin 4 → Fin 4 → ℕ) :
    (∃ r, V16Avx512.load_16x2_tr m (fun q l => materialAt base (i q l) 0) = some r ∧ ∀ j q l, r j q l = m (materialAt base (i q l) j)) ∧
    V16Avx512.load_16x2_tr m (fun q l => materialAt base (i q l) 2) = none ∧ V16Avx512.load_16x2_tr m (fun q l => materialAt base (i q l) 4) = none := by
  unfold Start at hb
  refine ⟨?_, (FactsV16Avx512.load_16x2_tr m _).2 ⟨0, 0, ?_⟩, (FactsV16Avx512.load_16x2_tr m _).2 ⟨0, 0, ?_⟩⟩
  · obtain ⟨r, e, h⟩ := (FactsV16Avx512.load_16x2_tr m fun q l => materialAt base (i q l) 0).1 fun q l => by unfold materialAt; omega
    exact ⟨r, e, fun j q l => by rw [h]; simp only [materialAt, Nat.add_zero]⟩
  all_goals
    unfold materialAt
    omega

end Verif.Vector
