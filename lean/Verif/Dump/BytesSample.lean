import Verif.Dump.BytesProps
import Verif.Dump.HeaderProps
import Verif.Dump.TextProps
import Mathlib.Algebra.Order.Ring.Rat

/-! Concrete cases that meet the hypotheses of C109-C112. -/
namespace Verif.Dump.BytesSample
open Verif Verif.Dump

/-- Header of rank 1 of 2 at step 100. -/
def h : Head := ⟨1, 100, fun _ => 0, 0x3dcccccd, fun _ => 0x3f800000, fun _ => 0, 0x3f800000, 0x3f800000, 1, 2, -1, 0⟩

theorem h_fits : h.Fits := ⟨by decide, by decide, by decide, by decide, by decide, by decide⟩

/-- One cell with its boundary: 27 elements of 20 words. -/
def arr : Arr (BitVec 32) := ⟨20, (List.range 540).map (BitVec.ofNat 32)⟩
def mesh : Mesh (BitVec 32) := ⟨fun _ => 1, fun _ => 0x3f800000⟩

theorem holds : Holds arr mesh fun v w => BitVec.ofNat 32 (v * 20 + w) := by
  intro v hv w hw
  have hv : v < 27 := hv
  have hw : w < 20 := hw
  have hs : arr.size = 20 := rfl
  have hwd : arr.words = (List.range 540).map (BitVec.ofNat 32) := by simp only [arr]
  have hlt : v * 20 + w < 540 := by omega
  rw [hs, hwd, List.getElem?_map]
  generalize 540 = m at hlt
  rw [List.getElem?_range hlt, Option.map_some]

theorem whole : ∃ F, dumpWhole arr mesh = .ok F ∧ ∀ big, Says (readWords none) (arrayDump id big h F)
    (headOf id h F, 80, [3, 3, 3], F.data) := by
  have hv := holds
  obtain ⟨F, hF, -⟩ := dump_whole arr mesh _ hv
  exact ⟨F, hF, fun big => dump_whole_read_back id big h arr mesh F hF h_fits (by decide) (by decide)⟩

/-- A dump in bands of the magnetic field. -/
theorem bandsOk : ∃ F, fieldDump arr mesh ⟨0x70, fun _ => 1, .band⟩ = .ok F ∧ ∀ big, Says (readWords (some 3)) (arrayDump id big h F)
    (headOf id h F, 80, [3, 3, 3], F.data) := by
  have hv := holds
  obtain ⟨F, hF, ⟨-, -, -, hd⟩, -⟩ := field_dump_partial arr mesh ⟨0x70, fun _ => 1, .band⟩ _ hv rfl (fun c => ⟨Nat.one_pos, Nat.one_dvd _⟩)
    (.inl fun _ => rfl) (fun _ b hb => by
      rcases Nat.lt_or_ge b 32 with h | h
      · interval_cases b <;> decide
      · exact BitVec.getLsbD_of_ge _ _ h)
  refine ⟨F, hF, fun big => ?_⟩
  have := field_dump_read_back id big h arr mesh _ F hF h_fits rfl (by decide)
  rw [hd] at this
  exact this

/-- The grid of a rank with one cell, of two ranks. -/
def grid : GridMem := ⟨fun _ => 1, List.replicate 27 (-3), [0, 27, 54], List.replicate 162 (-1)⟩

theorem gridOk (big : Bool) : ∃ file, dumpGrid big h grid = .ok file := by
  obtain ⟨file, hf, -⟩ := dump_grid_read_back big h grid h_fits (by decide) List.length_replicate rfl List.length_replicate (by decide)
    (fun x hx => by rw [List.eq_of_mem_replicate hx]; decide) (by decide) (fun x hx => by rw [List.eq_of_mem_replicate hx]; decide)
  exact ⟨file, hf⟩

/-- Names. -/
theorem name : taggedName "fields".toList 100 3 = some "fields.100.3".toList := by
  simp [taggedName, sprintf, dec, Nat.digitChar]

theorem magneticGroups : WholeGroups fieldGroups 0x70 := by
  unfold WholeGroups; decide

theorem numbersClean : Clean "1.000000e+00".toList ∧ ShortE "1.000000e+00".toList :=
  ⟨⟨by decide, by decide, by decide, by decide⟩, "1.000000".toList, "+00".toList, by decide, by decide, by decide⟩

/-- Two species, a start and an appended call. -/
def S (n : ℤ) : Energies ℕ := ⟨n, 1, fun _ => 1, [("electron".toList, 1), ("ion".toList, 1)]⟩
def fe : ℕ → List Char := fun _ => "1.000000e+00".toList

theorem table (file : List Char) : tableOf (dumpSeries fe [(true, S 3), (false, S 10), (true, S 20)] file) =
    [rowOf fe (S 10), rowOf fe (S 20)] := by
  rw [energies_table fe (fun _ => numbersClean.1) _ (by decide) file (.inr ⟨(false, S 10), by simp, rfl⟩)]
  rfl

end Verif.Dump.BytesSample
