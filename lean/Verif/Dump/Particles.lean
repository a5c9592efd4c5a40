import Verif.Dump.Model
import Verif.Boris.Props

/-!
The dump of particles (C62).
-/

namespace Verif.Dump

open Distribute (Rounding)

variable {K : Type} [Field K] [LinearOrder K] [IsStrictOrderedRing K]

/-- Spec: a particle at its position with its momentum centred at the time of the position. -/
def centred (rt : K → K) (q : K) (f0 : ℤ → Boris.Interp K) (p : MoveP.Part K) : MoveP.Part K :=
  { p with u := Boris.centerU rt q (f0 p.i) p.d p.u }

lemma hunks_spec (rt : K → K) (q : K) (f0 : ℤ → Boris.Interp K) (R : Rounding) (hR : R.Accurate) (P : ℕ)
    (hP : 0 < P) (hP2 : P ≤ 2 ^ 16) (src np0 : ℕ) (start : ℕ) (s : PState K) (out : List (MoveP.Part K))
    (s' : PState K) (out' : List (MoveP.Part K)) (hs : s.p ≠ src)
    (h : Hunks rt q f0 R P src np0 start s out s' out') :
    out' = out ++ (List.range (np0 - start)).map (fun i => centred rt q f0 (s.mem src ((start + i : ℕ) : ℤ))) ∧
    s'.p = s.p ∧ s'.maxNp = s.maxNp ∧ ∀ b, b ≠ s.p → s'.mem b = s.mem b := by
  induction h with
  | @stop start s out h =>
    have e : np0 - start = 0 := by omega
    simp [e]
  | @hunk start s out mem' s' out' h1 h2 h3 h4 ih =>
    obtain ⟨i1, i2, i3, i4⟩ := ih hs
    have hmem := Boris.updates_each_once R hR _ P (by have : PBUF = 32768 := rfl; omega) hP hP2 _ _ _ h3
    refine ⟨?_, i2, i3, fun b hb => ?_⟩
    · rw [i1, List.append_assoc]
      congr 1
      have e : np0 - start = min (np0 - start) PBUF + (np0 - (start + PBUF)) := by
        have : PBUF = 32768 := rfl
        omega
      conv_rhs => rw [e, List.range_add, List.map_append, List.map_map]
      refine congrArg₂ _ ?_ ?_
      · apply List.map_congr_left
        intro i hi
        have hi := List.mem_range.1 hi
        rw [hmem i, if_pos ⟨by omega, by omega⟩]
        unfold copyIn
        rw [if_pos ⟨by omega, by omega⟩]
        simp only [Boris.centerPart, centred, Nat.cast_add]
      · dsimp only
        rw [if_neg (Ne.symm hs)]
        by_cases hl : start + PBUF < np0
        · have : min (np0 - start) PBUF = PBUF := by omega
          rw [this]
          apply List.map_congr_left
          intro i _
          simp only [Function.comp]
          rw [Nat.add_assoc]
        · rw [show np0 - (start + PBUF) = 0 by omega]; rfl
    · rw [i4 b hb]
      simp [hb]

/-- **C62.** However the pipelines interleave, the dump writes the particles of the species, each once, in
order, centred in time, declares their number, and leaves the species as it was: same storage with the same
contents, same count, same capacity. -/
theorem dump_particles_spec (rt : K → K) (q : K) (f0 : ℤ → Boris.Interp K) (R : Rounding) (hR : R.Accurate)
    (P : ℕ) (hP : 0 < P) (hP2 : P ≤ 2 ^ 16) (buf : ℕ) (s s' : PState K) (hb : buf ≠ s.p) (dim : ℕ)
    (out : List (MoveP.Part K)) (h : DumpParticles rt q f0 R P buf s s' dim out) :
    dim = s.np ∧ out = (List.range s.np).map (fun i : ℕ => centred rt q f0 (s.mem s.p i)) ∧
      s'.p = s.p ∧ s'.np = s.np ∧ s'.maxNp = s.maxNp ∧ ∀ b, b ≠ buf → s'.mem b = s.mem b := by
  obtain ⟨t, hd, ht, rfl⟩ := h
  obtain ⟨h1, h2, h3, h4⟩ := hunks_spec rt q f0 R hR P hP hP2 _ _ _ _ _ _ _ hb ht
  refine ⟨hd, ?_, rfl, rfl, rfl, fun b hb => h4 b hb⟩
  simpa using h1

lemma hunks_exist (rt : K → K) (q : K) (f0 : ℤ → Boris.Interp K) (R : Rounding) (hR : R.Accurate) (P : ℕ)
    (hP : 0 < P) (hP2 : P ≤ 2 ^ 16) (src np0 : ℕ) (hn : np0 + PBUF ≤ 2 ^ 31) (m : ℕ) : ∀ (start : ℕ)
    (s : PState K) (out : List (MoveP.Part K)), np0 - start ≤ m →
    ∃ s' out', Hunks rt q f0 R P src np0 start s out s' out' := by
  have hB : PBUF = 32768 := rfl
  induction m with
  | zero => exact fun start s out h => ⟨s, out, .stop (by omega)⟩
  | succ m ih =>
    intro start s out h
    by_cases hl : start < np0
    · obtain ⟨mem', hm⟩ := Boris.updates_exist R hR (min (np0 - start) PBUF) P (by omega) hP hP2
        (Boris.centerPart rt q f0) (copyIn (s.mem s.p) (s.mem src) start (min (np0 - start) PBUF))
      obtain ⟨s', out', h'⟩ := ih (start + PBUF)
        { s with mem := fun b => if b = s.p then mem' else s.mem b, np := min (np0 - start) PBUF }
        (out ++ (List.range (min (np0 - start) PBUF)).map fun i : ℕ => mem' (i : ℤ)) (by omega)
      exact ⟨s', out', .hunk hl (by omega) hm h'⟩
    · exact ⟨s, out, .stop hl⟩

/-- **C62**: the dump terminates for every number of particles up to 2^31 - 32768. -/
theorem dump_particles_terminates (rt : K → K) (q : K) (f0 : ℤ → Boris.Interp K) (R : Rounding)
    (hR : R.Accurate) (P : ℕ) (hP : 0 < P) (hP2 : P ≤ 2 ^ 16) (buf : ℕ) (s : PState K)
    (hn : s.np + PBUF ≤ 2 ^ 31) : ∃ s' dim out, DumpParticles rt q f0 R P buf s s' dim out := by
  obtain ⟨t, out, h⟩ := hunks_exist rt q f0 R hR P hP hP2 s.p s.np hn s.np 0
    { s with p := buf, np := 0, maxNp := PBUF } [] (by omega)
  exact ⟨_, _, out, t, rfl, h, rfl⟩

lemma hunks_none (rt : K → K) (q : K) (f0 : ℤ → Boris.Interp K) (R : Rounding) (P : ℕ) (src np0 : ℕ)
    (hn : 2 ^ 31 - PBUF < np0) (hn2 : np0 < 2 ^ 31) (start : ℕ) (hm : PBUF ∣ start) (hs : start < 2 ^ 31)
    (s : PState K) (out : List (MoveP.Part K)) (s' : PState K) (out' : List (MoveP.Part K))
    (h : Hunks rt q f0 R P src np0 start s out s' out') : False := by
  have hB : PBUF = 32768 := rfl
  induction h with
  | stop h => obtain ⟨k, rfl⟩ := hm; rw [hB] at hn h hs; omega
  | hunk h1 h2 h3 h4 ih => exact ih (Nat.dvd_add hm (Nat.dvd_refl _)) h2

/-- **Finding**, C62: with more than 2^31 - 32768 particles, which `int` still counts, the start of the
next hunk overflows before the loop ends; no run of the dump is defined. -/
theorem dump_particles_overflows (rt : K → K) (q : K) (f0 : ℤ → Boris.Interp K) (R : Rounding) (P : ℕ)
    (buf : ℕ) (s : PState K) (hn : 2 ^ 31 - PBUF < s.np) (hn2 : s.np < 2 ^ 31) (s' : PState K) (dim : ℕ)
    (out : List (MoveP.Part K)) : ¬ DumpParticles rt q f0 R P buf s s' dim out := by
  rintro ⟨t, -, h, -⟩
  exact hunks_none rt q f0 R P s.p s.np hn hn2 0 (Nat.dvd_zero _) (by norm_num) _ _ _ _ h

/-- 100000 particles, four hunks, on three pipelines. -/
theorem sample_dump_particles (f0 : ℤ → Boris.Interp ℚ) (rt : ℚ → ℚ) (mem : ℕ → ℤ → MoveP.Part ℚ) :
    ∃ s' dim out, DumpParticles rt 1 f0 Distribute.doubleRounding 3 1 ⟨mem, 0, 100000, 120000⟩ s' dim out ∧
      dim = 100000 ∧ out.length = 100000 ∧ s'.maxNp = 120000 ∧ s'.mem 0 = mem 0 := by
  obtain ⟨s', dim, out, h⟩ := dump_particles_terminates rt 1 f0 Distribute.doubleRounding
    Distribute.doubleRounding_accurate 3 (by norm_num) (by norm_num) 1 ⟨mem, 0, 100000, 120000⟩
    (by show 100000 + 32768 ≤ 2 ^ 31; norm_num)
  obtain ⟨h1, h2, -, -, h3, h4⟩ := dump_particles_spec rt 1 f0 Distribute.doubleRounding
    Distribute.doubleRounding_accurate 3 (by norm_num) (by norm_num) 1 ⟨mem, 0, 100000, 120000⟩ s'
    (by norm_num) dim out h
  exact ⟨s', dim, out, h, h1, by rw [h2]; simp, h3, h4 0 (by norm_num)⟩

end Verif.Dump
