import Verif.Dump.Names
import Mathlib.Tactic.IntervalCases

/-! # C110: the files of different ranks and steps are different files -/
namespace Verif.Dump

theorem dec_plain (v : ℤ) : ∀ c ∈ dec v, c.isDigit = true ∨ c = '-' := by
  intro c hc
  unfold dec at hc
  rcases List.mem_append.1 hc with h | h
  · split at h
    · exact .inr (List.mem_singleton.1 h)
    · cases h
  · split at h
    · rw [List.mem_singleton.1 h]; exact .inl (by decide)
    · rw [List.mem_reverse, List.mem_map] at h
      obtain ⟨d, hd, rfl⟩ := h
      have : d < 10 := Nat.digits_lt_base (by norm_num) hd
      left
      interval_cases d <;> decide

theorem dec_not (v : ℤ) (c : Char) (h : c.isDigit = false) (h' : c ≠ '-') : c ∉ dec v := by
  intro hc
  rcases dec_plain v c hc with e | e
  · rw [h] at e; cases e
  · exact h' e

theorem digitChar_inj : ∀ a < 10, ∀ b < 10, Nat.digitChar a = Nat.digitChar b → a = b := by decide

theorem map_digit_inj : ∀ (l m : List ℕ), (∀ d ∈ l, d < 10) → (∀ d ∈ m, d < 10) → l.map Nat.digitChar = m.map Nat.digitChar → l = m
  | [], [], _, _, _ => rfl
  | [], _ :: _, _, _, h => by cases h
  | _ :: _, [], _, _, h => by cases h
  | a :: l, b :: m, hl, hm, h => by
    simp only [List.map_cons, List.cons.injEq] at h
    rw [digitChar_inj a (hl a (by simp)) b (hm b (by simp)) h.1,
      map_digit_inj l m (fun d hd => hl d (by simp [hd])) (fun d hd => hm d (by simp [hd])) h.2]

/-- Magnitude as printed. -/
def mag (n : ℕ) : List Char := if n = 0 then ['0'] else ((Nat.digits 10 n).map Nat.digitChar).reverse

theorem dec_eq (v : ℤ) : dec v = (if v < 0 then ['-'] else []) ++ mag v.natAbs := by
  unfold dec mag
  by_cases h : v = 0
  · subst h; rfl
  · have h2 : v.natAbs ≠ 0 := by omega
    simp only [if_neg h, if_neg h2]

theorem mag_mem (n : ℕ) : '-' ∉ mag n ∧ mag n ≠ [] := by
  unfold mag
  split
  · decide
  · rename_i h
    constructor
    · rw [List.mem_reverse, List.mem_map]
      rintro ⟨d, hd, e⟩
      have : d < 10 := Nat.digits_lt_base (by norm_num) hd
      interval_cases d <;> exact absurd e (by decide)
    · simpa [Nat.digits_ne_nil_iff_ne_zero] using h

theorem mag_inj {m n : ℕ} (h : mag m = mag n) : m = n := by
  have small : ∀ k, ∀ d ∈ Nat.digits 10 k, d < 10 := fun k d hd => Nat.digits_lt_base (by norm_num) hd
  have zero : ∀ k : ℕ, k ≠ 0 → ['0'] ≠ ((Nat.digits 10 k).map Nat.digitChar).reverse := by
    intro k hk e
    have e2 : Nat.digits 10 k = [0] := by
      have := congrArg List.reverse e
      rw [List.reverse_reverse] at this
      exact map_digit_inj _ _ (small k) (by simp) this.symm
    have := congrArg (Nat.ofDigits 10) e2
    rw [Nat.ofDigits_digits] at this
    exact hk (by simpa using this)
  unfold mag at h
  split at h <;> split at h
  · omega
  · rename_i h1 h2; exact absurd h (zero n h2)
  · rename_i h1 h2; exact absurd h.symm (zero m h1)
  · have := map_digit_inj _ _ (small m) (small n) (List.reverse_injective h)
    exact Nat.digits_inj_iff.1 this

/-- Different numbers are printed differently. -/
theorem dec_inj {v w : ℤ} (h : dec v = dec w) : v = w := by
  rw [dec_eq, dec_eq] at h
  obtain ⟨hv, hv'⟩ := mag_mem v.natAbs
  obtain ⟨hw, hw'⟩ := mag_mem w.natAbs
  by_cases h1 : v < 0 <;> by_cases h2 : w < 0
  · rw [if_pos h1, if_pos h2] at h
    have := mag_inj (List.append_cancel_left h)
    omega
  · rw [if_pos h1, if_neg h2] at h
    exact absurd (show '-' ∈ mag w.natAbs by rw [← List.nil_append (mag w.natAbs), ← h]; simp) hw
  · rw [if_neg h1, if_pos h2] at h
    exact absurd (show '-' ∈ mag v.natAbs by rw [← List.nil_append (mag v.natAbs), h]; simp) hv
  · rw [if_neg h1, if_neg h2] at h
    have := mag_inj (List.append_cancel_left h)
    omega

/-- What is behind the last separator is determined. -/
theorem last_part {c : Char} {a b x y : List Char} (h : a ++ c :: x = b ++ c :: y) (hx : c ∉ x) (hy : c ∉ y) : a = b ∧ x = y := by
  induction a generalizing b with
  | nil =>
    cases b with
    | nil => simpa using h
    | cons d b =>
      simp only [List.nil_append, List.cons_append, List.cons.injEq] at h
      exact absurd (by rw [h.2]; simp) hx
  | cons d a ih =>
    cases b with
    | nil =>
      simp only [List.nil_append, List.cons_append, List.cons.injEq] at h
      exact absurd (by rw [← h.2]; simp) hy
    | cons e b =>
      simp only [List.cons_append, List.cons.injEq] at h
      obtain ⟨h1, h2⟩ := ih h.2
      exact ⟨by rw [h.1, h1], h2⟩

theorem sprintf_some {cap : ℕ} {l n : List Char} (h : sprintf cap l = some n) : n = l ∧ l.length < cap := by
  unfold sprintf at h
  split at h
  · rename_i hl; exact ⟨(Option.some.inj h).symm, hl⟩
  · cases h

/-- **C110**: names without tag say the base and the rank. -/
theorem name_determines {b b' n : List Char} {r r' : ℤ} (h : nameOf b r = some n) (h' : nameOf b' r' = some n) : b = b' ∧ r = r' := by
  have e := (sprintf_some h).1.symm.trans (sprintf_some h').1
  obtain ⟨h1, h2⟩ := last_part e (dec_not _ _ (by decide) (by decide)) (dec_not _ _ (by decide) (by decide))
  exact ⟨h1, dec_inj h2⟩

/-- **C110**: names with tag say the base, the step and the rank. -/
theorem tagged_name_determines {b b' n : List Char} {s s' r r' : ℤ} (h : taggedName b s r = some n) (h' : taggedName b' s' r' = some n) :
    b = b' ∧ s = s' ∧ r = r' := by
  have e := (sprintf_some h).1.symm.trans (sprintf_some h').1
  obtain ⟨h1, h2⟩ := last_part e (dec_not _ _ (by decide) (by decide)) (dec_not _ _ (by decide) (by decide))
  obtain ⟨h3, h4⟩ := last_part h1 (dec_not _ _ (by decide) (by decide)) (dec_not _ _ (by decide) (by decide))
  exact ⟨h3, dec_inj h4, dec_inj h2⟩

/-- **C110**: names of `field_dump` and `hydro_dump` say the directory, the base (both without a slash in the base), the step and the rank. -/
theorem time_name_determines {d d' b b' n : List Char} {s s' r r' : ℤ} (hb : '/' ∉ b) (hb' : '/' ∉ b') (h : timeName d b s r = some n)
    (h' : timeName d' b' s' r' = some n) : d = d' ∧ b = b' ∧ s = s' ∧ r = r' := by
  have e := (sprintf_some h).1.symm.trans (sprintf_some h').1
  obtain ⟨h1, h2⟩ := last_part e (dec_not _ _ (by decide) (by decide)) (dec_not _ _ (by decide) (by decide))
  obtain ⟨h3, h4⟩ := last_part h1 (dec_not _ _ (by decide) (by decide)) (dec_not _ _ (by decide) (by decide))
  have h5 := dec_inj h4
  subst h5
  obtain ⟨h6, h7⟩ := last_part h3 hb hb'
  have h8 : d ++ ('/' :: 'T' :: '.' :: dec s) = d' ++ ('/' :: 'T' :: '.' :: dec s) := h6
  exact ⟨List.append_cancel_right h8, h7, rfl, dec_inj h2⟩

/-- **C110**: even with slashes in the base, the step and the rank are determined. -/
theorem time_name_step {d d' b b' n : List Char} {s s' r r' : ℤ} (h : timeName d b s r = some n)
    (h' : timeName d' b' s' r' = some n) : s = s' ∧ r = r' := by
  have e := (sprintf_some h).1.symm.trans (sprintf_some h').1
  obtain ⟨h1, h2⟩ := last_part e (dec_not _ _ (by decide) (by decide)) (dec_not _ _ (by decide) (by decide))
  obtain ⟨-, h4⟩ := last_part h1 (dec_not _ _ (by decide) (by decide)) (dec_not _ _ (by decide) (by decide))
  exact ⟨dec_inj h4, dec_inj h2⟩

/-- **C110**: the file is in the directory made for it. -/
theorem time_name_inside {d b n t : List Char} {s r : ℤ} (h : timeName d b s r = some n) (ht : timeDir d s = some t) :
    ∃ m, n = t ++ '/' :: m := by
  rw [(sprintf_some h).1, (sprintf_some ht).1]
  exact ⟨b ++ '.' :: dec s ++ '.' :: dec r, by simp [List.append_assoc]⟩

theorem mag_length {n k : ℕ} (h : n < 10 ^ k) (hk : 0 < k) : (mag n).length ≤ k := by
  unfold mag
  split
  · exact hk
  · rw [List.length_reverse, List.length_map]
    exact (Nat.digits_length_le_iff (by norm_num) n).2 h

theorem dec_length {v : ℤ} {k : ℕ} (h0 : 0 ≤ v) (h : v < 10 ^ k) (hk : 0 < k) : (dec v).length ≤ k := by
  rw [dec_eq, if_neg (by omega), List.nil_append]
  refine mag_length ?_ hk
  zify
  rw [abs_of_nonneg h0]
  exact h

/-- **C110**: which names fit in the arrays they are printed to. -/
theorem names_fit (d b : List Char) (s r : ℤ) (hs : 0 ≤ s ∧ s < 2 ^ 63) (hr : 0 ≤ r ∧ r < 2 ^ 31) :
    (b.length ≤ 224 → (nameOf b r).isSome ∧ (taggedName b s r).isSome) ∧
      (d.length + b.length ≤ 245 → d.length ≤ 127 → (timeName d b s r).isSome ∧ (timeDir d s).isSome) := by
  have h1 : (dec s).length ≤ 19 := dec_length hs.1 (by omega) (by norm_num)
  have h2 : (dec r).length ≤ 10 := dec_length hr.1 (by omega) (by norm_num)
  unfold nameOf taggedName timeName timeDir sprintf
  refine ⟨fun h => ⟨?_, ?_⟩, fun h h' => ⟨?_, ?_⟩⟩ <;>
    (rw [if_pos]; rfl
     simp only [List.length_append, List.length_cons]
     omega)

/-- **C110**: directory and base of the greatest length that the parameters can hold (127 characters each) overflow the array of the name in long runs. -/
theorem names_overflow : ∃ (d b : List Char) (s r : ℤ), d.length = 127 ∧ b.length = 127 ∧ 0 ≤ s ∧ s < 2 ^ 63 ∧ 0 ≤ r ∧ r < 2 ^ 31 ∧ timeName d b s r = none := by
  refine ⟨List.replicate 127 'd', List.replicate 127 'b', 10 ^ 18, 10 ^ 9, by simp, by simp, by norm_num, by norm_num, by norm_num, by norm_num, ?_⟩
  have h1 : (dec (10 ^ 18)).length = 19 := by rw [dec_eq]; unfold mag; norm_num
  have h2 : (dec (10 ^ 9)).length = 10 := by rw [dec_eq]; unfold mag; norm_num
  unfold timeName sprintf
  rw [if_neg]
  simp only [List.length_append, List.length_cons, List.length_replicate, h1, h2]
  norm_num

/-- **C110**, the other way: a name with a tag can be the name without tag of another base. -/
theorem tag_ambiguous (b : List Char) (s r : ℤ) : taggedName b s r = nameOf (b ++ '.' :: dec s) r := rfl

end Verif.Dump
