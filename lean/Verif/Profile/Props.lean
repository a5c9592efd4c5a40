import Verif.Profile.Lemmas
import Mathlib.Algebra.Order.BigOperators.Group.List
import Mathlib.Algebra.Order.BigOperators.Group.Finset
import Mathlib.Tactic.NormNum
import Mathlib.Tactic.Positivity

/-!
# C120: the profile of a run
-/
namespace Verif.Profile
open Step (Task Cfg due)
variable {K : Type} [Field K] [LinearOrder K] [FloorRing K]

lemma run_update (h : List (Ev K)) (d : Bool) (s : Timer → Entry K) (out : List (List (Row K)))
    (hr : run start (h ++ [.update d]) = some (s, out)) :
    ∃ out0 out1, run start h = some (after h, out0) ∧ out = out0 ++ out1 ∧ update (after h) d = some (s, out1) := by
  rw [run_append] at hr
  cases hh : run start h with
  | none => rw [hh] at hr; simp at hr
  | some q =>
    obtain ⟨s0, out0⟩ := q
    obtain rfl := run_state h s0 out0 hh
    rw [hh] at hr
    simp only [Option.bind_some, run, ev, Option.map_eq_some_iff] at hr
    obtain ⟨⟨s2, r2⟩, hr, h2⟩ := hr
    simp only [Prod.mk.injEq] at h2
    obtain ⟨rfl, rfl⟩ := h2
    cases hu : update (after h) d with
    | none => rw [hu] at hr; simp at hr
    | some q =>
      obtain ⟨s3, r3⟩ := q
      rw [hu] at hr
      simp only [Option.map_some, Option.some.injEq, Prod.mk.injEq, List.append_nil] at hr
      obtain ⟨rfl, rfl⟩ := hr
      exact ⟨out0, r3, rfl, rfl, rfl⟩

lemma update_true (h : List (Ev K)) (s : Timer → Entry K) (out : List (List (Row K)))
    (hu : update (after h) true = some (s, out)) :
    ∃ table, out = [table] ∧ List.Forall₂ (fun i r => row
        ⟨time (recent h) i, time h i, calls (recent h) i, calls h i⟩ i
        (if allTime (recent h) = 0 then 1 else allTime (recent h)) (allTime h) = some r) (shown h) table := by
  unfold update at hu
  by_cases hi : ∀ i ∈ timers, IsInt ((after h i).nTotal + (after h i).n)
  · rw [if_pos hi] at hu
    simp only [if_true, Option.map_eq_some_iff, Prod.mk.injEq] at hu
    obtain ⟨table, ht, -, rfl⟩ := hu
    have h1 := rows_spec _ _ _ _ _ ht
    refine ⟨table, rfl, ?_⟩
    simp only [after, sub_add_cancel, timers_sum] at h1
    exact h1
  · rw [if_neg hi] at hu
    simp at hu

lemma row_some {e : Entry K} {i : Timer} {a b : K} {r : Row K} (h : row e i a b = some r) :
    percent e.t a = some r.pct ∧ percent e.tTotal b = some r.pctTotal ∧ r.name = i ∧ r.t = e.t ∧ r.n = e.n ∧
      r.per = e.t / (eps + e.n) ∧ r.tTotal = e.tTotal ∧ r.nTotal = e.nTotal ∧ r.perTotal = e.tTotal / (eps + e.nTotal) := by
  unfold row at h
  cases h1 : percent e.t a with
  | none => rw [h1] at h; simp at h
  | some p =>
    cases h2 : percent e.tTotal b with
    | none => rw [h1, h2] at h; simp at h
    | some q =>
      rw [h1, h2] at h
      simp only [Option.some.injEq] at h
      subst h
      simp

/-- **C120.** The table that an update prints has, in the fixed order, a row for exactly the operations that stand for calls,
with the time and calls since the update before, the time and calls since the start, and the time per call (regularised). -/
theorem profile_table (h : List (Ev K)) (s : Timer → Entry K) (out : List (List (Row K)))
    (hr : run start (h ++ [.update true]) = some (s, out)) :
    ∃ s0 out0 table, run start h = some (s0, out0) ∧ out = out0 ++ [table] ∧
      List.Forall₂ (fun i (r : Row K) => r.name = i ∧
          r.t = time (recent h) i ∧ r.n = calls (recent h) i ∧ r.per = r.t / (1 / 2 ^ 52 + r.n) ∧
          r.tTotal = time h i ∧ r.nTotal = calls h i ∧ r.perTotal = r.tTotal / (1 / 2 ^ 52 + r.nTotal))
        (shown h) table := by
  obtain ⟨out0, out1, h1, rfl, hu⟩ := run_update h true s out hr
  obtain ⟨table, rfl, ht⟩ := update_true h s out1 hu
  refine ⟨after h, out0, table, h1, rfl, ht.imp ?_⟩
  intro i r hrow
  obtain ⟨-, -, e1, e2, e3, e4, e5, e6, e7⟩ := row_some hrow
  refine ⟨e1, e2, e3, ?_, e5, e6, ?_⟩
  · rw [e4, e2, e3]; rfl
  · rw [e7, e5, e6]; rfl

/-- **C120.** An update without a table, as on all ranks but rank 0, prints nothing; what follows does not depend on it: the
next interval starts there with both. -/
theorem profile_quiet (h : List (Ev K)) (s : Timer → Entry K) (out : List (List (Row K)))
    (hr : run start (h ++ [.update false]) = some (s, out)) :
    ∃ s0, run start h = some (s0, out) ∧
      ∀ s' out', run start (h ++ [.update true]) = some (s', out') → s' = s := by
  obtain ⟨out0, out1, h1, rfl, hu⟩ := run_update h false s out hr
  have h2 : out1 = [] := by
    unfold update at hu
    by_cases hi : ∀ i ∈ timers, IsInt ((after h i).nTotal + (after h i).n)
    · rw [if_pos hi] at hu
      simp only [Bool.false_eq_true, if_false, Option.some.injEq, Prod.mk.injEq] at hu
      exact hu.2.symm
    · rw [if_neg hi] at hu
      simp at hu
  subst h2
  refine ⟨after h, by simpa using h1, fun s' out' hr' => ?_⟩
  rw [run_state _ _ _ hr, run_state _ _ _ hr', after_update, after_update]

variable [IsStrictOrderedRing K]

/-- The clock does not run backwards in a block. -/
def Forward (h : List (Ev K)) : Prop := ∀ i a b n, Ev.block i a b n ∈ h → a ≤ b

lemma time_nonneg (h : List (Ev K)) (hf : Forward h) (i : Timer) : 0 ≤ time h i := by
  unfold time
  apply List.sum_nonneg
  intro x hx
  obtain ⟨e, he, rfl⟩ := List.mem_map.mp hx
  cases e with
  | block j a b n =>
    simp only
    split_ifs
    · exact sub_nonneg.mpr (hf j a b n he)
    · exact le_rfl
  | update d => exact le_rfl

lemma recent_sub (h : List (Ev K)) (e : Ev K) (he : e ∈ recent h) : e ∈ h :=
  (List.rtakeWhile_suffix _ h).subset he

lemma recent_forward {h : List (Ev K)} (hf : Forward h) : Forward (recent h) :=
  fun i a b n he => hf i a b n (recent_sub h _ he)

lemma toInt_val (x : K) (h0 : 0 ≤ x) (z : ℤ) (h : toInt x = some z) : z = ⌊x⌋ := by
  unfold toInt at h
  simp only [if_pos h0] at h
  by_cases hi : IsInt ⌊x⌋
  · rw [if_pos hi] at h; exact (Option.some.inj h).symm
  · rw [if_neg hi] at h; simp at h

lemma percent_val (t sum : K) (ht : 0 ≤ t) (hs : t ≤ sum) (z : ℤ) (h : percent t sum = some z) :
    |(z : K) - 100 * t / sum| ≤ 1 / 2 ∧ 0 ≤ z ∧ z ≤ 100 := by
  unfold percent at h
  by_cases h0 : sum = 0
  · rw [if_pos h0] at h; simp at h
  · rw [if_neg h0] at h
    have hpos : 0 < sum := lt_of_le_of_ne (ht.trans hs) (Ne.symm h0)
    have hq0 : 0 ≤ 100 * t / sum := by positivity
    have hq1 : 100 * t / sum ≤ 100 := by rw [div_le_iff₀ hpos]; linarith
    have hz := toInt_val _ (by linarith) z h
    subst hz
    have f1 := Int.floor_le (100 * t / sum + 1 / 2)
    have f2 := Int.lt_floor_add_one (100 * t / sum + 1 / 2)
    refine ⟨?_, ?_, ?_⟩
    · rw [abs_le]; constructor <;> linarith
    · exact Int.floor_nonneg.mpr (by linarith)
    · have : ⌊100 * t / sum + 1 / 2⌋ < 101 := Int.floor_lt.mpr (by push_cast; linarith)
      omega

lemma time_le_all (h : List (Ev K)) (hf : Forward h) (i : Timer) : time h i ≤ allTime h :=
  Finset.single_le_sum (f := fun j => time h j) (fun j _ => time_nonneg h hf j) (Finset.mem_univ i)

lemma forall₂_sum {α β : Type} {R : α → β → Prop} (f : α → K) (g : β → ℤ)
    (hR : ∀ a b, R a b → |(g b : K) - f a| ≤ 1 / 2) (la : List α) (lb : List β) (h : List.Forall₂ R la lb) :
    |(((lb.map g).sum : ℤ) : K) - (la.map f).sum| ≤ lb.length / 2 := by
  induction h with
  | nil => simp
  | @cons a b la lb h _ ih =>
    simp only [List.map_cons, List.sum_cons, List.length_cons, Int.cast_add, Nat.cast_add, Nat.cast_one]
    have h1 := hR a b h
    rw [abs_le] at *
    constructor <;> linarith [h1.1, h1.2, ih.1, ih.2]

lemma filter_sum (l : List Timer) (p : Timer → Prop) [DecidablePred p] (f : Timer → K) (h : ∀ i, ¬ p i → f i = 0) :
    ((l.filter fun i => decide (p i)).map f).sum = (l.map f).sum := by
  induction l with
  | nil => rfl
  | cons i l ih =>
    by_cases hp : p i
    · rw [List.filter_cons_of_pos (by simpa using hp)]
      simp [ih]
    · rw [List.filter_cons_of_neg (by simpa using hp)]
      simp [ih, h i hp]

lemma sum_scaled (c s : K) (l : List Timer) (f : Timer → K) :
    (l.map fun i => c * f i / s).sum = c * (l.map f).sum / s := by
  induction l with
  | nil => simp
  | cons i l ih => simp only [List.map_cons, List.sum_cons, ih]; ring

/-- **C120.** With a clock that does not run backwards, the percentages are the shares of the time since the last update and
since the start, rounded to the nearest whole number, and lie between 0 and 100; if all operations that took time stand for
calls, the percentages of a column add up to 100 but for half a percent for each row. -/
theorem profile_percent (h : List (Ev K)) (hf : Forward h) (s : Timer → Entry K) (out : List (List (Row K)))
    (hr : run start (h ++ [.update true]) = some (s, out)) :
    ∃ out0 table, out = out0 ++ [table] ∧
      List.Forall₂ (fun i (r : Row K) =>
          (allTime (recent h) = 0 → r.pct = 0) ∧
          (allTime (recent h) ≠ 0 → |(r.pct : K) - 100 * time (recent h) i / allTime (recent h)| ≤ 1 / 2 ∧ 0 ≤ r.pct ∧ r.pct ≤ 100) ∧
          |(r.pctTotal : K) - 100 * time h i / allTime h| ≤ 1 / 2 ∧ 0 ≤ r.pctTotal ∧ r.pctTotal ≤ 100)
        (shown h) table ∧
      ((∀ i, time (recent h) i ≠ 0 → i ∈ shown h) → allTime (recent h) ≠ 0 →
        |(((table.map Row.pct).sum : ℤ) : K) - 100| ≤ table.length / 2) ∧
      ((∀ i, time h i ≠ 0 → i ∈ shown h) → allTime h ≠ 0 →
        |(((table.map Row.pctTotal).sum : ℤ) : K) - 100| ≤ table.length / 2) := by
  obtain ⟨out0, out1, h1, rfl, hu⟩ := run_update h true s out hr
  obtain ⟨table, rfl, ht⟩ := update_true h s out1 hu
  have hfr := recent_forward hf
  have key : List.Forall₂ (fun i (r : Row K) =>
          (allTime (recent h) = 0 → r.pct = 0) ∧
          (allTime (recent h) ≠ 0 → |(r.pct : K) - 100 * time (recent h) i / allTime (recent h)| ≤ 1 / 2 ∧ 0 ≤ r.pct ∧ r.pct ≤ 100) ∧
          |(r.pctTotal : K) - 100 * time h i / allTime h| ≤ 1 / 2 ∧ 0 ≤ r.pctTotal ∧ r.pctTotal ≤ 100)
        (shown h) table := by
    refine ht.imp fun i r hrow => ?_
    obtain ⟨p1, p2, -⟩ := row_some hrow
    refine ⟨fun h0 => ?_, fun h0 => ?_, ?_⟩
    · rw [if_pos h0] at p1
      have hz : time (recent h) i = 0 := le_antisymm (h0 ▸ time_le_all _ hfr i) (time_nonneg _ hfr i)
      simp only [hz, percent, one_ne_zero, if_false] at p1
      have := toInt_val _ (by norm_num) _ p1
      rw [this]
      norm_num
    · rw [if_neg h0] at p1
      exact percent_val _ _ (time_nonneg _ hfr i) (time_le_all _ hfr i) _ p1
    · exact percent_val _ _ (time_nonneg _ hf i) (time_le_all _ hf i) _ p2
  refine ⟨out0, table, rfl, key, fun hall h0 => ?_, fun hall h0 => ?_⟩
  · have := forall₂_sum (fun i => 100 * time (recent h) i / allTime (recent h)) Row.pct (fun i r hir => (hir.2.1 h0).1) _ _ key
    rw [sum_scaled] at this
    unfold shown at this
    rw [filter_sum timers (fun i => calls (recent h) i ≠ 0 ∨ calls h i ≠ 0) _ (fun i hi => by
        by_contra hne
        have := hall i hne
        unfold shown at this
        rw [List.mem_filter] at this
        exact hi (by simpa using this.2)), timers_sum] at this
    rw [mul_div_assoc, show (∑ i, time (recent h) i) / allTime (recent h) = 1 from div_self h0, mul_one] at this
    exact this
  · have := forall₂_sum (fun i => 100 * time h i / allTime h) Row.pctTotal (fun i r hir => hir.2.2.1) _ _ key
    rw [sum_scaled] at this
    unfold shown at this
    rw [filter_sum timers (fun i => calls (recent h) i ≠ 0 ∨ calls h i ≠ 0) _ (fun i hi => by
        by_contra hne
        have := hall i hne
        unfold shown at this
        rw [List.mem_filter] at this
        exact hi (by simpa using this.2)), timers_sum] at this
    rw [mul_div_assoc, show (∑ i, time h i) / allTime h = 1 from div_self h0, mul_one] at this
    exact this

lemma toInt_some (x : K) (h0 : 0 ≤ x) (h1 : x < 101) : ∃ z, toInt x = some z := by
  unfold toInt
  simp only [if_pos h0]
  have a : 0 ≤ ⌊x⌋ := Int.floor_nonneg.mpr h0
  have b : ⌊x⌋ < 101 := Int.floor_lt.mpr (by push_cast; exact h1)
  refine ⟨⌊x⌋, if_pos ⟨by omega, by omega⟩⟩

lemma percent_some (t sum : K) (ht : 0 ≤ t) (hs : t ≤ sum) (hp : 0 < sum) : ∃ z, percent t sum = some z := by
  unfold percent
  rw [if_neg hp.ne']
  have hq0 : 0 ≤ 100 * t / sum := by positivity
  have hq1 : 100 * t / sum ≤ 100 := by rw [div_le_iff₀ hp]; linarith
  exact toInt_some _ (by linarith) (by linarith)

lemma calls_nonneg (h : List (Ev K)) (hn : ∀ i a b n, Ev.block i a b n ∈ h → 0 ≤ n) (i : Timer) : 0 ≤ calls h i := by
  unfold calls
  apply List.sum_nonneg
  intro x hx
  obtain ⟨e, he, rfl⟩ := List.mem_map.mp hx
  cases e with
  | block j a b n =>
    simp only
    split_ifs
    · exact hn j a b n he
    · exact le_rfl
  | update d => exact le_rfl

lemma recent_calls_le (h : List (Ev K)) (hn : ∀ i a b n, Ev.block i a b n ∈ h → 0 ≤ n) (i : Timer) :
    calls (recent h) i ≤ calls h i := by
  obtain ⟨p, hp⟩ := List.rtakeWhile_suffix (fun e : Ev K => match e with
    | .block _ _ _ _ => true
    | .update _ => false) h
  have : calls h i = calls p i + calls (recent h) i := by
    conv_lhs => rw [← hp]
    exact calls_append _ _ _
  have hp0 : 0 ≤ calls p i := calls_nonneg p (fun j a b n he => hn j a b n (by rw [← hp]; exact List.mem_append_left _ he)) i
  omega

/-- **C120, where it holds.** A history is defined if the clock does not run backwards in a block, the calls stay in the range
of `int` and some time has passed in the blocks before each table that has a row. -/
theorem profile_defined_partial (h : List (Ev K)) (hf : Forward h) (hn : ∀ i a b n, Ev.block i a b n ∈ h → 0 ≤ n)
    (hc : ∀ i, calls h i < 2 ^ 31)
    (ht : ∀ p, p ++ [Ev.update true] <+: h → 0 < allTime p ∨ ∀ i, calls p i = 0) :
    ∃ s out, run start h = some (s, out) := by
  induction h using List.reverseRecOn with
  | nil => exact ⟨_, _, rfl⟩
  | append_singleton h e ih =>
    have hn' : ∀ i a b n, Ev.block i a b n ∈ h → 0 ≤ n := fun i a b n he => hn i a b n (List.mem_append_left _ he)
    have hf' : Forward h := fun i a b n he => hf i a b n (List.mem_append_left _ he)
    have hstep : ∀ i, calls h i ≤ calls (h ++ [e]) i := fun i => by
      rw [calls_append]
      have := calls_nonneg [e] (fun j a b n he => hn j a b n (List.mem_append_right _ he)) i
      omega
    obtain ⟨s, out, hs⟩ := ih hf' hn' (fun i => lt_of_le_of_lt (hstep i) (hc i))
      (fun p hp => ht p (hp.trans (List.prefix_append _ _)))
    obtain rfl := run_state h s out hs
    suffices h1 : ∃ q, ev (after h) e = some q by
      obtain ⟨⟨s1, r1⟩, h1⟩ := h1
      refine ⟨s1, out ++ r1, ?_⟩
      rw [run_append, hs]
      simp [run, h1]
    cases e with
    | block i a b n =>
      have h0 : 0 ≤ calls (recent h) i := calls_nonneg _ (fun j a b n he => hn' j a b n (recent_sub h _ he)) i
      have h1 := recent_calls_le h hn' i
      have h2 := hc i
      have h3 : calls (h ++ [Ev.block i a b n]) i = calls h i + n := by
        rw [calls_append]; simp [calls]
      have h4 := hn i a b n (List.mem_append_right _ List.mem_cons_self)
      have : IsInt ((after h i).n + n) := by
        show IsInt (calls (recent h) i + n)
        unfold IsInt
        omega
      exact ⟨_, by simp only [ev, block]; rw [if_pos this]; rfl⟩
    | update d =>
      have hi : ∀ i ∈ timers, IsInt ((after h i).nTotal + (after h i).n) := by
        intro i _
        have h0 := calls_nonneg h hn' i
        have h1 := hstep i
        have h2 := hc i
        simp only [after, sub_add_cancel]
        unfold IsInt
        omega
      simp only [ev, update]
      rw [if_pos hi]
      cases d
      · exact ⟨_, rfl⟩
      · simp only [if_true]
        have : ∃ out, rows (fun i => { after h i with
            tTotal := (after h i).tTotal + (after h i).t, nTotal := (after h i).nTotal + (after h i).n })
            (if (timers.map fun i => (after h i).t).sum = 0 then 1 else (timers.map fun i => (after h i).t).sum)
            (timers.map fun i => (after h i).tTotal + (after h i).t).sum timers = some out := by
          apply rows_some
          intro i _ hne
          simp only [after, sub_add_cancel, timers_sum] at hne ⊢
          have hpos : 0 < allTime h := by
            rcases ht h (List.prefix_refl _) with hp | hz
            · exact hp
            · exfalso
              apply hne
              have h0 : 0 ≤ calls (recent h) i := calls_nonneg _ (fun j a b n he => hn' j a b n (recent_sub h _ he)) i
              have h1 := recent_calls_le h hn' i
              have h2 := hz i
              omega
          have hfr := recent_forward hf'
          obtain ⟨q, hq⟩ := percent_some (time h i) (allTime h) (time_nonneg h hf' i) (time_le_all h hf' i) hpos
          have hp : ∃ p, percent (time (recent h) i) (if allTime (recent h) = 0 then 1 else allTime (recent h)) = some p := by
            by_cases h0 : allTime (recent h) = 0
            · rw [if_pos h0]
              refine percent_some _ _ (time_nonneg _ hfr i) ?_ one_pos
              have := time_le_all _ hfr i
              rw [h0] at this
              linarith
            · rw [if_neg h0]
              exact percent_some _ _ (time_nonneg _ hfr i) (time_le_all _ hfr i)
                (lt_of_le_of_ne (Finset.sum_nonneg fun j _ => time_nonneg _ hfr j) (Ne.symm h0))
          obtain ⟨p, hp⟩ := hp
          unfold allTime at hp hq
          unfold row
          simp only [hp, hq]
          exact ⟨_, rfl⟩
        obtain ⟨out, hout⟩ := this
        rw [hout]
        exact ⟨_, rfl⟩

lemma forall₂_left {α β : Type} {R : α → β → Prop} {la : List α} {lb : List β} (h : List.Forall₂ R la lb) (a : α)
    (ha : a ∈ la) : ∃ b, R a b := by
  induction h with
  | nil => simp at ha
  | @cons x y _ _ hxy _ ih =>
    rcases List.mem_cons.mp ha with rfl | ha
    · exact ⟨y, hxy⟩
    · exact ih ha

/-- **C120 is false of the code.** The first table after blocks that took no time, by a clock that counts microseconds, is
undefined: the share of the total is zero divided by zero, converted to `int` (only the share since the last update is
guarded). -/
theorem profile_undefined (i : Timer) (a : K) : run start [.block i a a 1, .update true] = none := by
  cases hr : run start [Ev.block i a a 1, Ev.update true] with
  | none => rfl
  | some q =>
    exfalso
    obtain ⟨s, out⟩ := q
    obtain ⟨out0, out1, -, -, hu⟩ := run_update [Ev.block i a a 1] true s out hr
    obtain ⟨table, -, ht⟩ := update_true _ s out1 hu
    have hi : i ∈ shown [Ev.block i a a 1] := by
      unfold shown
      rw [List.mem_filter]
      refine ⟨Finset.mem_univ i, ?_⟩
      simp [calls]
    have hz : allTime [Ev.block i a a 1] = 0 := by
      unfold allTime time
      simp
    obtain ⟨r, hrow⟩ := forall₂_left ht i hi
    have := (row_some hrow).2.1
    rw [hz] at this
    simp [percent] at this

end Verif.Profile
