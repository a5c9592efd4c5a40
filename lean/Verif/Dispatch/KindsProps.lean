import Verif.Dispatch.Kinds

/-!
# C105: the dispatchers are interchangeable
-/
namespace Verif.Dispatch

variable {M : Type*}

lemma runs_perm {ts : List (List (M → M))} {m m' : M} (h : Runs ts m m') : ∀ {ts'}, ts.Perm ts' → Runs ts' m m' := by
  induction h with
  | done ts m h => exact fun p => .done _ m fun t ht => h t (p.mem_iff.mpr ht)
  | step pre post f t m m' _ ih =>
    intro ts' p
    obtain ⟨a, b, rfl⟩ := List.append_of_mem (p.mem_iff.mp (by simp : f :: t ∈ pre ++ (f :: t) :: post))
    refine .step a b f t m m' (ih ?_)
    have : (pre ++ post).Perm (a ++ b) :=
      List.Perm.cons_inv (List.perm_middle.symm.trans (p.trans List.perm_middle))
    exact List.perm_middle.trans ((this.cons t).trans List.perm_middle.symm)

open Classical in
lemma runs_split {ts : List (List (M → M))} {m m' : M} (h : Runs ts m m') : ∀ {t1 t2 rest}, ts.Perm ((t1 ++ t2) :: rest) →
    Runs (t1 :: t2 :: rest) m m' := by
  induction h with
  | done ts m h =>
    intro t1 t2 rest p
    have h0 := h (t1 ++ t2) (p.mem_iff.mpr (by simp))
    obtain ⟨rfl, rfl⟩ := List.append_eq_nil_iff.mp h0
    refine .done _ m fun t ht => ?_
    simp only [List.mem_cons] at ht
    rcases ht with rfl | rfl | ht
    exacts [rfl, rfl, h t (p.mem_iff.mpr (by simp [ht]))]
  | step pre post f t m m' hr ih =>
    intro t1 t2 rest p
    have p' : ((f :: t) :: (pre ++ post)).Perm ((t1 ++ t2) :: rest) := List.perm_middle.symm.trans p
    by_cases he : f :: t = t1 ++ t2
    · rw [← he] at p'
      have q := List.Perm.cons_inv p'
      cases t1 with
      | nil =>
        obtain rfl : t2 = f :: t := by simpa using he.symm
        refine .step [[]] rest f t m m' ?_
        exact ih (t1 := []) (t2 := t) (List.perm_middle.trans (q.cons t))
      | cons g t1 =>
        simp only [List.cons_append, List.cons.injEq] at he
        obtain ⟨rfl, rfl⟩ := he
        refine .step [] (t2 :: rest) f t1 m m' ?_
        exact ih (t1 := t1) (t2 := t2) (List.perm_middle.trans (q.cons _))
    · have hm : f :: t ∈ rest := by
        have := p'.mem_iff.mp (by simp : f :: t ∈ (f :: t) :: (pre ++ post))
        simpa [he] using this
      obtain ⟨a, b, rfl⟩ := List.append_of_mem hm
      have q : (pre ++ post).Perm ((t1 ++ t2) :: (a ++ b)) := by
        refine List.Perm.cons_inv (a := f :: t) (p'.trans ?_)
        exact (List.perm_middle.cons _).trans (List.Perm.swap _ _ _)
      have k := ih (t1 := t1) (t2 := t2) (rest := t :: (a ++ b))
        (List.perm_middle.trans ((q.cons t).trans (List.Perm.swap _ _ _)))
      refine .step (t1 :: t2 :: a) b f t m m' (runs_perm k ?_)
      exact ((List.perm_middle.symm.cons t2).cons t1)

lemma runs_flatten {m m' : M} (js : List (List (M → M))) : ∀ {rest}, Runs (js.flatten :: rest) m m' → Runs (js ++ rest) m m' := by
  induction js with
  | nil =>
    intro rest h
    have : ∀ {ts : List (List (M → M))} {m m' : M}, Runs ts m m' → ∀ {rest}, ts.Perm ([] :: rest) → Runs rest m m' := by
      intro ts m m' h
      induction h with
      | done ts m h => exact fun p => .done _ m fun t ht => h t (p.mem_iff.mpr (by simp [ht]))
      | step pre post f t m m' _ ih =>
        intro rest p
        have hm : f :: t ∈ rest := by
          have := p.mem_iff.mp (by simp : f :: t ∈ pre ++ (f :: t) :: post)
          simpa using this
        obtain ⟨a, b, rfl⟩ := List.append_of_mem hm
        refine .step a b f t m m' (ih ?_)
        have q : (pre ++ post).Perm ([] :: (a ++ b)) := by
          refine List.Perm.cons_inv (a := f :: t) (List.perm_middle.symm.trans (p.trans ?_))
          exact (List.perm_middle.cons _).trans (List.Perm.swap _ _ _)
        exact List.perm_middle.trans ((q.cons t).trans ((List.Perm.swap _ _ _).trans (List.perm_middle.symm.cons _)))
    exact this h (List.Perm.refl _)
  | cons j js ih =>
    intro rest h
    have h1 := runs_split h (t1 := j) (t2 := js.flatten) (rest := rest) (by simp)
    have h2 := ih (runs_perm h1 (List.Perm.swap _ _ _) : Runs (js.flatten :: j :: rest) m m')
    exact runs_perm h2 List.perm_middle

lemma runs_shares {m m' : M} {N : Type*} (g : N → List (M → M)) (sh : List (List N)) : ∀ {rest},
    Runs (sh.map (fun ids => (ids.map g).flatten) ++ rest) m m' → Runs (sh.flatten.map g ++ rest) m m' := by
  induction sh with
  | nil => exact fun h => h
  | cons ids sh ih =>
    intro rest h
    have h1 := runs_flatten (ids.map g) h
    have p : (ids.map g ++ (sh.map (fun ids => (ids.map g).flatten) ++ rest)).Perm
        (sh.map (fun ids => (ids.map g).flatten) ++ (ids.map g ++ rest)) := by
      rw [← List.append_assoc, ← List.append_assoc]
      exact (List.perm_append_comm).append_right rest
    have h2 := ih (runs_perm h1 p)
    refine runs_perm h2 ?_
    rw [List.flatten_cons, List.map_append, ← List.append_assoc]
    exact (List.perm_append_comm).append_right rest

lemma runs_single (host : List (M → M)) : ∀ (ts : List (List (M → M))) (m : M), (∀ t ∈ ts, t = []) → Runs (ts ++ [host]) m (runSeq host m) := by
  induction host with
  | nil => exact fun ts m h => .done _ m fun t ht => by simp at ht; rcases ht with ht | rfl; exacts [h t ht, rfl]
  | cons f host ih => exact fun ts m h => .step ts [] f host m _ (ih ts (f m) h)

lemma runs_then {ts : List (List (M → M))} {m m' : M} (h : Runs ts m m') (host : List (M → M)) : Runs (ts ++ [host]) m (runSeq host m') := by
  induction h with
  | done ts m h => exact runs_single host ts m h
  | step pre post f t m m' _ ih =>
    rw [List.append_assoc, List.cons_append] at ih ⊢
    exact .step pre (post ++ [host]) f t m _ ih

/-- **C105.** Whatever OpenMP does, how many threads it uses and which jobs it gives to which of them, could have been done by the
pthreads dispatcher: it is one of the interleavings of all jobs, each done exactly once, and the host. -/
theorem omp_is_interleaving (js : List (List (M → M))) (host : List (M → M)) (shares : List (List (Fin js.length))) {m m' : M}
    (h : OmpRuns js host shares m m') : Runs (js ++ [host]) m m' := by
  obtain ⟨hp, m1, h1, rfl⟩ := h
  have h2 := runs_shares js.get shares (rest := []) (by rwa [List.append_nil])
  rw [List.append_nil] at h2
  refine runs_then (runs_perm h2 ?_) host
  have := hp.map js.get
  rwa [show (List.finRange js.length).map js.get = js from List.map_get_finRange js] at this

/-- **C105.** Likewise for the serial dispatcher. -/
theorem serial_is_interleaving (js : List (List (M → M))) (host : List (M → M)) (m : M) : Runs (js ++ [host]) m (serialRun js host m) := by
  unfold serialRun
  refine runs_then ?_ host
  have : ∀ (js : List (List (M → M))) (m : M), js.foldl (fun m j => runSeq j m) m = runSeq js.flatten m := by
    intro js
    induction js with
    | nil => exact fun m => rfl
    | cons j js ih => intro m; rw [List.foldl_cons, ih, List.flatten_cons, runSeq_append]
  rw [this]
  have h := runs_flatten js (rest := []) (m := m) (m' := runSeq js.flatten m) (runs_single js.flatten [] m (by simp))
  rwa [List.append_nil] at h

/-- **C105.** So when the jobs do not depend on each other, all dispatchers give the same result. -/
theorem dispatchers_agree (js : List (List (M → M))) (host : List (M → M)) (hi : Independent (js ++ [host]))
    (shares : List (List (Fin js.length))) {m m1 m2 : M} (h1 : OmpRuns js host shares m m1) (h2 : Runs (js ++ [host]) m m2) :
    m1 = serialRun js host m ∧ m2 = serialRun js host m := by
  have s := runs_eq_seq (serial_is_interleaving js host m) hi
  exact ⟨(runs_eq_seq (omp_is_interleaving js host shares h1) hi).trans s.symm, (runs_eq_seq h2 hi).trans s.symm⟩

/-- With stride zero, which all callers use, all dispatchers give all jobs and the host the same argument. -/
theorem same_argument (sz id n : ℕ) : argSerial sz 0 id = 0 ∧ argOmp sz 0 id = 0 ∧ argHost sz 0 n = 0 := by
  simp [argSerial, argOmp, argHost]

/-- With stride one the OpenMP macro scales by the size of an element twice: job `id` gets element `id * sz`, the other dispatchers
give it element `id`. -/
theorem omp_stride_wrong (sz id : ℕ) (hs : 1 < sz) (hid : 0 < id) : argSerial sz 1 id = id * sz ∧ argOmp sz 1 id ≠ argSerial sz 1 id := by
  refine ⟨by simp [argSerial], ?_⟩
  unfold argOmp argSerial
  have : 0 < id * sz * 1 := Nat.mul_pos (Nat.mul_pos hid (by omega)) Nat.one_pos
  intro h
  have := Nat.eq_of_mul_eq_mul_left this (h.trans (Nat.mul_one _).symm)
  omega

/-- A concrete case: three jobs that write to places of their own, two threads, the second thread takes jobs 2 and 0 in this order. -/
example : ∃ m', OmpRuns [[fun m : ℕ → ℕ => Function.update m 0 5], [fun m => Function.update m 1 6, fun m => Function.update m 1 (m 1 + 1)],
    [fun m => Function.update m 2 8]] [fun m => Function.update m 3 9] [[1], [2, 0]] (fun _ => 0) m' ∧ m' 1 = 7 ∧ m' 2 = 8 ∧ m' 3 = 9 := by
  refine ⟨_, ⟨by decide, runSeq [fun m => Function.update m 1 6, fun m => Function.update m 2 8, fun m => Function.update m 0 5,
    fun m => Function.update m 1 (m 1 + 1)] (fun _ => 0), ?_, rfl⟩, ?_⟩
  · exact .step [] _ _ _ _ _ (.step [_] [] _ _ _ _ (.step [_] [] _ _ _ _ (.step [] _ _ _ _ _ (.done _ _ (by simp)))))
  · simp [runSeq, Function.update]

end Verif.Dispatch
