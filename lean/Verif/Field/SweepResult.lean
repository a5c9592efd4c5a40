import Verif.Field.Sweep

/-!
# The result of a sweep

Whatever the interleaving, a sweep leaves every updated component as if all ghosts had been filled first
and every update had then been done once, from the values before the sweep.
-/
namespace Verif.Field

open Grid

lemma Local.mono {A : Type*} {V : A → Type*} {F R F' R' : A → Prop} {f : Memory V → Memory V}
    (h : Local F R f) (hF : ∀ x, F x → F' x) (hR : ∀ x, R x → F' x ∨ R' x) : Local F' R' f where
  frame m x hx := h.frame m x fun hf => hx (hF x hf)
  dep m n hmn x hx := by
    by_cases hf : F x
    · refine h.dep m n (fun y hy => hmn y ?_) x hf
      rcases hy with hy | hy
      · exact Or.inl (hF y hy)
      · exact hR y hy
    · rw [h.frame m x hf, h.frame n x hf]
      exact hmn x (Or.inl hx)

lemma Runs.append {M : Type*} (more : List (M → M)) {ts : List (List (M → M))} {m m' : M}
    (h : Runs ts m m') : ∀ pre t, ts = pre ++ [t] →
    Runs (pre ++ [t ++ more]) m (runSeq more m') := by
  induction h with
  | @done ts m hd =>
    rintro pre t rfl
    have e : (pre ++ [t ++ more]).flatten = more := by
      have e1 : pre.flatten = [] := by
        rw [List.flatten_eq_nil_iff]
        exact fun l hl => hd l (by simp [hl])
      have e2 : t = [] := hd t (by simp)
      simp [e1, e2]
    have := runs_seq (pre ++ [t ++ more]) m
    rwa [e] at this
  | step p q f t m m'' h ih =>
    intro pre u he
    rcases List.eq_nil_or_concat q with rfl | ⟨q', v, rfl⟩
    · obtain ⟨rfl, h2⟩ := List.append_inj' he rfl
      obtain rfl : f :: t = u := by simpa using h2
      have := ih p t rfl
      exact Runs.step p [] f (t ++ more) m _ this
    · rw [List.concat_eq_append, ← List.cons_append, ← List.append_assoc] at he
      obtain ⟨rfl, h2⟩ := List.append_inj' he rfl
      obtain rfl : v = u := by simpa using h2
      have := ih (p ++ t :: q') v (by simp)
      simp only [List.append_assoc, List.cons_append] at this ⊢
      exact Runs.step p (q' ++ [v ++ more]) f t m _ this

/-- More work of the host after the pipelines have finished. -/
lemma Phase.append {O M : Type*} {R : Distribute.Rounding} {g : LGrid} {lo hi : Pos} {P : ℕ}
    {ops : Pos → List O} {step : O → M → M} {host : List (M → M)} {m m' : M}
    (h : Phase R g lo hi P ops step host m m') (more : List (M → M)) :
    Phase R g lo hi P ops step (host ++ more) m (runSeq more m') := by
  obtain ⟨pre, last, h1, h2, h3⟩ := h
  refine ⟨pre, last, h1, h2, ?_⟩
  have := Runs.append more h3 (pre.map fun l => l.map step) (last.map step ++ host) rfl
  simpa [List.append_assoc] using this

/-- The result of a phase whose host work is: updates `hin`, arrival of ghosts `rs`, updates `hout`. -/
theorem sweep_result {A O : Type*} {V : A → Type*} {R : Distribute.Rounding} (hR : R.Accurate)
    {g : LGrid} {lo hi : Pos} {P : ℕ} {ops : Pos → List O} {k : O → Memory V → Memory V}
    {hin hout : List O} {rs : List (Memory V → Memory V)} {m m' : Memory V}
    (hlo : ∀ a, lo a ≤ hi a + 1)
    (hN : (hi 0 - lo 0 + 1) * (hi 1 - lo 1 + 1) * (hi 2 - lo 2 + 1) < 2 ^ 31)
    (hP : 0 < P) (hP2 : P ≤ 2 ^ 16)
    (h : Phase R g lo hi P ops k (hin.map k ++ rs ++ hout.map k) m m')
    (bulk : O → Prop)
    (hbulk : ∀ o, bulk o ↔ ∃ c : Pos, (∀ a, lo a ≤ c a ∧ c a ≤ hi a) ∧ o ∈ ops c)
    (W Rd : O → A → Prop) (G RG : A → Prop)
    (hops : ∀ c, (ops c).Nodup) (hops2 : ∀ c d o, o ∈ ops c → o ∈ ops d → c = d)
    (hni : hin.Nodup) (hno : hout.Nodup) (hbi : ∀ o ∈ hin, ¬ bulk o) (hbo : ∀ o ∈ hout, ¬ bulk o)
    (hio : ∀ o ∈ hin, o ∉ hout)
    (All : O → Prop) (hall : ∀ o, All o ↔ bulk o ∨ o ∈ hin ∨ o ∈ hout)
    (hk : ∀ o, All o → Local (W o) (Rd o) (k o))
    (hd : ∀ o, All o → ∀ o', All o' → o ≠ o' → ∀ x, W o x → ¬ W o' x)
    (hRW : ∀ o, All o → ∀ o', All o' → ∀ x, Rd o x → ¬ W o' x)
    (hrs : ∀ f ∈ rs, Local G RG f)
    (hGW : ∀ o, All o → ∀ x, G x → ¬ W o x) (hRGW : ∀ o, All o → ∀ x, RG x → ¬ W o x)
    (hRGG : ∀ x, RG x → ¬ G x)
    (hRdG : ∀ o, bulk o ∨ o ∈ hin → ∀ x, Rd o x → ¬ G x) :
    (∀ o, All o → ∀ x, W o x → m' x = k o (runSeq rs m) x) ∧
    ∀ x, (∀ o, All o → ¬ W o x) → m' x = runSeq rs m x := by
  have ab : ∀ {o}, bulk o → All o := fun {o} ho => (hall o).mpr (Or.inl ho)
  have ai : ∀ {o}, o ∈ hin → All o := fun {o} ho => (hall o).mpr (Or.inr (Or.inl ho))
  have ao : ∀ {o}, o ∈ hout → All o := fun {o} ho => (hall o).mpr (Or.inr (Or.inr ho))
  let FH : A → Prop := fun x => G x ∨ ∃ o, (o ∈ hin ∨ o ∈ hout) ∧ W o x
  let RH : A → Prop := fun x => (RG x ∨ ∃ o, (o ∈ hin ∨ o ∈ hout) ∧ Rd o x) ∧ ¬ FH x
  have toRH : ∀ x, (RG x ∨ ∃ o, (o ∈ hin ∨ o ∈ hout) ∧ Rd o x) → FH x ∨ RH x := by
    intro x hx
    by_cases hf : FH x
    · exact Or.inl hf
    · exact Or.inr ⟨hx, hf⟩
  have hne : ∀ {o o'}, bulk o → (o' ∈ hin ∨ o' ∈ hout) → o ≠ o' := by
    rintro o o' hb (h' | h') rfl
    · exact hbi _ h' hb
    · exact hbo _ h' hb
  have ah : ∀ {o}, (o ∈ hin ∨ o ∈ hout) → All o := fun {o} ho => (hall o).mpr (Or.inr ho)
  obtain ⟨p1, p2, p3⟩ := phase_result hR hlo hN hP hP2 h bulk hbulk W
    (fun x => ∃ o, bulk o ∧ Rd o x) FH RH hops hops2
    (fun o ho => Local.mono (hk o (ab ho)) (fun _ hx => hx) fun x hx => Or.inr ⟨o, ho, hx⟩)
    (fun o ho o' ho' hne => hd o (ab ho) o' (ab ho') hne)
    (by
      rintro o ho x ⟨o', ho', hx⟩
      exact hRW o' (ab ho') o (ab ho) x hx)
    (by
      intro f hf
      simp only [List.mem_append, List.mem_map] at hf
      rcases hf with (⟨o, ho, rfl⟩ | hf) | ⟨o, ho, rfl⟩
      · exact Local.mono (hk o (ai ho)) (fun x hx => Or.inr ⟨o, Or.inl ho, hx⟩)
          fun x hx => toRH x (Or.inr ⟨o, Or.inl ho, hx⟩)
      · exact Local.mono (hrs f hf) (fun x hx => Or.inl hx) fun x hx => toRH x (Or.inl hx)
      · exact Local.mono (hk o (ao ho)) (fun x hx => Or.inr ⟨o, Or.inr ho, hx⟩)
          fun x hx => toRH x (Or.inr ⟨o, Or.inr ho, hx⟩))
    (by
      rintro o ho x (hx | ⟨o', ho', hx⟩)
      · exact hGW o (ab ho) x hx
      · exact hd o' (ah ho') o (ab ho) (hne ho ho').symm x hx)
    (by
      rintro o ho x ⟨hx | ⟨o', ho', hx⟩, -⟩
      · exact hRGW o (ab ho) x hx
      · exact hRW o' (ah ho') o (ab ho) x hx)
    (by
      rintro x ⟨o, ho, hx⟩ (hG | ⟨o', ho', hW⟩)
      · exact hRdG o (Or.inl ho) x hx hG
      · exact hRW o (ab ho) o' (ah ho') x hx hW)
    (fun x hx => hx.2)
  have locR : ∀ (L : List O), (∀ o ∈ L, All o) → L.Nodup → ∀ n : Memory V,
      (∀ o ∈ L, ∀ x, W o x → runSeq (L.map k) n x = k o n x) ∧
      ∀ x, (∀ o ∈ L, ¬ W o x) → runSeq (L.map k) n x = n x := by
    intro L hL hnd n
    refine seq_sweep k W (fun x => ∃ o ∈ L, Rd o x) L hnd
      (fun o ho => Local.mono (hk o (hL o ho)) (fun _ hx => hx) fun x hx => Or.inr ⟨o, ho, hx⟩)
      (fun o ho o' ho' hne => hd o (hL o ho) o' (hL o' ho') hne) ?_ n
    rintro o ho x ⟨o', ho', hx⟩
    exact hRW o' (hL o' ho') o (hL o ho) x hx
  have hloc := Local.runSeq rs hrs hRGG
  obtain ⟨a1, a2⟩ := locR hin (fun o ho => ai ho) hni m
  set a := runSeq (hin.map k) m with ha
  obtain ⟨c1, c2⟩ := locR hout (fun o ho => ao ho) hno (runSeq rs a)
  have hh : runSeq (hin.map k ++ rs ++ hout.map k) m = runSeq (hout.map k) (runSeq rs a) := by
    rw [runSeq_append, runSeq_append]
  rw [hh] at p2
  set mg := runSeq rs m with hmg
  have bG : ∀ x, G x → runSeq rs a x = mg x := by
    intro x hx
    refine hloc.dep a m ?_ x hx
    intro y hy
    apply a2
    intro o ho
    rcases hy with hy | hy
    · exact hGW o (ai ho) y hy
    · exact hRGW o (ai ho) y hy
  have bN : ∀ x, ¬ G x → runSeq rs a x = a x := fun x hx => hloc.frame a x hx
  have gN : ∀ x, ¬ G x → mg x = m x := fun x hx => hloc.frame m x hx
  -- an update before the ghosts arrive reads no ghost
  have early : ∀ o, (bulk o ∨ o ∈ hin) → ∀ x, W o x → k o m x = k o mg x := by
    intro o ho x hx
    have hA : All o := by rcases ho with ho | ho; exacts [ab ho, ai ho]
    refine (hk o hA).dep m mg ?_ x hx
    intro y hy
    rcases hy with hy | hy
    · exact (gN y fun hG => hGW o hA y hG hy).symm
    · exact (gN y (hRdG o ho y hy)).symm
  refine ⟨?_, ?_⟩
  · intro o ho x hx
    rcases (hall o).mp ho with hb | hi' | ho'
    · rw [p1 o hb x hx]; exact early o (Or.inl hb) x hx
    · have hn : ∀ o' ∈ hout, ¬ W o' x := fun o' ho' hW =>
        hd o ho o' (ao ho') (fun e => hio o hi' (e ▸ ho')) x hx hW
      rw [p2 x (Or.inr ⟨o, Or.inl hi', hx⟩), c2 x hn, bN x fun hG => hGW o ho x hG hx, a1 o hi' x hx]
      exact early o (Or.inr hi') x hx
    · rw [p2 x (Or.inr ⟨o, Or.inr ho', hx⟩), c1 o ho' x hx]
      refine (hk o ho).dep _ _ ?_ x hx
      intro y hy
      by_cases hG : G y
      · exact bG y hG
      · rw [bN y hG, gN y hG]
        apply a2
        intro o' hi' hW
        rcases hy with hy | hy
        · exact hd o' (ai hi') o ho (fun e => hio o' hi' (e ▸ ho')) y hW hy
        · exact hRW o ho o' (ai hi') y hy hW
  · intro x hx
    by_cases hG : G x
    · rw [p2 x (Or.inl hG), c2 x fun o ho => hx o (ao ho)]
      exact bG x hG
    · rw [p3 x (fun o ho => hx o (ab ho)), gN x hG]
      rintro (h' | ⟨o, ho, h'⟩)
      · exact hG h'
      · exact hx o (ah ho) h'

end Verif.Field
