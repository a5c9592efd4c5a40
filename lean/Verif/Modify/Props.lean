import Verif.Modify.Model
import Verif.Dump.NamesProps

/-! # C113: a modify file sets the parameters it names -/
namespace Verif.Modify

/-! ## Specification -/

/-- The text is a decimal integer with the value `v`: digits, with a sign or not. -/
def Decimal (t : List Char) (v : ℤ) : Prop :=
  ∃ ds : List Char, ds ≠ [] ∧ (∀ c ∈ ds, c.isDigit = true) ∧
    ((t = ds ∧ v = digitsVal ds) ∨ (t = '+' :: ds ∧ v = digitsVal ds) ∨ (t = '-' :: ds ∧ v = -(digitsVal ds : ℤ)))

/-- The line gives the parameter with the name `key` the value `v`: the name is at the very front, then white space (or none), the number, and
anything that does not go on with it. -/
def Says (key : String) (line : List Char) (v : ℤ) : Prop :=
  ∃ ws num junk, line = key.toList ++ ws ++ num ++ junk ∧ (∀ c ∈ ws, space c = true) ∧ Decimal num v ∧
    ∀ c ∈ junk.head?, c.isDigit = false

/-- Lines of at most 125 characters, each with a line break at its end. -/
def fileOf (ls : List (List Char)) : List Char := ls.flatMap fun l => l ++ ['\n']

/-! ## Lemmas -/

theorem space_not_digit {c : Char} (h : c.isDigit = true) : space c = false ∧ c ≠ '-' ∧ c ≠ '+' := by
  unfold Char.isDigit at h
  simp only [Bool.and_eq_true, decide_eq_true_eq, ge_iff_le] at h
  refine ⟨?_, ?_, ?_⟩
  · unfold space
    simp only [Bool.or_eq_false_iff, decide_eq_false_iff_not]
    refine ⟨⟨⟨⟨⟨?_, ?_⟩, ?_⟩, ?_⟩, ?_⟩, ?_⟩ <;> (rintro rfl; revert h; decide)
  · rintro rfl; revert h; decide
  · rintro rfl; revert h; decide

theorem takeWhile_front {p : Char → Bool} : ∀ (a b : List Char), (∀ c ∈ a, p c = true) → (∀ c ∈ b.head?, p c = false) →
    (a ++ b).takeWhile p = a ∧ (a ++ b).dropWhile p = b := by
  intro a b ha hb
  have h1 := List.takeWhile_append_of_pos (l₂ := b) ha
  have h2 := List.dropWhile_append_of_pos (l₂ := b) ha
  rw [h1, h2]
  cases b with
  | nil => simp
  | cons c b =>
    have := hb c rfl
    simp [List.takeWhile_cons, List.dropWhile_cons, this]

theorem mem_while (p : Char → Bool) : ∀ (t : List Char), ∀ c ∈ t.takeWhile p, p c = true
  | [], c, h => by cases h
  | d :: t, c, h => by
    rw [List.takeWhile_cons] at h
    split at h
    · rename_i hd
      rcases List.mem_cons.1 h with rfl | h
      · exact hd
      · exact mem_while p t c h
    · cases h

theorem split_while (p : Char → Bool) (t : List Char) :
    t = t.takeWhile p ++ t.dropWhile p ∧ (∀ c ∈ t.takeWhile p, p c = true) ∧ ∀ c ∈ (t.dropWhile p).head?, p c = false := by
  refine ⟨List.takeWhile_append_dropWhile.symm, fun c hc => mem_while p t c hc, ?_⟩
  intro c hc
  have := List.head?_dropWhile_not p t
  cases h : (t.dropWhile p).head? with
  | none => rw [h] at hc; cases hc
  | some d =>
    rw [h] at hc this
    cases hc
    simpa using this

/-- Sign and rest. -/
def signed (t : List Char) : Bool × List Char := match t with
    | '-' :: r => (true, r)
    | '+' :: r => (false, r)
    | r => (false, r)

theorem signed_digit {t : List Char} (h : ∀ c ∈ t.head?, c.isDigit = true) : signed t = (false, t) := by
  unfold signed
  cases t with
  | nil => rfl
  | cons c t =>
    obtain ⟨-, h1, h2⟩ := space_not_digit (h c rfl)
    split
    · rename_i e; cases e; exact absurd rfl h1
    · rename_i e; cases e; exact absurd rfl h2
    · rfl

theorem signed_text (t : List Char) : (t = '-' :: (signed t).2 ∧ (signed t).1 = true) ∨ (t = '+' :: (signed t).2 ∧ (signed t).1 = false) ∨
    (t = (signed t).2 ∧ (signed t).1 = false) := by
  unfold signed
  split
  · exact .inl ⟨rfl, rfl⟩
  · exact .inr (.inl ⟨rfl, rfl⟩)
  · exact .inr (.inr ⟨rfl, rfl⟩)

theorem scanInt_eq (t : List Char) : scanInt t =
    let u := signed (t.dropWhile space)
    let ds := u.2.takeWhile Char.isDigit
    if ds = [] then .no
    else
      let v : ℤ := if u.1 then -(digitsVal ds : ℤ) else digitsVal ds
      if -2 ^ 31 ≤ v ∧ v < 2 ^ 31 then .value v else .undef := rfl

/-- The outcome for a value. -/
def outcome (v : ℤ) : Scan ℤ := if -2 ^ 31 ≤ v ∧ v < 2 ^ 31 then .value v else .undef

theorem drop_idem (t : List Char) : (t.dropWhile space).dropWhile space = t.dropWhile space := by
  have := (takeWhile_front (p := space) [] (t.dropWhile space) (by simp) (split_while space t).2.2).2
  simpa using this

theorem scanKey_says {key : String} {line : List Char} {v : ℤ} (h : Says key line v) : scanKey scanInt key.toList line = outcome v := by
  obtain ⟨ws, num, junk, rfl, hws, ⟨ds, hne, hds, hd⟩, hj⟩ := h
  unfold scanKey
  rw [if_pos (by simp [List.append_assoc])]
  have e : (key.toList ++ ws ++ num ++ junk).drop key.toList.length = ws ++ (num ++ junk) := by
    simp [List.append_assoc]
  obtain ⟨d, ds', rfl⟩ := List.exists_cons_of_ne_nil hne
  have hd0 : d.isDigit = true := hds d (by simp)
  have hfront : ∀ c ∈ (num ++ junk).head?, space c = false := by
    intro c hc
    rcases hd with ⟨rfl, -⟩ | ⟨rfl, -⟩ | ⟨rfl, -⟩
    · cases hc; exact (space_not_digit hd0).1
    · cases hc; decide
    · cases hc; decide
  rw [e, (takeWhile_front ws (num ++ junk) hws hfront).2, scanInt_eq]
  dsimp only
  have hd1 : (num ++ junk).dropWhile space = num ++ junk := by
    have := (takeWhile_front (p := space) [] (num ++ junk) (by simp) hfront).2
    simpa using this
  rw [hd1]
  have key : signed (num ++ junk) = (decide (v < 0 ∨ num.head? = some '-'), (d :: ds') ++ junk) ∧
      (if decide (v < 0 ∨ num.head? = some '-') then -(digitsVal (d :: ds') : ℤ) else digitsVal (d :: ds')) = v := by
    rcases hd with ⟨rfl, hv⟩ | ⟨rfl, hv⟩ | ⟨rfl, hv⟩
    · rw [signed_digit (by intro c hc; cases hc; exact hd0)]
      have h1 : ¬ (v < 0 ∨ (d :: ds').head? = some '-') := by
        rintro (h | h)
        · omega
        · simp only [List.head?_cons, Option.some.injEq] at h
          exact (space_not_digit hd0).2.1 h
      simp only [h1, decide_false]
      exact ⟨trivial, by rw [if_neg (by simp), hv]⟩
    · have h1 : ¬ (v < 0 ∨ ('+' :: d :: ds').head? = some '-') := by
        rintro (h | h)
        · omega
        · simp at h
      simp only [h1, decide_false]
      exact ⟨rfl, by rw [if_neg (by simp), hv]⟩
    · have h1 : (v < 0 ∨ ('-' :: d :: ds').head? = some '-') := .inr rfl
      simp only [h1, decide_true]
      exact ⟨rfl, by simp [hv]⟩
  rw [key.1]
  dsimp only
  rw [(takeWhile_front (d :: ds') junk hds hj).1, if_neg (by simp), key.2]
  rfl

theorem scanKey_not {key : String} {line : List Char} (h : ∀ v, ¬ Says key line v) : scanKey scanInt key.toList line = .no := by
  unfold scanKey
  split
  · rename_i hp
    obtain ⟨t, rfl⟩ := hp
    rw [List.drop_left, scanInt_eq]
    dsimp only
    rw [drop_idem]
    split
    · rfl
    · rename_i hne
      exfalso
      obtain ⟨h1, h2, -⟩ := split_while space t
      obtain ⟨h4, h5, h6⟩ := split_while Char.isDigit (signed (t.dropWhile space)).2
      set ws := t.takeWhile space
      set u := t.dropWhile space
      set ds := (signed u).2.takeWhile Char.isDigit
      set junk := (signed u).2.dropWhile Char.isDigit
      rcases signed_text u with ⟨hu, -⟩ | ⟨hu, -⟩ | ⟨hu, -⟩
      · refine h (-(digitsVal ds : ℤ)) ⟨ws, '-' :: ds, junk, ?_, h2, ⟨ds, hne, h5, .inr (.inr ⟨rfl, rfl⟩)⟩, h6⟩
        conv_lhs => rw [h1, hu, h4]
        simp [List.append_assoc]
      · refine h (digitsVal ds : ℤ) ⟨ws, '+' :: ds, junk, ?_, h2, ⟨ds, hne, h5, .inr (.inl ⟨rfl, rfl⟩)⟩, h6⟩
        conv_lhs => rw [h1, hu, h4]
        simp [List.append_assoc]
      · refine h (digitsVal ds : ℤ) ⟨ws, ds, junk, ?_, h2, ⟨ds, hne, h5, .inl ⟨rfl, rfl⟩⟩, h6⟩
        conv_lhs => rw [h1, hu, h4]
        simp [List.append_assoc]
  · rfl


theorem test_eq {α σ : Type} {conv : List Char → Scan α} {key : String} {set : α → σ → σ} {line : List Char} {s s' : σ}
    (h : test conv key set line s = some s') : (scanKey conv key.toList line = .no ∧ s' = s) ∨ ∃ v, scanKey conv key.toList line = .value v ∧ s' = set v s := by
  unfold test at h
  split at h
  · exact .inl ⟨by assumption, (Option.some.inj h).symm⟩
  · exact .inr ⟨_, by assumption, (Option.some.inj h).symm⟩
  · cases h

theorem test_int {σ : Type} {key : String} {set : ℤ → σ → σ} {line : List Char} {s s' : σ} (h : test scanInt key set line s = some s') :
    ((∀ v, ¬ Says key line v) ∧ s' = s) ∨ ∃ v, Says key line v ∧ s' = set v s := by
  by_cases hs : ∃ v, Says key line v
  · obtain ⟨v, hv⟩ := hs
    have e := scanKey_says hv
    rcases test_eq h with ⟨h1, -⟩ | ⟨w, h1, h2⟩
    · rw [e] at h1
      unfold outcome at h1
      split at h1 <;> cases h1
    · rw [e] at h1
      unfold outcome at h1
      split at h1
      · cases h1
        exact .inr ⟨v, hv, h2⟩
      · cases h1
  · have hs : ∀ v, ¬ Says key line v := fun v hv => hs ⟨v, hv⟩
    rcases test_eq h with ⟨-, h2⟩ | ⟨w, h1, -⟩
    · exact .inl ⟨hs, h2⟩
    · rw [scanKey_not hs] at h1; cases h1

variable {E : Type} (fd : List Char → Scan E)

/-- A line sets a parameter. -/
def Step (key : String) (line : List Char) (f : ℤ → ℤ) (old new : ℤ) : Prop :=
  ((∀ v, ¬ Says key line v) ∧ new = old) ∨ ∃ v, Says key line v ∧ new = f v

theorem modifyLine_step {line : List Char} {s s' : Vars E} (h : modifyLine fd line s = some s') :
    Step "num_step" line id s.numStep s'.numStep ∧ Step "checkpt_interval" line clamp s.checkpt s'.checkpt ∧
      Step "hydro_interval" line clamp s.hydro s'.hydro ∧ Step "field_interval" line clamp s.field s'.field ∧
      Step "particle_interval" line clamp s.particle s'.particle ∧
      ((scanKey fd "quota".toList line = .no ∧ s'.quota = s.quota) ∨ scanKey fd "quota".toList line = .value s'.quota) := by
  unfold modifyLine at h
  simp only [Option.bind_eq_bind, Option.bind_eq_some_iff] at h
  obtain ⟨s1, h1, s2, h2, s3, h3, s4, h4, s5, h5, h6⟩ := h
  have k1 := test_eq h1
  have k2 := test_int h2
  have k3 := test_int h3
  have k4 := test_int h4
  have k5 := test_int h5
  have k6 := test_int h6
  have q1 : s1.numStep = s.numStep ∧ s1.checkpt = s.checkpt ∧ s1.hydro = s.hydro ∧ s1.field = s.field ∧ s1.particle = s.particle := by
    rcases k1 with ⟨-, rfl⟩ | ⟨v, -, rfl⟩ <;> exact ⟨rfl, rfl, rfl, rfl, rfl⟩
  have q2 : s2.quota = s1.quota ∧ s2.checkpt = s1.checkpt ∧ s2.hydro = s1.hydro ∧ s2.field = s1.field ∧ s2.particle = s1.particle := by
    rcases k2 with ⟨-, rfl⟩ | ⟨v, -, rfl⟩ <;> exact ⟨rfl, rfl, rfl, rfl, rfl⟩
  have q3 : s3.quota = s2.quota ∧ s3.numStep = s2.numStep ∧ s3.hydro = s2.hydro ∧ s3.field = s2.field ∧ s3.particle = s2.particle := by
    rcases k3 with ⟨-, rfl⟩ | ⟨v, -, rfl⟩ <;> exact ⟨rfl, rfl, rfl, rfl, rfl⟩
  have q4 : s4.quota = s3.quota ∧ s4.numStep = s3.numStep ∧ s4.checkpt = s3.checkpt ∧ s4.field = s3.field ∧ s4.particle = s3.particle := by
    rcases k4 with ⟨-, rfl⟩ | ⟨v, -, rfl⟩ <;> exact ⟨rfl, rfl, rfl, rfl, rfl⟩
  have q5 : s5.quota = s4.quota ∧ s5.numStep = s4.numStep ∧ s5.checkpt = s4.checkpt ∧ s5.hydro = s4.hydro ∧ s5.particle = s4.particle := by
    rcases k5 with ⟨-, rfl⟩ | ⟨v, -, rfl⟩ <;> exact ⟨rfl, rfl, rfl, rfl, rfl⟩
  have q6 : s'.quota = s5.quota ∧ s'.numStep = s5.numStep ∧ s'.checkpt = s5.checkpt ∧ s'.hydro = s5.hydro ∧ s'.field = s5.field := by
    rcases k6 with ⟨-, rfl⟩ | ⟨v, -, rfl⟩ <;> exact ⟨rfl, rfl, rfl, rfl, rfl⟩
  refine ⟨?_, ?_, ?_, ?_, ?_, ?_⟩
  · rw [q6.2.1, q5.2.1, q4.2.1, q3.2.1, ← q1.1]
    rcases k2 with ⟨h, rfl⟩ | ⟨v, h, rfl⟩
    · exact .inl ⟨h, rfl⟩
    · exact .inr ⟨v, h, rfl⟩
  · rw [q6.2.2.1, q5.2.2.1, q4.2.2.1, ← q1.2.1, ← q2.2.1]
    rcases k3 with ⟨h, rfl⟩ | ⟨v, h, rfl⟩
    · exact .inl ⟨h, rfl⟩
    · exact .inr ⟨v, h, rfl⟩
  · rw [q6.2.2.2.1, q5.2.2.2.1, ← q1.2.2.1, ← q2.2.2.1, ← q3.2.2.1]
    rcases k4 with ⟨h, rfl⟩ | ⟨v, h, rfl⟩
    · exact .inl ⟨h, rfl⟩
    · exact .inr ⟨v, h, rfl⟩
  · rw [q6.2.2.2.2, ← q1.2.2.2.1, ← q2.2.2.2.1, ← q3.2.2.2.1, ← q4.2.2.2.1]
    rcases k5 with ⟨h, rfl⟩ | ⟨v, h, rfl⟩
    · exact .inl ⟨h, rfl⟩
    · exact .inr ⟨v, h, rfl⟩
  · rw [← q1.2.2.2.2, ← q2.2.2.2.2, ← q3.2.2.2.2, ← q4.2.2.2.2, ← q5.2.2.2.2]
    rcases k6 with ⟨h, rfl⟩ | ⟨v, h, rfl⟩
    · exact .inl ⟨h, rfl⟩
    · exact .inr ⟨v, h, rfl⟩
  · rw [q6.1, q5.1, q4.1, q3.1, q2.1]
    rcases k1 with ⟨h, rfl⟩ | ⟨v, h, rfl⟩
    · exact .inl ⟨h, rfl⟩
    · exact .inr h

/-- A run over lines: the member `get`, set through `f`. -/
theorem last_of_steps {σ : Type} {key : String} {f : ℤ → ℤ} {body : σ → List Char → Option σ} {get : σ → ℤ}
    (hb : ∀ line s s', body s line = some s' → Step key line f (get s) (get s')) : ∀ (ls : List (List Char)) (s s' : σ),
    ls.foldlM body s = some s' → ((∀ l ∈ ls, ∀ v, ¬ Says key l v) ∧ get s' = get s) ∨
      ∃ a l b v, ls = a ++ l :: b ∧ Says key l v ∧ (∀ l ∈ b, ∀ v, ¬ Says key l v) ∧ get s' = f v := by
  intro ls
  induction ls with
  | nil =>
    intro s s' h
    cases h
    exact .inl ⟨by simp, rfl⟩
  | cons line ls ih =>
    intro s s' h
    rw [List.foldlM_cons] at h
    simp only [Option.bind_eq_bind, Option.bind_eq_some_iff] at h
    obtain ⟨s1, h1, h2⟩ := h
    rcases ih s1 s' h2 with ⟨h3, h4⟩ | ⟨a, l, b, v, rfl, h3, h4, h5⟩
    · rcases hb line s s1 h1 with ⟨h5, h6⟩ | ⟨v, h5, h6⟩
      · refine .inl ⟨?_, by rw [h4, h6]⟩
        intro l hl
        rcases List.mem_cons.1 hl with rfl | hl
        · exact h5
        · exact h3 l hl
      · exact .inr ⟨[], line, ls, v, rfl, h5, h3, by rw [h4, h6]⟩
    · exact .inr ⟨line :: a, l, b, v, rfl, h3, h4, h5⟩

theorem gets_line : ∀ (n : ℕ) (l t : List Char), l.length < n → '\n' ∉ l → gets n (l ++ '\n' :: t) = (l ++ ['\n'], t)
  | 0, l, t, h, _ => by omega
  | n + 1, [], t, _, _ => by simp [gets]
  | n + 1, c :: l, t, h, hn => by
    rw [List.cons_append, gets, if_neg (by rintro rfl; exact hn (by simp)),
      gets_line n l t (by simp at h; omega) fun h => hn (by simp [h])]
    rfl

theorem pieces_lines : ∀ (ls : List (List Char)), (∀ l ∈ ls, l.length < 126 ∧ '\n' ∉ l) → ∀ fuel, ls.length ≤ fuel →
    pieces 126 fuel (fileOf ls) = ls.map fun l => l ++ ['\n']
  | [], _, fuel, _ => by cases fuel <;> simp [fileOf, pieces]
  | l :: ls, h, 0, hf => by simp at hf
  | l :: ls, h, fuel + 1, hf => by
    have e : fileOf (l :: ls) = l ++ '\n' :: fileOf ls := by simp [fileOf]
    obtain ⟨h1, h2⟩ := h l (by simp)
    have hg := gets_line 126 l (fileOf ls) h1 h2
    have hne : ∃ c t, l ++ '\n' :: fileOf ls = c :: t := by cases l <;> exact ⟨_, _, rfl⟩
    obtain ⟨c, t, hc⟩ := hne
    rw [e, hc, pieces, ← hc, hg]
    · rw [pieces_lines ls (fun l hl => h l (by simp [hl])) fuel (by simpa using hf)]
      rfl
    · simp

theorem fileOf_length (ls : List (List Char)) : ls.length ≤ (fileOf ls).length := by
  unfold fileOf
  induction ls with
  | nil => simp
  | cons l ls ih => rw [List.flatMap_cons]; simp; omega

theorem modify_file (ls : List (List Char)) (h : ∀ l ∈ ls, l.length < 126 ∧ '\n' ∉ l) (s : Vars E) :
    modify fd (fileOf ls) s = (ls.map fun l => l ++ ['\n']).foldlM (fun s line => modifyLine fd line s) s := by
  unfold modify
  rw [pieces_lines ls h _ (fileOf_length ls)]

theorem says_break (key : String) (l : List Char) (v : ℤ) (hk : '\n' ∉ key.toList) (hn : '\n' ∉ l) : Says key (l ++ ['\n']) v ↔ Says key l v := by
  constructor
  · rintro ⟨ws, num, junk, e, h1, h2, h3⟩
    rcases List.eq_nil_or_concat junk with rfl | ⟨j, c, rfl⟩
    · exfalso
      obtain ⟨ds, hne, hds, hd⟩ := h2
      rw [List.append_nil] at e
      have : ∃ a c, num = a ++ [c] ∧ c.isDigit = true := by
        obtain ⟨a, c, rfl⟩ := (List.eq_nil_or_concat ds).resolve_left hne
        have hc := hds c (by simp)
        rcases hd with ⟨rfl, -⟩ | ⟨rfl, -⟩ | ⟨rfl, -⟩
        · exact ⟨a, c, by simp, hc⟩
        · exact ⟨'+' :: a, c, by simp, hc⟩
        · exact ⟨'-' :: a, c, by simp, hc⟩
      obtain ⟨a, c, rfl, hc⟩ := this
      rw [← List.append_assoc] at e
      have := (List.append_inj' e rfl).2
      cases this
      revert hc; decide
    · rw [List.concat_eq_append, ← List.append_assoc] at e
      obtain ⟨e1, e2⟩ := List.append_inj' e rfl
      cases e2
      refine ⟨ws, num, j, e1, h1, h2, ?_⟩
      intro c hc
      refine h3 c ?_
      cases j with
      | nil => cases hc
      | cons d j => exact hc
  · rintro ⟨ws, num, junk, rfl, h1, h2, h3⟩
    refine ⟨ws, num, junk ++ ['\n'], by simp [List.append_assoc], h1, h2, ?_⟩
    intro c hc
    cases junk with
    | nil => cases hc; decide
    | cons d j => exact h3 c hc

/-! ## Theorems -/

/-- The value after reading lines: what the last line about `key` says, through `f`, or the old one. -/
def Result (key : String) (ls : List (List Char)) (f : ℤ → ℤ) (old new : ℤ) : Prop :=
  ((∀ l ∈ ls, ∀ v, ¬ Says key l v) ∧ new = old) ∨
    ∃ a l b v, ls = a ++ l :: b ∧ Says key l v ∧ (∀ l ∈ b, ∀ v, ¬ Says key l v) ∧ new = f v

theorem result_lines {key : String} {ls : List (List Char)} {f : ℤ → ℤ} {old new : ℤ} (hk : '\n' ∉ key.toList) (hn : ∀ l ∈ ls, '\n' ∉ l)
    (h : Result key (ls.map fun l => l ++ ['\n']) f old new) : Result key ls f old new := by
  rcases h with ⟨h1, h2⟩ | ⟨a, l, b, v, e, h1, h2, h3⟩
  · refine .inl ⟨fun l hl v hv => ?_, h2⟩
    exact h1 _ (List.mem_map.2 ⟨l, hl, rfl⟩) v ((says_break key l v hk (hn l hl)).2 hv)
  · obtain ⟨a', r, rfl, rfl, e2⟩ := List.map_eq_append_iff.1 e
    obtain ⟨l', b', rfl, rfl, rfl⟩ := List.map_eq_cons_iff.1 e2
    refine .inr ⟨a', l', b', v, rfl, (says_break key l' v hk (hn l' (by simp))).1 h1, ?_, h3⟩
    intro l hl w hw
    exact h2 _ (List.mem_map.2 ⟨l, hl, rfl⟩) w ((says_break key l w hk (hn l (by simp [hl]))).2 hw)

/-- **C113**: with lines of at most 125 characters, every integer parameter gets what the last line with its name says (an interval at least zero), and
keeps its value if there is none. -/
theorem modify_sets (ls : List (List Char)) (hl : ∀ l ∈ ls, l.length < 126 ∧ '\n' ∉ l) (s s' : Vars E) (h : modify fd (fileOf ls) s = some s') :
    Result "num_step" ls id s.numStep s'.numStep ∧ Result "checkpt_interval" ls (max 0) s.checkpt s'.checkpt ∧
      Result "hydro_interval" ls (max 0) s.hydro s'.hydro ∧ Result "field_interval" ls (max 0) s.field s'.field ∧
      Result "particle_interval" ls (max 0) s.particle s'.particle := by
  rw [modify_file fd ls hl] at h
  have hc : clamp = max 0 := by
    funext v
    unfold clamp
    split <;> omega
  have hn : ∀ l ∈ ls, '\n' ∉ l := fun l h => (hl l h).2
  have H := fun line s s' => modifyLine_step fd (line := line) (s := s) (s' := s')
  rw [hc] at H
  refine ⟨?_, ?_, ?_, ?_, ?_⟩
  · exact result_lines (by decide) hn (last_of_steps (get := Vars.numStep) (fun l s s' h => (H l s s' h).1) _ s s' h)
  · exact result_lines (by decide) hn (last_of_steps (get := Vars.checkpt) (fun l s s' h => (H l s s' h).2.1) _ s s' h)
  · exact result_lines (by decide) hn (last_of_steps (get := Vars.hydro) (fun l s s' h => (H l s s' h).2.2.1) _ s s' h)
  · exact result_lines (by decide) hn (last_of_steps (get := Vars.field) (fun l s s' h => (H l s s' h).2.2.2.1) _ s s' h)
  · exact result_lines (by decide) hn (last_of_steps (get := Vars.particle) (fun l s s' h => (H l s s' h).2.2.2.2.1) _ s s' h)

theorem quota_steps : ∀ (ls : List (List Char)) (s s' : Vars E), ls.foldlM (fun s line => modifyLine fd line s) s = some s' →
    ((∀ l ∈ ls, scanKey fd "quota".toList l = .no) ∧ s'.quota = s.quota) ∨
      ∃ a l b, ls = a ++ l :: b ∧ scanKey fd "quota".toList l = .value s'.quota ∧ ∀ l ∈ b, scanKey fd "quota".toList l = .no := by
  intro ls
  induction ls with
  | nil => intro s s' h; cases h; exact .inl ⟨by simp, rfl⟩
  | cons line ls ih =>
    intro s s' h
    rw [List.foldlM_cons] at h
    simp only [Option.bind_eq_bind, Option.bind_eq_some_iff] at h
    obtain ⟨s1, h1, h2⟩ := h
    rcases ih s1 s' h2 with ⟨h3, h4⟩ | ⟨a, l, b, rfl, h3, h4⟩
    · rcases (modifyLine_step fd h1).2.2.2.2.2 with ⟨h5, h6⟩ | h5
      · refine .inl ⟨?_, by rw [h4, h6]⟩
        intro l hl
        rcases List.mem_cons.1 hl with rfl | hl
        · exact h5
        · exact h3 l hl
      · exact .inr ⟨[], line, ls, rfl, by rw [h4]; exact h5, h3⟩
    · exact .inr ⟨line :: a, l, b, rfl, h3, h4⟩

/-- **C113**: the quota is what the last line with its name and a number says. -/
theorem modify_quota (ls : List (List Char)) (hl : ∀ l ∈ ls, l.length < 126 ∧ '\n' ∉ l) (s s' : Vars E) (h : modify fd (fileOf ls) s = some s') :
    ((∀ l ∈ ls, scanKey fd "quota".toList (l ++ ['\n']) = .no) ∧ s'.quota = s.quota) ∨
      ∃ a l b, ls = a ++ l :: b ∧ scanKey fd "quota".toList (l ++ ['\n']) = .value s'.quota ∧
        ∀ l ∈ b, scanKey fd "quota".toList (l ++ ['\n']) = .no := by
  rw [modify_file fd ls hl] at h
  rcases quota_steps fd _ s s' h with ⟨h1, h2⟩ | ⟨a, l, b, e, h1, h2⟩
  · exact .inl ⟨fun l hl => h1 _ (List.mem_map.2 ⟨l, hl, rfl⟩), h2⟩
  · obtain ⟨a', r, rfl, rfl, e2⟩ := List.map_eq_append_iff.1 e
    obtain ⟨l', b', rfl, rfl, rfl⟩ := List.map_eq_cons_iff.1 e2
    exact .inr ⟨a', l', b', rfl, h1, fun l hl => h2 _ (List.mem_map.2 ⟨l, hl, rfl⟩)⟩

theorem test_defined {α σ : Type} {conv : List Char → Scan α} {key : String} {set : α → σ → σ} {line : List Char} {s : σ}
    (h : scanKey conv key.toList line ≠ .undef) : ∃ s', test conv key set line s = some s' := by
  unfold test
  split
  · exact ⟨_, rfl⟩
  · exact ⟨_, rfl⟩
  · contradiction

/-- **C113**: reading is defined if the numbers in the file are in the range of their type. -/
theorem modify_defined (ls : List (List Char)) (hl : ∀ l ∈ ls, l.length < 126 ∧ '\n' ∉ l)
    (hv : ∀ key ∈ ["num_step", "checkpt_interval", "hydro_interval", "field_interval", "particle_interval"], ∀ l ∈ ls, ∀ v, Says key l v → -2 ^ 31 ≤ v ∧ v < 2 ^ 31)
    (hq : ∀ t, fd t ≠ .undef) (s : Vars E) : ∃ s', modify fd (fileOf ls) s = some s' := by
  rw [modify_file fd ls hl]
  induction ls generalizing s with
  | nil => exact ⟨s, rfl⟩
  | cons l ls ih =>
    have hk : ∀ key ∈ ["num_step", "checkpt_interval", "hydro_interval", "field_interval", "particle_interval"],
        scanKey scanInt key.toList (l ++ ['\n']) ≠ .undef := by
      intro key hkey
      have hnl : '\n' ∉ key.toList := by
        have : ∀ key ∈ ["num_step", "checkpt_interval", "hydro_interval", "field_interval", "particle_interval"], '\n' ∉ key.toList := by decide
        exact this key hkey
      by_cases hs : ∃ v, Says key (l ++ ['\n']) v
      · obtain ⟨v, hs⟩ := hs
        rw [scanKey_says hs]
        unfold outcome
        rw [if_pos (hv key hkey l (by simp) v ((says_break key l v hnl (hl l (by simp)).2).1 hs))]
        simp
      · rw [scanKey_not fun v h => hs ⟨v, h⟩]
        simp
    have hfd : scanKey fd "quota".toList (l ++ ['\n']) ≠ .undef := by
      unfold scanKey
      split
      · exact hq _
      · simp
    obtain ⟨s1, h1⟩ := test_defined (s := s) (set := fun v s => { s with quota := v }) hfd
    obtain ⟨s2, h2⟩ := test_defined (s := s1) (set := fun v s => { s with numStep := v }) (hk "num_step" (by simp))
    obtain ⟨s3, h3⟩ := test_defined (s := s2) (set := fun v s => { s with checkpt := clamp v }) (hk "checkpt_interval" (by simp))
    obtain ⟨s4, h4⟩ := test_defined (s := s3) (set := fun v s => { s with hydro := clamp v }) (hk "hydro_interval" (by simp))
    obtain ⟨s5, h5⟩ := test_defined (s := s4) (set := fun v s => { s with field := clamp v }) (hk "field_interval" (by simp))
    obtain ⟨s6, h6⟩ := test_defined (s := s5) (set := fun v s => { s with particle := clamp v }) (hk "particle_interval" (by simp))
    have hm : modifyLine fd (l ++ ['\n']) s = some s6 := by
      unfold modifyLine
      rw [h1]
      simp only [Option.bind_eq_bind, Option.bind_some]
      rw [h2]
      simp only [Option.bind_some]
      rw [h3]
      simp only [Option.bind_some]
      rw [h4]
      simp only [Option.bind_some]
      rw [h5]
      simp only [Option.bind_some]
      exact h6
    obtain ⟨s', hs'⟩ := ih (fun l h => hl l (by simp [h])) (fun key hkey l h => hv key hkey l (by simp [h])) s6
    refine ⟨s', ?_⟩
    rw [List.map_cons, List.foldlM_cons, hm]
    exact hs'

theorem digitsVal_append (l : List Char) (c : Char) : digitsVal (l ++ [c]) = 10 * digitsVal l + (c.toNat - '0'.toNat) := by
  simp [digitsVal]

theorem digitsVal_digits : ∀ l : List ℕ, (∀ d ∈ l, d < 10) → digitsVal (l.map Nat.digitChar).reverse = Nat.ofDigits 10 l
  | [], _ => rfl
  | d :: l, h => by
    rw [List.map_cons, List.reverse_cons, digitsVal_append, digitsVal_digits l fun d hd => h d (by simp [hd]), Nat.ofDigits_cons]
    have hd : d < 10 := h d (by simp)
    have : ∀ d < 10, (Nat.digitChar d).toNat - '0'.toNat = d := by decide
    rw [this d hd]
    omega

/-- **C113**: a number as it is printed is read back. -/
theorem printed_read (v : ℤ) : Decimal (Dump.dec v) v := by
  have hval : ∀ n : ℕ, digitsVal (Dump.mag n) = n := by
    intro n
    unfold Dump.mag
    split
    · rename_i h; subst h; decide
    · rw [digitsVal_digits _ fun d hd => Nat.digits_lt_base (by norm_num) hd, Nat.ofDigits_digits]
  have hdig : ∀ c ∈ Dump.mag v.natAbs, c.isDigit = true := by
    intro c hc
    have h0 : Dump.dec (v.natAbs : ℤ) = Dump.mag v.natAbs := by
      rw [Dump.dec_eq, if_neg (by omega), Int.natAbs_natCast, List.nil_append]
    rcases Dump.dec_plain (v.natAbs : ℤ) c (by rw [h0]; exact hc) with h | rfl
    · exact h
    · exact absurd hc (Dump.mag_mem _).1
  refine ⟨Dump.mag v.natAbs, (Dump.mag_mem _).2, hdig, ?_⟩
  rw [hval, Dump.dec_eq]
  by_cases h : v < 0
  · rw [if_pos h]; exact .inr (.inr ⟨rfl, by omega⟩)
  · rw [if_neg h]; exact .inl ⟨rfl, by omega⟩

/-- **C113**: the name that the comment in the code gives, `num_steps`, is not taken. -/
theorem documented_name_ignored (v : ℤ) (hlen : (Dump.dec v).length < 116) (s : Vars E) :
    modify fd (fileOf ["num_steps ".toList ++ Dump.dec v]) s = some s := by
  rw [modify_file]
  · rw [List.map_singleton, List.foldlM_cons]
    have : modifyLine fd ("num_steps ".toList ++ Dump.dec v ++ ['\n']) s = some s := by
      have hno : ∀ {α : Type} (conv : List Char → Scan α) (key : List Char), (key.take 2 ≠ "nu".toList) → key.length ≥ 2 →
          scanKey conv key ("num_steps ".toList ++ Dump.dec v ++ ['\n']) = .no := by
        intro α conv key h1 h2
        unfold scanKey
        rw [if_neg]
        rintro ⟨t, ht⟩
        apply h1
        have := congrArg (List.take 2) ht
        rw [List.take_append_of_le_length h2] at this
        rw [this]
        rfl
      have hns : scanKey scanInt "num_step".toList ("num_steps ".toList ++ Dump.dec v ++ ['\n']) = .no := by
        have e : "num_steps ".toList ++ Dump.dec v ++ ['\n'] = "num_step".toList ++ ('s' :: ' ' :: (Dump.dec v ++ ['\n'])) := by
          simp
        unfold scanKey
        rw [e, if_pos (List.prefix_append _ _), List.drop_left]
        rfl
      unfold modifyLine test
      rw [hno fd _ (by decide) (by decide), hns, hno scanInt "checkpt_interval".toList (by decide) (by decide),
        hno scanInt "hydro_interval".toList (by decide) (by decide), hno scanInt "field_interval".toList (by decide) (by decide),
        hno scanInt "particle_interval".toList (by decide) (by decide)]
      rfl
    rw [this]
    rfl
  · intro l hl
    rw [List.mem_singleton.1 hl]
    refine ⟨?_, ?_⟩
    · rw [List.length_append]
      have : "num_steps ".toList.length = 10 := by decide
      omega
    · rw [List.mem_append]
      rintro (h | h)
      · revert h; decide
      · exact Dump.dec_not v _ (by decide) (by decide) h

/-- **C113** needs short lines: the rest of a long line, a comment for example, is taken for a line of its own. -/
theorem long_line_split (s : Vars E) :
    modify fd (List.replicate 126 '#' ++ "num_step 5\n".toList) s = some { s with numStep := 5 } := by
  have hg : ∀ (n : ℕ) (t : List Char), gets n (List.replicate n '#' ++ t) = (List.replicate n '#', t) := by
    intro n
    induction n with
    | zero => intro t; rfl
    | succ n ih => intro t; rw [List.replicate_succ, List.cons_append, gets, if_neg (by decide), ih]
  have hp : pieces 126 (List.replicate 126 '#' ++ "num_step 5\n".toList).length (List.replicate 126 '#' ++ "num_step 5\n".toList) =
      [List.replicate 126 '#', "num_step 5\n".toList] := by
    have hlen : (List.replicate 126 '#' ++ "num_step 5\n".toList).length = 135 + 1 + 1 := by simp
    rw [hlen, show List.replicate 126 '#' ++ "num_step 5\n".toList = '#' :: (List.replicate 125 '#' ++ "num_step 5\n".toList) from rfl, pieces,
      show '#' :: (List.replicate 125 '#' ++ "num_step 5\n".toList) = List.replicate 126 '#' ++ "num_step 5\n".toList from rfl, hg]
    · rfl
    · simp
  have hno : ∀ {α : Type} (conv : List Char → Scan α) (key : List Char), key.head? ≠ some '#' → key ≠ [] →
      scanKey conv key (List.replicate 126 '#') = .no := by
    intro α conv key h1 h2
    unfold scanKey
    rw [if_neg]
    rintro ⟨t, ht⟩
    cases key with
    | nil => exact h2 rfl
    | cons c key =>
      apply h1
      have := congrArg List.head? ht
      simpa using this
  unfold modify
  rw [hp, List.foldlM_cons]
  have h1 : modifyLine fd (List.replicate 126 '#') s = some s := by
    unfold modifyLine test
    rw [hno fd _ (by decide) (by decide), hno scanInt "num_step".toList (by decide) (by decide), hno scanInt "checkpt_interval".toList (by decide) (by decide),
      hno scanInt "hydro_interval".toList (by decide) (by decide), hno scanInt "field_interval".toList (by decide) (by decide),
      hno scanInt "particle_interval".toList (by decide) (by decide)]
    rfl
  rw [h1]
  rfl

end Verif.Modify
