import Verif.Dump.Props

/-!
What the strided dumps get wrong (C61).
-/

namespace Verif.Dump

lemma mapM_undef {α β : Type} (l : List α) (f : α → Except Fault β) (x : α) (hx : x ∈ l)
    (hf : f x = .error .undef) (he : ∀ y ∈ l, ∀ e, f y = .error e → e = .undef) :
    l.mapM f = .error .undef := by
  induction l with
  | nil => simp at hx
  | cons y l ih =>
    rw [List.mapM_cons]
    cases hy : f y with
    | error e => rw [he y (by simp) e hy]; rfl
    | ok b =>
      have hx' : x ∈ l := by
        rcases List.mem_cons.1 hx with rfl | h
        · rw [hf] at hy; simp at hy
        · exact h
      rw [ih hx' fun z hz => he z (by simp [hz])]
      rfl

lemma mapM_only {α β : Type} (l : List α) (f : α → Except Fault β)
    (he : ∀ y ∈ l, ∀ e, f y = .error e → e = .undef) (e : Fault) (h : l.mapM f = .error e) : e = .undef := by
  induction l with
  | nil => simp [pure, Except.pure] at h
  | cons y l ih =>
    rw [List.mapM_cons] at h
    cases hy : f y with
    | error e' =>
      rw [hy] at h
      simp only [bind, Except.bind, Except.error.injEq] at h
      rw [← h]; exact he y (by simp) e' hy
    | ok b =>
      rw [hy] at h
      cases hl : l.mapM f with
      | error e' =>
        rw [hl] at h
        simp only [bind, Except.bind, Except.error.injEq] at h
        exact ih (fun z hz => he z (by simp [hz])) (by rw [hl, h])
      | ok bs =>
        rw [hl] at h
        simp [bind, Except.bind, pure, Except.pure] at h

lemma flatten_error {W : Type} (x : Except Fault (List (List W))) (e : Fault)
    (h : (do let r ← x; pure r.flatten) = .error e) : x = .error e := by
  cases x with
  | error e' => simpa [bind, Except.bind] using h
  | ok r => simp [bind, Except.bind, pure, Except.pure] at h

lemma loop3_only {W : Type} (nx ny nz : ℕ) (f : ℕ → ℕ → ℕ → Except Fault (List W))
    (he : ∀ i j k e, f i j k = .error e → e = .undef) (e : Fault) (h : loop3 nx ny nz f = .error e) :
    e = .undef := by
  unfold loop3 at h
  refine mapM_only _ _ (fun k _ e hk => ?_) e (flatten_error _ _ h)
  refine mapM_only _ _ (fun j _ e hj => ?_) e (flatten_error _ _ hk)
  exact mapM_only _ _ (fun i _ e hi => he i j k e hi) e (flatten_error _ _ hj)

lemma loop3_undef {W : Type} (nx ny nz : ℕ) (f : ℕ → ℕ → ℕ → Except Fault (List W))
    (he : ∀ i j k e, f i j k = .error e → e = .undef) (i j k : ℕ) (hi : i < nx) (hj : j < ny) (hk : k < nz)
    (hf : f i j k = .error .undef) : loop3 nx ny nz f = .error .undef := by
  unfold loop3
  rw [mapM_undef _ _ k (List.mem_range.2 hk)]
  · rfl
  · rw [mapM_undef _ _ j (List.mem_range.2 hj)]
    · rfl
    · rw [mapM_undef _ _ i (List.mem_range.2 hi) hf fun i _ e h => he i j k e h]
      rfl
    · intro j _ e h
      exact mapM_only _ _ (fun i _ e hi => he i j k e hi) e (flatten_error _ _ h)
  · intro k _ e h
    refine mapM_only _ _ (fun j _ e hj => ?_) e (flatten_error _ _ h)
    exact mapM_only _ _ (fun i _ e hi => he i j k e hi) e (flatten_error _ _ hj)

lemma putWord_only {W : Type} (a : Arr W) (v : ℕ) (w : Option ℕ) (e : Fault)
    (h : putWord a v w = .error e) : e = .undef := by
  unfold putWord at h
  cases w with
  | none => simp [entry, bind, Except.bind] at h; exact h.symm
  | some w =>
    simp only [entry, bind, Except.bind, Arr.word, Arr.read] at h
    split at h
    · rename_i h'
      split at h'
      · simp at h'
      · simp only [Except.error.injEq] at h' h; rw [← h, ← h']
    · simp [pure, Except.pure] at h

/-- A banded dump is undefined as soon as one of its variables cannot be read at one of its cells. -/
lemma bands_undef {K W : Type} (a : Arr W) (g : Mesh K) (nout : Fin 3 → ℕ) (vs : List (Option ℕ))
    (o : Fin 3 → ℕ → ℕ) (v : Option ℕ) (hv : v ∈ vs) (i j k : ℕ) (hi : i < nout 0 + 2) (hj : j < nout 1 + 2)
    (hk : k < nout 2 + 2) (h : putWord a (g.voxel (o 0 i) (o 1 j) (o 2 k)) v = .error .undef) :
    bands a g nout vs o = .error .undef := by
  unfold bands
  rw [mapM_undef _ _ v hv]
  · rfl
  · exact loop3_undef _ _ _ _ (fun i j k e h => putWord_only _ _ _ _ h) i j k hi hj hk h
  · exact fun w _ e h => loop3_only _ _ _ _ (fun i j k e h => putWord_only _ _ _ _ h) e h

/-- **Finding**, C61: `field_t` has twenty words, the last four holding two materials each, yet a banded
dump takes variable `b` from word `b` of the element, up to 23. With variable 23 (`cmat`, or `all`) selected
every dump of an array of exactly the mesh's cells reads beyond its end. -/
theorem field_materials_undefined {K W : Type} [Mul K] [NatCast K] (a : Arr W) (g : Mesh K) (P : Params)
    (ha : a.size = 20) (hl : a.words.length = (g.n 0 + 2) * (g.n 1 + 2) * (g.n 2 + 2) * 20)
    (hd : Divides g P.stride) (hf : P.fmt = .band) (h23 : P.vars.getLsbD 23 = true) :
    fieldDump a g P = .error .undef := by
  unfold fieldDump
  rw [if_neg (stride_good g P hd), hf]
  dsimp only
  cases hvl : varlist P.vars 24 with
  | error e =>
    have : e = .undef := by
      unfold varlist at hvl
      split at hvl
      · simp only [Except.error.injEq] at hvl; exact hvl.symm
      · dsimp only at hvl
        split at hvl
        · simp only [Except.error.injEq] at hvl; exact hvl.symm
        · simp at hvl
    rw [this]; rfl
  | ok vs =>
    have hmem : some 23 ∈ vs := by
      unfold varlist at hvl
      split at hvl
      · simp at hvl
      · dsimp only at hvl
        split at hvl
        · simp at hvl
        · rw [bitset_filter _ _ (by norm_num)] at hvl
          simp only [Except.ok.injEq] at hvl
          rw [← hvl]
          apply List.mem_append_left
          exact List.mem_map.2 ⟨23, by simp [selected, h23], rfl⟩
    simp only [bind, Except.bind]
    have hlast : ∀ c, (if unit3 P = true then g.n c / P.stride c + 1
        else off (g.n c) (g.n c / P.stride c) (P.stride c) (g.n c / P.stride c + 1)) = g.n c + 1 := by
      intro c
      split
      · rename_i h
        rw [unit3_iff] at h
        rw [h c, Nat.div_one]
      · simp [off]
    rw [bands_undef a g _ vs _ (some 23) hmem (g.n 0 / P.stride 0 + 1) (g.n 1 / P.stride 1 + 1)
      (g.n 2 / P.stride 2 + 1) (Nat.lt_succ_self _) (Nat.lt_succ_self _) (Nat.lt_succ_self _)]
    simp only [hlast]
    have hidx : a.words[g.voxel (g.n 0 + 1) (g.n 1 + 1) (g.n 2 + 1) * a.size + 23]? = none := by
      rw [List.getElem?_eq_none_iff, hl, ha]
      unfold Mesh.voxel
      have : (g.n 0 + 2) * (g.n 1 + 2) * (g.n 2 + 2) =
        g.n 0 + 1 + (g.n 0 + 2) * (g.n 1 + 1 + (g.n 1 + 2) * (g.n 2 + 1)) + 1 := by ring
      rw [this]; omega
    simp only [putWord, entry, bind, Except.bind, Arr.word, Arr.read, hidx]

/-- **Finding**, C61: a selected bit that is no moment makes the list of variables longer than what is
stored in it; the dump then uses an uninitialised variable number. -/
theorem spare_bit_undefined {K W : Type} [Mul K] [NatCast K] (a : Arr W) (g : Mesh K) (P : Params)
    (hd : Divides g P.stride) (hf : P.fmt = .band) (hv : P.vars = 0x4001#32) :
    hydroDump a g P = .error .undef := by
  unfold hydroDump
  rw [if_neg (stride_good g P hd), hf]
  dsimp only
  have hvl : varlist P.vars 14 = .ok [some 0, none] := by
    rw [hv]; decide
  rw [hvl]
  simp only [bind, Except.bind]
  rw [bands_undef a g _ _ _ none (by simp) 0 0 0 (Nat.succ_pos _) (Nat.succ_pos _) (Nat.succ_pos _) rfl]

lemma off_lt (n s k : ℕ) (hs : 0 < s) (hd : s ∣ n) (hk : k < n / s + 2) : off n (n / s) s k < n + 2 := by
  obtain ⟨m, rfl⟩ := hd
  rw [Nat.mul_div_cancel_left _ hs] at hk ⊢
  unfold off
  split
  · omega
  split
  · omega
  have : k * s ≤ s * m := by rw [Nat.mul_comm]; exact Nat.mul_le_mul_left _ (by omega)
  omega

/-- The indices read along an axis of stride one in a strided dump: the lower boundary twice, and not the
last cell. -/
lemma off_one (n : ℕ) : (List.range (n + 2)).map (off n n 1) = 0 :: (List.range n ++ [n + 1]) := by
  rw [List.range_succ_eq_map, List.map_cons, List.range_succ, List.map_append, List.map_append]
  congr 1
  congr 1
  · rw [List.map_map]
    conv_rhs => rw [← List.map_id (List.range n)]
    apply List.map_congr_left
    intro k hk
    have := List.mem_range.1 hk
    simp only [Function.comp, off, id]
    rw [if_neg (by omega), if_neg (by omega)]; omega
  · simp [off]

/-- **Finding**, C61: when x is to be written in full but another axis is strided, the dump repeats the
lower boundary plane of x and leaves out the last plane of cells, x = nx. -/
theorem mixed_stride_wrong {K W : Type} [Mul K] [NatCast K] (a : Arr W) (g : Mesh K) (P : Params)
    (val : ℕ → ℕ → W) (h : Holds a g val) (ha : a.size = 20) (hd : Divides g P.stride)
    (hx : P.stride 0 = 1) (hy : P.stride 1 ≠ 1) (hf : P.fmt = .bandInterleave) :
    ∃ (F : File K W) (js ks : List ℕ), fieldDump a g P = .ok F ∧ HeaderOf F g P.stride 20 ∧
      F.data = ks.flatMap fun k => js.flatMap fun j => (0 :: (List.range (g.n 0) ++ [g.n 0 + 1])).flatMap fun i =>
        (List.range 20).map (val (g.voxel i j k)) := by
  unfold fieldDump
  rw [if_neg (stride_good g P hd), hf]
  dsimp only
  have h1 : ¬ unit3 P = true := by rw [unit3_iff]; exact fun h => hy (h 1)
  rw [if_neg h1]
  simp only [if_neg h1]
  rw [loop3_ok _ _ _ _ fun i j k => (List.range 20).map (val (g.voxel
    (off (g.n 0) (g.n 0 / P.stride 0) (P.stride 0) i) (off (g.n 1) (g.n 1 / P.stride 1) (P.stride 1) j)
    (off (g.n 2) (g.n 2 / P.stride 2) (P.stride 2) k)))]
  · refine ⟨_, (List.range (g.n 1 / P.stride 1 + 2)).map (off (g.n 1) (g.n 1 / P.stride 1) (P.stride 1)),
      (List.range (g.n 2 / P.stride 2 + 2)).map (off (g.n 2) (g.n 2 / P.stride 2) (P.stride 2)),
      rfl, ⟨rfl, rfl, by rw [ha], rfl⟩, ?_⟩
    simp only [hx, Nat.div_one, ← off_one, List.flatMap_map]
  · intro k hk j hj i hi
    have := write1_ok a g val h _ (voxel_lt g _ _ _ (off_lt _ _ i (hd 0).1 (hd 0).2 hi)
      (off_lt _ _ j (hd 1).1 (hd 1).2 hj) (off_lt _ _ k (hd 2).1 (hd 2).2 hk))
    rw [ha] at this
    exact this

/-- **Finding**, C61: the interleaved dump of moments declares an array without boundary, but with unit
strides writes the first nx·ny·nz elements in memory, which start in the boundary corner. -/
theorem hydro_interleave_wrong {K W : Type} [Mul K] [NatCast K] (a : Arr W) (g : Mesh K) (P : Params)
    (val : ℕ → ℕ → W) (h : Holds a g val) (hs : ∀ c, P.stride c = 1) (hf : P.fmt = .bandInterleave) :
    ∃ F, hydroDump a g P = .ok F ∧ F.dim = g.n ∧
      F.data = (List.range (g.n 0 * g.n 1 * g.n 2)).flatMap fun v => (List.range a.size).map (val v) := by
  have hd : Divides g P.stride := fun c => by rw [hs c]; exact ⟨Nat.one_pos, one_dvd _⟩
  unfold hydroDump
  rw [if_neg (stride_good g P hd), hf]
  dsimp only
  rw [if_pos ((unit3_iff P).2 hs)]
  simp only [hs, Nat.div_one]
  rw [write_ok a g val h _ (Nat.mul_le_mul (Nat.mul_le_mul (by omega) (by omega)) (by omega))]
  exact ⟨_, rfl, rfl, rfl⟩

namespace Sample

/-- A mesh of 4 x 6 x 2 cells. -/
def g : Mesh ℚ := ⟨![4, 6, 2], ![1, 1, 1 / 2]⟩

/-- An array of fields of it, every word its own number. -/
def f : Arr ℕ := ⟨20, List.range 3840⟩

/-- Every second cell of x and z and every third of y; electric and magnetic fields. -/
def P : Params := ⟨0x77#32, ![2, 3, 2], .band⟩

theorem f_holds : Holds f g fun v w => v * 20 + w := by
  intro v hv w hw
  simp only [g, Matrix.cons_val_zero, Matrix.cons_val_one, Matrix.cons_val] at hv
  simp only [f] at hw
  simp only [f, List.getElem?_range (show v * 20 + w < 3840 by omega)]

theorem P_divides : Divides g P.stride := by
  intro c
  match c with
  | 0 => exact ⟨by decide, by decide⟩
  | 1 => exact ⟨by decide, by decide⟩
  | 2 => exact ⟨by decide, by decide⟩

theorem P_uniform : Uniform P.stride := by
  right
  intro c
  match c with
  | 0 => decide
  | 1 => decide
  | 2 => decide

/-- The hypotheses of the theorem on fields hold of it; 4·4·3 cells are written, six words of each. -/
theorem sample_dump : ∃ F : File ℚ ℕ, fieldDump f g P = .ok F ∧ F.dim = ![4, 4, 3] ∧
    F.data = banded g ![2, 3, 2] (fun v w => v * 20 + w) [0, 1, 2, 4, 5, 6] ∧
    kept 4 2 = [0, 1, 3, 5] ∧ kept 6 3 = [0, 2, 5, 7] ∧ kept 2 2 = [0, 1, 3] := by
  have hbits : ∀ b, 20 ≤ b → P.vars.getLsbD b = false := by
    intro b hb
    by_cases h : b < 32
    · have : ∀ b : Fin 32, 20 ≤ b.val → (0x77#32).getLsbD b.val = false := by decide
      exact this ⟨b, h⟩ hb
    · exact BitVec.getLsbD_of_ge _ _ (by omega)
  obtain ⟨F, h1, h2, h3⟩ := field_dump_partial f g P _ f_holds rfl P_divides P_uniform
    fun _ => hbits
  refine ⟨F, h1, ?_, ?_, by decide, by decide, by decide⟩
  · rw [h2.2.2.2]
    funext c
    match c with
    | 0 => rfl
    | 1 => rfl
    | 2 => rfl
  · rw [h3]
    have : selected P.vars 20 = [0, 1, 2, 4, 5, 6] := by decide
    rw [this]
    rfl

end Sample

end Verif.Dump
