import Verif.Dump.BytesLemmas
import Verif.Dump.Props
import Verif.Dump.Particles

/-! # C109: the binary dumps say what they hold -/
namespace Verif.Dump

theorem Full.says {α : Type} {r : Reader α} {e : List Byte} {v : α} (h : Full r e v) : Says r e v where
  whole := by
    have := h.1 []
    rw [List.append_nil] at this
    unfold found
    rw [this]; rfl
  short := by
    intro n hn
    unfold found
    rw [h.2 _ (List.take_prefix n e) ?_]
    · rfl
    · intro he
      have := congrArg List.length he
      rw [List.length_take] at this
      omega
  long := by
    intro more hm
    unfold found
    rw [h.1 more, if_neg hm]; rfl

/-! ## How much a dump holds -/

theorem mapM_length {ε α β : Type} {f : α → Except ε β} : ∀ {l : List α} {r : List β}, l.mapM f = .ok r →
    r.length = l.length ∧ ∀ y ∈ r, ∃ x ∈ l, f x = .ok y := by
  intro l
  induction l with
  | nil =>
    intro r h
    simp only [List.mapM_nil, pure, Except.pure, Except.ok.injEq] at h
    subst h
    simp
  | cons x l ih =>
    intro r h
    rw [List.mapM_cons] at h
    cases hx : f x with
    | error e => rw [hx] at h; cases h
    | ok y =>
      rw [hx] at h
      cases hl : l.mapM f with
      | error e => rw [hl] at h; cases h
      | ok r' =>
        rw [hl] at h
        simp only [bind, Except.bind, pure, Except.pure, Except.ok.injEq] at h
        subst h
        obtain ⟨h1, h2⟩ := ih hl
        refine ⟨by simp [h1], ?_⟩
        intro z hz
        rcases List.mem_cons.1 hz with rfl | hz
        · exact ⟨x, by simp, hx⟩
        · obtain ⟨x', hx', e⟩ := h2 z hz
          exact ⟨x', by simp [hx'], e⟩

theorem mapM_all {ε α β : Type} {f : α → Except ε β} : ∀ {l : List α} {r : List β}, l.mapM f = .ok r →
    ∀ x ∈ l, ∃ y, f x = .ok y := by
  intro l
  induction l with
  | nil => intro r _ x hx; cases hx
  | cons x l ih =>
    intro r h
    rw [List.mapM_cons] at h
    cases hx : f x with
    | error e => rw [hx] at h; cases h
    | ok y =>
      rw [hx] at h
      cases hl : l.mapM f with
      | error e => rw [hl] at h; cases h
      | ok r' =>
        intro z hz
        rcases List.mem_cons.1 hz with rfl | hz
        · exact ⟨y, hx⟩
        · exact ih hl z hz

theorem flatten_length {W : Type} {m : ℕ} : ∀ (l : List (List W)), (∀ y ∈ l, y.length = m) → l.flatten.length = l.length * m
  | [], _ => by simp
  | x :: l, h => by
    rw [List.flatten_cons, List.length_append, h x (by simp), flatten_length l fun y hy => h y (by simp [hy]), List.length_cons]
    ring

theorem bind_ok {ε α β : Type} {x : Except ε α} {f : α → Except ε β} {r : β} (h : (x >>= f) = .ok r) : ∃ y, x = .ok y ∧ f y = .ok r := by
  cases x with
  | error e => cases h
  | ok y => exact ⟨y, rfl, h⟩

theorem pieces_length {W : Type} {n m : ℕ} {f : ℕ → Except Fault (List W)} {r : List W}
    (h : (do let l ← (List.range n).mapM f; pure l.flatten : Except Fault (List W)) = .ok r)
    (hf : ∀ i y, f i = .ok y → y.length = m) : r.length = n * m := by
  obtain ⟨l, hl, e⟩ := bind_ok h
  cases e
  obtain ⟨h1, h2⟩ := mapM_length hl
  rw [flatten_length l fun y hy => by obtain ⟨x, _, e⟩ := h2 y hy; exact hf x y e, h1, List.length_range]

theorem loop3_length {W : Type} {nx ny nz m : ℕ} {body : ℕ → ℕ → ℕ → Except Fault (List W)} {r : List W}
    (h : loop3 nx ny nz body = .ok r) (hb : ∀ i j k y, body i j k = .ok y → y.length = m) : r.length = nz * (ny * (nx * m)) :=
  pieces_length h fun k _ hk => pieces_length hk fun j _ hj => pieces_length hj fun i _ hi => hb i j k _ hi

theorem loop3_first {W : Type} {nx ny nz : ℕ} {body : ℕ → ℕ → ℕ → Except Fault (List W)} {r : List W}
    (h : loop3 (nx + 1) (ny + 1) (nz + 1) body = .ok r) : ∃ y, body 0 0 0 = .ok y := by
  obtain ⟨l, hl, -⟩ := bind_ok h
  obtain ⟨y, hy⟩ := mapM_all hl 0 (by simp)
  obtain ⟨l, hl, -⟩ := bind_ok hy
  obtain ⟨y, hy⟩ := mapM_all hl 0 (by simp)
  obtain ⟨l, hl, -⟩ := bind_ok hy
  exact mapM_all hl 0 (by simp)

theorem write_length {W : Type} {a : Arr W} {v n : ℕ} {r : List W} (h : a.write v n = .ok r) : r.length = n * a.size := by
  rw [(mapM_length h).1, List.length_range]

theorem bands_length {K W : Type} {a : Arr W} {g : Mesh K} {nout : Fin 3 → ℕ} {vs : List (Option ℕ)} {o : Fin 3 → ℕ → ℕ} {r : List W}
    (h : bands a g nout vs o = .ok r) :
    r.length = vs.length * ((nout 2 + 2) * ((nout 1 + 2) * ((nout 0 + 2) * 1))) ∧ ∀ v ∈ vs, v ≠ none := by
  obtain ⟨l, hl, e⟩ := bind_ok h
  cases e
  obtain ⟨h1, h2⟩ := mapM_length hl
  constructor
  · rw [flatten_length l fun y hy => by
      obtain ⟨x, _, e⟩ := h2 y hy
      refine loop3_length (m := 1) e fun i j k y hy => ?_
      unfold putWord at hy
      obtain ⟨w, _, hy⟩ := bind_ok hy
      obtain ⟨z, _, hy⟩ := bind_ok hy
      cases hy
      rfl, h1]
  · rintro v hv rfl
    obtain ⟨y, hy⟩ := mapM_all hl none hv
    obtain ⟨z, hz⟩ := loop3_first hy
    cases hz

theorem varlist_length {vars : BitVec 32} {total : ℕ} (ht : total ≤ 32) {vs : List (Option ℕ)} (h : varlist vars total = .ok vs) (hn : ∀ v ∈ vs, v ≠ none) :
    vs.length = (selected vars total).length := by
  unfold varlist at h
  cases hb : Util.bitsum vars with
  | none => rw [hb] at h; cases h
  | some sum =>
    rw [hb] at h
    dsimp only at h
    rw [bitset_filter vars total ht] at h
    split at h
    · cases h
    · simp only [Except.ok.injEq] at h
      subst h
      have : min sum total - (selected vars total).length = 0 := by
        by_contra hne
        refine hn none (List.mem_append_right _ ?_) rfl
        rw [List.mem_replicate]
        exact ⟨hne, rfl⟩
      rw [this]
      simp

/-- Words per cell: in bands, the selected variables among `total`; otherwise whole elements. -/
def perCell (P : Params) (total : ℕ) : Option ℕ :=
  match P.fmt with
  | .band => some (selected P.vars total).length
  | .bandInterleave => none

theorem field_amount {K W : Type} [Mul K] [NatCast K] {a : Arr W} {g : Mesh K} {P : Params} {F : File K W} (h : fieldDump a g P = .ok F) :
    F.elem = 4 * a.size ∧ (∀ c, F.nout c = g.n c / P.stride c ∧ F.dim c = F.nout c + 2) ∧
      F.data.length = (perCell P 24).getD a.size * (F.dim 0 * F.dim 1 * F.dim 2) := by
  unfold fieldDump at h
  split at h
  · cases h
  · dsimp only at h
    unfold perCell
    cases hf : P.fmt with
    | band =>
      rw [hf] at h
      obtain ⟨vs, hv, h⟩ := bind_ok h
      obtain ⟨data, hd, e⟩ := bind_ok h
      cases e
      refine ⟨rfl, fun c => ⟨rfl, rfl⟩, ?_⟩
      obtain ⟨h1, h2⟩ := bands_length hd
      dsimp only
      rw [h1, varlist_length (by norm_num) hv h2]
      simp only [Option.getD_some]
      ring
    | bandInterleave =>
      rw [hf] at h
      dsimp only at h
      split at h
      all_goals
        obtain ⟨data, hd, e⟩ := bind_ok h
        cases e
        refine ⟨rfl, fun c => ⟨rfl, rfl⟩, ?_⟩
        dsimp only
      · rw [write_length hd]
        simp only [Option.getD_none]
        ring
      · rw [loop3_length (m := a.size) hd fun i j k y hy => by rw [write_length hy, one_mul]]
        simp only [Option.getD_none]
        ring

theorem hydro_amount {K W : Type} [Mul K] [NatCast K] {a : Arr W} {g : Mesh K} {P : Params} {F : File K W} (h : hydroDump a g P = .ok F) :
    F.elem = 4 * a.size ∧ (∀ c, F.nout c = g.n c / P.stride c ∧ F.dim c ≤ F.nout c + 2) ∧
      F.data.length = (perCell P 14).getD a.size * (F.dim 0 * F.dim 1 * F.dim 2) := by
  unfold hydroDump at h
  split at h
  · cases h
  · dsimp only at h
    unfold perCell
    cases hf : P.fmt with
    | band =>
      rw [hf] at h
      obtain ⟨vs, hv, h⟩ := bind_ok h
      obtain ⟨data, hd, e⟩ := bind_ok h
      cases e
      refine ⟨rfl, fun c => ⟨rfl, le_rfl⟩, ?_⟩
      obtain ⟨h1, h2⟩ := bands_length hd
      dsimp only
      rw [h1, varlist_length (by norm_num) hv h2]
      simp only [Option.getD_some]
      ring
    | bandInterleave =>
      rw [hf] at h
      dsimp only at h
      split at h
      all_goals
        obtain ⟨data, hd, e⟩ := bind_ok h
        cases e
        refine ⟨rfl, fun c => ⟨rfl, Nat.le_add_right _ _⟩, ?_⟩
        dsimp only
      · rw [write_length hd]
        simp only [Option.getD_none]
        ring
      · rw [loop3_length (m := a.size) hd fun i j k y hy => by rw [write_length hy, one_mul]]
        simp only [Option.getD_none]
        ring

theorem whole_amount {K W : Type} {a : Arr W} {g : Mesh K} {F : File K W} (h : dumpWhole a g = .ok F) :
    F.elem = 4 * a.size ∧ (∀ c, F.nout c = g.n c ∧ F.dim c = F.nout c + 2) ∧ F.data.length = a.size * (F.dim 0 * F.dim 1 * F.dim 2) := by
  unfold dumpWhole at h
  dsimp only at h
  obtain ⟨data, hd, e⟩ := bind_ok h
  cases e
  refine ⟨rfl, fun c => ⟨rfl, rfl⟩, ?_⟩
  rw [write_length hd]
  dsimp only
  ring

/-! ## Reading -/

section
variable {K : Type} (bits : K → BitVec 32) (big : Bool) (h : Head)

/-- The header of a dump of the array in `F`. -/
def headOf (F : File K (BitVec 32)) : Head := { h with nout := fun c => (F.nout c : ℤ), dout := fun c => bits (F.dout c) }

theorem full_words (F : File K (BitVec 32)) (per : Option ℕ) (he : F.elem < 2 ^ 31) (hd : ∀ c, F.dim c < 2 ^ 31)
    (hl : F.data.length = per.getD (F.elem / 4) * (F.dim 0 * F.dim 1 * F.dim 2)) :
    Full (readWords per) (arrayDump bits big h F)
      ((headOf bits h F).cut, (F.elem : ℤ), [(F.dim 0 : ℤ), (F.dim 1 : ℤ), (F.dim 2 : ℤ)], F.data) := by
  unfold arrayDump
  rw [header_parts, List.append_assoc, List.append_assoc]
  unfold readWords
  refine (exact_magic big).full ?_
  refine (exact_rest big _).full ?_
  refine (exact_arrayHead big (elem := F.elem) (dim := [(F.dim 0 : ℤ), (F.dim 1 : ℤ), (F.dim 2 : ℤ)]) (by omega) (by simp) ?_).full ?_
  · intro x hx
    have h0 := hd 0
    have h1 := hd 1
    have h2 := hd 2
    simp only [List.mem_cons, List.not_mem_nil, or_false] at hx
    omega
  · have hn : per.getD (((F.elem : ℕ) : ℤ).toNat / 4) * ([(F.dim 0 : ℤ), (F.dim 1 : ℤ), (F.dim 2 : ℤ)].prod).toNat = F.data.length := by
      have hp : ([(F.dim 0 : ℤ), (F.dim 1 : ℤ), (F.dim 2 : ℤ)].prod).toNat = F.dim 0 * F.dim 1 * F.dim 2 := by
        have : [(F.dim 0 : ℤ), (F.dim 1 : ℤ), (F.dim 2 : ℤ)].prod = ((F.dim 0 * F.dim 1 * F.dim 2 : ℕ) : ℤ) := by
          simp [mul_assoc]
        rw [this, Int.toNat_natCast]
      rw [hp, hl, Int.toNat_natCast]
    have := (exact_times' (r := rWord big) hn fun x _ => exact_word big x).full (q := fun data => atEnd >>= fun _ =>
      pure ((headOf bits h F).cut, (F.elem : ℤ), [(F.dim 0 : ℤ), (F.dim 1 : ℤ), (F.dim 2 : ℤ)], data)) (full_end _)
    rw [List.append_nil] at this
    exact this

theorem headOf_fits (F : File K (BitVec 32)) (hf : h.Fits) (hn : ∀ c, F.nout c < 2 ^ 31) : (headOf bits h F).Fits :=
  ⟨hf.step, hf.kind, fun c => ⟨by have := hn c; dsimp [headOf]; omega, by have := hn c; dsimp [headOf]; omega⟩, hf.rank, hf.nproc, hf.sp⟩

/-- **C109**, fields with a selection of variables and strides (`field_dump`): whatever file the dump writes, on a machine of either byte order, a reader that
knows the format and, for a file in bands, the number of selected variables, gets back the header, the dimensions and every word; an incomplete
file is never taken for a complete one. -/
theorem field_dump_read_back [Mul K] [NatCast K] (a : Arr (BitVec 32)) (g : Mesh K) (P : Params) (F : File K (BitVec 32))
    (hF : fieldDump a g P = .ok F) (hf : h.Fits) (ha : a.size = 20) (hg : ∀ c, g.n c + 2 < 2 ^ 31) :
    Says (readWords (perCell P 24)) (arrayDump bits big h F)
      (headOf bits h F, 80, [(F.dim 0 : ℤ), (F.dim 1 : ℤ), (F.dim 2 : ℤ)], F.data) := by
  obtain ⟨h1, h2, h3⟩ := field_amount hF
  rw [ha] at h1
  have hq := fun c => Nat.div_le_self (g.n c) (P.stride c)
  have hn : ∀ c, F.nout c < 2 ^ 31 := fun c => by have := hq c; have := hg c; have := (h2 c).1; omega
  have := full_words bits big h F (perCell P 24) (by omega)
    (fun c => by have := hq c; have := hg c; have := h2 c; omega) (by rw [h3, h1, ha])
  rw [(headOf_fits bits h F hf hn).cut, h1] at this
  exact this.says

/-- **C109**, moments (`hydro_dump`). -/
theorem hydro_dump_read_back [Mul K] [NatCast K] (a : Arr (BitVec 32)) (g : Mesh K) (P : Params) (F : File K (BitVec 32))
    (hF : hydroDump a g P = .ok F) (hf : h.Fits) (ha : a.size = 16) (hg : ∀ c, g.n c + 2 < 2 ^ 31) :
    Says (readWords (perCell P 14)) (arrayDump bits big h F)
      (headOf bits h F, 64, [(F.dim 0 : ℤ), (F.dim 1 : ℤ), (F.dim 2 : ℤ)], F.data) := by
  obtain ⟨h1, h2, h3⟩ := hydro_amount hF
  rw [ha] at h1
  have hq := fun c => Nat.div_le_self (g.n c) (P.stride c)
  have hn : ∀ c, F.nout c < 2 ^ 31 := fun c => by have := hq c; have := hg c; have := (h2 c).1; omega
  have := full_words bits big h F (perCell P 14) (by omega)
    (fun c => by have := hq c; have := hg c; have := h2 c; omega) (by rw [h3, h1, ha])
  rw [(headOf_fits bits h F hf hn).cut, h1] at this
  exact this.says

/-- **C109**, all fields or moments of the rank (`dump_fields`, `dump_hydro`): the file alone says how much it holds. -/
theorem dump_whole_read_back (a : Arr (BitVec 32)) (g : Mesh K) (F : File K (BitVec 32))
    (hF : dumpWhole a g = .ok F) (hf : h.Fits) (ha : 4 * a.size < 2 ^ 31) (hg : ∀ c, g.n c + 2 < 2 ^ 31) :
    Says (readWords none) (arrayDump bits big h F)
      (headOf bits h F, (4 * a.size : ℕ), [(g.n 0 : ℤ) + 2, (g.n 1 : ℤ) + 2, (g.n 2 : ℤ) + 2], F.data) := by
  obtain ⟨h1, h2, h3⟩ := whole_amount hF
  have hn : ∀ c, F.nout c < 2 ^ 31 := fun c => by have := hg c; have := (h2 c).1; omega
  have := full_words bits big h F none (by omega)
    (fun c => by have := hg c; have := h2 c; omega) (by
      rw [h3, h1]
      simp only [Option.getD_none]
      rw [Nat.mul_div_cancel_left _ (by norm_num : 0 < 4)])
  rw [(headOf_fits bits h F hf hn).cut, h1] at this
  have hd : ∀ c, (F.dim c : ℤ) = (g.n c : ℤ) + 2 := fun c => by have := h2 c; omega
  rw [hd, hd, hd] at this
  exact this.says

/-- **C109**: without the bound on the step, the step found is the true one modulo 2³², between -2³¹ and 2³¹; so a later step is not found. -/
theorem long_step_lost (F : File K (BitVec 32)) (per : Option ℕ) (he : F.elem < 2 ^ 31) (hd : ∀ c, F.dim c < 2 ^ 31)
    (hl : F.data.length = per.getD (F.elem / 4) * (F.dim 0 * F.dim 1 * F.dim 2)) :
    ∃ found', found (readWords per) (arrayDump bits big h F) = some found' ∧ found'.1.step = h.step.bmod (2 ^ 32) ∧
      (2 ^ 31 ≤ h.step → found'.1.step ≠ h.step) := by
  refine ⟨_, (full_words bits big h F per he hd hl).says.whole, rfl, fun hs => ?_⟩
  intro e
  have e : h.step.bmod (2 ^ 32) = h.step := e
  have := Int.bmod_lt (x := h.step) (m := 2 ^ 32) (by norm_num)
  rw [e] at this
  norm_num at this
  omega

theorem header_length (h : Head) : (header big h).length = 103 := by
  unfold header wChar wShort wInt wWord wDouble
  simp only [List.length_append, mem_length]

/-- **C109**: the data of a dump of fields or moments start at byte 123, as the global header announces (`DATA_HEADER_SIZE`, /repo/src/vpic/dump.cc:425). -/
theorem data_start (F : File K (BitVec 32)) :
    (arrayDump bits big h F).drop 123 = F.data.flatMap (wWord big) := by
  unfold arrayDump
  rw [List.drop_left']
  rw [List.length_append, header_length]
  unfold arrayHeader wInt
  simp [mem_length]

/-- **C109**, particles: the particles of the species, with momenta centred in time, in their order. -/
theorem dump_particles_read_back [Field K] [LinearOrder K] [IsStrictOrderedRing K] (rt : K → K) (q : K) (f0 : ℤ → Boris.Interp K) (R : Distribute.Rounding) (hR : R.Accurate)
    (P : ℕ) (hP : 0 < P) (hP2 : P ≤ 2 ^ 16) (buf : ℕ) (s s' : PState K) (hb : buf ≠ s.p) (dim : ℕ)
    (out : List (MoveP.Part K)) (hD : DumpParticles rt q f0 R P buf s s' dim out) (hf : h.Fits) (hs : s.np < 2 ^ 31) :
    Says readParticles (particleDump bits big h dim out)
      ({ h with kind := 3 }, (List.range s.np).map fun i : ℕ => record bits (centred rt q f0 (s.mem s.p i))) := by
  obtain ⟨rfl, ho, -⟩ := dump_particles_spec rt q f0 R hR P hP hP2 buf s s' hb dim out hD
  have hl : out.length = s.np := by rw [ho]; simp
  have hr : (List.range s.np).map (fun i : ℕ => record bits (centred rt q f0 (s.mem s.p i))) = out.map (record bits) := by
    rw [ho, List.map_map]; rfl
  rw [hr]
  unfold particleDump
  have hk : ({ h with kind := 3 } : Head).Fits := ⟨hf.step, by norm_num, hf.nout, hf.rank, hf.nproc, hf.sp⟩
  rw [header_parts, List.append_assoc, List.append_assoc]
  have : Full readParticles (magic big ++ (rest big { h with kind := 3 } ++ (arrayHeader big 32 [(s.np : ℤ)] ++
      out.flatMap fun p => (record bits p).flatMap (wWord big)))) (({ h with kind := 3 } : Head).cut, out.map (record bits)) := by
    unfold readParticles
    refine (exact_magic big).full ?_
    refine (exact_rest big _).full ?_
    refine (exact_arrayHead big (elem := 32) (dim := [(s.np : ℤ)]) (by norm_num) (by simp) ?_).full ?_
    · intro x hx
      simp only [List.mem_cons, List.not_mem_nil, or_false] at hx
      omega
    · refine (exact_check _ rfl).passFull ?_
      have hn : ([(s.np : ℤ)].prod).toNat = (out.map (record bits)).length := by simp [hl]
      have := (exact_times' (r := times 8 (rWord big)) (w := fun l => l.flatMap (wWord big)) hn fun x hx => by
        obtain ⟨p, -, rfl⟩ := List.mem_map.1 hx
        exact exact_times' rfl fun x _ => exact_word big x).full (q := fun data => atEnd >>= fun _ =>
          pure (({ h with kind := 3 } : Head).cut, data)) (full_end _)
      rw [List.append_nil, List.flatMap_map] at this
      exact this
  rw [hk.cut] at this
  exact this.says

end

/-- **C109**, the grid: boundary conditions, ranges and neighbours come back with their dimensions, on a machine of either byte order. -/
theorem dump_grid_read_back (big : Bool) (h : Head) (g : GridMem) (hf : h.Fits) (hp : 0 ≤ h.nproc ∧ h.nproc + 1 < 2 ^ 31)
    (hbc : g.bc.length = 27) (hr : g.range.length = h.nproc.toNat + 1)
    (hn : g.neighbor.length = 6 * ((g.n 0 + 2) * (g.n 1 + 2) * (g.n 2 + 2)))
    (hsz : 6 * ((g.n 0 + 2) * (g.n 1 + 2) * (g.n 2 + 2)) < 2 ^ 31)
    (vb : ∀ x ∈ g.bc, -2 ^ 31 ≤ x ∧ x < 2 ^ 31) (vr : ∀ x ∈ g.range, -2 ^ 63 ≤ x ∧ x < 2 ^ 63)
    (vn : ∀ x ∈ g.neighbor, -2 ^ 63 ≤ x ∧ x < 2 ^ 63) :
    ∃ file, dumpGrid big h g = .ok file ∧
      Says readGrid file ({ h with kind := 0, sp := -1, q_m := 0, nout := fun c => (g.n c : ℤ) },
        ([3, 3, 3], g.bc), ([h.nproc + 1], g.range), ([6, (g.n 0 : ℤ) + 2, (g.n 1 : ℤ) + 2, (g.n 2 : ℤ) + 2], g.neighbor)) := by
  have hw : ∀ (l : List ℤ) (n : ℕ) (w : ℤ → List Byte), l.length = n → wArray l n w = .ok (l.flatMap w) := by
    rintro l n w rfl
    simp [wArray]
  have hprod : ∀ c, g.n c + 2 < 2 ^ 31 := by
    have h0 : g.n 0 + 2 ≤ (g.n 0 + 2) * (g.n 1 + 2) * (g.n 2 + 2) := by nlinarith [Nat.zero_le (g.n 0), Nat.zero_le (g.n 1), Nat.zero_le (g.n 2), Nat.zero_le ((g.n 0) * (g.n 1)), Nat.zero_le ((g.n 0) * (g.n 2)), Nat.zero_le ((g.n 1) * (g.n 2)), Nat.zero_le ((g.n 0) * (g.n 1) * (g.n 2))]
    have h1 : g.n 1 + 2 ≤ (g.n 0 + 2) * (g.n 1 + 2) * (g.n 2 + 2) := by nlinarith [Nat.zero_le (g.n 0), Nat.zero_le (g.n 1), Nat.zero_le (g.n 2), Nat.zero_le ((g.n 0) * (g.n 1)), Nat.zero_le ((g.n 0) * (g.n 2)), Nat.zero_le ((g.n 1) * (g.n 2)), Nat.zero_le ((g.n 0) * (g.n 1) * (g.n 2))]
    have h2 : g.n 2 + 2 ≤ (g.n 0 + 2) * (g.n 1 + 2) * (g.n 2 + 2) := by nlinarith [Nat.zero_le (g.n 0), Nat.zero_le (g.n 1), Nat.zero_le (g.n 2), Nat.zero_le ((g.n 0) * (g.n 1)), Nat.zero_le ((g.n 0) * (g.n 2)), Nat.zero_le ((g.n 1) * (g.n 2)), Nat.zero_le ((g.n 0) * (g.n 1) * (g.n 2))]
    intro c
    match c with
    | 0 => omega
    | 1 => omega
    | 2 => omega
  have hfile : ∃ file, dumpGrid big h g = .ok file ∧ file =
      magic big ++ (rest big { h with kind := 0, sp := -1, q_m := 0, nout := fun c => (g.n c : ℤ) } ++ (arrayHeader big 4 [3, 3, 3] ++
        (g.bc.flatMap (wInt big) ++ (arrayHeader big 8 [h.nproc + 1] ++ (g.range.flatMap (wLong big) ++
        (arrayHeader big 8 [6, (g.n 0 : ℤ) + 2, (g.n 1 : ℤ) + 2, (g.n 2 : ℤ) + 2] ++ g.neighbor.flatMap (wLong big))))))) := by
    unfold dumpGrid
    dsimp only
    rw [hw _ _ _ hbc, hw _ _ _ hr]
    simp only [bind, Except.bind]
    rw [if_neg (by omega), hw _ _ _ hn]
    refine ⟨_, rfl, ?_⟩
    have e1 : (((h.nproc.toNat + 1 : ℕ)) : ℤ) = h.nproc + 1 := by omega
    rw [e1, header_parts]
    simp only [List.append_assoc, Nat.cast_add, Nat.cast_ofNat]
  obtain ⟨file, h1, h2⟩ := hfile
  refine ⟨file, h1, ?_⟩
  subst h2
  have hk : ({ h with kind := 0, sp := -1, q_m := 0, nout := fun c => (g.n c : ℤ) } : Head).Fits :=
    ⟨hf.step, by norm_num, fun c => by have := hprod c; dsimp only; omega, hf.rank, hf.nproc, by norm_num⟩
  refine Full.says ?_
  unfold readGrid
  refine (exact_magic big).full ?_
  refine (exact_rest big _).full ?_
  rw [hk.cut]
  refine (exact_arrayHead big (elem := 4) (dim := [3, 3, 3]) (by norm_num) (by simp) ?_).full ?_
  · intro x hx
    simp only [List.mem_cons, List.not_mem_nil, or_false] at hx
    omega
  refine (exact_check _ rfl).passFull ?_
  refine (exact_times' (l := g.bc) (by rw [hbc]; rfl) fun x hx => exact_int' big (vb x hx)).full ?_
  refine (exact_arrayHead big (elem := 8) (dim := [h.nproc + 1]) (by norm_num) (by simp) ?_).full ?_
  · intro x hx
    simp only [List.mem_cons, List.not_mem_nil, or_false] at hx
    omega
  refine (exact_check _ rfl).passFull ?_
  refine (exact_times' (l := g.range) (by rw [hr]; simp; omega) fun x hx => by
    have := exact_long big x
    rwa [bmod_long (vr x hx)] at this).full ?_
  refine (exact_arrayHead big (elem := 8) (dim := [6, (g.n 0 : ℤ) + 2, (g.n 1 : ℤ) + 2, (g.n 2 : ℤ) + 2]) (by norm_num) (by simp) ?_).full ?_
  · intro x hx
    have := hprod 0
    have := hprod 1
    have := hprod 2
    simp only [List.mem_cons, List.not_mem_nil, or_false] at hx
    omega
  refine (exact_check _ rfl).passFull ?_
  have hN : ([6, (g.n 0 : ℤ) + 2, (g.n 1 : ℤ) + 2, (g.n 2 : ℤ) + 2].prod).toNat = g.neighbor.length := by
    have : [6, (g.n 0 : ℤ) + 2, (g.n 1 : ℤ) + 2, (g.n 2 : ℤ) + 2].prod = ((6 * ((g.n 0 + 2) * (g.n 1 + 2) * (g.n 2 + 2)) : ℕ) : ℤ) := by
      push_cast
      simp [mul_assoc]
    rw [this, Int.toNat_natCast, hn]
  have := (exact_times' (l := g.neighbor) hN fun x hx => by
    have := exact_long big x
    rwa [bmod_long (vn x hx)] at this).full (q := fun neighbor => atEnd >>= fun _ =>
      pure (({ h with kind := 0, sp := -1, q_m := 0, nout := fun c => (g.n c : ℤ) } : Head), (([3, 3, 3] : List ℤ), g.bc), ([h.nproc + 1], g.range),
        ([6, (g.n 0 : ℤ) + 2, (g.n 1 : ℤ) + 2, (g.n 2 : ℤ) + 2], neighbor))) (full_end _)
  rw [List.append_nil] at this
  exact this

end Verif.Dump
