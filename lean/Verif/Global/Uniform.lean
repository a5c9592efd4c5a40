import Verif.Global.SourcesProps

/-!
# Uniform fields (lemmas for C104)
-/
namespace Verif.Global

open Grid MoveP Charge Torus Threads
open Field (Pos FC)

variable {K : Type} [Field K]

/-- No electric field and no bound charge, the same magnetic field everywhere. -/
structure Calm (b : Fin 3 → K) (G : Fields K) : Prop where
  e : ∀ a s, G (.e a) s = 0
  cb : ∀ a s, G (.cb a) s = b a
  tca : ∀ a s, G (.tca a) s = 0
  rhob : ∀ s, G .rhob s = 0

variable {b : Fin 3 → K}

lemma interp_calm (N : Pos) {G : Fields K} (he : ∀ a s, G (.e a) s = 0) (hb : ∀ a s, G (.cb a) s = b a) [CharZero K] (c : K) (s : Pos) (d : Fin 3 → K) :
    Boris.halfE c (interpOf N G s) d = 0 ∧ Boris.interpB (interpOf N G s) d = b := by
  refine ⟨?_, ?_⟩
  · funext k
    fin_cases k <;> simp [Boris.halfE, interpOf, edge4, mean4, slope1, slope2, mixed, he]
  · funext k
    fin_cases k <;> simp [Boris.interpB, interpOf, hb] <;> ring

lemma curlH_calm {N : Pos} {C : Consts K} {M : Medium K} {G : Fields K} (hb : ∀ a s, G (.cb a) s = b a)
    (hm : ∀ a s s', b a * (M.face a s).rmu a = b a * (M.face a s').rmu a) (a : Fin 3) (s : Pos) : curlH N C M G a s = 0 := by
  unfold curlH hOf
  simp only [hb]
  rw [hm (a + 2) (prev N (a + 1) s) s, hm (a + 1) (prev N (a + 2) s) s]
  ring

lemma stepped_calm {N : Pos} {C : Consts K} {M : Medium K} {G : Fields K} (h : Calm b G) (hj : ∀ a s, G (.jf a) s = 0)
    (hm : ∀ a s s', b a * (M.face a s).rmu a = b a * (M.face a s').rmu a) : Calm b (stepped N C M G) := by
  have half : ∀ {G : Fields K}, Calm b G → Calm b (yeeB N C (1 / 2) G) := by
    intro G h
    exact ⟨fun a s => h.e a s, fun a s => by simp [yeeB, h.e, h.cb], fun a s => h.tca a s, fun s => h.rhob s⟩
  have t : ∀ a s, tcaNew N C M (yeeB N C (1 / 2) G) a s = 0 := fun a s => by
    unfold tcaNew
    rw [curlH_calm (half h).cb hm, (half h).tca]
    ring
  unfold stepped
  refine half ⟨fun a s => ?_, fun a s => (half h).cb a s, t, fun s => h.rhob s⟩
  show (M.edge a s).decay a * yeeB N C (1 / 2) G (.e a) s + (M.edge a s).drive a * (tcaNew N C M (yeeB N C (1 / 2) G) a s - C.dt / C.eps0 * G (.jf a) s) = 0
  rw [t, hj, (half h).e]
  ring

lemma gauss_calm {N : Pos} {C : Consts K} {M : Medium K} {G : Fields K} (he : ∀ a s, G (.e a) s = 0) (hr : ∀ s, G .rhob s = 0)
    (hf : ∀ s, G .rhof s = 0) : gaussErr N C M G = fun _ => 0 := by
  funext s
  simp [gaussErr, he, hr, hf]

lemma divB_calm {N : Pos} {C : Consts K} {G : Fields K} (hb : ∀ a s, G (.cb a) s = b a) : divBAt N C G = fun _ => 0 := by
  funext s
  simp [divBAt, hb]

lemma rms_calm {rt : K → K} (hr : rt 0 = 0) (U : Universe K) : rmsOf rt U (fun _ => 0) = 0 := by
  simp [rmsOf, hr]

/-- A report without error. -/
def Clear (m : Msg K) : Prop := m = .sync 0 ∨ m = .divE 0 ∨ m = .divB 0

lemma roundsE_calm {U : Universe K} {rt : K → K} (hr : rt 0 = 0) (R : ℤ) (k : ℕ) : ∀ (i : ℤ) {G : Fields K}, Calm b G → (∀ s, G .rhof s = 0) →
    Calm b (roundsE U rt R k i G).1 ∧ ∀ m ∈ (roundsE U rt R k i G).2, Clear m := by
  induction k with
  | zero => intro i G h _; exact ⟨h, fun m hm => by simp [roundsE] at hm⟩
  | succ k ih =>
    intro i G h hf
    unfold roundsE
    simp only
    have hg := gauss_calm (N := U.N) (C := U.C) (M := U.M) h.e h.rhob hf
    obtain ⟨a1, a2⟩ := ih (i + 1) (G := setE (marderEOf U.N U.C U.M (gaussErr U.N U.C U.M G) G) G)
      ⟨fun a s => by simp [setE, marderEOf, hg, h.e], fun a s => h.cb a s, fun a s => h.tca a s, fun s => h.rhob s⟩ hf
    refine ⟨a1, fun m hm => ?_⟩
    rcases List.mem_append.mp hm with hm | hm
    · split_ifs at hm
      · rw [List.mem_singleton.mp hm, hg, rms_calm hr]
        exact .inr (.inl rfl)
      · simp at hm
    · exact a2 m hm

lemma roundsB_calm {U : Universe K} {rt : K → K} (hr : rt 0 = 0) (R : ℤ) (k : ℕ) : ∀ (i : ℤ) {G : Fields K}, Calm b G →
    Calm b (roundsB U rt R k i G).1 ∧ ∀ m ∈ (roundsB U rt R k i G).2, Clear m := by
  induction k with
  | zero => intro i G h; exact ⟨h, fun m hm => by simp [roundsB] at hm⟩
  | succ k ih =>
    intro i G h
    unfold roundsB
    simp only
    have hg := divB_calm (N := U.N) (C := U.C) h.cb
    obtain ⟨a1, a2⟩ := ih (i + 1) (G := setB (marderBOf U.N U.C G) G)
      ⟨fun a s => h.e a s, fun a s => by simp [setB, marderBOf, hg, h.cb], fun a s => h.tca a s, fun s => h.rhob s⟩
    refine ⟨a1, fun m hm => ?_⟩
    rcases List.mem_append.mp hm with hm | hm
    · split_ifs at hm
      · rw [List.mem_singleton.mp hm, hg, rms_calm hr]
        exact .inr (.inr rfl)
      · simp at hm
    · exact a2 m hm

open Classical in
lemma fieldStep_calm {U : Universe K} {rt : K → K} (hr : rt 0 = 0) (hm : ∀ a s s', b a * (U.M.face a s).rmu a = b a * (U.M.face a s').rmu a)
    (A : Settings) (step : ℤ) {G : Fields K} (h : Calm b G) :
    Calm b (fieldStep U rt A step (fun _ _ => 0) (fun _ => 0) G).1 ∧ ∀ m ∈ (fieldStep U rt A step (fun _ _ => 0) (fun _ => 0) G).2, Clear m := by
  have h1 : Calm b (stepped U.N U.C U.M (setJ (fun _ _ => 0) G)) :=
    stepped_calm ⟨fun a s => h.e a s, fun a s => h.cb a s, fun a s => h.tca a s, fun s => h.rhob s⟩ (fun _ _ => rfl) hm
  have h2 : ∀ {G : Fields K}, Calm b G → Calm b (setRho (fun _ => 0) G) := fun h =>
    ⟨fun a s => h.e a s, fun a s => h.cb a s, fun a s => h.tca a s, fun s => h.rhob s⟩
  unfold fieldStep
  simp only
  generalize hx : (if due A.clean_div_e_interval step then roundsE U rt A.num_div_e_round A.num_div_e_round.toNat 0
    (setRho (fun _ => 0) (stepped U.N U.C U.M (setJ (fun _ _ => 0) G))) else (stepped U.N U.C U.M (setJ (fun _ _ => 0) G), [])) = x
  have k1 : Calm b x.1 ∧ ∀ m ∈ x.2, Clear m := by
    rw [← hx]
    split_ifs
    · exact roundsE_calm hr _ _ _ (h2 h1) fun _ => rfl
    · exact ⟨h1, fun m hm => by simp at hm⟩
  generalize hy : (if due A.clean_div_b_interval step then roundsB U rt A.num_div_b_round A.num_div_b_round.toNat 0 x.1 else (x.1, [])) = y
  have k2 : Calm b y.1 ∧ ∀ m ∈ y.2, Clear m := by
    rw [← hy]
    split_ifs
    · exact roundsB_calm hr _ _ _ k1.1
    · exact ⟨k1.1, fun m hm => by simp at hm⟩
  refine ⟨k2.1, fun m hm => ?_⟩
  rcases List.mem_append.mp hm with hm | hm
  · rcases List.mem_append.mp hm with hm | hm
    · exact k1.2 m hm
    · exact k2.2 m hm
  · split_ifs at hm
    · exact .inl (List.mem_singleton.mp hm)
    · simp at hm

/-! ### Particles -/

variable [LinearOrder K] [IsStrictOrderedRing K]

omit [LinearOrder K] [IsStrictOrderedRing K] in
lemma rotate_zero (rt : K → K) (h : K) (u : Fin 3 → K) : Boris.rotate rt h u 0 = u := by
  funext k
  fin_cases k <;> simp [Boris.rotate]

lemma rotate_norm (rt : K → K) (h : K) (u b : Fin 3 → K) : Boris.dot (Boris.rotate rt h u b) (Boris.rotate rt h u b) = Boris.dot u u := by
  rw [Boris.rotate_eq, Boris.rotBy_norm]

lemma pushU_calm (N : Pos) {G : Fields K} (h : Calm b G) (rt : K → K) (c : K) (s : Pos) (d u : Fin 3 → K) :
    Boris.pushU rt c (interpOf N G s) d u = Boris.rotate rt c u b := by
  obtain ⟨h1, h2⟩ := interp_calm N h.e h.cb c s d
  unfold Boris.pushU
  simp only [h1, h2, Pi.zero_apply, add_zero]

lemma uncenterU_calm (N : Pos) {G : Fields K} (h : Calm b G) (rt : K → K) (c : K) (s : Pos) (d u : Fin 3 → K) :
    Boris.uncenterU rt c (interpOf N G s) d u = Boris.rotate rt (-(1 / 2) * c) u b := by
  obtain ⟨h1, h2⟩ := interp_calm N h.e h.cb (-c) s d
  unfold Boris.uncenterU
  simp only [h1, h2, Pi.zero_apply, add_zero]

/-- The place along axis `a` in the box, in half cells. -/
def GPart.place (p : GPart K) (a : Fin 3) : K := 2 * (p.cell a : K) + p.d a

/-- The same place of the box, around which it is periodic. -/
def SamePlace (N : Pos) (a : Fin 3) (x y : K) : Prop := ∃ z : ℤ, x = y + 2 * ((z * N a : ℤ) : K)

omit [LinearOrder K] [IsStrictOrderedRing K] in
lemma SamePlace.trans {N : Pos} {a : Fin 3} {x y z : K} (h : SamePlace N a x y) (h' : SamePlace N a y z) : SamePlace N a x z := by
  obtain ⟨i, rfl⟩ := h
  obtain ⟨j, rfl⟩ := h'
  exact ⟨i + j, by push_cast; ring⟩

omit [LinearOrder K] [IsStrictOrderedRing K] in
lemma SamePlace.shift {N : Pos} {a : Fin 3} {x y : K} (h : SamePlace N a x y) (c : K) : SamePlace N a (x + c) (y + c) := by
  obtain ⟨i, rfl⟩ := h
  exact ⟨i, by ring⟩

omit [LinearOrder K] [IsStrictOrderedRing K] in
lemma beyond_cell (N : Pos) (a : Fin 3) (up : Bool) (s : Pos) (c : Fin 3) : ∃ z : ℤ, beyond N a up s c =
    s c + (if c = a then (if up then 1 else -1) else 0) + z * N c := by
  unfold beyond next prev
  by_cases h : c = a
  · subst h
    cases up
    · refine ⟨-((s c - 1) / N c), ?_⟩
      have := Int.emod_add_mul_ediv (s c - 1) (N c)
      simp only [Bool.false_eq_true, if_false, if_true]
      linarith
    · refine ⟨-((s c + 1) / N c), ?_⟩
      have := Int.emod_add_mul_ediv (s c + 1) (N c)
      simp only [if_true]
      linarith
  · refine ⟨0, ?_⟩
    cases up <;> simp [h]

/-- A walk goes straight to where it should. -/
lemma walk_place {N : Pos} (q : K) (fuel : ℕ) : ∀ {p : GPart K} {disp : Fin 3 → K} {x : GPart K × GAccum K}, (∀ k, -1 ≤ p.d k ∧ p.d k ≤ 1) →
    walk N q fuel p disp = some x → x.1.u = p.u ∧ (∀ k, -1 ≤ x.1.d k ∧ x.1.d k ≤ 1) ∧ ∀ a, SamePlace N a (x.1.place a) (p.place a + 2 * disp a) := by
  induction fuel with
  | zero => intro p disp x _ h; simp [walk] at h
  | succ fuel ih =>
    intro p disp x hd h
    unfold walk at h
    obtain ⟨f1, f2, f3, f4, f5, f6⟩ := streak_facts p.d disp hd (streakOf p.d disp).1 (streakOf p.d disp).2.1 (streakOf p.d disp).2.2 rfl
    rcases hst : (streakOf p.d disp).2.1 with _ | ax
    · simp only [hst, Option.some.injEq] at h
      rw [← h]
      have hv := f5 hst
      refine ⟨rfl, fun k => ?_, fun a => ⟨0, ?_⟩⟩
      · have := f4 k
        show -1 ≤ p.d k + ((streakOf p.d disp).2.2 k + (streakOf p.d disp).2.2 k) ∧ p.d k + ((streakOf p.d disp).2.2 k + (streakOf p.d disp).2.2 k) ≤ 1
        rw [f3, ← two_mul]
        exact this
      · show 2 * (p.cell a : K) + (p.d a + ((streakOf p.d disp).2.2 a + (streakOf p.d disp).2.2 a)) = _
        rw [f3, hv]
        unfold GPart.place
        push_cast
        ring
    · obtain ⟨g1, g2, g3⟩ := f6 ax hst
      simp only [hst, Option.map_eq_some_iff] at h
      obtain ⟨y, h2, rfl⟩ := h
      have hs : sdir (disp ax) = 1 ∨ sdir (disp ax) = -1 := by unfold sdir; split_ifs <;> simp
      obtain ⟨r1, r2, r3⟩ := ih (fun k => by
        by_cases hk : k = ax
        · subst hk
          simp only [Function.update_self]
          rcases hs with hs | hs <;> rw [hs] <;> norm_num
        · simp only [Function.update_of_ne hk]
          rw [f3, ← two_mul]
          exact f4 k) h2
      refine ⟨r1, r2, fun a => (r3 a).trans ?_⟩
      obtain ⟨z, hz⟩ := beyond_cell N ax (decide (0 < disp ax)) p.cell a
      refine ⟨z, ?_⟩
      unfold GPart.place
      simp only [hz]
      by_cases ha : a = ax
      · subst ha
        simp only [Function.update_self, if_true]
        rw [f3]
        have : sdir (disp a) = ((if decide (0 < disp a) then 1 else -1 : ℤ) : K) := by
          unfold sdir
          by_cases h0 : 0 < disp a <;> simp [h0]
        push_cast at this ⊢
        rw [← this]
        linear_combination -g3
      · simp only [Function.update_of_ne ha, if_neg ha]
        rw [f3]
        push_cast
        ring

/-- The displacement in one step, in half cells. -/
def pace (V : Drive K) (u : Fin 3 → K) (a : Fin 3) : K := 2 * (u a * V.cdt_d a * (1 / V.rt (1 + Boris.dot u u)))

/-- A push in a uniform field. -/
lemma push_calm {N : Pos} {G : Fields K} (h : Calm b G) {V : Drive K} {q : ℕ → K} {id fuel : ℕ} {p : GPart K} {x : GPart K × GAccum K}
    (hd : ∀ k, -1 ≤ p.d k ∧ p.d k ≤ 1) (hx : push N (interpOf N G) (lawAt V q id) fuel p = some x) :
    x.1.u = Boris.rotate V.rt (V.qdt_2mc id) p.u b ∧ (∀ k, -1 ≤ x.1.d k ∧ x.1.d k ≤ 1) ∧
    ∀ a, SamePlace N a (x.1.place a) (p.place a + pace V x.1.u a) := by
  unfold push at hx
  simp only at hx
  rw [show (lawAt V q id).rt = V.rt from rfl, show (lawAt V q id).qdt_2mc = V.qdt_2mc id from rfl, pushU_calm N h] at hx
  have e : ∀ u : Fin 3 → K, u 0 * u 0 + (u 1 * u 1 + u 2 * u 2) = Boris.dot u u := fun u => by unfold Boris.dot; ring
  rw [e] at hx
  split_ifs at hx with hb
  · simp only [Option.some.injEq] at hx
    rw [← hx]
    refine ⟨rfl, fun k => ?_, fun a => ⟨0, ?_⟩⟩
    · unfold AdvanceP.inBounds at hb
      rw [decide_eq_true_eq] at hb
      obtain ⟨b1, b2, b3, b4, b5, b6⟩ := hb
      fin_cases k
      exacts [⟨neg_le.mp b4, b1⟩, ⟨neg_le.mp b5, b2⟩, ⟨neg_le.mp b6, b3⟩]
    unfold GPart.place pace
    simp only [lawAt]
    push_cast
    ring
  · obtain ⟨a1, a2, a3⟩ := walk_place _ _ (p := { p with u := Boris.rotate V.rt (V.qdt_2mc id) p.u b }) hd hx
    refine ⟨a1, a2, fun a => ?_⟩
    have := a3 a
    rw [a1]
    exact this

/-- The particle `p'` is where `p` flies in `n` steps in a uniform field `b`: same weight, same energy, and straight on without field. -/
structure Flown (N : Pos) (V : Drive K) (b : Fin 3 → K) (n : ℤ) (p p' : GPart K) : Prop where
  w : p'.w = p.w
  inside : ∀ k, -1 ≤ p'.d k ∧ p'.d k ≤ 1
  energy : Boris.dot p'.u p'.u = Boris.dot p.u p.u
  momentum : b = 0 → p'.u = p.u
  place : b = 0 → ∀ a, SamePlace N a (p'.place a) (p.place a + n * pace V p.u a)

/-- The particles `P'` are the particles `P`, flown. -/
def AllFlown (N : Pos) (V : Drive K) (b : Fin 3 → K) (n : ℤ) (P P' : Multiset (GPart K)) : Prop :=
  ∃ F : GPart K → GPart K, P' = P.map F ∧ ∀ p ∈ P, Flown N V b n p (F p)

variable {V : Drive K} {U : Universe K}

omit [IsStrictOrderedRing K] in
lemma AllFlown.trans {N : Pos} {n m : ℤ} {P Q R : Multiset (GPart K)} (h : AllFlown N V b n P Q) (h' : AllFlown N V b m Q R) :
    AllFlown N V b (n + m) P R := by
  obtain ⟨F, rfl, hF⟩ := h
  obtain ⟨F', rfl, hF'⟩ := h'
  refine ⟨F' ∘ F, by rw [Multiset.map_map], fun p hp => ?_⟩
  have a := hF p hp
  have c := hF' (F p) (Multiset.mem_map_of_mem F hp)
  refine ⟨c.w.trans a.w, c.inside, c.energy.trans a.energy, fun hb => (c.momentum hb).trans (a.momentum hb), fun hb k => ?_⟩
  have h1 := (a.place hb k).shift (m * pace V p.u k)
  have h2 := c.place hb k
  rw [a.momentum hb] at h2
  have := h2.trans h1
  rwa [add_assoc, ← add_mul, ← Int.cast_add] at this

lemma boxCycle_calm {A : Settings} {step : ℤ} {x y : Box K} {l : List (Msg K)} (hr : V.rt 0 = 0)
    (hm : ∀ a s s', b a * (U.M.face a s).rmu a = b a * (U.M.face a s').rmu a) (h : BoxCycle U V A step x y l) (hf : Calm b x.f)
    (hc : x.charges U V = 0) (hd : ∀ id < U.nsp, ∀ p ∈ x.parts id, ∀ k, -1 ≤ p.d k ∧ p.d k ≤ 1) :
    Calm b y.f ∧ y.charges U V = 0 ∧ (∀ m ∈ l, Clear m) ∧ ∀ id < U.nsp, AllFlown U.N V b 1 (x.parts id) (y.parts id) := by
  obtain ⟨h1, h2⟩ := boxCycle_charges h
  have hc' : y.charges U V = 0 := by rw [h1, hc, Finsupp.mapDomain_zero]
  have hρ : density U y.parts = fun _ => 0 := by
    funext s
    rw [density_charges U V, show charges U.nsp U.q V.qdt_2mc y.parts = 0 from hc', map_zero]
  have hJ : current U.N U.sc (0 : GAccum K) = fun _ _ => 0 := by
    funext a s
    simp [current]
  rw [hc, map_zero, hρ, hJ] at h2
  obtain ⟨k1, k2⟩ := fieldStep_calm hr hm A step hf
  rw [← h2] at k1 k2
  refine ⟨k1, hc', k2, fun id hid => ?_⟩
  obtain ⟨adv, a1, a2, -⟩ := h.run
  refine ⟨fun p => (adv id p).1, by rw [a2, if_pos hid], fun p hp => ?_⟩
  obtain ⟨b1, b2, b3⟩ := push_calm hf (hd id hid p hp) (a1 id hid p hp)
  refine ⟨push_w (a1 id hid p hp), b2, by rw [b1, rotate_norm], fun hb => by rw [b1, hb, rotate_zero], fun hb a => ?_⟩
  have := b3 a
  rw [b1, hb, rotate_zero] at this
  simpa using this

lemma boxCycles_calm {A : Settings} {i j : ℤ} {x y : Box K} {l : List (Msg K)} (hr : V.rt 0 = 0)
    (hm : ∀ a s s', b a * (U.M.face a s).rmu a = b a * (U.M.face a s').rmu a) (h : BoxCycles U V A i x j y l) (hf : Calm b x.f)
    (hc : x.charges U V = 0) (hd : ∀ id < U.nsp, ∀ p ∈ x.parts id, ∀ k, -1 ≤ p.d k ∧ p.d k ≤ 1) :
    Calm b y.f ∧ y.charges U V = 0 ∧ (∀ m ∈ l, Clear m) ∧ ∀ id < U.nsp, AllFlown U.N V b (j - i) (x.parts id) (y.parts id) := by
  induction h with
  | refl =>
    refine ⟨hf, hc, fun m hm => by simp at hm, fun id hid => ⟨_root_.id, by rw [Multiset.map_id], fun p hp => ?_⟩⟩
    exact ⟨rfl, hd id hid p hp, rfl, fun _ => rfl, fun _ a => ⟨0, by simp⟩⟩
  | @step j y1 y2 l1 l2 h1 h2 ih =>
    obtain ⟨a1, a2, a3, a4⟩ := ih
    obtain ⟨b1, b2, b3, b4⟩ := boxCycle_calm hr hm h2 a1 a2 fun id hid p hp => by
      obtain ⟨F, e, hF⟩ := a4 id hid
      rw [e] at hp
      obtain ⟨p0, h0, rfl⟩ := Multiset.mem_map.mp hp
      exact (hF p0 h0).inside
    refine ⟨b1, b2, fun m hm => (List.mem_append.mp hm).elim (a3 m) (b3 m), fun id hid => ?_⟩
    have := (a4 id hid).trans (b4 id hid)
    rwa [show j - i + 1 = j + 1 - i by ring] at this

lemma boxBegin_calm {x : Box K} (hr : V.rt 0 = 0) (hm : ∀ a s s', b a * (U.M.face a s).rmu a = b a * (U.M.face a s').rmu a)
    (he : ∀ a s, x.f (.e a) s = 0) (hb : ∀ a s, x.f (.cb a) s = b a) (hc : x.charges U V = 0)
    (hd : ∀ id < U.nsp, ∀ p ∈ x.parts id, ∀ k, -1 ≤ p.d k ∧ p.d k ≤ 1) :
    Calm b (boxBegin U V x).1.f ∧ (boxBegin U V x).1.charges U V = 0 ∧ (∀ m ∈ (boxBegin U V x).2, Clear m) ∧
    ∀ id < U.nsp, AllFlown U.N V b 0 (x.parts id) ((boxBegin U V x).1.parts id) := by
  have hρ : density U x.parts = fun _ => 0 := by
    funext s
    rw [density_charges U V, show charges U.nsp U.q V.qdt_2mc x.parts = 0 from hc, map_zero]
  have hB : ∀ a s, marderBOf U.N U.C x.f a s = b a := fun a s => by simp [marderBOf, divB_calm hb, hb]
  have h4 : Calm b (beginFields U (density U x.parts) x.f).1 ∧ ∀ s, (beginFields U (density U x.parts) x.f).1 .rhof s = 0 := by
    have hE : ∀ a s, (setRho (density U x.parts) (setT (fun a s => U.C.cvac * U.C.dt * curlH U.N U.C U.M (setB (marderBOf U.N U.C x.f) x.f) a s)
        (setB (marderBOf U.N U.C x.f) x.f))) (.e a) s = 0 := fun a s => he a s
    refine ⟨⟨fun a s => he a s, fun a s => hB a s, fun a s => ?_, fun s => ?_⟩, fun s => congrFun hρ s⟩
    · show U.C.cvac * U.C.dt * curlH U.N U.C U.M (setB (marderBOf U.N U.C x.f) x.f) a s = 0
      rw [curlH_calm (b := b) (fun a s => hB a s) hm, mul_zero]
    · show boundCharge U _ s = 0
      unfold boundCharge
      simp only [hE]
      rw [show ∀ G : Fields K, setRho (density U x.parts) G .rhof s = density U x.parts s from fun _ => rfl, hρ]
      simp
  have hg := gauss_calm (N := U.N) (C := U.C) (M := U.M) h4.1.e h4.1.rhob h4.2
  have hf : Calm b (beginFields U (density U x.parts) x.f).2 := by
    refine ⟨fun a s => ?_, fun a s => h4.1.cb a s, fun a s => h4.1.tca a s, fun s => h4.1.rhob s⟩
    show marderEOf U.N U.C U.M (gaussErr U.N U.C U.M (beginFields U (density U x.parts) x.f).1) (beginFields U (density U x.parts) x.f).1 a s = 0
    simp [marderEOf, hg, h4.1.e]
  refine ⟨hf, ?_, fun m hm => ?_, fun id hid => ?_⟩
  · rw [boxBegin_charges, hc, Finsupp.mapDomain_zero]
  · have hm : m ∈ [Msg.sync 0, .divB (rmsOf V.rt U (divBAt U.N U.C x.f)),
      .divE (rmsOf V.rt U (gaussErr U.N U.C U.M (beginFields U (density U x.parts) x.f).1)), .sync 0] := hm
    rw [hg, divB_calm hb, rms_calm hr] at hm
    simp only [List.mem_cons, List.not_mem_nil, or_false] at hm
    rcases hm with rfl | rfl | rfl | rfl
    exacts [.inl rfl, .inr (.inr rfl), .inr (.inl rfl), .inl rfl]
  · refine ⟨uncenter U.N (beginFields U (density U x.parts) x.f).2 (lawAt V U.q id), ?_, fun p hp => ?_⟩
    · show (if id < U.nsp then _ else _) = _
      rw [if_pos hid]
    · have e : (uncenter U.N (beginFields U (density U x.parts) x.f).2 (lawAt V U.q id) p).u = Boris.rotate V.rt (-(1 / 2) * V.qdt_2mc id) p.u b :=
        uncenterU_calm U.N hf _ _ _ _ _
      exact ⟨rfl, hd id hid p hp, by rw [e, rotate_norm], fun hb => by rw [e, hb, rotate_zero], fun hb a => ⟨0, by simp [GPart.place, uncenter]⟩⟩

end Verif.Global
