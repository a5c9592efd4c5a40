import Verif.Charge.Chain

/-!
# Exchange of particles does not look at unused movers

`boundary_p` reads movers below `nm` only; storage behind them may hold anything.
-/
namespace Verif.Threads

open Grid MoveP Charge
open Boundary

variable {K : Type} {S : Type*} [Field K] [LinearOrder K]

/-- Spec: two species that differ at most in storage of particles and movers that is not in use. -/
structure SameSp (s t : Species K) : Prop where
  q : s.q = t.q
  p : ∀ k : ℤ, 0 ≤ k → k < s.np → s.p k = t.p k
  np : s.np = t.np
  max_np : s.max_np = t.max_np
  nm : s.nm = t.nm
  max_nm : s.max_nm = t.max_nm
  pm : ∀ k : ℤ, 0 ≤ k → k < s.nm → s.pm k = t.pm k

/-- Spec: two ranks that differ at most in storage that is not in use and in the size of the buffer `boundary_p` keeps. -/
structure SameRank (R T : Rank K S) : Prop where
  sp : ∀ id, SameSp (R.sp id) (T.sp id)
  a : R.a = T.a
  rhob : R.rhob = T.rhob
  st : R.st = T.st
  warn : R.warn = T.warn

omit [Field K] [LinearOrder K] in
lemma SameSp.refl (s : Species K) : SameSp s s := ⟨rfl, fun _ _ _ => rfl, rfl, rfl, rfl, rfl, fun _ _ _ => rfl⟩

omit [Field K] [LinearOrder K] in
lemma SameRank.refl (R : Rank K S) : SameRank R R := ⟨fun _ => .refl _, rfl, rfl, rfl, rfl⟩

omit [Field K] [LinearOrder K] in
lemma SameSp.trans {s t u : Species K} (h : SameSp s t) (k : SameSp t u) : SameSp s u :=
  ⟨h.q.trans k.q, fun i h0 h1 => (h.p i h0 h1).trans (k.p i h0 (h.np ▸ h1)), h.np.trans k.np, h.max_np.trans k.max_np,
    h.nm.trans k.nm, h.max_nm.trans k.max_nm, fun i h0 h1 => (h.pm i h0 h1).trans (k.pm i h0 (h.nm ▸ h1))⟩

omit [Field K] [LinearOrder K] in
lemma SameRank.trans {R T U : Rank K S} (h : SameRank R T) (k : SameRank T U) : SameRank R U :=
  ⟨fun id => (h.sp id).trans (k.sp id), h.a.trans k.a, h.rhob.trans k.rhob, h.st.trans k.st, h.warn.trans k.warn⟩

omit [Field K] [LinearOrder K] in
lemma sameSp_update {sp tp : ℕ → Species K} (h : ∀ id, SameSp (sp id) (tp id)) {s t : Species K} (hs : SameSp s t) (j : ℕ) :
    ∀ id, SameSp (Function.update sp j s id) (Function.update tp j t id) := by
  intro id
  by_cases e : id = j
  · subst e; simpa using hs
  · simpa [e] using h id

/-- The loop over the movers reads particles below the current `np` only. -/
lemma dropMovers_same {σ : Type*} (act act2 : Part K → (Fin 3 → K) → σ → Option σ)
    (hact : ∀ p d s x y, act p d s = some x → act2 p d s = some y → x = y) (max_np : ℕ) (pm pm2 : ℤ → Mover K) (k : ℕ)
    (h : ∀ j : ℤ, 0 ≤ j → j < k → pm j = pm2 j) : ∀ (p p2 : ℤ → Part K) (np : ℕ) (s : σ) {q q2 : ℤ → Part K} {nq nq2 : ℕ} {x y : σ},
    (∀ j : ℤ, 0 ≤ j → j < np → p j = p2 j) →
    (∀ j : ℤ, 0 ≤ j → j < k → 0 ≤ (pm j).i ∧ (pm j).i + (k - j) ≤ np) →
    dropMovers act max_np pm k p np s = some (q, nq, x) → dropMovers act2 max_np pm2 k p2 np s = some (q2, nq2, y) →
    nq = nq2 ∧ x = y ∧ ∀ j : ℤ, 0 ≤ j → j < nq → q j = q2 j := by
  induction k with
  | zero =>
    intro p p2 np s q q2 nq nq2 x y hp _ h1 h2
    simp only [dropMovers, Option.some.injEq, Prod.mk.injEq] at h1 h2
    obtain ⟨rfl, rfl, rfl⟩ := h1
    obtain ⟨rfl, rfl, rfl⟩ := h2
    exact ⟨rfl, rfl, hp⟩
  | succ k ih =>
    intro p p2 np s q q2 nq nq2 x y hp hb h1 h2
    obtain ⟨b0, b1⟩ := hb k (by omega) (by push_cast; omega)
    have e := h k (by omega) (by push_cast; omega)
    simp only [dropMovers, ← e] at h1 h2
    push_cast at b1
    rw [← hp _ b0 (by omega)] at h2
    split at h1
    · cases h1
    rename_i h0
    rw [if_neg h0] at h2
    rw [Option.bind_eq_some_iff] at h1 h2
    obtain ⟨s1, a1, c1⟩ := h1
    obtain ⟨s2, a2, c2⟩ := h2
    obtain rfl := hact _ _ _ _ _ a1 a2
    have hn : 0 < np := by
      rw [not_or, not_or] at h0
      omega
    refine ih (fun j j0 j1 => h j j0 (by push_cast; omega)) _ _ _ _ ?_ ?_ c1 c2
    · intro j j0 j1
      simp only [put]
      split
      · split
        · rfl
        · exact hp _ (by omega) (by omega)
      · exact hp _ j0 (by omega)
    · intro j j0 j1
      obtain ⟨k0, k1⟩ := hb j j0 (by push_cast; omega)
      push_cast at k1
      exact ⟨k0, by omega⟩

omit [LinearOrder K] [Field K] in
lemma ordered_room {np : ℕ} {pm : ℤ → Mover K} {nm : ℕ} (h : Ordered np (AdvanceP.moverList pm nm)) (j : ℤ) (j0 : 0 ≤ j) (j1 : j < nm) :
    0 ≤ (pm j).i ∧ (pm j).i + (nm - j) ≤ np := by
  obtain ⟨h1, h2⟩ := h
  have mem : ∀ i : ℕ, i < nm → pm i ∈ AdvanceP.moverList pm nm := fun i hi =>
    List.mem_map.mpr ⟨i, List.mem_range.mpr hi, rfl⟩
  have lt : ∀ i : ℕ, i + 1 < nm → (pm i).i < (pm (i + 1 : ℕ)).i := by
    intro i hi
    rw [List.pairwise_iff_getElem] at h1
    have := h1 i (i + 1) (by simp [AdvanceP.moverList]; omega) (by simp [AdvanceP.moverList]; omega) (by omega)
    simpa [AdvanceP.moverList] using this
  obtain ⟨i, rfl⟩ := Int.eq_ofNat_of_zero_le j0
  have hi : i < nm := by exact_mod_cast j1
  refine ⟨(h2 _ (mem i hi)).1, ?_⟩
  have up : ∀ d : ℕ, i + d < nm → (pm i).i + d ≤ (pm (i + d : ℕ)).i := by
    intro d
    induction d with
    | zero => intro _; simp
    | succ d ihd =>
      intro hd
      have a := ihd (by omega)
      have b := lt (i + d) (by omega)
      have e : (i + d + 1 : ℕ) = i + (d + 1) := by omega
      rw [e] at b
      push_cast at a b ⊢
      omega
  have a := up (nm - 1 - i) (by omega)
  have b := (h2 _ (mem (i + (nm - 1 - i)) (by omega))).2
  omega

lemma process_same (E : Env K S) (cap c c2 id : ℕ) (q : K) (p : Part K) (d : Fin 3 → K) (L x y : Load K S)
    (h1 : process E cap c id q p d L = some x) (h2 : process E cap c2 id q p d L = some y) : x = y := by
  unfold process at h1 h2
  dsimp only at h1 h2
  split at h1
  · cases h1
  rename_i h0
  rw [if_neg h0] at h2
  split at h1
  · rename_i hf
    rw [hf] at h2
    exact Option.some.inj (h1.symm.trans h2)
  · rename_i hf
    rw [hf] at h2
    exact Option.some.inj (h1.symm.trans h2)
  · rename_i k hf
    rw [hf] at h2
    dsimp only at h1 h2
    split at h1
    · cases h1
    split at h2
    · cases h2
    exact Option.some.inj (h1.symm.trans h2)
  · rename_i hf
    rw [hf] at h2
    exact Option.some.inj (h1.symm.trans h2)

lemma loadSpecies_same (E : Env K S) (cap c c2 id : ℕ) {s t : Species K} (h : SameSp s t)
    (ho : Ordered s.np (AdvanceP.moverList s.pm s.nm)) (L : Load K S) {s' t' : Species K}
    {L' L2 : Load K S} (h1 : loadSpecies E cap c id s L = some (s', L')) (h2 : loadSpecies E cap c2 id t L = some (t', L2)) :
    L' = L2 ∧ SameSp s' t' := by
  unfold loadSpecies at h1 h2
  rw [← h.q, ← h.np, ← h.max_np, ← h.nm] at h2
  rw [Option.map_eq_some_iff] at h1 h2
  obtain ⟨⟨p, np, L1⟩, e1, e2⟩ := h1
  obtain ⟨⟨p2, np2, L3⟩, f1, f2⟩ := h2
  simp only [Prod.mk.injEq] at e2 f2
  obtain ⟨rfl, rfl⟩ := e2
  obtain ⟨rfl, rfl⟩ := f2
  obtain ⟨rfl, rfl, k⟩ := dropMovers_same _ _ (fun p d L x y a b => process_same E cap c c2 id s.q p d L x y a b) _ _ _ _ h.pm _ _ _ _
    h.p (ordered_room ho) e1 f1
  exact ⟨rfl, rfl, k, rfl, rfl, rfl, h.max_nm, fun k h0 h1 => by simp at h1; omega⟩

lemma loadAll_same (E : Env K S) (cap c c2 : ℕ) (l : List ℕ) (hl : l.Nodup) : ∀ {sp tp : ℕ → Species K},
    (∀ id, SameSp (sp id) (tp id)) → (∀ id ∈ l, Ordered (sp id).np (AdvanceP.moverList (sp id).pm (sp id).nm)) →
    ∀ (L : Load K S) {sp' tp' : ℕ → Species K} {L' L2 : Load K S}, loadAll E cap c l sp L = some (sp', L') →
    loadAll E cap c2 l tp L = some (tp', L2) → L' = L2 ∧ ∀ id, SameSp (sp' id) (tp' id) := by
  induction l with
  | nil =>
    intro sp tp h _ L sp' tp' L' L2 h1 h2
    simp only [loadAll, Option.some.injEq, Prod.mk.injEq] at h1 h2
    obtain ⟨rfl, rfl⟩ := h1
    obtain ⟨rfl, rfl⟩ := h2
    exact ⟨rfl, h⟩
  | cons id l ih =>
    intro sp tp h ho L sp' tp' L' L2 h1 h2
    rw [List.nodup_cons] at hl
    simp only [loadAll, Option.bind_eq_some_iff] at h1 h2
    obtain ⟨⟨s, L1⟩, a1, a2⟩ := h1
    obtain ⟨⟨t, L3⟩, b1, b2⟩ := h2
    obtain ⟨rfl, k⟩ := loadSpecies_same E cap c c2 id (h id) (ho id (by simp)) L a1 b1
    refine ih hl.2 (sameSp_update h k id) (fun j hj => ?_) L1 a2 b2
    have hne : j ≠ id := fun e => hl.1 (e ▸ hj)
    rw [Function.update_of_ne hne]
    exact ho j (by simp [hj])

omit [Field K] [LinearOrder K] in
lemma totalMovers_same (nsp : ℕ) {sp tp : ℕ → Species K} (h : ∀ id, SameSp (sp id) (tp id)) :
    totalMovers nsp sp = totalMovers nsp tp := by
  unfold totalMovers
  congr 1
  exact List.map_congr_left fun id _ => (h id).nm

lemma loadRank_same (E : Env K S) {R T : Rank K S} (h : SameRank R T)
    (ho : ∀ id < E.nsp, Ordered (R.sp id).np (AdvanceP.moverList (R.sp id).pm (R.sp id).nm)) {M N : Rank K S} {L L2 : Load K S}
    (h1 : loadRank E R = some (M, L)) (h2 : loadRank E T = some (N, L2)) : L = L2 ∧ SameRank M N := by
  unfold loadRank at h1 h2
  rw [← totalMovers_same E.nsp h.sp, ← h.rhob, ← h.st, ← h.warn] at h2
  split at h1
  · cases h1
  rename_i h0
  rw [if_neg h0] at h2
  dsimp only at h1 h2
  split at h1
  · cases h1
  rename_i h3
  rw [if_neg h3] at h2
  rw [Option.map_eq_some_iff] at h1 h2
  obtain ⟨⟨sp', L1⟩, a1, a2⟩ := h1
  obtain ⟨⟨tp', L3⟩, b1, b2⟩ := h2
  simp only [Prod.mk.injEq] at a2 b2
  obtain ⟨rfl, rfl⟩ := a2
  obtain ⟨rfl, rfl⟩ := b2
  obtain ⟨rfl, k⟩ := loadAll_same E _ _ _ _ (ids_nodup _) h.sp (fun id hid => ho id ((mem_ids _ _).mp hid)) _ a1 b1
  exact ⟨rfl, k, h.a, rfl, rfl, rfl⟩

omit [Field K] [LinearOrder K] in
lemma resize_same (E : Env K S) (n : ℕ) {s t s' : Species K} (h : SameSp s t) (hl : resize E n s = some s') :
    ∃ t', resize E n t = some t' ∧ SameSp s' t' := by
  obtain ⟨q, p, np, max_np, pm, nm, max_nm⟩ := s
  obtain ⟨q2, p2, np2, max_np2, pm2, nm2, max_nm2⟩ := t
  obtain ⟨h1, h2, h3, h4, h5, h6, h7⟩ := h
  simp only at h1 h2 h3 h4 h5 h6 h7
  subst h1 h3 h4 h5 h6
  unfold resize at hl ⊢
  dsimp only at hl ⊢
  split at hl
  · cases hl
  rename_i h0
  rw [if_neg h0]
  obtain rfl := Option.some.inj hl
  refine ⟨_, rfl, ?_⟩
  have hc : ∀ k : ℤ, 0 ≤ k → k < nm → copyTo E.freshM pm nm k = copyTo E.freshM pm2 nm k := by
    intro k h0 h1
    simp [copyTo, h0, h1, h7 k h0 h1]
  have hd : ∀ k : ℤ, 0 ≤ k → k < np → copyTo E.freshP p np k = copyTo E.freshP p2 np k := by
    intro k h0 h1
    simp [copyTo, h0, h1, h2 k h0 h1]
  split_ifs <;> first
    | exact ⟨rfl, hd, rfl, rfl, rfl, rfl, hc⟩ | exact ⟨rfl, hd, rfl, rfl, rfl, rfl, h7⟩
    | exact ⟨rfl, h2, rfl, rfl, rfl, rfl, hc⟩ | exact ⟨rfl, h2, rfl, rfl, rfl, rfl, h7⟩

omit [Field K] [LinearOrder K] in
lemma resizeAll_same (E : Env K S) (n : ℕ) (l : List ℕ) : ∀ {sp tp sp' : ℕ → Species K}, (∀ id, SameSp (sp id) (tp id)) →
    resizeAll E n l sp = some sp' → ∃ tp', resizeAll E n l tp = some tp' ∧ ∀ id, SameSp (sp' id) (tp' id) := by
  induction l with
  | nil =>
    intro sp tp sp' h hl
    simp only [resizeAll, Option.some.injEq] at hl
    subst hl
    exact ⟨tp, rfl, h⟩
  | cons id l ih =>
    intro sp tp sp' h hl
    simp only [resizeAll, Option.bind_eq_some_iff] at hl
    obtain ⟨s, h1, h2⟩ := hl
    obtain ⟨t, h3, h4⟩ := resize_same E n (h id) h1
    obtain ⟨tp', h5, h6⟩ := ih (sameSp_update h h4 id) h2
    exact ⟨tp', by simp only [resizeAll, h3, Option.bind_some]; exact h5, h6⟩

lemma injectOne_same (E : Env K S) (pi : Injector K) {sp tp : ℕ → Species K} (h : ∀ id, SameSp (sp id) (tp id)) (a : Accum K)
    {sp' : ℕ → Species K} {a' : Accum K} (hl : injectOne E pi sp a = some (sp', a')) :
    ∃ tp', injectOne E pi tp a = some (tp', a') ∧ ∀ id, SameSp (sp' id) (tp' id) := by
  have hs := h pi.sp_id
  unfold injectOne at hl ⊢
  dsimp only at hl ⊢
  rw [← hs.q, ← hs.np, ← hs.max_np, ← hs.nm, ← hs.max_nm]
  split at hl
  · cases hl
  rename_i h0
  rw [if_neg h0]
  split at hl
  · cases hl
  rename_i h1
  rw [if_neg h1]
  split at hl
  · cases hl
  rename_i b m hm
  simp only [Option.some.injEq, Prod.mk.injEq] at hl
  obtain ⟨rfl, rfl⟩ := hl
  refine ⟨_, rfl, ?_⟩
  refine sameSp_update h ?_ _
  refine ⟨rfl, ?_, rfl, rfl, rfl, rfl, ?_⟩ <;> intro k h0 h1 <;> simp only [put] <;> split
  · rfl
  · refine hs.p k h0 ?_
    simp only at h1
    push_cast at h1
    omega
  · rfl
  · refine hs.pm k h0 ?_
    simp only at h1
    split at h1 <;> push_cast at h1 <;> omega

lemma injectAll_same (E : Env K S) (l : List (Injector K)) : ∀ {sp tp : ℕ → Species K}, (∀ id, SameSp (sp id) (tp id)) →
    ∀ (a : Accum K) {sp' : ℕ → Species K} {a' : Accum K}, injectAll E l sp a = some (sp', a') →
    ∃ tp', injectAll E l tp a = some (tp', a') ∧ ∀ id, SameSp (sp' id) (tp' id) := by
  induction l with
  | nil =>
    intro sp tp h a sp' a' hl
    simp only [injectAll, Option.some.injEq, Prod.mk.injEq] at hl
    obtain ⟨rfl, rfl⟩ := hl
    exact ⟨tp, rfl, h⟩
  | cons pi l ih =>
    intro sp tp h a sp' a' hl
    simp only [injectAll, Option.bind_eq_some_iff] at hl
    obtain ⟨⟨s, a1⟩, h1, h2⟩ := hl
    obtain ⟨t, h3, h4⟩ := injectOne_same E pi h a h1
    obtain ⟨tp', h5, h6⟩ := ih h4 a1 h2
    exact ⟨tp', by simp only [injectAll, h3, Option.bind_some]; exact h5, h6⟩

lemma injectRank_same (E : Env K S) {R T R' : Rank K S} (h : SameRank R T) (ci : List (Injector K))
    (recv : ℤ → List (Injector K)) (hl : injectRank E R ci recv = some R') :
    ∃ T', injectRank E T ci recv = some T' ∧ SameRank R' T' := by
  unfold injectRank at hl ⊢
  split at hl
  · cases hl
  rename_i h0
  rw [if_neg h0]
  dsimp only at hl ⊢
  rw [Option.bind_eq_some_iff] at hl
  obtain ⟨sp1, h1, h2⟩ := hl
  obtain ⟨tp1, h3, h4⟩ := resizeAll_same E _ _ h.sp h1
  rw [h3, Option.bind_some, ← h.a]
  rw [Option.map_eq_some_iff] at h2
  obtain ⟨⟨sp2, a2⟩, h5, rfl⟩ := h2
  obtain ⟨tp2, h6, h7⟩ := injectAll_same E _ h4 _ h5
  rw [h6]
  exact ⟨_, rfl, ⟨h7, rfl, h.rhob, h.st, h.warn⟩⟩

/-- One call of `boundary_p` on all ranks. -/
lemma round_same {n : ℕ} (W : Fin n → Env K S) {R T R' T' : Fin n → Rank K S} (h : ∀ r, SameRank (R r) (T r))
    (hR : ∀ r, Ready (W r) (R r)) (h1 : Round W R R') (h2 : Round W T T') : ∀ r, SameRank (R' r) (T' r) := by
  obtain ⟨M, L, a1, a2⟩ := h1
  obtain ⟨N, L', b1, b2⟩ := h2
  have key : ∀ r, L r = L' r ∧ SameRank (M r) (N r) := fun r =>
    loadRank_same (W r) (h r) (fun id hid => (hR r id hid).ordered) (a1 r) (b1 r)
  obtain rfl : L = L' := funext fun r => (key r).1
  intro r
  obtain ⟨T1, e1, e2⟩ := injectRank_same (W r) (key r).2 _ _ (a2 r)
  rw [b2 r, Option.some.injEq] at e1
  exact e1 ▸ e2

/-- All calls of a step. -/
lemma rounds_same [IsStrictOrderedRing K] [Archimedean K] {n : ℕ} {W : Fin n → Env K S} (hJ : Joined W) (hC : ∀ r, Conforming (W r))
    {k : ℕ} {R R' : Fin n → Rank K S} (h1 : Rounds W k R R') (hR : ∀ r, Sound (W r) (R r)) :
    ∀ {T T' : Fin n → Rank K S}, (∀ r, SameRank (R r) (T r)) → Rounds W k T T' → ∀ r, SameRank (R' r) (T' r) := by
  induction h1 with
  | zero R =>
    intro T T' h h2
    cases h2
    exact h
  | succ k R R1 R' hr _ ih =>
    intro T T' h h2
    cases h2 with
    | succ _ _ T1 _ hr2 hk2 =>
      exact ih (fun r => (round_sound hJ hC R R1 hR hr r).1) (round_same W h (fun r => (hR r).ready) hr hr2) hk2

end Verif.Threads
