import Verif.Simd.FieldBlocks
import Verif.Field.Sample

/-!
# C81: the vector field kernels do what the scalar ones do
-/
namespace Verif.Simd

open Field Grid

variable {K : Type*} [Field K]

lemma mapM_map_some {α β γ : Type*} (f : α → Option β) (h : β → γ) : ∀ (l : List α) (vs : List β),
    l.mapM f = some vs → (l.mapM fun a => (f a).map h) = some (vs.map h)
  | [], vs, e => by simp at e; subst e; rfl
  | a :: l, vs, e => by
    rw [List.mapM_cons] at e ⊢
    cases ha : f a with
    | none => simp [ha] at e
    | some b =>
      cases hl : l.mapM f with
      | none => simp [ha, hl] at e
      | some bs =>
        simp [ha, hl] at e
        subst e
        have := mapM_map_some f h l bs hl
        simp [this]

/-- The positions of a share. -/
abbrev cells (R : Distribute.Rounding) (g : LGrid) (lo hi : Pos) (P p : ℕ) : Option (List Pos) :=
  share R g lo hi P (fun c => [c]) p

lemma share_cells {O : Type*} (R : Distribute.Rounding) (g : LGrid) (lo hi : Pos) (P : ℕ)
    (ops : Pos → List O) (p : ℕ) :
    share R g lo hi P ops p = (cells R g lo hi P p).map fun l => l.flatMap ops := by
  unfold cells share
  rw [Option.map_map]
  congr 1
  funext l
  simp [List.flatMap_assoc]

lemma shareV_cells (W : Width) (R : Distribute.Rounding) (g : LGrid) (lo hi : Pos) (P p : ℕ) :
    shareV W R g lo hi P p = (cells R g lo hi P p).map (blocksOf W.lanes) := by
  unfold shareV cells share
  rw [Option.map_map]
  congr 1
  funext l
  simp [List.flatMap_singleton']
  rw [← List.map_eq_flatMap]

lemma walk_length (nx ny : ℤ) (B : Distribute.Box) : ∀ n s, (Distribute.walk nx ny B n s).length = n
  | 0, _ => rfl
  | n + 1, s => by rw [Distribute.walk, List.length_cons, walk_length nx ny B n]

lemma cells_dvd {R : Distribute.Rounding} {g : LGrid} {lo hi : Pos} {P p : ℕ} (hp : p < P) {l : List Pos}
    (h : cells R g lo hi P p = some l) : 16 ∣ l.length := by
  unfold cells share Distribute.visits Distribute.distributeVoxels at h
  simp only [hp, if_true] at h
  split at h
  · simp at h
  · simp only [Option.map_some, Option.some.injEq] at h
    rw [← h, ← List.map_eq_flatMap, List.length_map, walk_length]
    omega

lemma lanes_dvd (W : Width) : W.lanes ∣ 16 ∧ 0 < W.lanes := by cases W <;> decide

/-- Whatever a vector build can do in a phase, the scalar build can do, if every block does what the
updates of its lanes do. -/
theorem phaseV_phase (W : Width) {R : Distribute.Rounding} (hR : R.Accurate) {g : LGrid} {lo : Pos}
    (h0 : ∀ a, 0 ≤ lo a) (hlo : ∀ a, lo a ≤ dims g a + 1)
    (hN : (dims g 0 - lo 0 + 1) * (dims g 1 - lo 1 + 1) * (dims g 2 - lo 2 + 1) < 2 ^ 31)
    {P : ℕ} (hP : 0 < P) (hP2 : P ≤ 2 ^ 16) {block : (Fin W.lanes → Pos) → Step K}
    {k : Fin 3 × Pos → Step K}
    (hb : ∀ cs, Good g cs → ∀ m,
      block cs m = runSeq ((((List.finRange W.lanes).map cs).flatMap xyz).map k) m)
    {host : List (Step K)} {m m' : FMem K}
    (h : PhaseV W R g lo (dims g) P block xyz k host m m') : Phase R g lo (dims g) P xyz k host m m' := by
  obtain ⟨pre, last, hpre, hlast, hr⟩ := h
  obtain ⟨cpre, clast, L, h1, h2, h3, h4, h5⟩ :=
    share_spec R hR g lo (dims g) P (fun c : Pos => [c]) hlo hN hP hP2
  have e1 : pre = cpre.map (blocksOf W.lanes) := by
    have := mapM_map_some _ (blocksOf W.lanes) _ _ h1
    rw [show (fun p => (share R g lo (dims g) P (fun c : Pos => [c]) p).map (blocksOf W.lanes)) =
      shareV W R g lo (dims g) P from funext fun p => (shareV_cells W R g lo (dims g) P p).symm] at this
    rw [this] at hpre
    exact (Option.some.inj hpre).symm
  have e3 : (List.range P).mapM (share R g lo (dims g) P xyz) =
      some (cpre.map fun l => l.flatMap xyz) := by
    have := mapM_map_some _ (fun l => l.flatMap xyz) _ _ h1
    rw [show (fun p => (share R g lo (dims g) P (fun c : Pos => [c]) p).map fun l => l.flatMap xyz) =
      share R g lo (dims g) P xyz from funext fun p => (share_cells R g lo (dims g) P xyz p).symm] at this
    exact this
  have hL : L = cpre.flatten ++ clast := by rw [h3]; simp
  have hdv : ∀ l ∈ cpre, W.lanes ∣ l.length := by
    intro l hl
    obtain ⟨i, hi, rfl⟩ := List.mem_iff_getElem.mp hl
    have hm := (mapM_exists _ _ _ h1).2
    have hlen : cpre.length = P := by
      have := congrArg List.length hm
      simpa using this.symm
    have := congrArg (fun l => l[i]?) hm
    simp [hi, hlen ▸ hi] at this
    exact (lanes_dvd W).1.trans (cells_dvd (hlen ▸ hi) this)
  have hgood : ∀ l ∈ cpre, ∀ cs ∈ blocksOf W.lanes l, Good g cs := by
    intro l hl cs hcs
    obtain ⟨g1, g2⟩ := blocksN_good _ _ _ cs hcs
    refine ⟨g2 ?_, fun i => ?_⟩
    · have := hL ▸ h4
      exact (List.nodup_flatten.mp (List.nodup_append.mp this).1).1 l hl
    · have hc : cs i ∈ L := by
        rw [hL]
        exact List.mem_append_left _ (List.mem_flatten.mpr ⟨l, hl, g1 i⟩)
      intro a
      have := (h5 _).mp hc a
      have := h0 a
      omega
  subst e1
  refine ⟨_, last, e3, hlast, ?_⟩
  have key := runs_refine (M := FMem K) (S := (Fin W.lanes → Pos) ⊕ (FMem K → FMem K))
    (Sum.elim block id)
    (Sum.elim (fun cs => (((List.finRange W.lanes).map cs).flatMap xyz).map k) fun f => [f])
    (fun ts _ => ∀ t ∈ ts, ∀ s ∈ t, ∀ cs, s = Sum.inl cs → Good g cs)
    (by
      intro pre post s t m hI
      refine ⟨?_, ?_⟩
      · cases s with
        | inl cs => exact hb cs (hI (Sum.inl cs :: t) (by simp) _ (by simp) cs rfl) m
        | inr f => rfl
      · intro t' ht' s' hs'
        simp only [List.mem_append, List.mem_cons] at ht'
        rcases ht' with h | rfl | h
        · exact hI t' (by simp [h]) s' hs'
        · exact hI (s :: t') (by simp) s' (by simp [hs'])
        · exact hI t' (by simp [h]) s' hs')
    (cpre.map (fun l => (blocksOf W.lanes l).map Sum.inl) ++ [(last.map k ++ host).map Sum.inr]) m m'
    (by
      have : (cpre.map (fun l => (blocksOf W.lanes l).map Sum.inl) ++ [(last.map k ++ host).map Sum.inr]).map
          (List.map (Sum.elim block id)) =
          (cpre.map (blocksOf W.lanes)).map (fun l => l.map block) ++ [last.map k ++ host] := by
        simp [Function.comp_def]
      rw [this]
      exact hr)
    (by
      intro t ht s hs cs e
      subst e
      simp only [List.mem_append, List.mem_map, List.mem_singleton] at ht
      rcases ht with ⟨l, hl, rfl⟩ | rfl
      · simp only [List.mem_map, Sum.inl.injEq, exists_eq_right] at hs
        exact hgood l hl cs hs
      · simp at hs)
  convert key using 1
  rw [List.map_append, List.map_map, List.map_map]
  congr 1
  · refine List.map_congr_left fun l hl => ?_
    have := blocksOf_flat W.lanes l (hdv l hl) (lanes_dvd W).2
    simp only [Function.comp, List.flatMap_map, Sum.elim_inl]
    conv_lhs => rw [← this]
    simp only [List.flatMap_assoc, List.map_flatMap, List.flatMap_map]
  · simp [List.flatMap_map, ← List.map_eq_flatMap]

/-- A vector phase can be carried out. -/
lemma phaseV_exists {O M : Type*} (W : Width) (R : Distribute.Rounding) (hR : R.Accurate) (g : LGrid)
    (lo hi : Pos) (P : ℕ) (block : (Fin W.lanes → Pos) → M → M) (ops : Pos → List O) (step : O → M → M)
    (host : List (M → M)) (m : M) (hlo : ∀ a, lo a ≤ hi a + 1)
    (hN : (hi 0 - lo 0 + 1) * (hi 1 - lo 1 + 1) * (hi 2 - lo 2 + 1) < 2 ^ 31)
    (hP : 0 < P) (hP2 : P ≤ 2 ^ 16) : ∃ m', PhaseV W R g lo hi P block ops step host m m' := by
  obtain ⟨cpre, clast, L, h1, h2, -⟩ :=
    share_spec R hR g lo hi P (fun c : Pos => [c]) hlo hN hP hP2
  have := mapM_map_some _ (blocksOf W.lanes) _ _ h1
  rw [show (fun p => (share R g lo hi P (fun c : Pos => [c]) p).map (blocksOf W.lanes)) =
    shareV W R g lo hi P from funext fun p => (shareV_cells W R g lo hi P p).symm] at this
  exact ⟨_, _, _, this, by rw [share_cells, cells, h2]; rfl, runs_seq _ m⟩

/-- `advance_b` of a vector build does what the scalar one does. -/
theorem vector_advance_b (W : Width) {E : Env K} (hg : Mesh E.g) {R : Distribute.Rounding} (hR : R.Accurate)
    {P : ℕ} (hP : 0 < P) (hP2 : P ≤ 2 ^ 16) {frac : K} {m m' : FMem K}
    (h : AdvanceBV W E R P frac m m') : AdvanceB E R P frac m m' := by
  obtain ⟨adj, m1, hadj, hph, rfl⟩ := h
  exact ⟨adj, m1, hadj, phaseV_phase W hR (fun _ => by norm_num) (fun a => hg.lo 1 (by norm_num) a)
    (hg.volume 1 (by norm_num) (by norm_num)) hP hP2 (fun cs hcs m => blockB_eq E frac cs hcs m) hph, rfl⟩

lemma vector_edge (W : Width) {E : Env K} (hg : Mesh E.g) {R : Distribute.Rounding} (hR : R.Accurate)
    {P : ℕ} (hP : 0 < P) (hP2 : P ≤ 2 ^ 16) {block : (Fin W.lanes → Pos) → Step K}
    {k : Fin 3 × Pos → Step K}
    (hb : ∀ cs, Good E.g cs → ∀ m,
      block cs m = runSeq ((((List.finRange W.lanes).map cs).flatMap xyz).map k) m)
    {recv : Fin 3 × Bool → Option (List K)} {m m' : FMem K}
    (h : EdgeKernelV W E R P block k recv m m') : EdgeKernel E R P k recv m m' := by
  obtain ⟨adj, lg, rs, m1, hadj, hlg, hrs, hph, rfl⟩ := h
  exact ⟨adj, _, hadj, ⟨lg, rs, m1, hlg, hrs, phaseV_phase W hR (fun _ => by norm_num)
    (fun a => hg.lo 2 (by norm_num) a) (hg.volume 2 (by norm_num) (by norm_num)) hP hP2 hb hph, rfl⟩, rfl⟩

/-- `advance_e` of a vector build does what the scalar one does. -/
theorem vector_advance_e (W : Width) {E : Env K} (hg : Mesh E.g) {R : Distribute.Rounding}
    (hR : R.Accurate) {P : ℕ} (hP : 0 < P) (hP2 : P ≤ 2 ^ 16)
    {recv : Fin 3 × Bool → Option (List K)} {m m' : FMem K}
    (h : EdgeKernelV W E R P (blockE E) (updateE E) recv m m') : EdgeKernel E R P (updateE E) recv m m' :=
  vector_edge W hg hR hP hP2 (blockE_eq E) h

/-- `vacuum_advance_e` of a vector build does what the scalar one does. -/
theorem vector_vacuum_advance_e (W : Width) {E : Env K} (hg : Mesh E.g) {R : Distribute.Rounding}
    (hR : R.Accurate) {P : ℕ} (hP : 0 < P) (hP2 : P ≤ 2 ^ 16)
    {recv : Fin 3 × Bool → Option (List K)} {m m' : FMem K}
    (h : EdgeKernelV W E R P (blockEVacuum E) (updateEVacuum E) recv m m') :
    EdgeKernel E R P (updateEVacuum E) recv m m' :=
  vector_edge W hg hR hP hP2 (blockEVacuum_eq E) h

/-- `compute_curl_b` of a vector build does what the scalar one does. -/
theorem vector_compute_curl_b (W : Width) {E : Env K} (hg : Mesh E.g) {R : Distribute.Rounding}
    (hR : R.Accurate) {P : ℕ} (hP : 0 < P) (hP2 : P ≤ 2 ^ 16)
    {recv : Fin 3 × Bool → Option (List K)} {m m' : FMem K}
    (h : EdgeKernelV W E R P (blockCurl E) (updateCurl E) recv m m') :
    EdgeKernel E R P (updateCurl E) recv m m' :=
  vector_edge W hg hR hP hP2 (blockCurl_eq E) h

/-- `vacuum_compute_curl_b` of a vector build does what the scalar one does. -/
theorem vector_vacuum_compute_curl_b (W : Width) {E : Env K} (hg : Mesh E.g) {R : Distribute.Rounding}
    (hR : R.Accurate) {P : ℕ} (hP : 0 < P) (hP2 : P ≤ 2 ^ 16)
    {recv : Fin 3 × Bool → Option (List K)} {m m' : FMem K}
    (h : EdgeKernelV W E R P (blockCurlVacuum E) (updateCurlVacuum E) recv m m') :
    EdgeKernel E R P (updateCurlVacuum E) recv m m' :=
  vector_edge W hg hR hP hP2 (blockCurlVacuum_eq E) h

/-- `clean_div_b` of a vector build does what the scalar one does. -/
theorem vector_clean_div_b (W : Width) {E : Env K} (hg : Mesh E.g) {R : Distribute.Rounding} (hR : R.Accurate)
    {P : ℕ} (hP : 0 < P) (hP2 : P ≤ 2 ^ 16) {recv : Fin 3 × Bool → Option (List K)} {m m' : FMem K}
    (h : CleanDivBV W E R P recv m m') : CleanDivB E R P recv m m' := by
  obtain ⟨adj, lg, rs, m1, hadj, hlg, hrs, hph, rfl⟩ := h
  exact ⟨adj, m1, hadj, ⟨lg, rs, hlg, hrs, phaseV_phase W hR (fun _ => by norm_num)
    (fun a => hg.lo 2 (by norm_num) a) (hg.volume 2 (by norm_num) (by norm_num)) hP hP2
    (blockMarder_eq E) hph⟩, rfl⟩

/-! ### The vector kernels run -/

theorem vector_advance_b_runs (W : Width) {E : Env K} (hg : Mesh E.g) (hk : AllKnown E)
    {R : Distribute.Rounding} (hR : R.Accurate) {P : ℕ} (hP : 0 < P) (hP2 : P ≤ 2 ^ 16) (frac : K)
    (m : FMem K) : ∃ m', AdvanceBV W E R P frac m m' := by
  obtain ⟨-, -, -, -, h5, -⟩ := unknown_code_is_an_error E
  obtain ⟨adj, hadj⟩ := hk.some h5
  obtain ⟨m1, h1⟩ := phaseV_exists W R hR E.g (fun _ => 1) (dims E.g) P (blockB E frac) xyz
    (updateCB E frac) ((hostFaces E.g).map (updateCB E frac)) m (fun a => hg.lo 1 (by norm_num) a)
    (hg.volume 1 (by norm_num) (by norm_num)) hP hP2
  exact ⟨_, adj, m1, hadj, h1, rfl⟩

theorem vector_edge_kernel_runs (W : Width) {E : Env K} (hg : Mesh E.g) (hk : AllKnown E)
    {R : Distribute.Rounding} (hR : R.Accurate) {P : ℕ} (hP : 0 < P) (hP2 : P ≤ 2 ^ 16)
    (block : (Fin W.lanes → Pos) → Step K) (k : Fin 3 × Pos → Step K) (m : FMem K)
    (recv : Fin 3 × Bool → Option (List K)) (hrecv : endRemote E slotsTangB recv ≠ none) :
    ∃ m', EdgeKernelV W E R P block k recv m m' := by
  obtain ⟨h1, -, -, h4, -⟩ := unknown_code_is_an_error E
  obtain ⟨lg, hlg⟩ := hk.some h1
  obtain ⟨adj, hadj⟩ := hk.some h4
  obtain ⟨rs, hrs⟩ := Option.ne_none_iff_exists'.mp hrecv
  obtain ⟨m1, hm1⟩ := phaseV_exists W R hR E.g (fun _ => 2) (dims E.g) P block xyz k
    ((innerEdges E.g).map k) (runSeq lg m) (fun a => hg.lo 2 (by norm_num) a)
    (hg.volume 2 (by norm_num) (by norm_num)) hP hP2
  exact ⟨_, adj, lg, rs, m1, hadj, hlg, hrs, hm1, rfl⟩

theorem vector_clean_div_b_runs (W : Width) {E : Env K} (hg : Mesh E.g) (hk : AllKnown E)
    {R : Distribute.Rounding} (hR : R.Accurate) {P : ℕ} (hP : 0 < P) (hP2 : P ≤ 2 ^ 16) (m : FMem K)
    (recv : Fin 3 × Bool → Option (List K)) (hrecv : endRemote E slotsDivB recv ≠ none) :
    ∃ m', CleanDivBV W E R P recv m m' := by
  obtain ⟨-, -, h3, -, h5, -⟩ := unknown_code_is_an_error E
  obtain ⟨lg, hlg⟩ := hk.some h3
  obtain ⟨adj, hadj⟩ := hk.some h5
  obtain ⟨rs, hrs⟩ := Option.ne_none_iff_exists'.mp hrecv
  obtain ⟨m1, hm1⟩ := phaseV_exists W R hR E.g (fun _ => 2) (dims E.g) P (blockMarder E) xyz (marderB E)
    ((innerFaces E.g).map (marderB E) ++ rs ++ (outerFaces E.g).map (marderB E)) (runSeq lg m)
    (fun a => hg.lo 2 (by norm_num) a) (hg.volume 2 (by norm_num) (by norm_num)) hP hP2
  exact ⟨_, adj, lg, rs, m1, hadj, hlg, hrs, hm1, rfl⟩

end Verif.Simd
