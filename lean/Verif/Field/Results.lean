import Verif.Field.Kernels

/-!
# Result of each sweep
-/
namespace Verif.Field

open Grid

variable {K : Type*} [Field K]

lemma EW_disjoint {g : LGrid} {o o' : Fin 3 × Pos} (ho : InArray g o.2) (ho' : InArray g o'.2)
    (hne : o ≠ o') (x : Addr) (h : EW g o x) : ¬ EW g o' x := by
  intro h'
  apply hne
  rcases h with rfl | rfl <;> rcases h' with h' | h' <;> simp only [Prod.mk.injEq, FC.e.injEq,
    FC.tca.injEq, reduceCtorEq, and_false] at h'
  · exact Prod.ext h'.2 (vox_inj ho ho' h'.1)
  · exact Prod.ext h'.2 (vox_inj ho ho' h'.1)

lemma ERd_EW {g : LGrid} {o o' : Fin 3 × Pos} (x : Addr) (h : ERd g o x) : ¬ EW g o' x := by
  rcases h with rfl | ⟨b, b', -, -, -, rfl | rfl⟩ <;> rintro (h' | h') <;> simp at h'

/-- The edge sweep: every edge component of the local mesh is updated once, from the field with all
ghosts filled. -/
theorem edge_sweep_result {E : Env K} (hg : Mesh E.g) {R : Distribute.Rounding} (hR : R.Accurate)
    {P : ℕ} (hP : 0 < P) (hP2 : P ≤ 2 ^ 16) {k : Fin 3 × Pos → Step K}
    (hk : ∀ o, Local (V := fun _ => K) (EW E.g o) (ERd E.g o) (k o))
    {recv : Fin 3 × Bool → Option (List K)} {m m' : FMem K} (h : EdgeSweep E R P k recv m m') :
    ∃ lg rs, localGhostTangB E = some lg ∧ endRemote E slotsTangB recv = some rs ∧
      (∀ a c, EdgeOn E.g a c → ∀ x, EW E.g (a, c) x → m' x = k (a, c) (runSeq rs (runSeq lg m)) x) ∧
      ∀ x, (∀ a c, EdgeOn E.g a c → ¬ EW E.g (a, c) x) → m' x = runSeq rs (runSeq lg m) x := by
  obtain ⟨lg, rs, m1, hlg, hrs, hph, hm'⟩ := h
  refine ⟨lg, rs, hlg, hrs, ?_⟩
  have hph' : Phase R E.g (fun _ => 2) (dims E.g) P xyz k
      ((innerEdges E.g).map k ++ rs ++ (outerEdges E.g).map k) (runSeq lg m) m' := by
    have h1 := Phase.append hph (rs ++ (outerEdges E.g).map k)
    rw [runSeq_append, ← hm', ← List.append_assoc] at h1
    exact h1
  clear hph hm'
  have := sweep_result (A := Addr) (V := fun _ => K) hR (rs := rs) (hin := innerEdges E.g) (hout := outerEdges E.g)
    (fun a => hg.lo 2 (by norm_num) a) (hg.volume 2 (by norm_num) (by norm_num)) hP hP2
    hph'
    (fun o => NodeIn E.g o.2)
    (by
      rintro ⟨a, c⟩
      constructor
      · intro hn; exact ⟨c, hn, mem_xyz.mpr rfl⟩
      · rintro ⟨d, hd, hm⟩
        rw [mem_xyz] at hm; subst hm; exact hd)
    (EW E.g) (ERd E.g) (Ghost E.g slotsTangB)
    (fun x => (∃ b, x.2 = FC.cb b) ∧ ¬ Ghost E.g slotsTangB x)
    xyz_nodup (by
      rintro c d ⟨a, e⟩ h1 h2
      rw [mem_xyz] at h1 h2; exact h1.symm.trans h2)
    (innerEdges_nodup E.g) (outerEdges_nodup hg)
    (by rintro ⟨a, c⟩ h1; exact innerEdges_out h1)
    (by
      rintro ⟨a, c⟩ h1 h2
      exact ((edges_outer hg).mp h1).2 ((edges_inner hg).mpr (Or.inl h2)))
    (by
      rintro ⟨a, c⟩ h1 h2
      exact ((edges_outer hg).mp h2).2 ((edges_inner hg).mpr (Or.inr h1)))
    (fun o => EdgeOn E.g o.1 o.2)
    (by
      rintro ⟨a, c⟩
      rw [← or_assoc]
      show EdgeOn E.g a c ↔ (NodeIn E.g c ∨ (a, c) ∈ innerEdges E.g) ∨ _
      rw [show (NodeIn E.g c ∨ (a, c) ∈ innerEdges E.g) ↔ EdgeIn E.g a c from (edges_inner hg).symm,
        edges_outer hg]
      constructor
      · intro h1
        by_cases h2 : EdgeIn E.g a c
        · exact Or.inl h2
        · exact Or.inr ⟨h1, h2⟩
      · rintro (h1 | h1)
        · intro b
          have := h1 b
          split at this <;> split <;> simp_all <;> omega
        · exact h1.1)
    (fun o _ => hk o)
    (fun o ho o' ho' hne x hx => EW_disjoint (EdgeOn.inArray ho) (EdgeOn.inArray ho') hne x hx)
    (fun o _ o' _ x hx => ERd_EW x hx)
    (endRemote_local hrs (fun k => ∃ b, k = FC.cb b) (slotsTangB_kind E.g))
    (by
      rintro o _ x ⟨s, q, hq, rfl⟩ h'
      obtain ⟨b, hb⟩ := slotsTangB_kind _ _ _ q hq
      rcases h' with h' | h' <;> simp [hb] at h')
    (by
      rintro o _ x ⟨⟨b, hb⟩, -⟩ h'
      rcases h' with rfl | rfl <;> simp at hb)
    (fun x hx => hx.2)
    (by
      rintro ⟨a, c⟩ ho x hx
      have hin : EdgeIn E.g a c := (edges_inner hg).mpr ho
      have hcell : CellOn E.g c := by
        intro b
        have := hin b
        split at this <;> omega
      rcases hx with rfl | ⟨b, b', h1, h2, -, rfl | rfl⟩
      · rintro ⟨s, q, hq, he⟩
        obtain ⟨b, hb⟩ := slotsTangB_kind _ _ _ q hq
        simp [hb] at he
      · exact not_ghost hg (slotsTangB_plane _) hcell _
      · refine not_ghost hg (slotsTangB_plane _) ?_ _
        intro d
        have h3 := hin d
        simp only [dn]
        split
        · rename_i hd
          subst hd
          simp only [h2, if_false] at h3
          omega
        · split at h3 <;> omega)
  exact ⟨fun a c hc x hx => this.1 (a, c) hc x hx, fun x hx => this.2 x fun o ho => hx o.1 o.2 ho⟩

/-- The node sweep: every node of the local mesh is updated once, from the field with all ghosts
filled. -/
theorem node_sweep_result {E : Env K} (hg : Mesh E.g) {R : Distribute.Rounding} (hR : R.Accurate)
    {P : ℕ} (hP : 0 < P) (hP2 : P ≤ 2 ^ 16) {k : Pos → Step K} {T : FC} (hT : T = .divE ∨ T = .rhob)
    (hk : ∀ c, Local (V := fun _ => K) (fun y => y = (vox E.g c, T)) (NRd E.g T c) (k c))
    {recv : Fin 3 × Bool → Option (List K)} {m m' : FMem K} (h : NodeSweep E R P k recv m m') :
    ∃ lg rs, localGhostNormE E = some lg ∧ endRemote E slotsNormE recv = some rs ∧
      (∀ c, NodeOn E.g c → m' (vox E.g c, T) = k c (runSeq rs (runSeq lg m)) (vox E.g c, T)) ∧
      ∀ x, (∀ c, NodeOn E.g c → x ≠ (vox E.g c, T)) → m' x = runSeq rs (runSeq lg m) x := by
  obtain ⟨lg, rs, hlg, hrs, hph⟩ := h
  refine ⟨lg, rs, hlg, hrs, ?_⟩
  have hTe : ∀ b, T ≠ .e b := by rintro b rfl; simp at hT
  have := sweep_result (A := Addr) (V := fun _ => K) hR (rs := rs) (hin := []) (hout := outerNodes E.g)
    (fun a => hg.lo 2 (by norm_num) a) (hg.volume 2 (by norm_num) (by norm_num)) hP hP2
    (by simpa using hph)
    (fun c => NodeIn E.g c)
    (by
      intro c
      constructor
      · intro hn; exact ⟨c, hn, by simp⟩
      · rintro ⟨d, hd, hm⟩
        simp at hm; subst hm; exact hd)
    (fun c y => y = (vox E.g c, T)) (NRd E.g T) (Ghost E.g slotsNormE)
    (fun x => (∃ b, x.2 = FC.e b) ∧ ¬ Ghost E.g slotsNormE x)
    (by simp) (by
      rintro c d e h1 h2
      simp at h1 h2; exact h1.symm.trans h2)
    List.nodup_nil (outerNodes_nodup hg) (by simp)
    (fun c hc => ((nodes_outer hg).mp hc).2) (by simp)
    (fun c => NodeOn E.g c)
    (by
      intro c
      simp only [List.not_mem_nil, false_or, nodes_outer hg]
      constructor
      · intro h1
        by_cases h2 : NodeIn E.g c
        · exact Or.inl h2
        · exact Or.inr ⟨h1, h2⟩
      · rintro (h1 | h1)
        · intro b
          have := h1 b
          omega
        · exact h1.1)
    (fun c _ => hk c)
    (by
      rintro c hc c' hc' hne x rfl h'
      exact hne (vox_inj (NodeOn.inArray hc) (NodeOn.inArray hc') (Prod.mk.inj h').1))
    (by
      rintro c hc c' hc' x hx rfl
      rcases hx with ⟨-, hx⟩ | ⟨b, hx | hx⟩
      · exact hx rfl
      · exact hTe b (Prod.mk.inj hx).2
      · exact hTe b (Prod.mk.inj hx).2)
    (endRemote_local hrs (fun k => ∃ b, k = FC.e b) (slotsNormE_kind E.g))
    (by
      rintro c _ x ⟨s, q, hq, rfl⟩ h'
      obtain ⟨b, hb⟩ := slotsNormE_kind _ _ _ q hq
      exact hTe b ((Prod.mk.inj h').2.symm.trans hb))
    (by
      rintro c _ x ⟨⟨b, hb⟩, -⟩ rfl
      exact hTe b hb)
    (fun x hx => hx.2)
    (by
      rintro c ho x hx
      have hin : NodeIn E.g c := by simpa using ho
      have hcell : CellOn E.g c := by
        intro b
        have := hin b
        omega
      rcases hx with ⟨hx, -⟩ | ⟨b, rfl | rfl⟩
      · rintro ⟨s, q, hq, he⟩
        obtain ⟨b, hb⟩ := slotsNormE_kind _ _ _ q hq
        rcases hx with rfl | rfl <;> simp [hb] at he
      · exact not_ghost hg (slotsNormE_plane _) hcell _
      · refine not_ghost hg (slotsNormE_plane _) ?_ _
        intro d
        have h3 := hin d
        simp only [dn]
        split <;> omega)
  exact ⟨fun c hc => this.1 c hc _ rfl, fun x hx => this.2 x fun o ho => hx o ho⟩

/-- The face sweep of `clean_div_b`. -/
theorem face_sweep_result {E : Env K} (hg : Mesh E.g) {R : Distribute.Rounding} (hR : R.Accurate)
    {P : ℕ} (hP : 0 < P) (hP2 : P ≤ 2 ^ 16)
    {recv : Fin 3 × Bool → Option (List K)} {m m' : FMem K}
    (h : FaceSweep E R P (marderB E) recv m m') :
    ∃ lg rs, localGhostDivB E = some lg ∧ endRemote E slotsDivB recv = some rs ∧
      (∀ a c, FaceOn E.g a c → m' (vox E.g c, .cb a) =
        marderB E (a, c) (runSeq rs (runSeq lg m)) (vox E.g c, .cb a)) ∧
      ∀ x, (∀ a c, FaceOn E.g a c → x ≠ (vox E.g c, .cb a)) → m' x = runSeq rs (runSeq lg m) x := by
  obtain ⟨lg, rs, hlg, hrs, hph⟩ := h
  refine ⟨lg, rs, hlg, hrs, ?_⟩
  have := sweep_result (A := Addr) (V := fun _ => K) hR (rs := rs) (hin := innerFaces E.g) (hout := outerFaces E.g)
    (fun a => hg.lo 2 (by norm_num) a) (hg.volume 2 (by norm_num) (by norm_num)) hP hP2 hph
    (fun o => NodeIn E.g o.2)
    (by
      rintro ⟨a, c⟩
      constructor
      · intro hn; exact ⟨c, hn, mem_xyz.mpr rfl⟩
      · rintro ⟨d, hd, hm⟩
        rw [mem_xyz] at hm; subst hm; exact hd)
    (fun o y => y = (vox E.g o.2, .cb o.1))
    (fun o y => y = (vox E.g o.2, .divB) ∨ y = (vox E.g (dn o.1 o.2), .divB)) (Ghost E.g slotsDivB)
    (fun x => x.2 = FC.divB ∧ ¬ Ghost E.g slotsDivB x)
    xyz_nodup (by
      rintro c d ⟨a, e⟩ h1 h2
      rw [mem_xyz] at h1 h2; exact h1.symm.trans h2)
    (innerFaces_nodup E.g) (outerFaces_nodup hg)
    (by rintro ⟨a, c⟩ h1; exact innerFaces_out h1)
    (by
      rintro ⟨a, c⟩ h1 h2
      exact ((faces_outer hg).mp h1).2 ((faces_inner hg).mpr (Or.inl h2)))
    (by
      rintro ⟨a, c⟩ h1 h2
      exact ((faces_outer hg).mp h2).2 ((faces_inner hg).mpr (Or.inr h1)))
    (fun o => FaceOn E.g o.1 o.2)
    (by
      rintro ⟨a, c⟩
      rw [← or_assoc]
      show FaceOn E.g a c ↔ (NodeIn E.g c ∨ (a, c) ∈ innerFaces E.g) ∨ _
      rw [show (NodeIn E.g c ∨ (a, c) ∈ innerFaces E.g) ↔ FaceIn E.g a c from (faces_inner hg).symm,
        faces_outer hg]
      constructor
      · intro h1
        by_cases h2 : FaceIn E.g a c
        · exact Or.inl h2
        · exact Or.inr ⟨h1, h2⟩
      · rintro (h1 | h1)
        · intro b
          have := h1 b
          split at this <;> split <;> simp_all <;> omega
        · exact h1.1)
    (fun o _ => marderB_local E o)
    (by
      rintro o ho o' ho' hne x rfl h'
      simp only [Prod.mk.injEq, FC.cb.injEq] at h'
      exact hne (Prod.ext h'.2 (vox_inj (FaceOn.inArray ho) (FaceOn.inArray ho') h'.1)))
    (by rintro o _ o' _ x (rfl | rfl) h' <;> simp at h')
    (endRemote_local hrs (fun k => k = FC.divB) (slotsDivB_kind E.g))
    (by
      rintro o _ x ⟨s, q, hq, rfl⟩ h'
      have hb := slotsDivB_kind _ _ _ q hq
      simp [hb] at h')
    (by
      rintro o _ x ⟨hb, -⟩ rfl
      simp at hb)
    (fun x hx => hx.2)
    (by
      rintro ⟨a, c⟩ ho x hx
      have hin : FaceIn E.g a c := (faces_inner hg).mpr ho
      have hcell : CellOn E.g c := by
        intro b
        have := hin b
        split at this <;> omega
      rcases hx with rfl | rfl
      · exact not_ghost hg (slotsDivB_plane _) hcell _
      · refine not_ghost hg (slotsDivB_plane _) ?_ _
        intro d
        have h3 := hin d
        simp only [dn]
        split
        · rename_i hd
          subst hd
          simp only [if_true] at h3
          omega
        · split at h3 <;> omega)
  exact ⟨fun a c hc => this.1 (a, c) hc _ rfl, fun x hx => this.2 x fun o ho => hx o.1 o.2 ho⟩

/-- A sweep without ghosts: bulk cells on the pipelines, leftovers `hs` on the host. -/
theorem plain_sweep_result {E : Env K} (hg : Mesh E.g) {R : Distribute.Rounding} (hR : R.Accurate)
    {P : ℕ} (hP : 0 < P) (hP2 : P ≤ 2 ^ 16) {k : Fin 3 × Pos → Step K} (On : Fin 3 → Pos → Prop)
    (tgt : Fin 3 → FC) (htgt : Function.Injective tgt) (kind : FC → Prop) (hkind : ∀ a, ¬ kind (tgt a))
    (hk : ∀ o, Local (V := fun _ => K) (fun y => y = (vox E.g o.2, tgt o.1)) (fun y => kind y.2) (k o))
    (hs : List (Fin 3 × Pos)) (hnd : hs.Nodup) (hout : ∀ a c, (a, c) ∈ hs → ¬ CellOn E.g c)
    (hon : ∀ a c, On a c ↔ CellOn E.g c ∨ (a, c) ∈ hs) (hin : ∀ a c, On a c → InArray E.g c)
    {m m' : FMem K} (h : Phase R E.g (fun _ => 1) (dims E.g) P xyz k (hs.map k) m m') :
    (∀ a c, On a c → m' (vox E.g c, tgt a) = k (a, c) m (vox E.g c, tgt a)) ∧
      ∀ x, (∀ a c, On a c → x ≠ (vox E.g c, tgt a)) → m' x = m x := by
  have := sweep_result (A := Addr) (V := fun _ => K) hR (rs := []) (hin := hs) (hout := [])
    (fun a => hg.lo 1 (by norm_num) a) (hg.volume 1 (by norm_num) (by norm_num)) hP hP2
    (by simpa using h)
    (fun o => CellOn E.g o.2)
    (by
      rintro ⟨a, c⟩
      constructor
      · intro hn; exact ⟨c, hn, mem_xyz.mpr rfl⟩
      · rintro ⟨d, hd, hm⟩
        rw [mem_xyz] at hm; subst hm; exact hd)
    (fun o y => y = (vox E.g o.2, tgt o.1)) (fun _ y => kind y.2) (fun _ => False) (fun _ => False)
    xyz_nodup (by
      rintro c d ⟨a, e⟩ h1 h2
      rw [mem_xyz] at h1 h2; exact h1.symm.trans h2)
    hnd List.nodup_nil (fun o ho => hout o.1 o.2 ho) (by simp) (by simp)
    (fun o => On o.1 o.2)
    (by rintro ⟨a, c⟩; simp [hon a c])
    (fun o _ => hk o)
    (by
      rintro o ho o' ho' hne x rfl h'
      simp only [Prod.mk.injEq] at h'
      exact hne (Prod.ext (htgt h'.2) (vox_inj (hin _ _ ho) (hin _ _ ho') h'.1)))
    (by rintro o _ o' _ x hx rfl; exact hkind _ hx)
    (by simp) (by simp) (by simp) (by simp) (by simp)
  simp only [runSeq_nil] at this
  exact ⟨fun a c hc => this.1 (a, c) hc _ rfl, fun x hx => this.2 x fun o ho => hx o.1 o.2 ho⟩

/-- The loop of `compute_div_b_err`. -/
theorem cell_sweep_result {E : Env K} (hg : Mesh E.g) {R : Distribute.Rounding} (hR : R.Accurate)
    {P : ℕ} (hP : 0 < P) (hP2 : P ≤ 2 ^ 16) {m m' : FMem K}
    (h : Phase R E.g (fun _ => 1) (dims E.g) P (fun c => [c]) (updateDivB E) [] m m') :
    (∀ c, CellOn E.g c → m' (vox E.g c, .divB) = divBVal E c m) ∧
      ∀ x, (∀ c, CellOn E.g c → x ≠ (vox E.g c, .divB)) → m' x = m x := by
  have := sweep_result (A := Addr) (V := fun _ => K) hR (rs := []) (hin := []) (hout := [])
    (fun a => hg.lo 1 (by norm_num) a) (hg.volume 1 (by norm_num) (by norm_num)) hP hP2
    (by simpa using h)
    (fun c => CellOn E.g c)
    (by
      intro c
      constructor
      · intro hn; exact ⟨c, hn, by simp⟩
      · rintro ⟨d, hd, hm⟩
        simp at hm; subst hm; exact hd)
    (fun c y => y = (vox E.g c, .divB)) (fun _ y => ∃ b, y.2 = .cb b) (fun _ => False) (fun _ => False)
    (by simp) (by
      rintro c d e h1 h2
      simp at h1 h2; exact h1.symm.trans h2)
    List.nodup_nil List.nodup_nil (by simp) (by simp) (by simp)
    (fun c => CellOn E.g c) (by simp)
    (fun c _ => updateDivB_local E c)
    (by
      rintro c hc c' hc' hne x rfl h'
      exact hne (vox_inj (CellOn.inArray hc) (CellOn.inArray hc') (Prod.mk.inj h').1))
    (by rintro o _ o' _ x ⟨b, hx⟩ rfl; simp at hx)
    (by simp) (by simp) (by simp) (by simp) (by simp)
  simp only [runSeq_nil] at this
  refine ⟨fun c hc => ?_, fun x hx => this.2 x fun o ho => hx o ho⟩
  rw [this.1 c hc _ rfl]
  simp [updateDivB, setAt]

end Verif.Field
