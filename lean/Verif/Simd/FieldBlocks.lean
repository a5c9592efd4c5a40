import Verif.Simd.FieldModel
import Verif.Simd.Refine

/-!
# A block of a vector field kernel does what the scalar updates of its lanes do
-/
namespace Verif.Simd

open Field Grid

variable {K : Type*} [Field K] {w : ℕ}

lemma blocksN_flat {α : Type*} (w n : ℕ) : ∀ l : List α, l.length = n * w →
    (blocksN w n l).flatMap (fun cs => (List.finRange w).map cs) = l := by
  induction n with
  | zero =>
    intro l h
    rw [Nat.zero_mul, List.length_eq_zero_iff] at h
    subst h; rfl
  | succ n ih =>
    intro l h
    have hw : w ≤ l.length := by rw [h]; exact Nat.le_mul_of_pos_left w (Nat.succ_pos n)
    rw [blocksN, dif_pos hw, List.flatMap_cons, ih (l.drop w) (by
      rw [List.length_drop, h]; rw [Nat.succ_mul]; omega)]
    conv_rhs => rw [← List.take_append_drop w l]
    congr 1
    apply List.ext_getElem
    · simp [hw]
    · intro i h1 h2
      simp

lemma blocksOf_flat {α : Type*} (w : ℕ) (l : List α) (h : w ∣ l.length) (hw : 0 < w) :
    (blocksOf w l).flatMap (fun cs => (List.finRange w).map cs) = l :=
  blocksN_flat w _ l (Nat.div_mul_cancel h).symm

/-- Every block consists of elements of the list, different ones if the list has no repetition. -/
lemma blocksN_good {α : Type*} (w n : ℕ) : ∀ l : List α, ∀ cs ∈ blocksN w n l,
    (∀ k, cs k ∈ l) ∧ (l.Nodup → Function.Injective cs) := by
  induction n with
  | zero => intro l cs h; simp [blocksN] at h
  | succ n ih =>
    intro l cs h
    rw [blocksN] at h
    split_ifs at h with hw
    · rcases List.mem_cons.mp h with rfl | h
      · refine ⟨fun k => List.getElem_mem _, fun hn a b hab => ?_⟩
        exact Fin.ext ((List.Nodup.getElem_inj_iff hn).mp hab)
      · obtain ⟨h1, h2⟩ := ih _ cs h
        exact ⟨fun k => List.mem_of_mem_drop (h1 k), fun hn => h2 (hn.sublist (List.drop_sublist _ _))⟩
    · simp at h

lemma foldl_update_other {A V : Type*} [DecidableEq A] (L : List (A × V)) : ∀ (m : A → V) (x : A),
    x ∉ L.map Prod.fst → L.foldl (fun m u => Function.update m u.1 u.2) m x = m x := by
  induction L with
  | nil => intros; rfl
  | cons u L ih =>
    intro m x h
    simp only [List.map_cons, List.mem_cons, not_or] at h
    rw [List.foldl_cons, ih _ _ h.2, Function.update_of_ne h.1]

lemma foldl_update_get {A V : Type*} [DecidableEq A] (L : List (A × V)) : ∀ (m : A → V) (x : A) (v : V),
    (L.map Prod.fst).Nodup → (x, v) ∈ L → L.foldl (fun m u => Function.update m u.1 u.2) m x = v := by
  induction L with
  | nil => intro m x v _ h; simp at h
  | cons u L ih =>
    intro m x v hn h
    rw [List.map_cons, List.nodup_cons] at hn
    rw [List.foldl_cons]
    rcases List.mem_cons.mp h with h | h
    · subst h
      rw [foldl_update_other _ _ _ hn.1, Function.update_self]
    · exact ih _ _ _ hn.2 h

/-- A good block: different voxels of the array. -/
def Good (g : LGrid) (cs : Fin w → Pos) : Prop := Function.Injective cs ∧ ∀ k, InArray g (cs k)

lemma Good.vox {g : LGrid} {cs : Fin w → Pos} (h : Good g cs) {k l : Fin w}
    (e : vox g (cs k) = vox g (cs l)) : k = l := h.1 (vox_inj (h.2 k) (h.2 l) e)

lemma storeTr_get {g : LGrid} {cs : Fin w → Pos} (h : Good g cs) (vals : List (FC × Vec w K))
    (hv : (vals.map Prod.fst).Nodup) (m : FMem K) (l : Fin w) (k : FC) (v : Vec w K)
    (hk : (k, v) ∈ vals) : storeTr g cs vals m (vox g (cs l), k) = v l := by
  refine foldl_update_get _ m _ _ ?_ (List.mem_flatMap.mpr ⟨l, List.mem_finRange l,
    List.mem_map.mpr ⟨(k, v), hk, rfl⟩⟩)
  rw [List.map_flatMap, List.nodup_flatMap]
  constructor
  · intro l _
    rw [List.map_map]
    have : (vals.map ((Prod.fst : (ℤ × FC) × K → ℤ × FC) ∘ fun kv => ((vox g (cs l), kv.1), kv.2 l))) =
        (vals.map Prod.fst).map fun k => (vox g (cs l), k) := by
      rw [List.map_map]; rfl
    rw [this]
    exact hv.map fun a b hab => (Prod.mk.inj hab).2
  · refine List.Pairwise.imp ?_ (List.nodup_finRange w)
    intro a b hab x h1 h2
    simp only [List.map_map, List.mem_map, Function.comp] at h1 h2
    obtain ⟨_, _, rfl⟩ := h1
    obtain ⟨_, _, e⟩ := h2
    exact hab (h.vox (Prod.mk.inj e).1).symm

lemma storeTr_other (g : LGrid) (cs : Fin w → Pos) (vals : List (FC × Vec w K)) (m : FMem K) (x : Addr)
    (hx : ∀ l, ∀ k ∈ vals.map Prod.fst, x ≠ (vox g (cs l), k)) : storeTr g cs vals m x = m x := by
  refine foldl_update_other _ m x ?_
  intro h
  simp only [List.map_flatMap, List.mem_flatMap, List.map_map, List.mem_map, Function.comp] at h
  obtain ⟨l, _, kv, hkv, rfl⟩ := h
  exact hx l kv.1 (List.mem_map_of_mem hkv) rfl

/-- A step that leaves what the updates of the lanes write as they do, and everything else alone, is
the sequence of these updates. -/
lemma block_seq {g : LGrid} {cs : Fin w → Pos} (hcs : Good g cs) (B : Step K)
    (k : Fin 3 × Pos → Step K) (W Rd : Fin 3 × Pos → Addr → Prop)
    (hk : ∀ o, Local (V := fun _ => K) (W o) (Rd o) (k o))
    (hd : ∀ o o', InArray g o.2 → InArray g o'.2 → o ≠ o' → ∀ x, W o x → ¬ W o' x)
    (hR : ∀ o o' x, Rd o x → ¬ W o' x) (m : FMem K)
    (h1 : ∀ l a x, W (a, cs l) x → B m x = k (a, cs l) m x)
    (h2 : ∀ x, (∀ l a, ¬ W (a, cs l) x) → B m x = m x) :
    B m = runSeq ((((List.finRange w).map cs).flatMap xyz).map k) m := by
  set L := ((List.finRange w).map cs).flatMap xyz with hL
  have hmem : ∀ o, o ∈ L ↔ ∃ l, o.2 = cs l := by
    rintro ⟨a, c⟩
    simp only [hL, List.mem_flatMap, List.mem_map, List.mem_finRange, true_and]
    constructor
    · rintro ⟨d, ⟨l, rfl⟩, h⟩; exact ⟨l, mem_xyz.mp h⟩
    · rintro ⟨l, h⟩; exact ⟨_, ⟨l, rfl⟩, mem_xyz.mpr h⟩
  have hn : L.Nodup := by
    rw [hL, List.nodup_flatMap]
    refine ⟨fun c _ => xyz_nodup c, ?_⟩
    refine List.Pairwise.imp ?_ ((List.nodup_finRange w).map hcs.1)
    rintro c d hcd ⟨a, e⟩ h1 h2
    exact hcd ((mem_xyz.mp h1).symm.trans (mem_xyz.mp h2))
  have hin : ∀ o ∈ L, InArray g o.2 := by
    intro o ho
    obtain ⟨l, e⟩ := (hmem o).mp ho
    rw [e]; exact hcs.2 l
  obtain ⟨s1, s2⟩ := seq_sweep (V := fun _ => K) k W (fun x => ∃ o, Rd o x) L hn
    (fun o _ => Local.mono (hk o) (fun _ hx => hx) fun x hx => Or.inr ⟨o, hx⟩)
    (fun o ho o' ho' hne => hd o o' (hin o ho) (hin o' ho') hne)
    (fun o _ x ⟨o', hx⟩ => hR o' o x hx) m
  funext x
  by_cases hx : ∃ o ∈ L, W o x
  · obtain ⟨o, ho, hW⟩ := hx
    obtain ⟨l, e⟩ := (hmem o).mp ho
    obtain ⟨a, c⟩ := o
    simp only at e
    subst e
    rw [s1 _ ho x hW]
    exact h1 l a x hW
  · push Not at hx
    rw [s2 x hx]
    exact h2 x fun l a => hx _ ((hmem _).mpr ⟨l, rfl⟩)

lemma single_disjoint {g : LGrid} (T : Fin 3 → FC) (hT : Function.Injective T) {o o' : Fin 3 × Pos}
    (ho : InArray g o.2) (ho' : InArray g o'.2) (hne : o ≠ o') (x : Addr)
    (h : x = (vox g o.2, T o.1)) : ¬ x = (vox g o'.2, T o'.1) := by
  rintro rfl
  obtain ⟨e1, e2⟩ := Prod.mk.inj h
  exact hne (Prod.ext (hT e2).symm (vox_inj ho ho' e1.symm))

lemma blockB_eq (E : Env K) (frac : K) (cs : Fin w → Pos) (h : Good E.g cs) (m : FMem K) :
    blockB E frac cs m = runSeq ((((List.finRange w).map cs).flatMap xyz).map (updateCB E frac)) m := by
  refine block_seq h _ _ (fun o y => y = (vox E.g o.2, .cb o.1)) (fun _ y => ∃ b, y.2 = .e b)
    (updateCB_local E frac)
    (fun o o' ho ho' => single_disjoint FC.cb (fun _ _ e => FC.cb.inj e) ho ho')
    (by rintro o o' x ⟨b, hb⟩ rfl; simp at hb) m ?_ ?_
  · rintro l a x rfl
    simp only [updateCB, setAt, Function.update_self]
    unfold blockB
    fin_cases a
    · refine (storeTr_get h _ (by simp) m l (.cb 0) _ (by simp; rfl)).trans ?_
      simp only [cbVal, Pi.add_apply, fnms, Pi.sub_apply, Pi.mul_apply, splat, ld, Function.comp]; ring
    · refine (storeTr_get h _ (by simp) m l (.cb 1) _ (by simp; rfl)).trans ?_
      simp only [cbVal, Pi.add_apply, fnms, Pi.sub_apply, Pi.mul_apply, splat, ld, Function.comp]; ring
    · refine (storeTr_get h _ (by simp) m l (.cb 2) _ (by simp; rfl)).trans ?_
      simp only [cbVal, Pi.add_apply, fnms, Pi.sub_apply, Pi.mul_apply, splat, ld, Function.comp]; ring
  · intro x hx
    refine storeTr_other _ _ _ _ _ ?_
    intro l k hk e
    simp only [List.map_cons, List.map_nil, List.mem_cons, List.not_mem_nil, or_false] at hk
    rcases hk with rfl | rfl | rfl
    · exact hx l 0 e
    · exact hx l 1 e
    · exact hx l 2 e


lemma ew_seq {E : Env K} {cs : Fin w → Pos} (hcs : Good E.g cs) (B : Step K)
    (k : Fin 3 × Pos → Step K) (hk : ∀ o, Local (V := fun _ => K) (EW E.g o) (ERd E.g o) (k o))
    (m : FMem K)
    (h1 : ∀ l a, B m (vox E.g (cs l), .e a) = k (a, cs l) m (vox E.g (cs l), .e a) ∧
      B m (vox E.g (cs l), .tca a) = k (a, cs l) m (vox E.g (cs l), .tca a))
    (h2 : ∀ x, (∀ l a, ¬ EW E.g (a, cs l) x) → B m x = m x) :
    B m = runSeq ((((List.finRange w).map cs).flatMap xyz).map k) m := by
  refine block_seq hcs B k (EW E.g) (ERd E.g) hk (fun o o' ho ho' => EW_disjoint ho ho')
    (fun o o' x hx => ERd_EW x hx) m ?_ h2
  rintro l a x (rfl | rfl)
  · exact (h1 l a).1
  · exact (h1 l a).2

lemma curlV_eq (E : Env K) (s : K) (m : FMem K) (cs : Fin w → Pos) (a : Fin 3) (l : Fin w) :
    curlV E s m cs a l = curlB E s a (cs l) m := by
  fin_cases a
  · show fms _ _ _ l = _
    simp only [curlB, fms, fnms, Pi.sub_apply, Pi.mul_apply, splat, ld, ldRmu, Function.comp]
  · show fms _ _ _ l = _
    simp only [curlB, fms, fnms, Pi.sub_apply, Pi.mul_apply, splat, ld, ldRmu, Function.comp]
  · show fms _ _ _ l = _
    simp only [curlB, fms, fnms, Pi.sub_apply, Pi.mul_apply, splat, ld, ldRmu, Function.comp]

lemma curlVacV_eq (E : Env K) (s : K) (m : FMem K) (cs : Fin w → Pos) (a : Fin 3) (l : Fin w) :
    curlVacV E s m cs a l = curlBVacuum E s a (cs l) m := by
  fin_cases a
  · show fms _ _ _ l = _
    simp only [curlBVacuum, fms, Pi.sub_apply, Pi.mul_apply, splat, ld, Function.comp]
  · show fms _ _ _ l = _
    simp only [curlBVacuum, fms, Pi.sub_apply, Pi.mul_apply, splat, ld, Function.comp]
  · show fms _ _ _ l = _
    simp only [curlBVacuum, fms, Pi.sub_apply, Pi.mul_apply, splat, ld, Function.comp]

lemma finishE_eq (E : Env K) (cs : Fin w → Pos) (h : Good E.g cs) (m : FMem K)
    (mat : Fin 3 → ℤ → ℕ) (curl : Fin 3 → Pos → FMem K → K) (hc : CurlLike E curl)
    (cv decay drive : Fin 3 → Vec w K) (h1 : ∀ a l, cv a l = curl a (cs l) m)
    (h2 : ∀ a l, decay a l = (E.mc (mat a (vox E.g (cs l)))).decay a)
    (h3 : ∀ a l, drive a l = (E.mc (mat a (vox E.g (cs l)))).drive a) :
    finishE E m cs cv decay drive m =
      runSeq ((((List.finRange w).map cs).flatMap xyz).map (stepE E mat curl)) m := by
  refine ew_seq h (fun m' => finishE E m cs cv decay drive m') _ (stepE_local E mat curl hc) m ?_ ?_
  · intro l a
    have n1 : ((vox E.g (cs l), FC.e a) : Addr) ≠ (vox E.g (cs l), .tca a) := by simp
    have n2 : ((vox E.g (cs l), FC.jf a) : Addr) ≠ (vox E.g (cs l), .tca a) := by simp
    constructor
    · unfold finishE
      rw [storeTr_other _ _ _ _ _ (by intro l' k hk e; simp at hk; rcases hk with rfl | rfl | rfl | rfl <;>
        simp at e)]
      refine (storeTr_get h _ (by simp) m l (.e a)
        (fma (decay a) (ld E.g m cs (.e a)) (drive a * fnms (splat (E.dt / E.eps0)) (ld E.g m cs (.jf a))
          (fnms (splat E.damp) (ld E.g m cs (.tca a)) (cv a)))) (by fin_cases a <;> simp)).trans ?_
      simp only [stepE, setAt, Function.update_self, Function.update_of_ne n1, Function.update_of_ne n2,
        fma, fnms, Pi.add_apply, Pi.sub_apply, Pi.mul_apply, splat, ld, h1, h2, h3]
    · unfold finishE
      refine (storeTr_get h _ (by simp) _ l (.tca a)
        (fnms (splat E.damp) (ld E.g m cs (.tca a)) (cv a)) (by fin_cases a <;> simp)).trans ?_
      simp only [stepE, setAt, Function.update_self, Function.update_of_ne n1.symm, Function.update_of_ne n2,
        fma, fnms, Pi.add_apply, Pi.sub_apply, Pi.mul_apply, splat, ld, h1]
  · intro x hx
    simp only [EW, not_or] at hx
    unfold finishE
    by_cases h4 : ∃ l, x = (vox E.g (cs l), .rhob)
    · obtain ⟨l, rfl⟩ := h4
      refine (storeTr_get h _ ?_ _ l .rhob (ld E.g m cs .rhob) ?_).trans rfl <;> simp
    push Not at h4
    rw [storeTr_other]
    · by_cases h5 : ∃ l, x = (vox E.g (cs l), .divE)
      · obtain ⟨l, rfl⟩ := h5
        refine (storeTr_get h _ ?_ _ l .divE (ld E.g m cs .divE) ?_).trans rfl <;> simp
      push Not at h5
      rw [storeTr_other]
      intro l k hk e
      simp only [List.map_cons, List.map_nil, List.mem_cons, List.not_mem_nil, or_false] at hk
      rcases hk with rfl | rfl | rfl | rfl
      · exact (hx l 0).1 e
      · exact (hx l 1).1 e
      · exact (hx l 2).1 e
      · exact h5 l e
    intro l k hk e
    simp only [List.map_cons, List.map_nil, List.mem_cons, List.not_mem_nil, or_false] at hk
    rcases hk with rfl | rfl | rfl | rfl
    · exact (hx l 0).2 e
    · exact (hx l 1).2 e
    · exact (hx l 2).2 e
    · exact h4 l e

lemma blockE_eq (E : Env K) (cs : Fin w → Pos) (h : Good E.g cs) (m : FMem K) :
    blockE E cs m = runSeq ((((List.finRange w).map cs).flatMap xyz).map (updateE E)) m :=
  finishE_eq E cs h m E.emat _ (curlB_like E _) _ _ _ (fun a l => curlV_eq E _ m cs a l)
    (fun _ _ => rfl) (fun _ _ => rfl)

lemma blockEVacuum_eq (E : Env K) (cs : Fin w → Pos) (h : Good E.g cs) (m : FMem K) :
    blockEVacuum E cs m = runSeq ((((List.finRange w).map cs).flatMap xyz).map (updateEVacuum E)) m :=
  finishE_eq E cs h m (fun _ _ => 0) _ (curlBVacuum_like E _) _ _ _ (fun a l => curlVacV_eq E _ m cs a l)
    (fun _ _ => rfl) (fun _ _ => rfl)

lemma curlStore_eq (E : Env K) (cs : Fin w → Pos) (h : Good E.g cs) (m : FMem K)
    (curl : Fin 3 → Pos → FMem K → K) (t : Fin 3 → Vec w K) (h1 : ∀ a l, t a l = curl a (cs l) m)
    (hk : ∀ o : Fin 3 × Pos, Local (V := fun _ => K) (EW E.g o) (ERd E.g o)
      (setAt (vox E.g o.2, .tca o.1) (curl o.1 o.2))) :
    storeTr E.g cs [(.tca 0, t 0), (.tca 1, t 1), (.tca 2, t 2), (.rhob, ld E.g m cs .rhob)] m =
      runSeq ((((List.finRange w).map cs).flatMap xyz).map
        fun o => setAt (vox E.g o.2, .tca o.1) (curl o.1 o.2)) m := by
  refine ew_seq h (fun m' => storeTr E.g cs [(.tca 0, t 0), (.tca 1, t 1), (.tca 2, t 2),
    (.rhob, ld E.g m cs .rhob)] m') _ hk m ?_ ?_
  · intro l a
    have n1 : ((vox E.g (cs l), FC.e a) : Addr) ≠ (vox E.g (cs l), .tca a) := by simp
    constructor
    · rw [storeTr_other _ _ _ _ _ (by intro l' k hk e; simp at hk; rcases hk with rfl | rfl | rfl | rfl <;>
        simp at e)]
      simp only [setAt, Function.update_of_ne n1]
    · refine (storeTr_get h _ (by simp) _ l (.tca a) (t a) (by fin_cases a <;> simp)).trans ?_
      simp only [setAt, Function.update_self, h1]
  · intro x hx
    simp only [EW, not_or] at hx
    by_cases h4 : ∃ l, x = (vox E.g (cs l), .rhob)
    · obtain ⟨l, rfl⟩ := h4
      refine (storeTr_get h _ ?_ _ l .rhob (ld E.g m cs .rhob) ?_).trans rfl <;> simp
    push Not at h4
    rw [storeTr_other]
    intro l k hk e
    simp only [List.map_cons, List.map_nil, List.mem_cons, List.not_mem_nil, or_false] at hk
    rcases hk with rfl | rfl | rfl | rfl
    · exact (hx l 0).2 e
    · exact (hx l 1).2 e
    · exact (hx l 2).2 e
    · exact h4 l e

lemma blockCurl_eq (E : Env K) (cs : Fin w → Pos) (h : Good E.g cs) (m : FMem K) :
    blockCurl E cs m = runSeq ((((List.finRange w).map cs).flatMap xyz).map (updateCurl E)) m :=
  curlStore_eq E cs h m _ _ (fun a l => curlV_eq E _ m cs a l) (updateCurl_local E)

lemma blockCurlVacuum_eq (E : Env K) (cs : Fin w → Pos) (h : Good E.g cs) (m : FMem K) :
    blockCurlVacuum E cs m =
      runSeq ((((List.finRange w).map cs).flatMap xyz).map (updateCurlVacuum E)) m :=
  curlStore_eq E cs h m _ _ (fun a l => curlVacV_eq E _ m cs a l) (updateCurlVacuum_local E)

lemma blockMarder_eq (E : Env K) (cs : Fin w → Pos) (h : Good E.g cs) (m : FMem K) :
    blockMarder E cs m = runSeq ((((List.finRange w).map cs).flatMap xyz).map (marderB E)) m := by
  refine block_seq h _ _ (fun o y => y = (vox E.g o.2, .cb o.1)) _ (marderB_local E)
    (fun o o' ho ho' => single_disjoint FC.cb (fun _ _ e => FC.cb.inj e) ho ho')
    (by rintro o o' x (rfl | rfl) e <;> simp at e) m ?_ ?_
  · rintro l a x rfl
    unfold blockMarder
    fin_cases a
    · refine (storeTr_get h _ (by simp) m l (.cb 0) _ (by simp; rfl)).trans ?_
      simp [marderB, setAt, fma, splat, ld]; ring
    · refine (storeTr_get h _ (by simp) m l (.cb 1) _ (by simp; rfl)).trans ?_
      simp [marderB, setAt, fma, splat, ld]; ring
    · refine (storeTr_get h _ (by simp) m l (.cb 2) _ (by simp; rfl)).trans ?_
      simp [marderB, setAt, fma, splat, ld]; ring
  · intro x hx
    unfold blockMarder
    by_cases h4 : ∃ l, x = (vox E.g (cs l), .divB)
    · obtain ⟨l, rfl⟩ := h4
      refine (storeTr_get h _ ?_ _ l .divB (ld E.g m cs .divB) ?_).trans rfl <;> simp
    push Not at h4
    refine storeTr_other _ _ _ _ _ ?_
    intro l k hk e
    simp only [List.map_cons, List.map_nil, List.mem_cons, List.not_mem_nil, or_false] at hk
    rcases hk with rfl | rfl | rfl | rfl
    · exact hx l 0 e
    · exact hx l 1 e
    · exact hx l 2 e
    · exact h4 l e

end Verif.Simd
