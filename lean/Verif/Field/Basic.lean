import Verif.Common.Sweep
import Verif.Grid.Lemmas
import Verif.Distribute.Props
import Mathlib.Data.Fin.VecNotation
import Mathlib.Data.Fintype.Basic
import Mathlib.Tactic.FinCases
import Mathlib.Algebra.Field.Defs

/-!
# The field array

Memory layout of `field_t` (/repo/src/field_advance/field_advance.h:147-164), mesh positions, loops over
boxes of voxels and the distribution of a loop over the pipelines.
-/
namespace Verif.Field

open Grid

/-- The floating point members of `field_t`, /repo/src/field_advance/field_advance.h:147-164.  `e 0`,
`e 1`, `e 2` are `ex`, `ey`, `ez`; likewise `cb`, `tca` and `jf`. -/
inductive FC
  | e (a : Fin 3)
  | divE
  | cb (a : Fin 3)
  | divB
  | tca (a : Fin 3)
  | rhob
  | jf (a : Fin 3)
  | rhof
deriving DecidableEq

/-- A member of an element of the field array. -/
abbrev Addr := ℤ × FC

/-- Contents of the field array. -/
abbrev FMem (K : Type*) := Addr → K

/-- A mesh position `x`, `y`, `z`. -/
abbrev Pos := Fin 3 → ℤ

/-- `nx`, `ny`, `nz`. -/
def dims (g : LGrid) : Fin 3 → ℤ := ![g.nx, g.ny, g.nz]

/-- Index of `f(x,y,z)`, e.g. /repo/src/field_advance/standard/pipeline/advance_b_pipeline.h:31. -/
def vox (g : LGrid) (c : Pos) : ℤ := VOXEL g.nx g.ny (c 0) (c 1) (c 2)

/-- The next position along axis `a`. -/
def up (a : Fin 3) (c : Pos) : Pos := fun b => if b = a then c b + 1 else c b

/-- The previous position along axis `a`. -/
def dn (a : Fin 3) (c : Pos) : Pos := fun b => if b = a then c b - 1 else c b

/-- `for( z=lo2; z<=hi2; z++ ) for( y=lo1; … ) for( x=lo0; … )`. -/
def box (lo hi : Pos) : List Pos :=
  (cellsOf (lo 0) (hi 0) (lo 1) (hi 1) (lo 2) (hi 2)).map fun c => ![c.x, c.y, c.z]

lemma pos_ext {c d : Pos} (h0 : c 0 = d 0) (h1 : c 1 = d 1) (h2 : c 2 = d 2) : c = d := by
  funext a; fin_cases a <;> assumption

lemma mem_box {lo hi c : Pos} : c ∈ box lo hi ↔ ∀ a, lo a ≤ c a ∧ c a ≤ hi a := by
  simp only [box, List.mem_map, mem_cellsOf, Fin.forall_fin_succ, Fin.forall_fin_zero]
  constructor
  · rintro ⟨d, h, rfl⟩
    simp
    tauto
  · intro h
    refine ⟨⟨c 0, c 1, c 2⟩, ?_, ?_⟩
    · simp at h ⊢; tauto
    · apply pos_ext <;> rfl

lemma fromTo_nodup (a b : ℤ) : (fromTo a b).Nodup := by
  refine List.Nodup.map ?_ List.nodup_range
  intro x y h
  simpa using h

lemma cellsOf_nodup (x0 x1 y0 y1 z0 z1 : ℤ) : (cellsOf x0 x1 y0 y1 z0 z1).Nodup := by
  unfold cellsOf
  rw [List.nodup_flatMap]
  constructor
  · intro z _
    rw [List.nodup_flatMap]
    constructor
    · intro y _
      refine List.Nodup.map ?_ (fromTo_nodup _ _)
      intro x x' h
      simpa using h
    · refine List.Pairwise.imp ?_ (fromTo_nodup y0 y1)
      intro y y' hne c hc hc'
      simp only [List.mem_map] at hc hc'
      obtain ⟨_, _, rfl⟩ := hc
      obtain ⟨_, _, h⟩ := hc'
      simp at h
      exact hne h.2.symm
  · refine List.Pairwise.imp ?_ (fromTo_nodup z0 z1)
    intro z z' hne c hc hc'
    simp only [List.mem_map, List.mem_flatMap] at hc hc'
    obtain ⟨_, _, _, _, rfl⟩ := hc
    obtain ⟨_, _, _, _, h⟩ := hc'
    simp at h
    exact hne h.2.2.symm

lemma box_nodup (lo hi : Pos) : (box lo hi).Nodup := by
  refine List.Nodup.map ?_ (cellsOf_nodup _ _ _ _ _ _)
  rintro ⟨x, y, z⟩ ⟨x', y', z'⟩ h
  have h0 := congrFun h 0
  have h1 := congrFun h 1
  have h2 := congrFun h 2
  simp at h0 h1 h2
  simp [h0, h1, h2]

/-- A local mesh: at least one cell in each direction, and voxel indices fit in `int`
(/repo/src/grid/grid.h:103-107). -/
structure Mesh (g : LGrid) : Prop where
  pos : ∀ a, 1 ≤ dims g a
  fits : (g.nx + 2) * (g.ny + 2) * (g.nz + 2) < 2 ^ 31

/-- A position of the local mesh or its ghost layer. -/
def InArray (g : LGrid) (c : Pos) : Prop := ∀ a, 0 ≤ c a ∧ c a ≤ dims g a + 1

lemma vox_inj {g : LGrid} {c d : Pos} (hc : InArray g c) (hd : InArray g d) (h : vox g c = vox g d) :
    c = d := by
  have c0 := hc 0; have c1 := hc 1; have d0 := hd 0; have d1 := hd 1
  simp only [dims, Matrix.cons_val_zero, Matrix.cons_val_one] at c0 c1 d0 d1
  obtain ⟨h0, h1, h2⟩ := VOXEL_inj c0.1 c0.2 c1.1 c1.2 d0.1 d0.2 d1.1 d1.2 h
  exact pos_ext h0 h1 h2

/-- The mesh entities.  A cell, a face with normal along `a`, an edge along `a`, a node
(/repo/src/field_advance/field_advance.h:41-56). -/
def CellOn (g : LGrid) (c : Pos) : Prop := ∀ b, 1 ≤ c b ∧ c b ≤ dims g b
@[inherit_doc CellOn]
def FaceOn (g : LGrid) (a : Fin 3) (c : Pos) : Prop :=
  ∀ b, 1 ≤ c b ∧ c b ≤ dims g b + if b = a then 1 else 0
@[inherit_doc CellOn]
def EdgeOn (g : LGrid) (a : Fin 3) (c : Pos) : Prop :=
  ∀ b, 1 ≤ c b ∧ c b ≤ dims g b + if b = a then 0 else 1
@[inherit_doc CellOn]
def NodeOn (g : LGrid) (c : Pos) : Prop := ∀ b, 1 ≤ c b ∧ c b ≤ dims g b + 1

lemma FaceOn.inArray {g : LGrid} {a : Fin 3} {c : Pos} (h : FaceOn g a c) : InArray g c := by
  intro b; have := h b; split at this <;> omega
lemma EdgeOn.inArray {g : LGrid} {a : Fin 3} {c : Pos} (h : EdgeOn g a c) : InArray g c := by
  intro b; have := h b; split at this <;> omega
lemma NodeOn.inArray {g : LGrid} {c : Pos} (h : NodeOn g c) : InArray g c := by
  intro b; have := h b; omega
lemma CellOn.inArray {g : LGrid} {c : Pos} (h : CellOn g c) : InArray g c := by
  intro b; have := h b; omega

/-- The box as `DISTRIBUTE_VOXELS` takes it. -/
def boxOf (lo hi : Pos) : Distribute.Box := ⟨lo 0, hi 0, lo 1, hi 1, lo 2, hi 2⟩

/-- Share of pipeline `p` of a loop over the box `lo … hi`: `DISTRIBUTE_VOXELS( …, 16, rank, n_pipeline,
… )`, then for each voxel of the share the updates `ops`. -/
def share {O : Type*} (R : Distribute.Rounding) (g : LGrid) (lo hi : Pos) (P : ℕ)
    (ops : Pos → List O) (p : ℕ) : Option (List O) :=
  (Distribute.visits R g.nx g.ny (boxOf lo hi) 16 p P).map fun l =>
    l.flatMap fun s => ops ![s.x, s.y, s.z]

/-- A loop run by `EXEC_PIPELINES` followed by work `host` of the calling thread before
`WAIT_PIPELINES`: some interleaving of the pipelines `0 … P-1` and the calling thread, which first does
its own share (of rank `P`), takes the memory from `m` to `m'`
(/repo/src/util/pipelines/pipelines_exec_pth.h). -/
def Phase {O M : Type*} (R : Distribute.Rounding) (g : LGrid) (lo hi : Pos) (P : ℕ)
    (ops : Pos → List O) (step : O → M → M) (host : List (M → M)) (m m' : M) : Prop :=
  ∃ pre last, (List.range P).mapM (share R g lo hi P ops) = some pre ∧
    share R g lo hi P ops P = some last ∧
    Runs (pre.map (fun l => l.map step) ++ [last.map step ++ host]) m m'

lemma mapM_exists {α β : Type*} (l : List α) (f : α → Option β) (vs : List β)
    (h : l.mapM f = some vs) : (∀ p ∈ l, ∃ v, f p = some v) ∧ l.map f = vs.map some := by
  induction l generalizing vs with
  | nil => simp at h; subst h; simp
  | cons a l ih =>
    rw [List.mapM_cons] at h
    cases ha : f a with
    | none => simp [ha] at h
    | some v =>
      cases hl : l.mapM f with
      | none => simp [ha, hl] at h
      | some ws =>
        simp [ha, hl] at h
        subst h
        obtain ⟨h1, h2⟩ := ih ws hl
        refine ⟨?_, by simp [ha, h2]⟩
        intro p hp
        rcases List.mem_cons.mp hp with rfl | hp
        · exact ⟨v, ha⟩
        · exact h1 p hp

/-- The shares together hold the updates of every voxel of the box once. -/
lemma share_spec {O : Type*} (R : Distribute.Rounding) (hR : R.Accurate) (g : LGrid) (lo hi : Pos)
    (P : ℕ) (ops : Pos → List O) (hlo : ∀ a, lo a ≤ hi a + 1)
    (hN : (hi 0 - lo 0 + 1) * (hi 1 - lo 1 + 1) * (hi 2 - lo 2 + 1) < 2 ^ 31)
    (hP : 0 < P) (hP2 : P ≤ 2 ^ 16) :
    ∃ (pre : List (List O)) (last : List O) (L : List Pos),
      (List.range P).mapM (share R g lo hi P ops) = some pre ∧
      share R g lo hi P ops P = some last ∧ pre.flatten ++ last = L.flatMap ops ∧ L.Nodup ∧
      ∀ c : Pos, c ∈ L ↔ ∀ a, lo a ≤ c a ∧ c a ≤ hi a := by
  obtain ⟨L, hL, hn, hm⟩ := Distribute.distribute_voxels_exact R hR g.nx g.ny (boxOf lo hi) 16 P
    (hlo 0) (hlo 1) (hlo 2) hN (by norm_num) hP hP2
  unfold Distribute.allVisits at hL
  cases hv : (List.range (P + 1)).mapM fun p => Distribute.visits R g.nx g.ny (boxOf lo hi) 16 p P with
  | none => rw [hv] at hL; simp at hL
  | some vs =>
    rw [hv] at hL
    simp only [Option.map_some, Option.some.injEq] at hL
    obtain ⟨h1, h2⟩ := mapM_exists _ _ _ hv
    choose! w hw using h1
    have e : vs = (List.range (P + 1)).map w := by
      have : (List.range (P + 1)).map (fun p => Distribute.visits R g.nx g.ny (boxOf lo hi) 16 p P)
          = ((List.range (P + 1)).map w).map some := by
        rw [List.map_map]
        exact List.map_congr_left fun p hp => hw p hp
      rw [this] at h2
      exact (List.map_injective_iff.mpr (Option.some_injective _) h2).symm
    refine ⟨_, (w P).flatMap fun s => ops ![s.x, s.y, s.z],
      L.map fun s => (![s.x, s.y, s.z] : Pos), Distribute.mapM_some _ _
      (fun p => (w p).flatMap fun s => ops ![s.x, s.y, s.z])
      (fun p hp => by rw [share, hw p (by simp at hp ⊢; omega)]; rfl),
      by rw [share, hw P (by simp)]; rfl, ?_, ?_, ?_⟩
    · rw [← hL, e, List.range_succ]
      have hz : ∀ (l : List ℕ),
          (l.map fun p => (w p).flatMap fun s => ops ![s.x, s.y, s.z]).flatten
          = ((l.map w).flatten.map fun s => (![s.x, s.y, s.z] : Pos)).flatMap ops := by
        intro l
        induction l with
        | nil => rfl
        | cons p l ih =>
          simp only [List.map_cons, List.flatten_cons, List.map_append, List.flatMap_append,
            List.flatMap_map]
          rw [ih, List.flatMap_map]
      rw [hz]
      simp [List.flatMap_map, List.map_append, List.flatMap_append]
    · refine List.Nodup.map_on ?_ hn
      intro s hs s' hs' he
      have h0 := congrFun he 0
      have h1 := congrFun he 1
      have h2 := congrFun he 2
      simp at h0 h1 h2
      have e1 := ((hm s).mp hs).2
      have e2 := ((hm s').mp hs').2
      cases s; cases s'
      simp at h0 h1 h2 e1 e2 ⊢
      subst h0 h1 h2
      exact ⟨by rw [e1, e2], rfl, rfl, rfl⟩
    · intro c
      simp only [List.mem_map, hm, Distribute.Box.Has, boxOf, Fin.forall_fin_succ,
        Fin.forall_fin_zero]
      constructor
      · rintro ⟨s, ⟨h, _⟩, rfl⟩
        simp
        tauto
      · intro h
        refine ⟨⟨c 0 + (g.nx + 2) * (c 1 + (g.ny + 2) * c 2), c 0, c 1, c 2⟩, ⟨?_, rfl⟩, ?_⟩
        · simp at h ⊢; tauto
        · apply pos_ext <;> rfl

/-- The result of a phase when the updates of different voxels, and those of the host, do not
interfere.  Update `o` writes `W o` and reads `W o` and `R'`; the host work writes `FH` and reads `FH`
and `RH`. -/
theorem phase_result {A O : Type*} {V : A → Type*} {R : Distribute.Rounding} (hR : R.Accurate)
    {g : LGrid} {lo hi : Pos} {P : ℕ} {ops : Pos → List O} {step : O → Memory V → Memory V}
    {host : List (Memory V → Memory V)} {m m' : Memory V}
    (hlo : ∀ a, lo a ≤ hi a + 1)
    (hN : (hi 0 - lo 0 + 1) * (hi 1 - lo 1 + 1) * (hi 2 - lo 2 + 1) < 2 ^ 31)
    (hP : 0 < P) (hP2 : P ≤ 2 ^ 16) (h : Phase R g lo hi P ops step host m m')
    (bulk : O → Prop)
    (hbulk : ∀ o, bulk o ↔ ∃ c : Pos, (∀ a, lo a ≤ c a ∧ c a ≤ hi a) ∧ o ∈ ops c)
    (W : O → A → Prop) (R' FH RH : A → Prop)
    (hops : ∀ c, (ops c).Nodup) (hops2 : ∀ c d o, o ∈ ops c → o ∈ ops d → c = d)
    (hl : ∀ o, bulk o → Local (W o) R' (step o))
    (hd : ∀ o, bulk o → ∀ o', bulk o' → o ≠ o' → ∀ x, W o x → ¬ W o' x)
    (hR' : ∀ o, bulk o → ∀ x, R' x → ¬ W o x)
    (hh : ∀ f ∈ host, Local FH RH f)
    (hFH : ∀ o, bulk o → ∀ x, FH x → ¬ W o x) (hRH : ∀ o, bulk o → ∀ x, RH x → ¬ W o x)
    (hR'F : ∀ x, R' x → ¬ FH x) (hRHF : ∀ x, RH x → ¬ FH x) :
    (∀ o, bulk o → ∀ x, W o x → m' x = step o m x) ∧
    (∀ x, FH x → m' x = runSeq host m x) ∧
    ∀ x, (∀ o, bulk o → ¬ W o x) → ¬ FH x → m' x = m x := by
  obtain ⟨pre, last, hpre, hlast, hrun⟩ := h
  obtain ⟨pre', last', L, hpre', hlast', hfl, hLn, hLm⟩ :=
    share_spec R hR g lo hi P ops hlo hN hP hP2
  obtain rfl : pre = pre' := by rw [hpre] at hpre'; exact Option.some.inj hpre'
  obtain rfl : last = last' := by rw [hlast] at hlast'; exact Option.some.inj hlast'
  have hmem : ∀ o, o ∈ L.flatMap ops ↔ bulk o := by
    intro o
    rw [List.mem_flatMap, hbulk]
    simp only [hLm]
  have hnd : (L.flatMap ops).Nodup := by
    rw [List.nodup_flatMap]
    refine ⟨fun c _ => hops c, hLn.imp ?_⟩
    intro c d hne o ho ho'
    exact hne (hops2 c d o ho ho')
  have hnd' : ((pre ++ [last]).flatten).Nodup := by simpa [hfl] using hnd
  have hindep : Independent (pre.map (fun l => l.map step) ++ [last.map step ++ host]) := by
    unfold Independent
    rw [List.pairwise_append]
    have hpw := (List.nodup_flatten.mp hnd').2
    rw [List.pairwise_append] at hpw
    have key : ∀ l ∈ pre ++ [last], ∀ o ∈ l, bulk o := by
      intro l hl o ho
      rw [← hmem, ← hfl]
      have : o ∈ (pre ++ [last]).flatten := List.mem_flatten.mpr ⟨l, hl, ho⟩
      simpa using this
    have com : ∀ o o', bulk o → bulk o' → o ≠ o' → Comm (step o) (step o') := fun o o' ho ho' hne =>
      (hl o ho).comm (hl o' ho') (hd o ho o' ho' hne) (hR' o' ho') (hR' o ho)
    refine ⟨?_, by simp, ?_⟩
    · rw [List.pairwise_map]
      refine List.Pairwise.imp_of_mem ?_ hpw.1
      intro l l' hm1 hm2 hdis f hf f' hf'
      obtain ⟨o, ho, rfl⟩ := List.mem_map.mp hf
      obtain ⟨o', ho', rfl⟩ := List.mem_map.mp hf'
      exact com o o' (key l (by simp [hm1]) o ho) (key l' (by simp [hm2]) o' ho')
        (fun e => hdis ho (e ▸ ho'))
    · intro t ht t' ht' f hf f' hf'
      obtain ⟨l, hl', rfl⟩ := List.mem_map.mp ht
      obtain ⟨o, ho, rfl⟩ := List.mem_map.mp hf
      rw [List.mem_singleton] at ht'
      subst ht'
      have bo := key l (by simp [hl']) o ho
      rcases List.mem_append.mp hf' with hf' | hf'
      · obtain ⟨o', ho', rfl⟩ := List.mem_map.mp hf'
        exact com o o' bo (key last (by simp) o' ho')
          (fun e => hpw.2.2 l hl' last (by simp) ho (e ▸ ho'))
      · exact (hl o bo).comm (hh f' hf') (fun x hx hF => hFH o bo x hF hx) hR'F
          (fun x hx => hRH o bo x hx)
  have hseq := runs_eq_seq hrun hindep
  have hflat : (pre.map (fun l => l.map step) ++ [last.map step ++ host]).flatten
      = (L.flatMap ops).map step ++ host := by
    rw [← hfl]
    simp [List.map_append, List.map_flatten]
  rw [hflat, runSeq_append] at hseq
  obtain ⟨s1, s2⟩ := seq_sweep step W R' (L.flatMap ops) hnd
    (fun o ho => hl o ((hmem o).mp ho))
    (fun o ho o' ho' hne => hd o ((hmem o).mp ho) o' ((hmem o').mp ho') hne)
    (fun o ho => hR' o ((hmem o).mp ho)) m
  have hloc := Local.runSeq host hh hRHF
  refine ⟨?_, ?_, ?_⟩
  · intro o ho x hx
    rw [hseq, hloc.frame _ x (fun hF => hFH o ho x hF hx)]
    exact s1 o ((hmem o).mpr ho) x hx
  · intro x hx
    rw [hseq]
    refine hloc.dep _ _ ?_ x hx
    intro y hy
    apply s2
    intro o ho
    rcases hy with hy | hy
    · exact hFH o ((hmem o).mp ho) y hy
    · exact hRH o ((hmem o).mp ho) y hy
  · intro x hx hx'
    rw [hseq, hloc.frame _ x hx']
    exact s2 x fun o ho => hx o ((hmem o).mp ho)

/-- There is an execution. -/
theorem phase_exists {O M : Type*} (R : Distribute.Rounding) (hR : R.Accurate) (g : LGrid)
    (lo hi : Pos) (P : ℕ) (ops : Pos → List O) (step : O → M → M) (host : List (M → M)) (m : M)
    (hlo : ∀ a, lo a ≤ hi a + 1)
    (hN : (hi 0 - lo 0 + 1) * (hi 1 - lo 1 + 1) * (hi 2 - lo 2 + 1) < 2 ^ 31)
    (hP : 0 < P) (hP2 : P ≤ 2 ^ 16) : ∃ m', Phase R g lo hi P ops step host m m' := by
  obtain ⟨pre, last, L, h1, h2, -⟩ := share_spec R hR g lo hi P ops hlo hN hP hP2
  exact ⟨_, pre, last, h1, h2, runs_seq _ m⟩

end Verif.Field
