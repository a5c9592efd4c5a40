import Verif.Boundary.Drop

/-!
# C11 and C14
-/
namespace Verif.Boundary

open Grid (LGrid Cell VOXEL)
open MoveP (Part Mover Accum MState moveP nvox LocalMesh nodeCoord nodeCoord_voxel)
open Deposit (accumulateRhob InCell share cornerNode inside cornerNode_injective)
open Distribute (upTo)
open AdvanceP (moverList)

section
variable {K : Type} [Field K] [LinearOrder K] [IsStrictOrderedRing K]

/-! ### Specification -/

/-- Spec: what a particle at offset `d` in cell `c` of the local domain, carrying `8 W`, adds to the bound charge density
at node `n`: its share divided by the part of the volume of the node that is inside of the domain. -/
def boundShare (g : LGrid) (c : Cell) (d : Fin 3 → K) (W : K) (n : ℤ) : K :=
  ∑ k, if n = cornerNode g c k then share d W k / inside g n else 0

/-- Spec: the cell of a voxel index. -/
def cellAt (g : LGrid) (v : ℤ) : Cell := ⟨(nodeCoord g v).1, (nodeCoord g v).2.1, (nodeCoord g v).2.2⟩

/-- Spec: the particle stopped on face `f` of cell `c`: `move_p` and `advance_p` leave `8*voxel + face` in its voxel
field, and its offset is on that face. -/
structure AtFace (g : LGrid) (p : Part K) (c : Cell) (f : ℤ) : Prop where
  interior : c.Interior g.nx g.ny g.nz
  face : 0 ≤ f ∧ f < 6
  code : p.i = 8 * VOXEL g.nx g.ny c.x c.y c.z + f
  on : p.d (axisOf f) = if f < 3 then -1 else 1
  inside : ∀ k, -1 ≤ p.d k ∧ p.d k ≤ 1

/-- Spec: what a particle whose voxel field holds voxel and face adds to the bound charge density. -/
def boundCharge (g : LGrid) (r8V q : K) (p : Part K) (n : ℤ) : K :=
  boundShare g (cellAt g (p.i / 8)) p.d (q * r8V * p.w) n

/-! ### Lemmas -/

lemma cellAt_voxel {g : LGrid} (h : LocalMesh g) {c : Cell} (hc : c.Interior g.nx g.ny g.nz) :
    cellAt g (VOXEL g.nx g.ny c.x c.y c.z) = c := by
  obtain ⟨a1, a2, a3, a4, a5, a6⟩ := hc
  unfold cellAt
  rw [nodeCoord_voxel g h.nx h.ny (by omega) (by omega)]

lemma inside_ne (g : LGrid) (n : ℤ) : (inside g n : K) ≠ 0 := by
  unfold inside
  refine Finset.prod_ne_zero_iff.mpr fun a _ => ?_
  split_ifs <;> norm_num

lemma accumulateRhob_eq {g : LGrid} (h : LocalMesh g) (r8V q : K) (p : Part K) (c : Cell) (hp : InCell g p c)
    (rhob : ℤ → K) : accumulateRhob g r8V q p rhob =
      some fun n => rhob n + boundShare g c p.d (q * r8V * p.w) n := by
  obtain ⟨rhob', e, -, h2, h3⟩ := Deposit.rhob_conserves h r8V q p c hp rhob
  rw [e]
  congr 1
  funext n
  unfold boundShare
  by_cases hn : ∃ k, n = cornerNode g c k
  · obtain ⟨k, rfl⟩ := hn
    simp only [(cornerNode_injective h c hp.1).eq_iff]
    rw [Finset.sum_ite_eq]
    simp only [Finset.mem_univ, if_true]
    rw [← h3 k, mul_div_cancel_left₀ _ (inside_ne g _)]
    ring
  · push Not at hn
    rw [h2 n hn, Finset.sum_eq_zero fun k _ => if_neg (hn k), add_zero]

lemma AtFace.decode {g : LGrid} {p : Part K} {c : Cell} {f : ℤ} (h : AtFace g p c f) :
    p.i / 8 = VOXEL g.nx g.ny c.x c.y c.z ∧ p.i % 8 = f := by
  have h1 := h.code
  have h2 := h.face
  omega

/-- **C21 for stopped particles.**  The total added, weighted with the part of the node volumes that is inside, is the
charge. -/
theorem boundCharge_total {g : LGrid} (h : LocalMesh g) (r8V q : K) (p : Part K) (c : Cell) (f : ℤ)
    (hp : AtFace g p c f) :
    ∑ n ∈ Finset.Ico 0 (nvox g), inside g n * boundCharge g r8V q p n = 8 * r8V * (q * p.w) := by
  have hi : InCell g { p with i := p.i / 8 } c := ⟨hp.interior, hp.decode.1⟩
  obtain ⟨rhob', e, h1, -, -⟩ := Deposit.rhob_conserves h r8V q _ c hi (fun _ => 0)
  rw [accumulateRhob_eq h r8V q _ c hi] at e
  rw [Option.some.injEq] at e
  rw [← h1, ← e]
  refine Finset.sum_congr rfl fun n _ => ?_
  unfold boundCharge
  rw [hp.decode.1, cellAt_voxel h hp.interior]
  ring

/-! ### Properties -/

/-- **C11.**  The loop over the movers, whatever is done with the particles: if it completes, the remaining array holds,
up to order, exactly the particles not named by the strictly increasing mover list, each once, unchanged, the number of
particles has decreased by the number of movers and the handler has seen each named particle once, as it was. -/
theorem backfill_removes_named {σ : Type*} (act : Part K → (Fin 3 → K) → σ → Option σ) (max_np : ℕ)
    (pm : ℤ → Mover K) (nm : ℕ) (p : ℤ → Part K) (np : ℕ) (hnp : np ≤ max_np)
    (hm : ((moverList pm nm).map Mover.i).Pairwise (· < ·)) (hb : ∀ m ∈ moverList pm nm, 0 ≤ m.i ∧ m.i < np)
    (s s' : σ) (p' : ℤ → Part K) (np' : ℕ) (h : dropMovers act max_np pm nm p np s = some (p', np', s')) :
    np' + nm = np ∧ (live p' np').Perm (unnamed p np (moverList pm nm)) ∧
    (((moverList pm nm).reverse.map fun m => (p m.i, m.disp)).foldlM (fun s x => act x.1 x.2 s) s = some s') := by
  obtain ⟨h1, p1, h2, h3⟩ := dropMovers_spec act max_np pm nm p np hnp ⟨hm, hb⟩
  rw [h3 s] at h
  cases hf : (named p (moverList pm nm)).foldlM (fun s x => act x.1 x.2 s) s with
  | none => rw [hf] at h; simp at h
  | some s1 =>
    rw [hf] at h
    simp only [Option.map_some, Option.some.injEq, Prod.mk.injEq] at h
    obtain ⟨rfl, rfl, rfl⟩ := h
    exact ⟨by omega, h2, hf⟩

/-- **C11, progress.**  The loop never leaves the particle array: it completes whenever the handling of the particles
does. -/
theorem backfill_completes {σ : Type*} (act : Part K → (Fin 3 → K) → σ → Option σ) (max_np : ℕ)
    (pm : ℤ → Mover K) (nm : ℕ) (p : ℤ → Part K) (np : ℕ) (hnp : np ≤ max_np)
    (hm : ((moverList pm nm).map Mover.i).Pairwise (· < ·)) (hb : ∀ m ∈ moverList pm nm, 0 ≤ m.i ∧ m.i < np)
    (s : σ) (ha : ∀ m ∈ moverList pm nm, ∀ s, act (p m.i) m.disp s ≠ none) :
    dropMovers act max_np pm nm p np s ≠ none := by
  obtain ⟨-, p1, -, h3⟩ := dropMovers_spec act max_np pm nm p np hnp ⟨hm, hb⟩
  rw [h3 s]
  have : ∀ (l : List (Mover K)), (∀ m ∈ l, m ∈ moverList pm nm) → ∀ s,
      (l.map fun m => (p m.i, m.disp)).foldlM (fun s x => act x.1 x.2 s) s ≠ none := by
    intro l
    induction l with
    | nil => intro _ s; simp
    | cons m l ih =>
      intro hl s
      rw [List.map_cons, List.foldlM_cons]
      obtain ⟨s1, h1⟩ := Option.ne_none_iff_exists'.mp (ha m (hl m (by simp)) s)
      show Option.bind (act (p m.i) m.disp s) _ ≠ none
      rw [h1]
      exact ih (fun m hm => hl m (by simp [hm])) s1
  have := this (moverList pm nm).reverse (by simp) s
  unfold named
  simpa using this

lemma foldlM_rhob {g : LGrid} (h : LocalMesh g) (r8V q : K) (l : List (Part K × (Fin 3 → K)))
    (hl : ∀ x ∈ l, ∃ c f, AtFace g x.1 c f) (rhob : ℤ → K) :
    l.foldlM (fun rhob x => accumulateRhob g r8V q { x.1 with i := x.1.i / 8 } rhob) rhob =
      some fun n => rhob n + (l.map fun x => boundCharge g r8V q x.1 n).sum := by
  induction l generalizing rhob with
  | nil => simp
  | cons x l ih =>
    rw [List.foldlM_cons]
    obtain ⟨c, f, hx⟩ := hl x (by simp)
    rw [accumulateRhob_eq h r8V q _ c ⟨hx.interior, hx.decode.1⟩]
    show List.foldlM _ _ l = _
    rw [ih (fun y hy => hl y (by simp [hy]))]
    congr 1
    funext n
    rw [List.map_cons, List.sum_cons]
    unfold boundCharge
    rw [hx.decode.1, cellAt_voxel h hx.interior]
    ring

/-- **C14.**  For every species whose mover list is strictly increasing and names particles stopped at a face: the removal
at the end of a step completes, empties the mover list, keeps exactly the particles not named (each once, unchanged), and
adds to the bound charge density what each removed particle carries, at its decoded voxel; the charge added in total is
the charge removed. -/
theorem end_of_step {g : LGrid} (hg : LocalMesh g) (r8V : K) (sp : Species K) (hnp : sp.np ≤ sp.max_np)
    (hm : ((moverList sp.pm sp.nm).map Mover.i).Pairwise (· < ·))
    (hb : ∀ m ∈ moverList sp.pm sp.nm, 0 ≤ m.i ∧ m.i < sp.np ∧ ∃ c f, AtFace g (sp.p m.i) c f) (rhob : ℤ → K) :
    ∃ sp' rhob', finishSpecies g r8V sp rhob = some (sp', rhob') ∧ sp'.nm = 0 ∧ sp'.np + sp.nm = sp.np ∧
      sp'.max_np = sp.max_np ∧ sp'.q = sp.q ∧
      (live sp'.p sp'.np).Perm (unnamed sp.p sp.np (moverList sp.pm sp.nm)) ∧
      (∀ n, rhob' n = rhob n + ((moverList sp.pm sp.nm).map fun m => boundCharge g r8V sp.q (sp.p m.i) n).sum) ∧
      ∑ n ∈ Finset.Ico 0 (nvox g), inside g n * (rhob' n - rhob n) =
        ((moverList sp.pm sp.nm).map fun m => 8 * r8V * (sp.q * (sp.p m.i).w)).sum := by
  obtain ⟨h1, p1, h2, h3⟩ := dropMovers_spec (fun p _ rhob => accumulateRhob g r8V sp.q { p with i := p.i / 8 } rhob)
    sp.max_np sp.pm sp.nm sp.p sp.np hnp ⟨hm, fun m hm => ⟨(hb m hm).1, (hb m hm).2.1⟩⟩
  have h4 := h3 rhob
  rw [foldlM_rhob hg r8V sp.q (named sp.p (moverList sp.pm sp.nm)) (by
    intro x hx
    simp only [named, List.mem_map, List.mem_reverse] at hx
    obtain ⟨m, hm, rfl⟩ := hx
    exact (hb m hm).2.2)] at h4
  have hs : ∀ n, ((named sp.p (moverList sp.pm sp.nm)).map fun x => boundCharge g r8V sp.q x.1 n).sum =
      ((moverList sp.pm sp.nm).map fun m => boundCharge g r8V sp.q (sp.p m.i) n).sum := by
    intro n
    unfold named
    rw [List.map_map, List.map_reverse, List.sum_reverse]
    rfl
  refine ⟨{ sp with p := p1, np := sp.np - sp.nm, nm := 0 },
    fun n => rhob n + ((named sp.p (moverList sp.pm sp.nm)).map fun x => boundCharge g r8V sp.q x.1 n).sum,
    by unfold finishSpecies; rw [h4]; rfl, rfl, by show sp.np - sp.nm + sp.nm = sp.np; omega, rfl, rfl, h2,
    fun n => by rw [← hs], ?_⟩
  simp only [add_sub_cancel_left, hs]
  have hb' : ∀ m ∈ moverList sp.pm sp.nm, ∃ c f, AtFace g (sp.p m.i) c f := fun m hm => (hb m hm).2.2
  generalize moverList sp.pm sp.nm = l at hb'
  induction l with
  | nil => simp
  | cons m l ih =>
    simp only [List.map_cons, List.sum_cons, mul_add, Finset.sum_add_distrib]
    obtain ⟨c, f, hx⟩ := hb' m (by simp)
    rw [boundCharge_total hg r8V sp.q _ c f hx]
    congr 1
    exact ih fun m hm => hb' m (by simp [hm])

end

end Verif.Boundary
