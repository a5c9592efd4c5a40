import Verif.Global.RunProps

/-!
# No place of a periodic box is special (C101), and no particle is lost (C102)
-/
namespace Verif.Global

open Grid MoveP Charge Torus Threads
open Field (Pos FC EntOn fieldExt vox)
open SfInterface (Scales unloadC)

section
variable {K : Type}

/-- Spec: the place `T` cells further in a periodic box. -/
def ahead (N T : Pos) (s : Pos) : Pos := fun a => (s a + T a) % N a

/-- Spec: the particle `T` cells further. -/
def GPart.ahead (N T : Pos) (p : GPart K) : GPart K := { p with cell := Global.ahead N T p.cell }

/-- Spec: all that a box contains, `T` cells further. -/
def Box.ahead (N T : Pos) (x : Box K) : Box K :=
  ⟨fun id => (x.parts id).map (GPart.ahead N T), fun k s => x.f k (Global.ahead N (-T) s)⟩

/-- Spec: the materials of a box, `T` cells further. -/
def Universe.ahead (T : Pos) (U : Universe K) : Universe K :=
  { U with M := ⟨fun a s => U.M.edge a (Global.ahead U.N (-T) s), fun a s => U.M.face a (Global.ahead U.N (-T) s),
    fun s => U.M.node (Global.ahead U.N (-T) s)⟩ }

/-! ### Places -/

lemma ahead_next (N T : Pos) (a : Fin 3) (s : Pos) : ahead N T (next N a s) = next N a (ahead N T s) := by
  funext b
  unfold ahead next
  split_ifs with h
  · rw [Int.emod_add_emod, Int.emod_add_emod]
    congr 1
    ring
  · rfl

lemma ahead_prev (N T : Pos) (a : Fin 3) (s : Pos) : ahead N T (prev N a s) = prev N a (ahead N T s) := by
  funext b
  unfold ahead prev
  split_ifs with h
  · rw [Int.emod_add_emod, Int.emod_sub_emod]
    congr 1
    ring
  · rfl

lemma ahead_back {N : Pos} (T : Pos) {s : Pos} (h : Site N s) : ahead N (-T) (ahead N T s) = s := by
  funext b
  unfold ahead
  have : ((s b + T b) % N b + (-T) b) % N b = s b % N b := by
    rw [Int.emod_add_emod]
    congr 1
    simp
  rw [this]
  exact Int.emod_eq_of_lt (h b).1 (h b).2

lemma ahead_site {N : Pos} (T : Pos) {s : Pos} (h : Site N s) : Site N (ahead N T s) := fun b =>
  ⟨Int.emod_nonneg _ (by have := h b; omega), Int.emod_lt_of_pos _ (by have := h b; omega)⟩

lemma ahead_inj {N T s t : Pos} (hs : Site N s) (ht : Site N t) : ahead N T s = ahead N T t ↔ s = t :=
  ⟨fun h => by rw [← ahead_back T hs, h, ahead_back T ht], fun h => by rw [h]⟩

lemma corner_site {N s : Pos} (h : Site N s) (k : Fin 8) : Site N (corner N s k) := fun b =>
  ⟨Int.emod_nonneg _ (by have := h b; omega), Int.emod_lt_of_pos _ (by have := h b; omega)⟩

lemma ahead_corner (N T s : Pos) (k : Fin 8) : ahead N T (corner N s k) = corner N (ahead N T s) k := by
  funext b
  unfold ahead corner
  rw [Int.emod_add_emod, Int.emod_add_emod]
  congr 1
  ring

/-- `f'` is `f`, `T` cells further. -/
def Same {V : Type*} (N T : Pos) (f f' : Pos → V) : Prop := ∀ s, Site N s → f' (ahead N T s) = f s

/-- Sums over the box. -/
lemma Same.sum [AddCommMonoid K] {N T : Pos} {f f' : Pos → K} (h : Same N T f f') : ∑ s ∈ sites N, f' s = ∑ s ∈ sites N, f s := by
  symm
  refine Finset.sum_nbij' (ahead N T) (ahead N (-T)) (fun s hs => mem_sites.mpr (ahead_site T (mem_sites.mp hs)))
    (fun s hs => mem_sites.mpr (ahead_site _ (mem_sites.mp hs))) (fun s hs => ahead_back T (mem_sites.mp hs)) (fun s hs => ?_)
    (fun s hs => (h s (mem_sites.mp hs)).symm)
  have := ahead_back (-T) (mem_sites.mp hs)
  rwa [neg_neg] at this

/-- Fields `T` cells further. -/
def SameF (N T : Pos) (G G' : Fields K) : Prop := ∀ k, Same N T (G k) (G' k)

/-- Materials `T` cells further. -/
structure SameM (N T : Pos) (M M' : Medium K) : Prop where
  edge : ∀ a, Same N T (M.edge a) (M'.edge a)
  face : ∀ a, Same N T (M.face a) (M'.face a)
  node : Same N T M.node M'.node

variable [Field K]

/-! ### Fields -/

section
variable {N T : Pos} (C : Consts K) {M M' : Medium K} (hM : SameM N T M M') {G G' : Fields K} (hG : SameF N T G G')

include hG in
lemma yeeB_ahead (frac : K) : SameF N T (yeeB N C frac G) (yeeB N C frac G') := by
  intro k s hs
  cases k
  case cb a =>
    simp only [yeeB, ← ahead_next]
    rw [hG _ s hs, hG _ s hs, hG _ s hs, hG _ _ (next_site hs _), hG _ _ (next_site hs _)]
  all_goals exact hG _ s hs

include hM hG

lemma hOf_ahead (b : Fin 3) : Same N T (hOf M G b) (hOf M' G' b) := fun s hs => by
  unfold hOf
  rw [hG _ s hs, hM.face b s hs]

lemma curlH_ahead (a : Fin 3) : Same N T (curlH N C M G a) (curlH N C M' G' a) := fun s hs => by
  unfold curlH
  simp only [← ahead_prev]
  rw [hOf_ahead hM hG _ s hs, hOf_ahead hM hG _ s hs, hOf_ahead hM hG _ _ (prev_site hs _), hOf_ahead hM hG _ _ (prev_site hs _)]

lemma tcaNew_ahead (a : Fin 3) : Same N T (tcaNew N C M G a) (tcaNew N C M' G' a) := fun s hs => by
  unfold tcaNew
  rw [curlH_ahead C hM hG a s hs, hG _ s hs]

lemma yeeE_ahead : SameF N T (yeeE N C M G) (yeeE N C M' G') := by
  intro k s hs
  cases k
  case tca a => exact tcaNew_ahead C hM hG a s hs
  case e a =>
    simp only [yeeE]
    rw [hM.edge a s hs, hG _ s hs, hG _ s hs, tcaNew_ahead C hM hG a s hs]
  all_goals exact hG _ s hs

lemma stepped_ahead : SameF N T (stepped N C M G) (stepped N C M' G') :=
  yeeB_ahead C (yeeE_ahead C hM (yeeB_ahead C hG _)) _

lemma gaussErr_ahead : Same N T (gaussErr N C M G) (gaussErr N C M' G') := fun s hs => by
  unfold gaussErr
  simp only [← ahead_prev]
  rw [hM.node s hs, hG _ s hs, hG _ s hs]
  congr 2
  exact Finset.sum_congr rfl fun a _ => by rw [hM.edge a s hs, hM.edge a _ (prev_site hs a), hG _ s hs, hG _ _ (prev_site hs a)]

lemma marderE_ahead {E E' : Pos → K} (hE : Same N T E E') (a : Fin 3) : Same N T (marderEOf N C M E G a) (marderEOf N C M' E' G' a) := fun s hs => by
  unfold marderEOf
  simp only [← ahead_next]
  rw [hM.edge a s hs, hG _ s hs, hE s hs, hE _ (next_site hs a)]

omit hM

lemma divB_ahead : Same N T (divBAt N C G) (divBAt N C G') := fun s hs => by
  unfold divBAt
  simp only [← ahead_next]
  exact Finset.sum_congr rfl fun a _ => by rw [hG _ s hs, hG _ _ (next_site hs a)]

lemma marderB_ahead (a : Fin 3) : Same N T (marderBOf N C G a) (marderBOf N C G' a) := fun s hs => by
  unfold marderBOf
  simp only [← ahead_prev]
  rw [hG _ s hs, divB_ahead C hG s hs, divB_ahead C hG _ (prev_site hs a)]

lemma setJ_ahead {J J' : Fin 3 → Pos → K} (h : ∀ a, Same N T (J a) (J' a)) : SameF N T (setJ J G) (setJ J' G') := fun k s hs => by
  cases k <;> first | exact h _ s hs | exact hG _ s hs
lemma setE_ahead {J J' : Fin 3 → Pos → K} (h : ∀ a, Same N T (J a) (J' a)) : SameF N T (setE J G) (setE J' G') := fun k s hs => by
  cases k <;> first | exact h _ s hs | exact hG _ s hs
lemma setB_ahead {J J' : Fin 3 → Pos → K} (h : ∀ a, Same N T (J a) (J' a)) : SameF N T (setB J G) (setB J' G') := fun k s hs => by
  cases k <;> first | exact h _ s hs | exact hG _ s hs
lemma setT_ahead {J J' : Fin 3 → Pos → K} (h : ∀ a, Same N T (J a) (J' a)) : SameF N T (setT J G) (setT J' G') := fun k s hs => by
  cases k <;> first | exact h _ s hs | exact hG _ s hs
lemma setRho_ahead {ρ ρ' : Pos → K} (h : Same N T ρ ρ') : SameF N T (setRho ρ G) (setRho ρ' G') := fun k s hs => by
  cases k <;> first | exact h s hs | exact hG _ s hs
lemma setRhob_ahead {ρ ρ' : Pos → K} (h : Same N T ρ ρ') : SameF N T (setRhob ρ G) (setRhob ρ' G') := fun k s hs => by
  cases k <;> first | exact h s hs | exact hG _ s hs

lemma interp_ahead : Same N T (interpOf N G) (interpOf N G') := fun s hs => by
  have hn : ∀ a b k, G' k (next N a (next N b (ahead N T s))) = G k (next N a (next N b s)) := fun a b k => by
    rw [← ahead_next, ← ahead_next, hG _ _ (next_site (next_site hs _) _)]
  have h1 : ∀ a k, G' k (next N a (ahead N T s)) = G k (next N a s) := fun a k => by
    rw [← ahead_next, hG _ _ (next_site hs _)]
  have h0 : ∀ k, G' k (ahead N T s) = G k s := fun k => hG k s hs
  unfold interpOf edge4
  simp only [hn, h1, h0]

end

/-- The universe `T` cells further. -/
structure SameU (T : Pos) (U U' : Universe K) : Prop where
  N : U'.N = U.N
  C : U'.C = U.C
  M : SameM U.N T U.M U'.M
  sc : U'.sc = U.sc
  nsp : U'.nsp = U.nsp
  q : U'.q = U.q

section
variable {T : Pos} {U U' : Universe K} (hU : SameU T U U')
include hU

lemma rmsOf_ahead (rt : K → K) {E E' : Pos → K} (h : Same U.N T E E') : rmsOf rt U' E' = rmsOf rt U E := by
  unfold rmsOf
  rw [hU.N, hU.C, Same.sum (T := T) (f := fun s => E s ^ 2) (f' := fun s => E' s ^ 2) fun s hs => by simp only [h s hs]]

lemma roundsE_ahead (rt : K → K) (R : ℤ) (k : ℕ) : ∀ (i : ℤ) {G G' : Fields K}, SameF U.N T G G' →
    SameF U.N T (roundsE U rt R k i G).1 (roundsE U' rt R k i G').1 ∧ (roundsE U' rt R k i G').2 = (roundsE U rt R k i G).2 := by
  induction k with
  | zero => exact fun i G G' h => ⟨h, rfl⟩
  | succ k ih =>
    intro i G G' h
    have hE := gaussErr_ahead U.C hU.M h
    obtain ⟨a, b⟩ := ih (i + 1) (setE_ahead h (marderE_ahead U.C hU.M h hE))
    simp only [roundsE, hU.N, hU.C]
    exact ⟨a, by rw [b, rmsOf_ahead hU rt hE]⟩

lemma roundsB_ahead (rt : K → K) (R : ℤ) (k : ℕ) : ∀ (i : ℤ) {G G' : Fields K}, SameF U.N T G G' →
    SameF U.N T (roundsB U rt R k i G).1 (roundsB U' rt R k i G').1 ∧ (roundsB U' rt R k i G').2 = (roundsB U rt R k i G).2 := by
  induction k with
  | zero => exact fun i G G' h => ⟨h, rfl⟩
  | succ k ih =>
    intro i G G' h
    have hE := divB_ahead U.C h
    obtain ⟨a, b⟩ := ih (i + 1) (setB_ahead h (marderB_ahead U.C h))
    simp only [roundsB, hU.N, hU.C]
    exact ⟨a, by rw [b, rmsOf_ahead hU rt hE]⟩

lemma fieldStep_ahead (rt : K → K) (A : Settings) (step : ℤ) {J J' : Fin 3 → Pos → K} (hJ : ∀ a, Same U.N T (J a) (J' a))
    {ρ ρ' : Pos → K} (hρ : Same U.N T ρ ρ') {G G' : Fields K} (hG : SameF U.N T G G') :
    SameF U.N T (fieldStep U rt A step J ρ G).1 (fieldStep U' rt A step J' ρ' G').1 ∧
      (fieldStep U' rt A step J' ρ' G').2 = (fieldStep U rt A step J ρ G).2 := by
  have h1 := stepped_ahead U.C hU.M (setJ_ahead hG hJ)
  unfold fieldStep
  simp only [hU.N, hU.C]
  have hx := roundsE_ahead hU rt A.num_div_e_round A.num_div_e_round.toNat 0 (setRho_ahead h1 hρ)
  by_cases he : due A.clean_div_e_interval step <;> by_cases hb : due A.clean_div_b_interval step <;>
    simp only [he, hb, if_true, if_false]
  · have hy := roundsB_ahead hU rt A.num_div_b_round A.num_div_b_round.toNat 0 hx.1
    exact ⟨hy.1, by rw [hy.2, hx.2]⟩
  · exact ⟨hx.1, by rw [hx.2]⟩
  · have hy := roundsB_ahead hU rt A.num_div_b_round A.num_div_b_round.toNat 0 h1
    exact ⟨hy.1, by rw [hy.2]⟩
  · exact ⟨h1, trivial⟩

end

/-! ### Particles -/

/-- Particles inside the box. -/
def InBox (N : Pos) (P : Multiset (GPart K)) : Prop := ∀ p ∈ P, Site N p.cell

lemma put_ahead {N T s : Pos} (hs : Site N s) (j : Fin 12 → K) : Same N T (put s j) (put (ahead N T s) j) := fun t ht => by
  funext k
  unfold put
  simp only [ahead_inj ht hs]

lemma Same.add {V : Type*} [Add V] {N T : Pos} {f f' g g' : Pos → V} (h : Same N T f f') (h' : Same N T g g') : Same N T (f + g) (f' + g') :=
  fun s hs => by rw [Pi.add_apply, Pi.add_apply, h s hs, h' s hs]

lemma Same.msum {V A : Type*} [AddCommMonoid V] {N T : Pos} (P : Multiset A) {f f' : A → Pos → V} (h : ∀ p ∈ P, Same N T (f p) (f' p)) :
    Same N T (P.map f).sum (P.map f').sum := by
  induction P using Multiset.induction_on with
  | empty => exact fun s _ => rfl
  | cons a P ih =>
    simp only [Multiset.map_cons, Multiset.sum_cons]
    exact (h a (Multiset.mem_cons_self a P)).add (ih fun p hp => h p (Multiset.mem_cons_of_mem hp))

lemma Same.fsum {V A : Type*} [AddCommMonoid V] {N T : Pos} (P : Finset A) {f f' : A → Pos → V} (h : ∀ p ∈ P, Same N T (f p) (f' p)) :
    Same N T (∑ p ∈ P, f p) (∑ p ∈ P, f' p) := fun s hs => by
  rw [Finset.sum_apply, Finset.sum_apply]
  exact Finset.sum_congr rfl fun p hp => h p hp s hs

lemma share_ahead {N T : Pos} (q : K) {p : GPart K} (hp : Site N p.cell) : Same N T (share N q p) (share N q (p.ahead N T)) := fun s hs => by
  unfold share
  refine Finset.sum_congr rfl fun k _ => ?_
  simp only [GPart.ahead, ← ahead_corner, ahead_inj (corner_site hp k) hs]

lemma density_ahead {T : Pos} {U U' : Universe K} (hU : SameU T U U') {P P' : ℕ → Multiset (GPart K)}
    (hP : ∀ id < U.nsp, P' id = (P id).map (GPart.ahead U.N T)) (hi : ∀ id < U.nsp, InBox U.N (P id)) :
    Same U.N T (density U P) (density U' P') := fun s hs => by
  unfold density
  rw [hU.nsp, hU.N, hU.q, hU.sc]
  refine Finset.sum_congr rfl fun id hid => ?_
  have hid := Finset.mem_range.mp hid
  rw [hP id hid, Multiset.map_map]
  exact congrArg _ (Multiset.map_congr rfl fun p hp => share_ahead _ (hi id hid p hp) s hs)

lemma current_ahead (sc : Scales K) {N T : Pos} {A A' : GAccum K} (h : Same N T A A') (a : Fin 3) : Same N T (current N sc A a) (current N sc A' a) :=
  fun s hs => by
    unfold current
    simp only [← ahead_prev]
    rw [h s hs, h _ (prev_site hs _), h _ (prev_site hs _), h _ (prev_site (prev_site hs _) _)]

lemma beyond_site {N s : Pos} (h : Site N s) (a : Fin 3) (up : Bool) : Site N (beyond N a up s) := by
  unfold beyond
  split_ifs
  exacts [next_site h a, prev_site h a]

lemma ahead_beyond (N T : Pos) (a : Fin 3) (up : Bool) (s : Pos) : ahead N T (beyond N a up s) = beyond N a up (ahead N T s) := by
  unfold beyond
  split_ifs
  exacts [ahead_next N T a s, ahead_prev N T a s]

variable [LinearOrder K]

lemma walk_ahead {N T : Pos} (q : K) (fuel : ℕ) : ∀ {p p1 : GPart K} {disp : Fin 3 → K} {A : GAccum K}, Site N p.cell →
    walk N q fuel p disp = some (p1, A) →
    Site N p1.cell ∧ p1.w = p.w ∧ ∃ A', walk N q fuel (p.ahead N T) disp = some (p1.ahead N T, A') ∧ Same N T A A' := by
  induction fuel with
  | zero => intro p p1 disp A _ h; simp [walk] at h
  | succ fuel ih =>
    intro p p1 disp A hp h
    unfold walk at h
    unfold walk
    simp only [GPart.ahead] at h ⊢
    rcases hst : (streakOf p.d disp).2.1 with _ | a
    · rw [hst] at h
      simp only [Option.some.injEq, Prod.mk.injEq] at h
      obtain ⟨rfl, rfl⟩ := h
      exact ⟨hp, rfl, _, rfl, put_ahead hp _⟩
    · rw [hst] at h
      simp only [Option.map_eq_some_iff] at h
      obtain ⟨⟨p2, A2⟩, h2, e⟩ := h
      simp only [Prod.mk.injEq] at e
      obtain ⟨rfl, rfl⟩ := e
      obtain ⟨s1, s2, A', e', hA⟩ := ih (beyond_site hp a _) h2
      refine ⟨s1, s2, _, ?_, (put_ahead hp _).add hA⟩
      simp only [GPart.ahead, ahead_beyond] at e'
      simp only [e']
      rfl

lemma push_ahead {N T : Pos} {fi fi' : Pos → Boris.Interp K} (hf : Same N T fi fi') (L : Law K) (fuel : ℕ) {p p1 : GPart K} {A : GAccum K}
    (hp : Site N p.cell) (h : push N fi L fuel p = some (p1, A)) :
    Site N p1.cell ∧ p1.w = p.w ∧ ∃ A', push N fi' L fuel (p.ahead N T) = some (p1.ahead N T, A') ∧ Same N T A A' := by
  unfold push at h ⊢
  simp only [GPart.ahead, hf p.cell hp] at h ⊢
  split_ifs at h ⊢ with hb
  · simp only [Option.some.injEq, Prod.mk.injEq] at h
    obtain ⟨rfl, rfl⟩ := h
    exact ⟨hp, rfl, _, rfl, put_ahead hp _⟩
  · exact walk_ahead (T := T) _ fuel (by exact hp) h

/-! ### Runs -/

/-- `x'` is `x`, `T` cells further, and the particles are inside. -/
structure SameX (T : Pos) (U : Universe K) (x x' : Box K) : Prop where
  parts : ∀ id < U.nsp, x'.parts id = (x.parts id).map (GPart.ahead U.N T)
  inside : ∀ id < U.nsp, InBox U.N (x.parts id)
  fields : SameF U.N T x.f x'.f

variable {T : Pos} {U U' : Universe K} (hU : SameU T U U') {V V' : Drive K} (hV : ∀ id, lawAt V' U'.q id = lawAt V U.q id) (hrt : V'.rt = V.rt)
include hU hV hrt

lemma boxCycle_ahead {A : Settings} {step : ℤ} {x x' y y' : Box K} {l l' : List (Msg K)} (hx : SameX T U x x')
    (h : BoxCycle U V A step x y l) (h' : BoxCycle U' V' A step x' y' l') : SameX T U y y' ∧ l' = l := by
  obtain ⟨adv, a1, a2, a3⟩ := h.run
  obtain ⟨adv', b1, b2, b3⟩ := h'.run
  rw [hU.N, hU.sc, hU.nsp, hrt] at b3
  rw [hU.nsp] at b1 b2
  rw [hU.N] at b1
  have key : ∀ id < U.nsp, ∀ p ∈ x.parts id, Site U.N (adv id p).1.cell ∧ adv' id (p.ahead U.N T) = ((adv id p).1.ahead U.N T, (adv' id (p.ahead U.N T)).2) ∧
      Same U.N T (adv id p).2 (adv' id (p.ahead U.N T)).2 := by
    intro id hid p hp
    obtain ⟨s1, -, A', e, hA⟩ := push_ahead (interp_ahead hx.fields) (lawAt V U.q id) 4 (hx.inside id hid p hp) (a1 id hid p hp)
    have e' := b1 id hid (p.ahead U.N T) (by rw [hx.parts id hid]; exact Multiset.mem_map_of_mem _ hp)
    rw [hV id, e, Option.some.injEq] at e'
    rw [← e']
    exact ⟨s1, rfl, hA⟩
  have hp : ∀ id < U.nsp, y'.parts id = (y.parts id).map (GPart.ahead U.N T) := fun id hid => by
    rw [a2, b2, if_pos hid, if_pos hid, hx.parts id hid, Multiset.map_map, Multiset.map_map]
    exact Multiset.map_congr rfl fun p hp => by
      show (adv' id (p.ahead U.N T)).1 = _
      rw [(key id hid p hp).2.1]
      rfl
  have hin : ∀ id < U.nsp, InBox U.N (y.parts id) := fun id hid p hp => by
    rw [a2, if_pos hid, Multiset.mem_map] at hp
    obtain ⟨p0, h0, rfl⟩ := hp
    exact (key id hid p0 h0).1
  have hA : Same U.N T (∑ id ∈ Finset.range U.nsp, ((x.parts id).map fun p => (adv id p).2).sum)
      (∑ id ∈ Finset.range U.nsp, ((x'.parts id).map fun p => (adv' id p).2).sum) := by
    refine Same.fsum _ fun id hid => ?_
    have hid := Finset.mem_range.mp hid
    rw [hx.parts id hid, Multiset.map_map]
    exact Same.msum _ fun p hp => (key id hid p hp).2.2
  obtain ⟨f1, f2⟩ := fieldStep_ahead hU V.rt A step (current_ahead U.sc hA) (density_ahead hU hp hin) hx.fields
  rw [← a3, ← b3] at f1 f2
  exact ⟨⟨hp, hin, f1⟩, f2⟩

lemma boxCycles_ahead {A : Settings} {i j : ℤ} {x x' y y' : Box K} {l l' : List (Msg K)} (hx : SameX T U x x')
    (h : BoxCycles U V A i x j y l) (h' : BoxCycles U' V' A i x' j y' l') : SameX T U y y' ∧ l' = l := by
  induction h generalizing y' l' with
  | refl =>
    cases h' with
    | refl => exact ⟨hx, rfl⟩
    | step h1 h2 => have := boxCycles_le h1; omega
  | @step j y1 y2 l1 l2 h1 h2 ih =>
    generalize hj : j + 1 = j' at h'
    cases h' with
    | refl => have := boxCycles_le h1; omega
    | @step j2 z1 _ k1 k2 g1 g2 =>
      obtain rfl : j = j2 := by omega
      obtain ⟨s, rfl⟩ := ih g1
      obtain ⟨s', rfl⟩ := boxCycle_ahead hU hV hrt s h2 g2
      exact ⟨s', rfl⟩

lemma boundCharge_ahead {G G' : Fields K} (hG : SameF U.N T G G') : Same U.N T (boundCharge U G) (boundCharge U' G') := fun s hs => by
  unfold boundCharge
  rw [hU.N, hU.C]
  simp only [← ahead_prev]
  rw [hU.M.node s hs, hG _ s hs]
  congr 3
  exact Finset.sum_congr rfl fun a _ => by rw [hU.M.edge a s hs, hU.M.edge a _ (prev_site hs a), hG _ s hs, hG _ _ (prev_site hs a)]

lemma boxBegin_ahead {x x' : Box K} (hx : SameX T U x x') :
    SameX T U (boxBegin U V x).1 (boxBegin U' V' x').1 ∧ (boxBegin U' V' x').2 = (boxBegin U V x).2 := by
  have hd := density_ahead hU hx.parts hx.inside
  have g1 := setB_ahead hx.fields (marderB_ahead U.C hx.fields)
  have g2 := setT_ahead g1 (J := fun a s => U.C.cvac * U.C.dt * curlH U.N U.C U.M (setB (marderBOf U.N U.C x.f) x.f) a s)
    (J' := fun a s => U.C.cvac * U.C.dt * curlH U.N U.C U'.M (setB (marderBOf U.N U.C x'.f) x'.f) a s)
    fun a s hs => by simp only [curlH_ahead U.C hU.M g1 a s hs]
  have g3 := setRho_ahead g2 hd
  have g4 := setRhob_ahead g3 (boundCharge_ahead hU hV hrt g3)
  have hE := gaussErr_ahead U.C hU.M g4
  have g5 := setE_ahead g4 (marderE_ahead U.C hU.M g4 hE)
  unfold boxBegin beginFields
  simp only [hU.N, hU.C, hU.nsp, hrt, hV]
  refine ⟨⟨fun id hid => ?_, fun id hid p hp => ?_, g5⟩, ?_⟩
  · simp only [if_pos hid]
    rw [hx.parts id hid, Multiset.map_map, Multiset.map_map]
    exact Multiset.map_congr rfl fun p hp => by
      simp only [Function.comp, uncenter, GPart.ahead]
      rw [interp_ahead g5 _ (hx.inside id hid p hp)]
  · simp only [if_pos hid, Multiset.mem_map] at hp
    obtain ⟨p0, h0, rfl⟩ := hp
    exact hx.inside id hid p0 h0
  · rw [rmsOf_ahead hU V.rt (divB_ahead U.C hx.fields), rmsOf_ahead hU V.rt hE]

end

end Verif.Global
