import Verif.Collide.Props
import Mathlib.Analysis.SpecialFunctions.Trigonometric.Basic

/-!
# The hypotheses of the theorems about collision operators can be met

For every state that meets the hypotheses there are random numbers with which the operator runs to its end.
-/
namespace Verif.Collide
open Verif.Collision Verif.SortP

variable {T K : Type} [Field K] [LinearOrder K] [IsStrictOrderedRing K]

lemma pick_zero {d i n : ℕ} (hd : d ≠ 0) (hi : i < n) (rest : List ℕ) : Rng.pick d i n (0 :: rest) = some (i, rest) := by
  unfold Rng.pick
  rw [if_neg hd, if_neg (by simp; omega)]
  simp

lemma shuffle_ex (k1 : ℕ) (n : ℕ) : ∀ (i : ℕ) (x : ℕ → Part T K) (d : K), i + n + 1 = k1 → n + 1 < 2 ^ 32 →
    ∃ y d', ∀ rest : List ℕ, ∃ as, taShuffle Part.w k1 n i x d as = some (y, d', rest) := by
  induction n with
  | zero =>
    intro i x d _ _
    exact ⟨_, _, fun rest => ⟨rest, rfl⟩⟩
  | succ n ih =>
    intro i x d h1 h2
    obtain ⟨y, d', h⟩ := ih (i + 1) (Rng.swap x i i) (d + (Rng.swap x i i i).w) (by omega) (by omega)
    refine ⟨y, d', fun rest => ?_⟩
    obtain ⟨as, h⟩ := h rest
    refine ⟨0 :: as, ?_⟩
    rw [taShuffle, pick_zero (Nat.div_pos (by omega) (by omega)).ne' (by omega)]
    exact h

lemma taRun_ex (E : TA K) (ps : List ((ℕ × ℕ) × K)) : ∀ (mem : Mem T K),
    ∃ mem', ∀ rest : List (K × K × K), ∃ gs, taRun E ps mem gs = some (mem', rest) := by
  induction ps with
  | nil => intro mem; exact ⟨mem, fun rest => ⟨rest, rfl⟩⟩
  | cons p ps ih =>
    intro mem
    obtain ⟨mem', h⟩ := ih (taPair E mem p.1.1 p.1.2 p.2 (0, 0, 0))
    refine ⟨mem', fun rest => ?_⟩
    obtain ⟨gs, h⟩ := h rest
    exact ⟨(0, 0, 0) :: gs, h⟩

lemma taVoxel_ex (E : TA K) (mem : Mem T K) (v : ℕ) (hN : E.part E.a (v + 1) - E.part E.a v < 2 ^ 32) :
    ∃ mem', ∀ rest : TAGen K, ∃ g, taVoxel E mem v g = some (mem', rest) := by
  by_cases h0 : E.part E.a (v + 1) - E.part E.a v = 0
  · exact ⟨mem, fun rest => ⟨rest, by unfold taVoxel; simp only; rw [if_pos h0]⟩⟩
  obtain ⟨x, d, hx⟩ := shuffle_ex (E.part E.a v + (E.part E.a (v + 1) - E.part E.a v)) (E.part E.a (v + 1) - E.part E.a v - 1)
    (E.part E.a v) (fun k => mem (E.a, k)) 0 (by omega) (by omega)
  by_cases hab : E.a = E.b
  · obtain ⟨mem', hm⟩ := taRun_ex E (taListIntra E d (E.part E.a v) (E.part E.a (v + 1) - E.part E.a v))
      (setSpecies mem E.a x)
    refine ⟨mem', fun rest => ?_⟩
    obtain ⟨as, hx⟩ := hx rest.1
    obtain ⟨gs, hm⟩ := hm rest.2
    refine ⟨(as, gs), ?_⟩
    unfold taVoxel
    simp only
    rw [if_neg h0, hx]
    simp only
    rw [if_pos hab, hm]
    rfl
  by_cases h1 : E.part E.b (v + 1) - E.part E.b v = 0
  · refine ⟨setSpecies mem E.a x, fun rest => ?_⟩
    obtain ⟨as, hx⟩ := hx rest.1
    refine ⟨(as, rest.2), ?_⟩
    unfold taVoxel
    simp only
    rw [if_neg h0, hx]
    simp only
    rw [if_neg hab, if_pos h1]
  · obtain ⟨mem', hm⟩ := taRun_ex E (taListInter E d
        ((List.range' (E.part E.b v) (E.part E.b (v + 1) - E.part E.b v)).map fun l => (setSpecies mem E.a x (E.b, l)).w).sum
        (E.part E.a v) (E.part E.a (v + 1) - E.part E.a v) (E.part E.b v) (E.part E.b (v + 1) - E.part E.b v))
      (setSpecies mem E.a x)
    refine ⟨mem', fun rest => ?_⟩
    obtain ⟨as, hx⟩ := hx rest.1
    obtain ⟨gs, hm⟩ := hm rest.2
    refine ⟨(as, gs), ?_⟩
    unfold taVoxel
    simp only
    rw [if_neg h0, hx]
    simp only
    rw [if_neg hab, if_neg h1, hm]
    rfl

lemma runVoxels_ex {M G : Type} (I : G → Prop) (vox : M → ℕ → G → Option (M × G)) (N : ℕ)
    (h : ∀ x v, v < N → ∃ y, ∀ rest, I rest → ∃ g, I g ∧ vox x v g = some (y, rest)) (vs : List ℕ) : ∀ (x : M), (∀ v ∈ vs, v < N) →
    ∃ y, ∀ rest, I rest → ∃ g, I g ∧ runVoxels vox vs x g = some (y, rest) := by
  induction vs with
  | nil => intro x _; exact ⟨x, fun rest hr => ⟨rest, hr, rfl⟩⟩
  | cons v vs ih =>
    intro x hv
    obtain ⟨y, hy⟩ := h x v (hv v List.mem_cons_self)
    obtain ⟨z, hz⟩ := ih y (fun w hw => hv w (List.mem_cons_of_mem _ hw))
    refine ⟨z, fun rest hr => ?_⟩
    obtain ⟨g1, i1, h1⟩ := hz rest hr
    obtain ⟨g, i2, h2⟩ := hy g1 i1
    refine ⟨g, i2, ?_⟩
    rw [runVoxels, h2]
    exact h1

lemma runPipes_congr {M G : Type} (vox : M → ℕ → G → Option (M × G)) (nx ny nz P : ℕ) (g g' : ℕ → G) (rs : List ℕ) :
    ∀ x, (∀ r ∈ rs, g r = g' r) → runPipes vox nx ny nz P g rs x = runPipes vox nx ny nz P g' rs x := by
  induction rs with
  | nil => intro x _; rfl
  | cons r rs ih =>
    intro x h
    rw [runPipes, runPipes, h r List.mem_cons_self]
    cases stripe nx ny nz P r (nx + (nx + 2) * (ny + (ny + 2) * nz) + 2) with
    | none => rfl
    | some vs =>
      simp only
      cases runVoxels vox vs x (g' r) with
      | none => rfl
      | some q => exact ih q.1 (fun s hs => h s (List.mem_cons_of_mem _ hs))

lemma runPipes_ex {M G : Type} (I : G → Prop) (dflt : G) (hI : I dflt) (vox : M → ℕ → G → Option (M × G)) (nx ny nz P : ℕ) (hP : 0 < P)
    (h : ∀ x v, v < (nx + 2) * (ny + 2) * (nz + 2) - 1 → ∃ y, ∀ rest, I rest → ∃ g, I g ∧ vox x v g = some (y, rest))
    (rs : List ℕ) : ∀ (x : M), rs.Nodup → (∀ r ∈ rs, r < P) →
    ∃ gens y, (∀ r, I (gens r)) ∧ runPipes vox nx ny nz P gens rs x = some y := by
  induction rs with
  | nil => intro x _ _; exact ⟨fun _ => dflt, x, fun _ => hI, rfl⟩
  | cons r rs ih =>
    intro x hnd hrs
    obtain ⟨L, h1, -, -, -, h5⟩ := stripes_partition nx ny nz P hP (nx + (nx + 2) * (ny + (ny + 2) * nz) + 2) (by omega)
    have hr := hrs r List.mem_cons_self
    obtain ⟨y, hy⟩ := runVoxels_ex I vox _ h (L r) x (fun v hv => by have := h5 r hr v hv; omega)
    obtain ⟨g, hgI, hg⟩ := hy dflt hI
    rw [List.nodup_cons] at hnd
    obtain ⟨gens, z, hzI, hz⟩ := ih y hnd.2 (fun s hs => hrs s (List.mem_cons_of_mem _ hs))
    refine ⟨fun s => if s = r then g else gens s, z, ?_, ?_⟩
    · intro s
      simp only
      split_ifs
      · exact hgI
      · exact hzI s
    rw [runPipes, h1 r hr]
    simp only
    rw [if_pos trivial, hg]
    simp only
    rw [← hz]
    refine runPipes_congr vox nx ny nz P _ _ rs y ?_
    intro s hs
    exact if_neg fun e : s = r => hnd.1 (e ▸ hs)

/-- An operator whose voxel loop can be completed runs to its end. -/
lemma op_completes (key : T → ℤ) (nx ny nz P : ℕ) (hx : 1 ≤ nx) (hy : 1 ≤ ny) (hz : 1 ≤ nz)
    (hP : 0 < P) (hP2 : P ≤ 256) (R : Distribute.Rounding) (hR : R.Accurate) (S : Schedules (Part T K)) (g : Scratch (Part T K))
    (step : ℤ) (op : Op T K) (I : op.Gen → Prop) (dflt : op.Gen) (hI : I dflt)
    (hvox : ∀ part x v, part op.a (v + 1) - part op.a v < 2 ^ 31 → part op.b (v + 1) - part op.b v < 2 ^ 31 →
      ∃ y, ∀ rest, I rest → ∃ g, I g ∧ op.vox part x v g = some (y, rest))
    (st : ℕ → Species T K) (hnp : ∀ c, (st c).np < 2 ^ 31) (hs : ∀ d, Sane key nx ny nz step (st d)) :
    ∃ gens st', (∀ r, I (gens r)) ∧
      applyOp (libSort R key S g P nx ny nz) nx ny nz P step { op with gens := gens } st = some st' := by
  by_cases h0 : op.interval < 1 ∨ step.tmod op.interval ≠ 0
  · refine ⟨fun _ => dflt, st, fun _ => hI, ?_⟩
    unfold applyOp
    exact if_pos h0
  have srt : ∀ (s : ℕ → Species T K) c, (s c).np < 2 ^ 31 → Sane key nx ny nz step (s c) →
      ∃ s', sortIfStale (libSort R key S g P nx ny nz) step s c = some s' := by
    intro s c hn hc
    unfold sortIfStale
    split_ifs with h
    · obtain ⟨p', part', h1, -⟩ := sort_stable R hR (fun q : Part T K => key q.tag) S g P hP hP2 nx ny nz (by omega) (by omega)
        (by omega) (s c).np hn (s c).p (s c).part (by
          have := hc.dom
          unfold Species.parts at this
          rw [← contents_eq] at this
          exact this)
      unfold sortSpecies libSort
      rw [h1]
      exact ⟨_, rfl⟩
    · exact ⟨s, rfl⟩
  have sok : ∀ (s : ℕ → Species T K) c, (s c).np < 2 ^ 31 → SortOk key nx ny nz (libSort R key S g P nx ny nz) (s c).np :=
    fun s c h => sortP_ok R hR key S g P hP hP2 nx ny nz (by omega) (by omega) (by omega) _ h
  obtain ⟨s1, h1⟩ := srt st op.a (hnp _) (hs _)
  obtain ⟨e1, g1, l1, k1⟩ := sort_effect op.a op.b (Or.inl rfl) (fun _ => 0) 0 (sok st op.a (hnp _)) hs h1
  obtain ⟨s2, h2⟩ := srt s1 op.b (by rw [e1.count]; exact hnp _) (g1 _)
  obtain ⟨e2, g2, l2, k2⟩ := sort_effect op.a op.b (Or.inr rfl) (fun _ => 0) 0 (sok s1 op.b (by rw [e1.count]; exact hnp _)) g1 h2
  have ta := (g2 op.a).table (k2 op.a l1)
  have tb := (g2 op.b).table l2
  have hpos : 0 < (nx + 2) * (ny + 2) * (nz + 2) := by positivity
  have hN : (((nx + 2) * (ny + 2) * (nz + 2) - 1 : ℕ) : ℤ) + 1 = ((nx : ℤ) + 2) * (ny + 2) * (nz + 2) := by
    rw [Nat.cast_sub hpos]; push_cast; ring
  obtain ⟨gens, y, hIg, hy'⟩ := runPipes_ex I dflt hI (op.vox (partOf s2)) nx ny nz P hP (by
    intro x v hv
    refine hvox _ x v ?_ ?_
    · have := ta.range v (by omega) (by omega)
      have hn : (s2 op.a).np < 2 ^ 31 := by rw [e2.count, e1.count]; exact hnp _
      simp only [partOf]
      push_cast
      omega
    · have := tb.range v (by omega) (by omega)
      have hn : (s2 op.b).np < 2 ^ 31 := by rw [e2.count, e1.count]; exact hnp _
      simp only [partOf]
      push_cast
      omega) (List.range P) (memOf s2) List.nodup_range (fun r hr => List.mem_range.1 hr)
  refine ⟨gens, putMem s2 y, hIg, ?_⟩
  unfold applyOp
  refine (if_neg h0).trans ?_
  simp only
  rw [h1]
  simp only
  rw [h2]
  simp only
  rw [hy']
  rfl

/-- With suitable random numbers the Takizuka-Abe operator runs to its end from every state that meets the hypotheses of
`takizuka_abe_operator`. -/
theorem takizuka_abe_completes (key : T → ℤ) (E : TA K) (interval : ℤ) (nx ny nz P : ℕ) (hx : 1 ≤ nx) (hy : 1 ≤ ny) (hz : 1 ≤ nz)
    (hP : 0 < P) (hP2 : P ≤ 256) (R : Distribute.Rounding) (hR : R.Accurate) (S : Schedules (Part T K)) (g : Scratch (Part T K))
    (step : ℤ) (st : ℕ → Species T K) (hnp : ∀ c, (st c).np < 2 ^ 31) (hs : ∀ d, Sane key nx ny nz step (st d)) :
    ∃ gens st', applyOp (libSort R key S g P nx ny nz) nx ny nz P step (taOp E interval gens) st = some st' := by
  obtain ⟨gens, st', -, h⟩ := op_completes key nx ny nz P hx hy hz hP hP2 R hR S g step (taOp E interval fun _ => ([], []))
    (fun _ => True) ([], []) trivial (by
      intro part x v h1 _
      obtain ⟨y, h⟩ := taVoxel_ex { E with part := part } x v (lt_trans h1 (by norm_num))
      refine ⟨y, fun rest _ => ?_⟩
      obtain ⟨g, h⟩ := h rest
      exact ⟨g, trivial, h⟩) st hnp hs
  exact ⟨gens, st', h⟩

lemma selectOne_zero {n : ℕ} (h1 : 0 < n) (rest : List ℕ) : selectOne n (0 :: rest) = some (0, rest) := by
  rw [selectOne, Nat.zero_div, if_neg h1.ne]

/-- A candidate pair that collides. -/
lemma binCand_ex (E : Bin T K) (norm : K) (k0 nk l0 nl : ℕ) (hk : 0 < nk) (hl : 0 < nl) (mem : Mem T K) :
    ∃ t, ∀ rest : BinGen K, ∃ g, ((∀ a ∈ rest.1, a < 2 ^ 32) → ∀ a ∈ g.1, a < 2 ^ 32) ∧
      binCand E norm k0 nk l0 nl mem g = some (binPair E mem k0 l0 t (0, 0), rest) := by
  refine ⟨updateType (mem (E.a, k0)).w (mem (E.b, l0)).w 0, fun rest => ?_⟩
  have hsel : selectPair k0 nk l0 nl (0 :: 0 :: rest.1) = some ((k0, l0), rest.1) := by
    rw [selectPair, selectOne_zero hk]
    simp only
    rw [selectOne_zero hl]
    simp
  have hdisc : drawDisc (((0 : K), (0 : K)) :: rest.2.2) = some ((0, 0), rest.2.2) := by
    rw [drawDisc, if_neg]
    simp
  have hlt : (∀ a ∈ rest.1, a < 2 ^ 32) → ∀ a ∈ 0 :: 0 :: rest.1, a < 2 ^ 32 := by
    intro h a ha
    simp only [List.mem_cons] at ha
    rcases ha with rfl | rfl | ha
    · norm_num
    · norm_num
    · exact h a ha
  set pr := (if (mem (E.a, k0)).w > (mem (E.b, l0)).w then (mem (E.a, k0)).w else (mem (E.b, l0)).w) * norm *
    E.rate (mem (E.a, k0)) (mem (E.b, l0)) with hpr
  have hno : ¬ pr - 1 ≥ pr := by
    intro h
    linarith
  by_cases hw : (mem (E.a, k0)).w = (mem (E.b, l0)).w
  · refine ⟨(0 :: 0 :: rest.1, (pr - 1) :: rest.2.1, (0, 0) :: rest.2.2), hlt, ?_⟩
    unfold binCand
    simp only [hsel, ← hpr]
    rw [if_neg hno, if_pos hw, hdisc]
    rfl
  · refine ⟨(0 :: 0 :: rest.1, (pr - 1) :: 0 :: rest.2.1, (0, 0) :: rest.2.2), hlt, ?_⟩
    unfold binCand
    simp only [hsel, ← hpr]
    rw [if_neg hno, if_neg hw, hdisc]
    rfl

lemma binCands_ex (E : Bin T K) (norm : K) (k0 nk l0 nl : ℕ) (hk : 0 < nk) (hl : 0 < nl) (n : ℕ) : ∀ mem : Mem T K,
    ∃ mem', ∀ rest : BinGen K, (∀ a ∈ rest.1, a < 2 ^ 32) → ∃ g, (∀ a ∈ g.1, a < 2 ^ 32) ∧
      binCands E norm k0 nk l0 nl n mem g = some (mem', rest) := by
  induction n with
  | zero => intro mem; exact ⟨mem, fun rest h => ⟨rest, h, rfl⟩⟩
  | succ n ih =>
    intro mem
    obtain ⟨t, h1⟩ := binCand_ex E norm k0 nk l0 nl hk hl mem
    obtain ⟨mem', h2⟩ := ih (binPair E mem k0 l0 t (0, 0))
    refine ⟨mem', fun rest h => ?_⟩
    obtain ⟨g2, i2, h2⟩ := h2 rest h
    obtain ⟨g1, i1, h1⟩ := h1 g2
    refine ⟨g1, i1 i2, ?_⟩
    rw [binCands, h1]
    exact h2

/-- With suitable random numbers the binary operator runs to its end, with every candidate pair colliding. -/
theorem binary_completes (key : T → ℤ) (E : Bin T K) (interval : ℤ) (nx ny nz P : ℕ) (hx : 1 ≤ nx) (hy : 1 ≤ ny) (hz : 1 ≤ nz)
    (hP : 0 < P) (hP2 : P ≤ 256) (R : Distribute.Rounding) (hR : R.Accurate) (S : Schedules (Part T K)) (g : Scratch (Part T K))
    (step : ℤ) (st : ℕ → Species T K) (hnp : ∀ c, (st c).np < 2 ^ 31) (hs : ∀ d, Sane key nx ny nz step (st d)) :
    ∃ gens st', (∀ r, ∀ a ∈ (gens r).1, a < 2 ^ 32) ∧
      applyOp (libSort R key S g P nx ny nz) nx ny nz P step (binOp E interval gens) st = some st' := by
  obtain ⟨gens, st', hI, h⟩ := op_completes key nx ny nz P hx hy hz hP hP2 R hR S g step (binOp E interval fun _ => ([], [], []))
    (fun g : BinGen K => ∀ a ∈ g.1, a < 2 ^ 32) ([], [], []) (by simp) (by
      intro part x v _ _
      by_cases h0 : part E.a (v + 1) - part E.a v = 0
      · refine ⟨x, fun rest h => ⟨rest, h, ?_⟩⟩
        simp only [binOp]
        unfold binVoxel
        exact if_pos h0
      by_cases hab : E.a = E.b
      · obtain ⟨y, hy⟩ := binCands_ex { E with part := part }
          (E.dtdV * ((((part E.a (v + 1) - part E.a v) * ((part E.a (v + 1) - part E.a v) + 1) / 2 : ℕ) : K) /
            (E.nc (part E.a (v + 1) - part E.a v) : K)))
          (part E.a v) (part E.a (v + 1) - part E.a v) (part E.a v)
          (part E.a (v + 1) - part E.a v) (by omega) (by omega) (E.nc (part E.a (v + 1) - part E.a v)) x
        refine ⟨y, fun rest h => ?_⟩
        obtain ⟨g, hg, h⟩ := hy rest h
        refine ⟨g, hg, ?_⟩
        simp only [binOp]
        unfold binVoxel
        refine (if_neg h0).trans ((if_pos hab).trans ?_)
        exact h
      by_cases h1 : part E.b (v + 1) - part E.b v = 0
      · refine ⟨x, fun rest h => ⟨rest, h, ?_⟩⟩
        simp only [binOp]
        unfold binVoxel
        exact (if_neg h0).trans ((if_neg hab).trans (if_pos h1))
      · obtain ⟨y, hy⟩ := binCands_ex { E with part := part }
          (E.dtdV * ((((part E.a (v + 1) - part E.a v) * (part E.b (v + 1) - part E.b v) : ℕ) : K) /
            (E.nc (if part E.a (v + 1) - part E.a v > part E.b (v + 1) - part E.b v then part E.a (v + 1) - part E.a v
              else part E.b (v + 1) - part E.b v) : K)))
          (part E.a v) (part E.a (v + 1) - part E.a v) (part E.b v)
          (part E.b (v + 1) - part E.b v) (by omega) (by omega)
          (E.nc (if part E.a (v + 1) - part E.a v > part E.b (v + 1) - part E.b v then part E.a (v + 1) - part E.a v
              else part E.b (v + 1) - part E.b v)) x
        refine ⟨y, fun rest h => ?_⟩
        obtain ⟨g, hg, h⟩ := hy rest h
        refine ⟨g, hg, ?_⟩
        simp only [binOp]
        unfold binVoxel
        refine (if_neg h0).trans ((if_neg hab).trans ((if_neg h1).trans ?_))
        exact h) st hnp hs
  exact ⟨gens, st', hI, h⟩

/-- Two electrons in the only cell of the smallest mesh, moving in different directions, not yet sorted. -/
noncomputable def twoElectrons : ℕ → Species ℤ ℝ := fun _ =>
  { np := 2, p := fun j => ⟨13, if j = 0 then ![1, 0, 0] else ![0, 1, 0], 1⟩, part := fun _ => 7, last := -1 }

lemma twoElectrons_sane (step : ℤ) (h : 0 ≤ step) (d : ℕ) : Sane (fun v => v) 1 1 1 step (twoElectrons d) := by
  refine ⟨?_, fun e => ?_⟩
  · intro x hx
    simp only [Species.parts, twoElectrons, List.mem_map] at hx
    obtain ⟨i, -, rfl⟩ := hx
    norm_num
  · have : (-1 : ℤ) = step := e
    omega

/-- Parameters over the real numbers. -/
noncomputable def realTA : TA ℝ where
  rt := Real.sqrt
  cs := fun r => Real.cos (2 * Real.pi * r)
  sn := fun r => Real.sin (2 * Real.pi * r)
  eps := 0
  a := 0
  b := 0
  m := fun _ => 1
  q := fun _ => -1
  part := fun _ _ => 0
  cvar0 := 1
  dtdV := 1

lemma realTA_ok : realTA.Ok where
  rt := real_isSqrt
  trig := fun _ => Real.cos_sq_add_sin_sq _
  eps := le_rfl
  ma := by norm_num [realTA]
  mb := by norm_num [realTA]

-- The hypotheses of `takizuka_abe_operator` are met with a run in which the operator is due.
example (R : Distribute.Rounding) (hR : R.Accurate) (S : Schedules (Part ℤ ℝ)) (g : Scratch (Part ℤ ℝ)) :
    ∃ gens st', applyOp (libSort R (fun v => v) S g 2 1 1 1) 1 1 1 2 6 (taOp realTA 3 gens) twoElectrons = some st' ∧
      (st' 0).last = 6 ∧ ∀ i, cellMom (fun v => v) (fun _ => 1) st' 0 13 i = ![1, 1, 0] i := by
  obtain ⟨gens, st', h⟩ := takizuka_abe_completes (fun v => v) realTA 3 1 1 1 2 le_rfl le_rfl le_rfl (by norm_num) (by norm_num)
    R hR S g 6 twoElectrons (fun _ => by norm_num [twoElectrons]) (fun d => twoElectrons_sane 6 (by norm_num) d)
  obtain ⟨-, -, h3, -, h5⟩ := takizuka_abe_operator (fun v => v) realTA realTA_ok 3 gens 1 1 1 2 le_rfl le_rfl le_rfl (by norm_num)
    (by norm_num) R hR S g 6 twoElectrons st' (fun _ => by norm_num [twoElectrons])
    (fun d => twoElectrons_sane 6 (by norm_num) d) h
  refine ⟨gens, st', h, (h5 (by norm_num) (by norm_num)).1, fun i => ?_⟩
  have := (h3 13 1 (by norm_num) (by
    intro c _ p hp
    rw [mem_cell] at hp
    obtain ⟨i, -, rfl, -⟩ := hp
    rfl)).1 i
  simp only [realTA, Finset.insert_eq_of_mem, Finset.mem_singleton, Finset.sum_singleton] at this
  rw [this]
  unfold cellMom
  rw [cell_map]
  fin_cases i <;> simp [twoElectrons, Finset.sum_range_succ]

end Verif.Collide
