import Verif.Simd.Props

/-!
# The vector builds: runs exist, periodic boxes, and where the vector mover departs from the scalar
-/
namespace Verif.Simd

open MoveP Boris Grid AdvanceP Distribute Deposit SfInterface

variable {K : Type} [Field K] [LinearOrder K] [IsStrictOrderedRing K]

/-- A vector `advance_p` can run from every memory, with every pipeline count and every width. -/
theorem vector_advance_p_runs (W : Width) (E : V4Env K) (R : Rounding) (hR : R.Accurate) (A : Args K)
    (P : ℕ) (hP : 0 < P) (hP2 : P ≤ 2 ^ 16) (hM : A.max_nm < 2 ^ 31) (m : Mem K) :
    ∃ m' res, AdvanceV W E R A P m m' res :=
  ⟨_, _, _, mapM_some _ _ _ fun r hr => labels_big W E R hR A P r hP hP2 hM
    (by have := List.mem_range.mp hr; omega), runs_seq _ m, rfl⟩

/-- The portable vector class: `copysign( 1, 0 )` is 1 and the shifted denominator is `tiny` at 0. -/
def portable (tiny : K) : V4Env K := ⟨1, fun x => if x = 0 then tiny else x + x⟩

omit [IsStrictOrderedRing K] in
lemma portable_exact (tiny : K) : ∀ x, x ≠ 0 → (portable tiny).den x = x + x :=
  fun _ h => if_neg h

/-- **C79 on every domain of every periodic decomposition.**  A vector `advance_p` (4, 8 or 16
lanes) runs, its movers are in order and the charge is conserved, for particles inside of the domain
of which none lies within `tiny` below the upper face of its cell (in single precision: on it). -/
theorem vector_advance_p_periodic_box (W : Width) (tiny : K) (ht : 0 < tiny) (R : Rounding)
    (hR : R.Accurate) (P : ℕ) (hP : 0 < P)
    (hP2 : P ≤ 2 ^ 16) (D : Decomp) (ws : ℕ) (hD : D.ok ws = true) (t0 : ℕ → ℤ → ℤ) (r : ℕ)
    (hr : r < ws) (A : Args K) (hg : gridOf D ws t0 r = some A.g)
    (hN : A.np < 2 ^ 31) (hM : A.max_nm < 2 ^ 31)
    (hrt : ∀ x, 0 ≤ x → 0 ≤ A.rt x ∧ A.rt x * A.rt x = x) (hc : ∀ k, |A.cdt_d k| ≤ 1)
    (hf : 3 < A.fuel) (sc : Scales K) (hdt : sc.dt ≠ 0)
    (hV : sc.r8V = sc.rd 0 * sc.rd 1 * sc.rd 2 * (1 / 8)) (m : Mem K) (hw : WellPlaced A m)
    (hin : ∀ i : ℤ, 0 ≤ i → i < A.np → ∀ k, (m.part i).d k ≤ 1 - tiny) :
    (∃ m' res, AdvanceV W (portable tiny) R A P m m' res) ∧
    ∀ m' res, AdvanceV W (portable tiny) R A P m m' res → Advance R A P m m' res ∧
      ∃ pm nm ρ ρ', res = some (pm, nm) ∧ ((moverList pm nm).map Mover.i).Pairwise (· < ·) ∧
      accumulateRhoP A.g sc.r8V A.qsp ((upTo A.np).map m.part) (fun _ => 0) = some ρ ∧
      accumulateRhoP A.g sc.r8V A.qsp ((upTo A.np).map (placed (moverList pm nm) m'))
        (fun _ => 0) = some ρ' ∧
      ∀ N : ℤ × ℤ × ℤ,
        ∑ n ∈ (Finset.Ico 0 (nvox A.g)).filter (fun n => nodeClass A.g (fun _ => true) n = N),
          ((ρ' n - ρ n) / sc.dt +
            (divJ A.g sc (totalAcc A.g P m') n - divJ A.g sc (totalAcc A.g P m) n)) = 0 := by
  refine ⟨vector_advance_p_runs W _ R hR A P hP hP2 hM m, fun m' res ha => ?_⟩
  have hm := periodic_localMesh D ws hD t0 r hr A.g hg
  have h := vector_advance_p W _ (portable_exact tiny) R hR A hrt P hP hP2 hN hM m m'
    (courant_push_ok A hm hrt hc hf m hw) (fun i h0 h1 k _ => by
      show 1 ≤ (1 - (m.part i).d k) / (if (0 : K) = 0 then tiny else 0 + 0)
      rw [if_pos rfl, le_div_iff₀ ht]
      linarith [hin i h0 h1 k]) res ha
  exact ⟨h, (advance_p_periodic_box R hR P hP hP2 D ws hD t0 r hr A hg hN hM hrt hc hf sc hdt hV m
    hw).2 m' res h⟩

/-- **C80, proved part.**  On every mover whose particle is not on the face that the sign of a zero
displacement points to, the vector `move_p` does what the scalar one does: the same particle, the
same remaining displacement, the same accumulators, the same answer.  Missing: the movers excluded
by `h0`, on which `vector_move_p_departs` and `vector_move_p_hangs` show that it does not. -/
theorem vector_move_p_partial (E : V4Env K) (hE : ∀ x, x ≠ 0 → E.den x = x + x) (g : LGrid) (qsp : K)
    (fuel : ℕ) (s : MState K)
    (h0 : ∀ k, s.disp k = 0 → 1 ≤ (E.z - s.p.d k) / E.den 0) :
    movePV E g qsp fuel s = moveP g qsp fuel s :=
  movePV_eq E hE g qsp fuel s h0

/-- The portable class, a particle off all upper faces (also on a lower face, also at rest). -/
example (g : LGrid) (a : Accum ℚ) : movePV (portable (1 / 1000)) g 1 5
    ⟨⟨![1/2, -1, 0], 22, ![1, 2, 3], 1⟩, ![0, 0, 3/4], a⟩ = moveP g 1 5
    ⟨⟨![1/2, -1, 0], 22, ![1, 2, 3], 1⟩, ![0, 0, 3/4], a⟩ := by
  refine vector_move_p_partial _ (portable_exact _) g 1 5 _ fun k hk => ?_
  revert hk
  fin_cases k <;> norm_num [portable]

/-- The state after `n` passes of the loop of the vector `move_p`, if the loop is still running. -/
def after (E : V4Env K) (g : LGrid) (q : K) : ℕ → MState K → Option (MState K)
  | 0, s => some s
  | n + 1, s => match passV E g q s with
    | some (.again, s') => after E g q n s'
    | _ => none

/-- The fraction of an axis is not negative for a particle in its cell. -/
lemma frac_nonneg (tiny : K) (ht : 0 < tiny) (d x : K) (h1 : -1 ≤ d) (h2 : d ≤ 1) :
    0 ≤ (sgn (portable tiny) x - d) / (portable tiny).den x := by
  unfold sgn portable
  rcases lt_trichotomy x 0 with h | h | h
  · rw [if_pos h]
    simp only [if_neg h.ne]
    exact div_nonneg_of_nonpos (by linarith) (by linarith)
  · subst h
    simp only [lt_irrefl, if_false, if_true]
    exact div_nonneg (by linarith) ht.le
  · rw [if_neg h.not_gt, if_neg h.ne']
    simp only [if_neg h.ne']
    exact div_nonneg (by linarith) (by linarith)

/-- One pass on a particle on its upper `x` face without displacement along `x`: nothing moves, and
the face is treated as hit. -/
lemma rest_pass (tiny : K) (ht : 0 < tiny) (g : LGrid) (q : K) (s : MState K)
    (hi0 : 0 ≤ s.p.i) (hi1 : s.p.i < nvox g) (hd : ∀ k, -1 ≤ s.p.d k ∧ s.p.d k ≤ 1)
    (h1 : s.p.d 0 = 1) (h2 : s.disp 0 = 0) :
    passV (portable tiny) g q s =
      if g.neighbor (6 * s.p.i + 3) = reflectParticles then
        some (.again, ⟨{ s.p with u := ![-(s.p.u 0), s.p.u 1, s.p.u 2] }, s.disp, s.a⟩)
      else if g.neighbor (6 * s.p.i + 3) < g.rangel ∨ g.neighbor (6 * s.p.i + 3) > g.rangeh then
        some (.boundary, ⟨{ s.p with i := 8 * s.p.i + 3 }, s.disp, s.a⟩)
      else some (.again, ⟨{ s.p with d := Function.update s.p.d 0 (-(s.p.d 0)),
                                     i := g.neighbor (6 * s.p.i + 3) - g.rangel }, s.disp, s.a⟩) := by
  unfold passV
  rw [if_neg (by omega)]
  have l : ∀ x : Fin 3 → K, lift4 x 0 = x 0 ∧ lift4 x 1 = x 1 ∧ lift4 x 2 = x 2 := fun x =>
    ⟨rfl, rfl, rfl⟩
  have f0 : (sgn (portable tiny) (s.disp 0) - s.p.d 0) / (portable tiny).den (s.disp 0) = 0 := by
    rw [h1, h2]; simp [sgn, portable]
  have f1 := frac_nonneg tiny ht (s.p.d 1) (s.disp 1) (hd 1).1 (hd 1).2
  have f2 := frac_nonneg tiny ht (s.p.d 2) (s.disp 2) (hd 2).1 (hd 2).2
  simp only [(l _).1, (l _).2.1, (l _).2.2, f0]
  generalize (sgn (portable tiny) (s.disp 1) - s.p.d 1) / (portable tiny).den (s.disp 1) = v1 at f1 ⊢
  generalize (sgn (portable tiny) (s.disp 2) - s.p.d 2) / (portable tiny).den (s.disp 2) = v2 at f2 ⊢
  have hp : pickV 0 v1 v2 = (0, some 0) := by
    simp only [pickV, zero_lt_one, if_true, f1.not_gt, f2.not_gt, if_false]
  have hs : (splat (0 : K) : Vec 4 K) * lift4 s.disp = 0 := by
    funext k; simp [splat]
  simp only [hp, hs, add_zero, sub_zero]
  rw [streak_incr q s.p.i s.a s.p.d (fun _ => 0) (lift4 s.p.d) 0
    (fun k => by fin_cases k <;> rfl) (fun _ => rfl)]
  have ha : accAdd s.a s.p.i (streakJ q s.p.d fun _ => 0) = s.a := by
    funext v k
    unfold accAdd
    split_ifs
    · have : streakJ q s.p.d (fun _ => 0) k = 0 := by
        fin_cases k <;> simp [streakJ, accumulateJ]
      rw [this, add_zero]
    · rfl
  have e1 := vec3_eq (lift4 s.p.d) s.p.d (fun k => by fin_cases k <;> rfl)
  have e2 := vec3_eq (lift4 s.disp) s.disp (fun k => by fin_cases k <;> rfl)
  have hsg : sgn (portable tiny) (s.disp 0) = 1 := by rw [h2]; simp [sgn, portable]
  have hd' : Function.update s.p.d 0 1 = s.p.d := by
    rw [← h1]; exact Function.update_eq_self 0 s.p.d
  have hdisp : Function.update s.disp 0 (-(s.disp 0)) = s.disp := by
    rw [h2, neg_zero, ← h2]; exact Function.update_eq_self 0 s.disp
  have hu : Function.update s.p.u 0 (-(s.p.u 0)) = ![-(s.p.u 0), s.p.u 1, s.p.u 2] := by
    funext k; fin_cases k <;> rfl
  simp only [(l _).1, (l _).2.1, (l _).2.2] at e1 e2 ⊢
  simp only [ha, hsg, e1, e2, hd', hdisp, hu]
  simp

/-- **C80 fails: a hang.**  With the portable vector class, a particle resting on a reflecting upper
face (`dx = 1`, displacement 0 along `x`, whatever the other components) is reflected for ever: after
every number of passes the loop is still running, with the particle in the same place and the whole
displacement still to do. -/
theorem vector_move_p_hangs (tiny : K) (ht : 0 < tiny) (g : LGrid) (q : K) (n : ℕ) :
    ∀ s : MState K, 0 ≤ s.p.i → s.p.i < nvox g → (∀ k, -1 ≤ s.p.d k ∧ s.p.d k ≤ 1) →
    s.p.d 0 = 1 → s.disp 0 = 0 → g.neighbor (6 * s.p.i + 3) = reflectParticles →
    ∃ s', after (portable tiny) g q n s = some s' ∧ s'.p.d = s.p.d ∧ s'.p.i = s.p.i ∧
      s'.disp = s.disp := by
  induction n with
  | zero => intro s _ _ _ _ _ _; exact ⟨s, rfl, rfl, rfl, rfl⟩
  | succ n ih =>
    intro s hi0 hi1 hd h1 h2 hn
    rw [after, rest_pass tiny ht g q s hi0 hi1 hd h1 h2, if_pos hn]
    exact ih _ hi0 hi1 hd h1 h2 hn

/-- With that particle the vector `move_p` never returns. -/
theorem vector_move_p_never_returns (tiny : K) (ht : 0 < tiny) (g : LGrid) (qsp : K) (fuel : ℕ)
    (s : MState K) (hi0 : 0 ≤ s.p.i) (hi1 : s.p.i < nvox g) (hd : ∀ k, -1 ≤ s.p.d k ∧ s.p.d k ≤ 1)
    (h1 : s.p.d 0 = 1) (h2 : s.disp 0 = 0) (hn : g.neighbor (6 * s.p.i + 3) = reflectParticles) :
    movePV (portable tiny) g qsp fuel s = none := by
  unfold movePV
  generalize qsp * s.p.w = q
  induction fuel generalizing s with
  | zero => rfl
  | succ n ih =>
    rw [loopV, rest_pass tiny ht g q s hi0 hi1 hd h1 h2, if_pos hn]
    exact ih _ hi0 hi1 hd h1 h2 hn

/-- A displacement that stays inside of the cell: the scalar `move_p` ends after one pass. -/
lemma scalar_move_p_stays (g : LGrid) (qsp : K) (s : MState K) (fuel : ℕ)
    (hi0 : 0 ≤ s.p.i) (hi1 : s.p.i < nvox g)
    (h : ∀ k, s.disp k = 0 ∨ 2 ≤ twiceFrac (s.p.d k) (s.disp k)) :
    ∃ s', moveP g qsp (fuel + 1) s = some (false, s') ∧ s'.p.i = s.p.i ∧
      ∀ k, s'.p.d k = s.p.d k + 2 * s.disp k := by
  have t : ∀ k, 2 ≤ twiceFrac (s.p.d k) (s.disp k) := by
    intro k
    rcases h k with h | h
    · rw [twiceFrac, if_pos h]; exact two_le_big
    · exact h
  have hp : pickAxis (twiceFrac (s.p.d 0) (s.disp 0)) (twiceFrac (s.p.d 1) (s.disp 1))
      (twiceFrac (s.p.d 2) (s.disp 2)) = ((2 : K), none) := by
    simp only [pickAxis, (t 0).not_gt, (t 1).not_gt, (t 2).not_gt, if_false]
  unfold moveP loop pass
  rw [if_neg (by omega)]
  simp only [streakOf, hp]
  refine ⟨_, rfl, rfl, fun k => ?_⟩
  simp only
  ring

/-- **C80 fails: a particle handed to a boundary it does not move to.**  A particle on an upper `x`
face that is a boundary of the domain, without displacement along `x`: the vector `move_p` (portable
class) reports at once that it hit the `x` boundary and leaves its whole displacement undone. -/
theorem vector_move_p_departs (tiny : K) (ht : 0 < tiny) (g : LGrid) (qsp : K) (fuel : ℕ)
    (s : MState K) (hi0 : 0 ≤ s.p.i) (hi1 : s.p.i < nvox g) (hd : ∀ k, -1 ≤ s.p.d k ∧ s.p.d k ≤ 1)
    (h1 : s.p.d 0 = 1) (h2 : s.disp 0 = 0) (hn : g.neighbor (6 * s.p.i + 3) ≠ reflectParticles)
    (hb : g.neighbor (6 * s.p.i + 3) < g.rangel) :
    movePV (portable tiny) g qsp (fuel + 1) s =
      some (true, ⟨{ s.p with i := 8 * s.p.i + 3 }, s.disp, s.a⟩) := by
  rw [movePV, loopV, rest_pass tiny ht g _ s hi0 hi1 hd h1 h2, if_neg hn, if_pos (Or.inl hb)]

/-- Both findings on one particle, at `(1,0,0)` of its cell and moving a quarter cell along `y`: the
scalar `move_p` finishes inside of the cell, the vector one does not return if the `x` wall reflects
and gives the particle to the wall if it absorbs. -/
theorem vector_move_p_differs (g : LGrid) (i : ℤ) (hi0 : 0 ≤ i) (hi1 : i < nvox g) (fuel : ℕ) :
    ∃ s : MState ℚ, s.p.d = ![1, 0, 0] ∧ s.disp = ![0, 1/4, 0] ∧ s.p.i = i ∧
    (∃ t, moveP g 1 (fuel + 1) s = some (false, t) ∧ t.p.i = i ∧ t.p.d = ![1, 1/2, 0]) ∧
    (g.neighbor (6 * i + 3) = reflectParticles → movePV (portable (1 / 10 ^ 37)) g 1 fuel s = none) ∧
    (g.neighbor (6 * i + 3) ≠ reflectParticles → g.neighbor (6 * i + 3) < g.rangel →
      movePV (portable (1 / 10 ^ 37)) g 1 (fuel + 1) s =
        some (true, ⟨{ s.p with i := 8 * i + 3 }, s.disp, s.a⟩)) := by
  have hd : ∀ k, -1 ≤ (![1, 0, 0] : Fin 3 → ℚ) k ∧ (![1, 0, 0] : Fin 3 → ℚ) k ≤ 1 := by
    intro k; fin_cases k <;> norm_num
  refine ⟨⟨⟨![1, 0, 0], i, ![0, 1, 0], 1⟩, ![0, 1/4, 0], fun _ _ => 0⟩, rfl, rfl, rfl, ?_, ?_, ?_⟩
  · obtain ⟨t, e, e1, e2⟩ := scalar_move_p_stays g 1 (⟨⟨![1, 0, 0], i, ![0, 1, 0], 1⟩, ![0, 1/4, 0],
      fun _ _ => 0⟩ : MState ℚ) fuel hi0 hi1 (fun k => by
        fin_cases k
        · exact Or.inl rfl
        · right
          show (2 : ℚ) ≤ twiceFrac 0 (1 / 4)
          norm_num [twiceFrac, sdir]
        · exact Or.inl rfl)
    refine ⟨t, e, e1, ?_⟩
    funext k
    rw [e2 k]
    fin_cases k <;> norm_num
  · intro hn
    exact vector_move_p_never_returns _ (by positivity) g 1 fuel _ hi0 hi1 hd rfl rfl hn
  · intro hn hb
    exact vector_move_p_departs _ (by positivity) g 1 fuel _ hi0 hi1 hd rfl rfl hn hb

/-- Sixteen-lane and eight-lane and four-lane runs with three pipelines and 100 particles in two
cells of a 2×3×1 domain, in non-zero fields, none of them on an upper face. -/
noncomputable example (W : Width) : ∃ (A : Args ℝ) (m m' : Mem ℝ) (res : Option ((ℤ → Mover ℝ) × ℕ)),
    A.np = 100 ∧ WellPlaced A m ∧ AdvanceV W (portable (1 / 10 ^ 37)) doubleRounding A 3 m m' res ∧
    Advance doubleRounding A 3 m m' res := by
  obtain ⟨g, e, gx, gy, gz, -⟩ := partitionPeriodic_T ((Decomp.ok_iff ⟨2, 3, 1, 2, 1, 1⟩ 2).mp (by decide))
    (fun _ => localNv ⟨2, 3, 1, 2, 1, 1⟩) (fun _ => rfl) (fun _ => 77) 1 (show 1 < 2 by decide)
  have hl := periodic_localMesh ⟨2, 3, 1, 2, 1, 1⟩ 2 (by decide) (fun _ _ => 77) 1 (by decide) g e
  let A : Args ℝ := ⟨g, Real.sqrt, fun _ => ⟨1, 2, 0, 0, 0, 0, 1, 0, 0, 3, 0, 0, 1, 0, 0, 1, 0, 0⟩,
    1/2, fun _ => 1/2, -1, 100, 40, 4⟩
  let m : Mem ℝ := .mk (fun i => ⟨![1/2, -1, 0], VOXEL g.nx g.ny 1 (1 + i % 2) 1, ![1, i, 3], 5⟩)
    (fun _ _ => 0) (fun _ => ⟨0, 0⟩) (fun _ => ⟨0, 0, true⟩)
  have hw : WellPlaced A m := by
    intro i h0 h1
    refine ⟨⟨⟨1, 1 + i % 2, 1⟩, ?_, rfl⟩, ?_⟩
    · have := Int.emod_two_eq_zero_or_one i
      simp only [Cell.Interior, A, gx, gy, gz]
      rcases this with h | h <;> rw [h] <;> decide
    · intro k
      show -1 ≤ (![1/2, -1, 0] : Fin 3 → ℝ) k ∧ (![1/2, -1, 0] : Fin 3 → ℝ) k ≤ 1
      fin_cases k <;> norm_num
  have hrt : ∀ x : ℝ, 0 ≤ x → 0 ≤ Real.sqrt x ∧ Real.sqrt x * Real.sqrt x = x := fun x hx =>
    ⟨Real.sqrt_nonneg x, Real.mul_self_sqrt hx⟩
  obtain ⟨m', res, h⟩ := vector_advance_p_runs W (portable (1 / 10 ^ 37)) doubleRounding
    doubleRounding_accurate A 3 (by decide) (by decide) (show 40 < 2 ^ 31 by decide) m
  refine ⟨A, m, m', res, rfl, hw, h, vector_advance_p W _ (portable_exact _) _ doubleRounding_accurate A
    hrt 3 (by decide) (by decide) (show 100 < 2 ^ 31 by decide) (show 40 < 2 ^ 31 by decide) m m'
    (courant_push_ok A hl hrt (fun k => ?_) (show 3 < 4 by decide) m hw) ?_ res h⟩
  · show |(1/2 : ℝ)| ≤ 1
    rw [abs_of_nonneg] <;> norm_num
  · intro i _ _ k _
    show (1 : ℝ) ≤ (1 - (![1/2, -1, 0] : Fin 3 → ℝ) k) / (if (0 : ℝ) = 0 then 1 / 10 ^ 37 else 0 + 0)
    rw [if_pos rfl]
    fin_cases k <;> norm_num

end Verif.Simd
