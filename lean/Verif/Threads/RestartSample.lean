import Verif.Threads.Restart
import Verif.Threads.Sample
import Verif.Checkpt.Sample

/-!
# A checkpoint of a simulation with a particle, restored by processes at other addresses
-/
namespace Verif.Threads

open Grid MoveP Boundary Charge Torus
open Field (FC FMem)
open Checkpt (Byte Obj Node Layout Config Region Class Proc Item)

/-- Example: some memory. -/
def zeros : Region := ⟨false, fun _ => 0⟩

/-- Example: memory with sevens. -/
def sevens : Region := ⟨false, fun _ => 7⟩

/-- Example: the structure of accumulators for three pipelines. -/
def threes : Region := ⟨false, fun k => if k = 8 then 3 else 0⟩

/-- Example: the configuration of a rank. -/
def ckConfig (r : Fin 2) : Config := ⟨(r : ℕ), 2, 1, 3⟩

/-- Example: the objects of a rank, by address. -/
def ckObject (r : Fin 2) : ℕ → Obj
  | 16 => .serial 1
  | 32 => .thread 3
  | 48 => .collective (r : ℕ) 2
  | 64 => .simulation zeros 300 0 0 0 fun k => if k = 0 then 96 else 0
  | 80 => .grid zeros zeros zeros 0 0 0
  | 96 => .species sevens (some [97]) sevens sevens zeros 1 4 0 100 81 80 0
  | 112 => .fieldArray zeros sevens zeros zeros 80 80 1 fun _ => 9
  | 128 => .interpolator zeros sevens 80 80
  | 144 => .accumulator threes zeros 200 80
  | _ => .main 64

/-- Example: the registry. -/
def ckReg : List Node :=
  [⟨16, 1, 101, 0, 1⟩, ⟨32, 2, 102, 0, 2⟩, ⟨48, 3, 103, 0, 3⟩, ⟨64, 4, 104, 204, 4⟩, ⟨80, 5, 105, 0, 5⟩, ⟨96, 6, 106, 0, 6⟩,
    ⟨112, 7, 107, 0, 7⟩, ⟨128, 8, 108, 0, 8⟩, ⟨144, 10, 109, 0, 10⟩, ⟨160, 11, 110, 0, 11⟩]

/-- Example: the restore function at an address. -/
def ckCode (c : Config) (a : ℕ) : Checkpt.Reader :=
  if a = 4096 + 101 then Class.serial.restore Checkpt.Sample.L c
  else if a = 4096 + 102 then Class.thread.restore Checkpt.Sample.L c
  else if a = 4096 + 103 then Class.collective.restore Checkpt.Sample.L c
  else if a = 4096 + 104 then Class.simulation.restore Checkpt.Sample.L c
  else if a = 4096 + 105 then Class.grid.restore Checkpt.Sample.L c
  else if a = 4096 + 106 then Class.species.restore Checkpt.Sample.L c
  else if a = 4096 + 107 then Class.fieldArray.restore Checkpt.Sample.L c
  else if a = 4096 + 108 then Class.interpolator.restore Checkpt.Sample.L c
  else if a = 4096 + 109 then Class.accumulator.restore Checkpt.Sample.L c
  else Class.main.restore Checkpt.Sample.L c

/-- Example: the second process, whose new memory has zeros. -/
def ckProc (r : Fin 2) : Proc := ⟨Checkpt.Sample.T', ckCode (ckConfig r), fun id => 1000 * id, fun _ => 0⟩

/-- Cases of the registry. -/
lemma ckReg_cases {nd : Node} (h : nd ∈ ckReg) : nd = ⟨16, 1, 101, 0, 1⟩ ∨ nd = ⟨32, 2, 102, 0, 2⟩ ∨ nd = ⟨48, 3, 103, 0, 3⟩ ∨
    nd = ⟨64, 4, 104, 204, 4⟩ ∨ nd = ⟨80, 5, 105, 0, 5⟩ ∨ nd = ⟨96, 6, 106, 0, 6⟩ ∨ nd = ⟨112, 7, 107, 0, 7⟩ ∨
    nd = ⟨128, 8, 108, 0, 8⟩ ∨ nd = ⟨144, 10, 109, 0, 10⟩ ∨ nd = ⟨160, 11, 110, 0, 11⟩ := by
  simpa only [ckReg, List.mem_cons, List.not_mem_nil, or_false] using h

lemma ck_grid (r : Fin 2) : (ckObject r 80).items Checkpt.Sample.L = [Checkpt.checkptAligned zeros 200 0, .ptr 0] := by
  simp [ckObject, Obj.items, zeros, Checkpt.ptrAt, Checkpt.deLE, Checkpt.Sample.L, List.range_succ]

lemma ck_valid (r : Fin 2) : ∀ nd ∈ ckReg, ∀ it ∈ (ckObject r nd.obj).items Checkpt.Sample.L, it.Valid := by
  intro nd hnd it hit
  rcases ckReg_cases hnd with rfl | rfl | rfl | rfl | rfl | rfl | rfl | rfl | rfl | rfl
  · simp [ckObject, Obj.items] at hit; subst hit; trivial
  · simp [ckObject, Obj.items] at hit; subst hit; trivial
  · simp [ckObject, Obj.items] at hit; rcases hit with rfl | rfl <;> trivial
  · simp only [ckObject, Obj.items, List.mem_cons, List.mem_append, List.not_mem_nil, or_false, List.mem_map] at hit
    rcases hit with (rfl | rfl | rfl | rfl) | ⟨k, _, rfl⟩ <;> first | trivial | simp [Checkpt.checkptAligned, Item.Valid, zeros]
  · rw [ck_grid] at hit
    simp only [List.mem_cons, List.not_mem_nil, or_false] at hit
    rcases hit with rfl | rfl <;> first | trivial | simp [Checkpt.checkptAligned, Item.Valid, zeros]
  · simp only [ckObject, Obj.items, List.mem_cons, List.not_mem_nil, or_false] at hit
    rcases hit with rfl | rfl | rfl | rfl | rfl | rfl | rfl <;>
      first | trivial | simp [Checkpt.checkptAligned, Item.Valid, zeros, sevens, Checkpt.Sample.L]
  · simp only [ckObject, Obj.items, List.mem_cons, List.mem_append, List.not_mem_nil, or_false, List.mem_map] at hit
    rcases hit with (rfl | rfl | rfl | rfl | rfl) | ⟨k, _, rfl⟩ <;>
      first | trivial | simp [Checkpt.checkptAligned, Item.Valid, zeros, sevens, Checkpt.Sample.L]
  · simp only [ckObject, Obj.items, List.mem_cons, List.not_mem_nil, or_false] at hit
    rcases hit with rfl | rfl | rfl <;>
      first | trivial | simp [Checkpt.checkptAligned, Item.Valid, zeros, sevens, Checkpt.Sample.L]
  · simp only [ckObject, Obj.items, List.mem_cons, List.not_mem_nil, or_false] at hit
    rcases hit with rfl | rfl | rfl <;>
      first | trivial | simp [Checkpt.checkptAligned, Item.Valid, zeros, threes, Checkpt.Sample.L]
  · simp [ckObject, Obj.items] at hit; subst hit; trivial

lemma ck_sym (r : Fin 2) : ∀ nd ∈ ckReg, ∀ a, Item.sym a ∈ (ckObject r nd.obj).items Checkpt.Sample.L → a = 9 := by
  intro nd hnd a h
  rcases ckReg_cases hnd with rfl | rfl | rfl | rfl | rfl | rfl | rfl | rfl | rfl | rfl <;>
    simp [ckObject, Obj.items, Checkpt.checkptAligned] at h
  exact h

lemma ck_simReg (r : Fin 2) :
    Checkpt.SimReg (ckProc r) Checkpt.Sample.T Checkpt.Sample.L (ckConfig r) (ckObject r) ckReg where
  known := by
    have h : ∀ nd ∈ ckReg, nd.ck < 256 ∧ nd.rs < 256 ∧ nd.an < 256 := by decide
    exact fun nd hnd => ⟨Checkpt.Sample.known _ (h nd hnd).1, Checkpt.Sample.known _ (h nd hnd).2.1, Checkpt.Sample.known _ (h nd hnd).2.2⟩
  funcs := by decide
  code := by
    intro nd hnd
    have h : ∀ nd ∈ ckReg, nd.rs < 256 ∧ nd.rs ≠ 0 := by decide
    have e : Checkpt.resym Checkpt.Sample.T (ckProc r).T nd.rs = nd.rs + 4096 := Checkpt.Sample.resym_eq _ (h nd hnd).2 (h nd hnd).1
    rw [e]
    rcases ckReg_cases hnd with rfl | rfl | rfl | rfl | rfl | rfl | rfl | rfl | rfl | rfl <;> rfl
  ints := by
    intro nd hnd
    rcases ckReg_cases hnd with rfl | rfl | rfl | rfl | rfl | rfl | rfl | rfl | rfl | rfl <;>
      simp [ckObject, Obj.Ints]
    omega
  valid := ck_valid r
  symKnown := fun nd hnd a ha => by
    rw [ck_sym r nd hnd a ha]
    exact Checkpt.Sample.known _ (by norm_num)

lemma ck_target (r : Fin 2) : ∀ nd ∈ ckReg, ∀ it ∈ (ckObject r nd.obj).items Checkpt.Sample.L, ∀ a, it.target = some a →
    a ∈ ([0, 64, 80, 96] : List ℕ) := by
  intro nd hnd it hit a ha
  rcases ckReg_cases hnd with rfl | rfl | rfl | rfl | rfl | rfl | rfl | rfl | rfl | rfl
  · simp [ckObject, Obj.items] at hit; subst hit; simp [Item.target] at ha
  · simp [ckObject, Obj.items] at hit; subst hit; simp [Item.target] at ha
  · simp [ckObject, Obj.items] at hit; rcases hit with rfl | rfl <;> simp [Item.target] at ha
  · simp only [ckObject, Obj.items, List.mem_cons, List.mem_append, List.not_mem_nil, or_false, List.mem_map] at hit
    rcases hit with (rfl | rfl | rfl | rfl) | ⟨k, _, rfl⟩ <;> simp [Item.target, Checkpt.checkptAligned] at ha <;> simp [← ha]
    by_cases e : k = 0 <;> simp [e]
  · rw [ck_grid] at hit
    simp only [List.mem_cons, List.not_mem_nil, or_false] at hit
    rcases hit with rfl | rfl <;> simp [Item.target, Checkpt.checkptAligned] at ha; simp [← ha]
  · simp only [ckObject, Obj.items, List.mem_cons, List.not_mem_nil, or_false] at hit
    rcases hit with rfl | rfl | rfl | rfl | rfl | rfl | rfl <;> simp [Item.target, Checkpt.checkptAligned] at ha <;> simp [← ha]
  · simp only [ckObject, Obj.items, List.mem_cons, List.mem_append, List.not_mem_nil, or_false, List.mem_map] at hit
    rcases hit with (rfl | rfl | rfl | rfl | rfl) | ⟨k, _, rfl⟩ <;> simp [Item.target, Checkpt.checkptAligned] at ha; simp [← ha]
  · simp only [ckObject, Obj.items, List.mem_cons, List.not_mem_nil, or_false] at hit
    rcases hit with rfl | rfl | rfl <;> simp [Item.target, Checkpt.checkptAligned] at ha; simp [← ha]
  · simp only [ckObject, Obj.items, List.mem_cons, List.not_mem_nil, or_false] at hit
    rcases hit with rfl | rfl | rfl <;> simp [Item.target, Checkpt.checkptAligned] at ha; simp [← ha]
  · simp [ckObject, Obj.items] at hit; subst hit; simp [Item.target] at ha; simp [← ha]

lemma ck_order (r : Fin 2) : Checkpt.inOrder (fun a => (ckObject r a).items Checkpt.Sample.L) [] ckReg = true := by
  have := ck_grid r
  simp [ckReg, Checkpt.inOrder, Checkpt.earlyPtrs, ckObject, Obj.items, Checkpt.checkptAligned, List.finRange, List.filterMap_cons,
    List.filterMap_append, zeros, Checkpt.ptrAt, Checkpt.deLE, Checkpt.Sample.L, List.range_succ]

lemma ck_regOk : Checkpt.RegOk ckReg := by
  refine ⟨by decide, by decide, ?_, ?_, ?_⟩ <;> decide

/-- The file of a rank can be written. -/
lemma ck_written (r : Fin 2) : ∃ bytes, Checkpt.checkptObjects Checkpt.Sample.T (fun a => (ckObject r a).items Checkpt.Sample.L)
    (fun _ => 77) ⟨true, ckReg, 12⟩ = some bytes := by
  have hw : ∀ nd ∈ ckReg, Checkpt.written (fun a => (ckObject r a).items Checkpt.Sample.L) nd = (ckObject r nd.obj).items Checkpt.Sample.L := by
    intro nd hnd
    unfold Checkpt.written
    rw [if_neg ((ck_simReg r).funcs nd hnd).1]
  refine Checkpt.checkpt_succeeds _ _ _ ⟨true, ckReg, 12⟩ rfl (fun nd h => (ck_regOk.id nd h).1) (fun nd h => ?_)
    (fun nd h it hit a ha h0 => ?_)
  · rw [hw nd h]
    exact ck_valid r nd h
  · rw [hw nd h] at hit
    have key : ∀ b ∈ ([0, 64, 80, 96] : List ℕ), b ≠ 0 → ∃ m ∈ ckReg, m.obj = b := by decide
    exact key a (ck_target r nd h it hit a ha) h0

/-- Example: the files. -/
noncomputable def ckFiles (r : Fin 2) : Files Checkpt.Sample.L (ckConfig r) where
  P := ckProc r
  T := Checkpt.Sample.T
  object := ckObject r
  nx := fun _ => 77
  s := ⟨true, ckReg, 12⟩
  s0 := ⟨true, [], 1⟩
  bytes := (ck_written r).choose
  syms := Checkpt.Sample.T_ok
  booted := rfl
  reg := ck_regOk
  sim := ck_simReg r
  config := by
    intro nd hnd
    rcases ckReg_cases hnd with rfl | rfl | rfl | rfl | rfl | rfl | rfl | rfl | rfl | rfl <;>
      simp [ckObject, Obj.Compatible, ckConfig]
    simp [threes, Checkpt.intAt, Checkpt.toInt, Checkpt.Sample.L, List.range_succ, Checkpt.deLE, Config.nPipeline]
  earlier := Checkpt.earlier_of_inOrder _ ckReg (ck_order r)
  reanimates := by
    intro nd hnd h
    rcases ckReg_cases hnd with rfl | rfl | rfl | rfl | rfl | rfl | rfl | rfl | rfl | rfl <;>
      first | exact Nat.succ_ne_zero _ | (simp [ckObject, Obj.cls] at h)
  places := by
    intro nd hnd
    have : ∀ nd ∈ ckReg, nd.id ≠ 0 := by decide
    have := this nd hnd
    simp [ckProc]
    exact this
  next := by norm_num
  written := (ck_written r).choose_spec

/-- Example: sevens are the sample particle. -/
noncomputable def ckCoding : Coding ℝ Unit where
  head b := (if b.head? = some 7 then -1 else 0, 1, 4, 0, 100)
  part b := if b.head? = some 7 then ⟨![9/10, 1/2, 0], 26, ![3/4, 0, 0], 7⟩ else ⟨0, 0, 0, 0⟩
  mover _ := ⟨fun _ => 0, 0⟩
  field b _ := if b.head? = some 7 then 1 else 0
  interp b := if b.head? = some 7 then ⟨1, 0, 0, 0, 1, 0, 0, 0, 1, 0, 0, 0, 1, 0, 1, 0, 1, 0⟩ else ⟨0, 0, 0, 0, 0, 0, 0, 0, 0, 0, 0, 0, 0, 0, 0, 0, 0, 0⟩
  num _ := 0
  state _ := ()

/-- Example: where things are. -/
def ckNames : Names := ⟨fun _ => 6, 7, 8, 10, [], 80, 1200⟩

/-- Example: the state the objects hold. -/
noncomputable def ckMachine : Machine ℝ Unit 2 :=
  ⟨⟨fun _ => threadRank, fun _ _ => 0, fun _ x => whole ckCoding.field 80 80 0 sevens.mem x.1 x.2⟩,
    fun _ => whole ckCoding.interp 72 80 (ckCoding.interp []) sevens.mem⟩

lemma head_bytesAt (mem : ℕ → Byte) (off len : ℕ) : (bytesAt mem off (len + 1)).head? = some (mem off) := by
  simp [bytesAt, List.range_succ_eq_map]

lemma ck_image (r : Fin 2) : Image ckCoding Checkpt.Sample.L 1 (ckFiles r).object (ckFiles r).s.reg ckNames (ckMachine.R r)
    (ckMachine.st r) (ckMachine.m r) (ckMachine.fi r) where
  species := by
    intro id _
    refine ⟨sevens, some [97], sevens, sevens, zeros, 81, 80, 0, rfl, ?_, ?_, rfl⟩
    · have e := head_bytesAt sevens.mem 0 127
      simp only [ckCoding, Checkpt.Sample.L, e]
      simp [sevens, ckMachine, threadRank, stepSpecies]
    · funext i
      have e := head_bytesAt sevens.mem (i.toNat * 32) 31
      simp only [storage, ckCoding, e]
      simp [sevens, ckMachine, threadRank, stepSpecies]
  fields := ⟨zeros, sevens, zeros, zeros, 80, 1, fun _ => 9, rfl, rfl⟩
  interps := ⟨zeros, sevens, 80, rfl, rfl⟩
  accs := ⟨threes, zeros, 200, 80, rfl, by norm_num [ckNames, Checkpt.Sample.L], by
    funext i
    simp [ckMachine, whole, storage, ckCoding]⟩
  handlers := ⟨[], .nil, rfl⟩

/-- The hypotheses of `restart_continues` hold together: two ranks with a particle each, fields that are not zero, three
threads, a checkpoint restored by processes at other addresses whose new memory differs, a step with sorting and cleaning. -/
example : ∃ (Z : Setup ℝ Unit 2) (V : Drive ℝ) (A : Settings) (ν μ1 ν1 : Machine ℝ Unit 2) (l k : List (Msg ℝ)), Sane Z V ∧ Z.P = 3 ∧
    Fit Z ckMachine ∧
    (∀ r, Image ckCoding Checkpt.Sample.L (Z.B r).nsp (ckFiles r).object (ckFiles r).s.reg ckNames (ckMachine.R r) (ckMachine.st r)
      (ckMachine.m r) (ckMachine.fi r)) ∧
    Restored ckCoding Checkpt.Sample.L Z (fun _ => ckNames) ckConfig ckFiles ckMachine ν ∧
    Cycles Z V A 0 ckMachine 1 μ1 l ∧ Cycles Z V A 0 ν 1 ν1 k ∧ Same μ1 ν1 ∧ l = k := by
  obtain ⟨g, hg, -, hZ, hs⟩ := gaussSetup_case
  have hx : ∀ r, (g r).nx = 2 ∧ (g r).ny = 3 ∧ (g r).nz = 2 := by
    obtain ⟨g', hg'⟩ := Boundary.sample_grids
    intro r
    have e := (hg' r).1
    rw [hg r, Option.some.injEq] at e
    rw [e]
    exact ⟨(hg' r).2.1, (hg' r).2.2.1, (hg' r).2.2.2.1⟩
  have ok := threadSetup_ok hZ hx (P := 3) (.inr rfl)
  have sane : Sane (threadSetup g 3) threadDrive := box_sane ok
    (fun x hx => ⟨Real.sqrt_nonneg x, Real.mul_self_sqrt hx⟩) (fun k => by norm_num [threadDrive, abs_le])
  have fit : Fit (threadSetup g 3) ckMachine :=
    { particles := fun r id hid => by
        have := hs r id hid
        exact ⟨this.np, this.np31, by norm_num [ckMachine, threadRank], this.within⟩
      sized := fun r id _ => by simp [Sized, ckMachine, threadRank, stepSpecies]
      tidy := fun r b _ v _ _ k hne => absurd rfl hne }
  have hI : ∀ r, Image ckCoding Checkpt.Sample.L ((threadSetup g 3).B r).nsp (ckFiles r).object (ckFiles r).s.reg ckNames
      (ckMachine.R r) (ckMachine.st r) (ckMachine.m r) (ckMachine.fi r) := fun r => by
    have e : ((threadSetup g 3).B r).nsp = 1 := rfl
    rw [e]
    exact ck_image r
  have hL : Checkpt.Sample.L.Ok := by constructor <;> decide
  obtain ⟨ν, hR, -⟩ := restored_exist hL (Z := threadSetup g 3) (X := fun _ => ckNames) (J := ckFiles) hI
  obtain ⟨hS, hst⟩ := restored_same hL hI hR
  have key : ∀ μ : Machine ℝ Unit 2, Same ckMachine μ → Fit (threadSetup g 3) μ → ∃ μ1 l,
      Cycle (threadSetup g 3) threadDrive ⟨0, 1, 1, 1, 1, 1⟩ 0 μ μ1 l := by
    intro μ hS fit
    have e : ∀ r id, ((μ.R r).sp id).np = 1 ∧ ((μ.R r).sp id).max_np = 4 ∧ ((μ.R r).sp id).max_nm = 100 := fun r id => by
      have h := (hS.ranks r).sp id
      exact ⟨h.np.symm, h.max_np.symm, h.max_nm.symm⟩
    have tot : total (threadSetup g 3) μ.toState = 2 := by
      unfold total
      simp only [e]
      simp [threadSetup, gaussSetup]
    exact cycle_runs ok (by simp [threadSetup, gaussSetup]) (fun _ => by simp [threadSetup, gaussSetup, stepEnv])
      (by simp [threadSetup]) sane ⟨0, 1, 1, 1, 1, 1⟩ 0 (by simp) fit
      (fun r id _ => by
        unfold Room
        rw [(e r id).1, (e r id).2.2]
        simp [threadSetup])
      (by rw [tot]; decide) (by rw [tot]; decide)
  obtain ⟨μ1, l, c1⟩ := key ckMachine ⟨fun _ => .refl _, rfl, rfl⟩ fit
  obtain ⟨ν1, k, c2⟩ := key ν hS (same_fit hS hst fit)
  have d1 : Cycles (threadSetup g 3) threadDrive ⟨0, 1, 1, 1, 1, 1⟩ 0 ckMachine 1 μ1 ([] ++ l) := .step (.refl _ _) c1
  have d2 : Cycles (threadSetup g 3) threadDrive ⟨0, 1, 1, 1, 1, 1⟩ 0 ν 1 ν1 ([] ++ k) := .step (.refl _ _) c2
  obtain ⟨r1, r2⟩ := restart_continues hL sane fit hI hR d1 d2
  exact ⟨_, _, _, ν, μ1, ν1, _, _, sane, rfl, fit, hI, hR, d1, d2, r1, r2⟩

end Verif.Threads
