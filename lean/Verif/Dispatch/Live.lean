import Verif.Dispatch.Inv2
import Mathlib.Algebra.BigOperators.Group.Finset.Basic
import Mathlib.Data.Finset.Card
import Mathlib.Data.Fintype.Card

/-!
# Termination of the calls of the dispatcher: ranking
-/
namespace Verif.Dispatch

lemma inv_reachable {n D : ℕ} (hD : D ≤ 1) (hn : D ≤ n) {s : St} (h : Reachable n D s) :
    Inv1 n D s ∧ Inv2 n D s := by
  induction h with
  | @boot s h =>
    obtain ⟨h1, h2, h3, h4, h5, h6⟩ := h
    constructor
    · constructor <;> grind [holds, halting, working]
    · constructor <;> grind [Active, working]
  | @step s s' a _ hs ih =>
    obtain ⟨ih1, ih2⟩ := ih
    cases a with
    | worker i =>
      simp only [act] at hs
      split at hs
      · exact ⟨inv1_worker ih1 i ‹_› hs, inv2_worker hD hn ih1 ih2 i ‹_› hs⟩
      · cases hs
    | host => exact ⟨inv1_host ih1 hs, inv2_host hD hn ih1 ih2 hs⟩
    | call c => exact ⟨inv1_call ih1 c hs, inv2_call hD hn ih2 c hs⟩
    | spurious i =>
      simp only [act] at hs
      split at hs
      · cases hs
        rename_i hc
        exact ⟨inv1_spurious ih1 i hc.1 hc.2, inv2_spurious ih2 i hc.1 hc.2⟩
      · cases hs

/-- Steps a worker still makes before it waits. -/
def pot : WPc → ℕ
  | .waiting => 0
  | .toWait => 1
  | .toSleep => 2
  | .flagging => 3
  | .running => 4
  | .top => 5
  | .waking => 6
  | .exited => 0

/-- Steps the host still makes, and wakeups it still causes, weighted. -/
def hostRank (n W : ℕ) : HPc → ℕ
  | .disp id => 20 * (W - id) + 3
  | .hostRun _ => 2
  | .hostFlag _ => 1
  | .pe id => 20 * (W - id) + 2
  | .tryl id _ => 20 * (W - id) + 2
  | .locked id _ => 20 * (W - id) + 2
  | .assigned id _ => 20 * (W - (id + 1)) + 12
  | .signalled id _ => 20 * (W - (id + 1)) + 4
  | .waitAt id => (n - id) + 1
  | .haltAt id => 20 * (W - id) + 1
  | .haltLocked id => 20 * (W - id)
  | .haltSet id => 20 * (W - id) - 1
  | .haltSignalled id => 20 * (W - id) - 9
  | .haltJoin id => 20 * (W - id) - 10
  | .idle => 0
  | .error => 0
  | .halted => 0

/-- The sum of both. -/
def rank (n D : ℕ) (s : St) : ℕ :=
  ∑ i ∈ Finset.range (n - D), pot (s.ws i).pc + hostRank n (n - D) s.host

lemma sum_upd {W i : ℕ} (hi : i < W) (ws : ℕ → Worker) (w : Worker) :
    ∑ k ∈ Finset.range W, pot (upd ws i w k).pc + pot (ws i).pc =
      ∑ k ∈ Finset.range W, pot (ws k).pc + pot w.pc := by
  have hm : i ∈ Finset.range W := Finset.mem_range.mpr hi
  rw [← Finset.sum_erase_add _ _ hm, ← Finset.sum_erase_add (Finset.range W) (fun k => pot (ws k).pc) hm]
  have : ∑ k ∈ (Finset.range W).erase i, pot (upd ws i w k).pc =
      ∑ k ∈ (Finset.range W).erase i, pot (ws k).pc := by
    refine Finset.sum_congr rfl fun k hk => ?_
    have := Finset.ne_of_mem_erase hk
    simp [upd, this]
  rw [this]
  simp [upd]
  omega

/-- Every step of a worker lowers the rank. -/
lemma rank_worker {n D : ℕ} {s s' : St} (i : ℕ) (hi : i < n - D)
    (hs : workerStep s i = some s') : rank n D s' < rank n D s := by
  unfold workerStep at hs
  split at hs
  all_goals try (split at hs)
  all_goals cases hs
  all_goals
    simp only [rank]
    rename_i hpc
    first
      | (have := sum_upd hi s.ws { s.ws i with owner := .worker, pc := .top }; simp_all [pot]; omega)
      | (have := sum_upd hi s.ws { s.ws i with owner := .free, pc := .exited }; simp_all [pot]; omega)
      | (have := sum_upd hi s.ws { s.ws i with pc := .running }; simp_all [pot]; omega)
      | (have := sum_upd hi s.ws { s.ws i with pc := .toSleep }; simp_all [pot]; omega)
      | (have := sum_upd hi s.ws { s.ws i with pc := .flagging }; simp_all [pot]; omega)
      | (have := sum_upd hi s.ws { s.ws i with state := .sleep, pc := .toWait }; simp_all [pot]; omega)
      | (have := sum_upd hi s.ws { s.ws i with owner := .free, pc := .waiting }; simp_all [pot]; omega)

/-- The host is looking for a worker for job `id`. -/
def Seeking (id : ℕ) (h : HPc) : Prop := h = .pe id ∨ (∃ i, h = .tryl id i) ∨ ∃ i, h = .locked id i

/-- A step of the host inside of a call lowers the rank, except when it looks for a worker and when it
waits for a flag. -/
lemma rank_host {n D : ℕ} {s s' : St} (h1 : Inv1 n D s) (hs : hostStep n D s = some s') :
    rank n D s' < rank n D s ∨ (∃ id, Seeking id s.host ∧ Seeking id s'.host ∧ rank n D s' = rank n D s) ∨
    (∃ id, id < n ∧ s.host = .waitAt id ∧ s.done id = false ∧ s' = s) := by
  have k9 := h1.term
  have k13 := h1.hid
  have k14 := h1.hpe
  have k15 := h1.hdisp
  have k17 := h1.hhalt
  clear h1
  have ho : ∀ (i : ℕ) (w : Worker), i < n - D → w.pc = (s.ws i).pc →
      ∑ k ∈ Finset.range (n - D), pot (upd s.ws i w k).pc = ∑ k ∈ Finset.range (n - D), pot (s.ws k).pc := by
    intro i w hi hw
    have := sum_upd hi s.ws w
    rw [hw] at this
    omega
  have hsig : ∀ i : ℕ, i < n - D → ∑ k ∈ Finset.range (n - D), pot (upd s.ws i (signal (s.ws i)) k).pc ≤
      ∑ k ∈ Finset.range (n - D), pot (s.ws k).pc + 6 := by
    intro i hi
    have := sum_upd hi s.ws (signal (s.ws i))
    have h6 : pot (signal (s.ws i)).pc ≤ pot (s.ws i).pc + 6 := by
      unfold signal
      split
      · simp [pot]
      · omega
    omega
  obtain ⟨ws, done, Id, busy, host, epoch, runs⟩ := s
  dsimp only at ho hsig k9 k13 k14 k15 k17
  cases host with
  | idle => cases hs
  | error => cases hs
  | halted => cases hs
  | disp id =>
    simp only [hostStep] at hs
    split_ifs at hs <;> cases hs <;> left <;> simp only [rank, hostRank] <;> omega
  | hostRun id => cases hs; left; simp only [rank, hostRank]; omega
  | hostFlag id => cases hs; left; simp only [rank, hostRank]; omega
  | pe id =>
    cases hs; right; left
    exact ⟨id, Or.inl rfl, Or.inr (Or.inl ⟨_, rfl⟩), rfl⟩
  | tryl id i =>
    have := k13 id i (Or.inl rfl)
    simp only [hostStep] at hs
    split_ifs at hs <;> cases hs <;> right <;> left
    · refine ⟨id, Or.inr (Or.inl ⟨_, rfl⟩), Or.inr (Or.inr ⟨_, rfl⟩), ?_⟩
      simp only [rank, hostRank]
      rw [ho i _ this.2] <;> first | rfl | omega
    · exact ⟨id, Or.inr (Or.inl ⟨_, rfl⟩), Or.inl rfl, rfl⟩
  | locked id i =>
    have := k13 id i (Or.inr (Or.inl rfl))
    simp only [hostStep] at hs
    split at hs
    · cases hs
      left
      simp only [rank, hostRank]
      rw [ho i _ this.2] <;> first | rfl | omega
    · exact absurd (k9 i ‹_›) (by simp [halting])
    · cases hs; right; left
      refine ⟨id, Or.inr (Or.inr ⟨_, rfl⟩), Or.inl rfl, ?_⟩
      simp only [rank, hostRank]
      rw [ho i _ this.2] <;> first | rfl | omega
  | assigned id i =>
    have := k13 id i (by simp)
    have h6 := hsig i this.2
    cases hs
    left
    simp only [rank, hostRank]
    omega
  | signalled id i =>
    have := k13 id i (by simp)
    cases hs
    left
    simp only [rank, hostRank]
    rw [ho i _ this.2] <;> first | rfl | omega
  | waitAt id =>
    simp only [hostStep] at hs
    split_ifs at hs with h1 h2 <;> cases hs
    · left; simp only [rank, hostRank]; omega
    · right; right; exact ⟨id, h1, rfl, by simpa using h2, rfl⟩
    · left; simp only [rank, hostRank]; omega
  | haltAt id =>
    simp only [hostStep] at hs
    split_ifs at hs with h1 h2 <;> cases hs <;> left <;> simp only [rank, hostRank]
    · rw [ho id _ h1] <;> first | rfl | omega
    · omega
  | haltLocked id =>
    have := k17 id (by simp)
    cases hs; left; simp only [rank, hostRank]
    rw [ho id _ this] <;> first | rfl | omega
  | haltSet id =>
    have := k17 id (by simp)
    have h6 := hsig id this
    cases hs; left; simp only [rank, hostRank]
    omega
  | haltSignalled id =>
    have := k17 id (by simp)
    cases hs; left; simp only [rank, hostRank]
    rw [ho id _ this] <;> first | rfl | omega
  | haltJoin id =>
    have := k17 id (by simp)
    simp only [hostStep] at hs
    split_ifs at hs
    cases hs; left; simp only [rank, hostRank]
    omega

end Verif.Dispatch
