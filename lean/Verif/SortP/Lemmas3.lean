import Verif.SortP.Lemmas2

/-! # The whole pipeline sort. -/
namespace Verif.SortP
open Verif Verif.Distribute

variable {α : Type}

/-- Facts about how the input is sliced over pipelines. -/
lemma slices (R : Rounding) (hR : R.Accurate) (n P : ℕ) (hP : 0 < P) (hP2 : P ≤ 256)
    (hn : n < 2 ^ 31) (src : ℤ → α) :
    ∃ sl : ℕ → List α, (List.range P).flatMap sl = (seg 0 n).map src ∧
      ∀ p < P, ∃ i k : ℤ, distribute R n 1 p P = some (i, k) ∧
        readSeg n src i (i + k) = some (sl p) := by
  set f : ℕ → ℤ := fun p => cut R n P p with hf
  have hmono : ∀ p < P, f p ≤ f (p + 1) := fun p hp => cut_mono R hR n P p hP hp hn (by omega)
  have f0 : f 0 = 0 := cut_zero R hR n P hP hn
  have fP : f P = n := cut_last R hR n P hP hn
  refine ⟨fun p => (seg (f p) (f (p + 1))).map src, ?_, ?_⟩
  · have := (iota_telescope f P hmono).2
    rw [f0, fP] at this
    have h2 : seg 0 n = iota 0 ((n : ℤ) - 0).toNat := rfl
    rw [h2, ← this, List.map_flatten, List.map_map, List.flatMap_def]
    rfl
  · intro p hp
    refine ⟨f p, f (p + 1) - f p, ?_, ?_⟩
    · have : p ≠ P := by omega
      simp [distribute, this, hf]; omega
    · have h1 : 0 ≤ f p := cut_nonneg R hR n P p hP hp.le hn
      have h2 : f (p + 1) ≤ n := by
        have : ∀ k, p + 1 + k ≤ P → f (p + 1) ≤ f (p + 1 + k) := by
          intro k
          induction k with
          | zero => intro _; exact le_rfl
          | succ k ih => intro h; exact (ih (by omega)).trans (hmono _ (by omega))
        have := this (P - (p + 1)) (by omega)
        rw [Nat.add_sub_cancel' hp, fP] at this
        exact this
      rw [readSeg, if_neg (by omega)]
      congr 3; ring

lemma sortArgs_spec (R : Rounding) (hR : R.Accurate) (key : α → ℤ) (S : Schedules α)
    (g : Scratch α) (a : Args) (p : ℤ → α) (partition : ℤ → ℤ)
    (hPS : a.nPipeline = a.nSubsort) (hP : 0 < a.nSubsort) (hP2 : a.nSubsort ≤ 256)
    (hn : a.n < 2 ^ 31) (hvl : 0 ≤ a.vl) (hvv : a.vl ≤ a.vh) (hvh : a.vh + 1 ≤ a.nVoxel)
    (hL : ∀ x ∈ (seg 0 a.n).map p, a.vl ≤ key x ∧ key x ≤ a.vh) :
    ∃ p' part', sortArgs R key S g a p partition = some (p', part') ∧
      Holds p' (buckets key a.vl (a.vh + 1) ((seg 0 a.n).map p)) ∧
      (∀ j : ℤ, (j < 0 ∨ a.n ≤ j) → p' j = p j) ∧
      (∀ v : ℤ, 0 ≤ v → v < a.nVoxel →
        part' v = (buckets key a.vl v ((seg 0 a.n).map p)).length) ∧
      part' (a.nVoxel) = if a.vh + 1 = a.nVoxel then (a.n : ℤ) else partition a.nVoxel := by
  set L := (seg 0 a.n).map p with hLdef
  have hlenL : L.length = a.n := by simp [hLdef, length_seg]
  have hbperm : ∀ v, a.vh + 1 ≤ v → (buckets key a.vl v L).Perm L := fun v hv =>
    buckets_perm key L (fun x hx => by have := hL x hx; omega)
  -- stores to partition
  have hpart : ∀ W : List (ℤ × ℤ), (∀ v x, (v, x) ∈ W ↔
        (a.vl ≤ v ∧ v ≤ a.vh + 1 ∧ x = (buckets key a.vl v L).length) ∨ (v, x) ∈ ghostLog a) →
      ∃ part', applyLog (a.nVoxel + 1) W partition = some part' ∧
        (∀ v : ℤ, 0 ≤ v → v < a.nVoxel → part' v = (buckets key a.vl v L).length) ∧
        part' (a.nVoxel) = if a.vh + 1 = a.nVoxel then (a.n : ℤ) else partition a.nVoxel := by
    intro W hW
    have hg : ∀ v x, (v, x) ∈ ghostLog a ↔
        (0 ≤ v ∧ v < a.vl ∧ x = 0) ∨ (a.vh + 1 ≤ v ∧ v < a.nVoxel ∧ x = a.n) := by
      intro v x
      simp only [ghostLog, List.mem_append, List.mem_map, mem_seg, Prod.mk.injEq]
      constructor
      · rintro (⟨u, hu, rfl, rfl⟩ | ⟨u, hu, rfl, rfl⟩) <;> omega
      · rintro (⟨h1, h2, rfl⟩ | ⟨h1, h2, rfl⟩)
        · exact Or.inl ⟨v, ⟨h1, h2⟩, rfl, rfl⟩
        · exact Or.inr ⟨v, ⟨h1, h2⟩, rfl, rfl⟩
    obtain ⟨m', e, p1, p2⟩ := applyLog_agree (a.nVoxel + 1)
      (fun v => ((buckets key a.vl v L).length : ℤ)) W partition (by
        rintro ⟨v, x⟩ hw
        rw [hW, hg] at hw
        rcases hw with ⟨h1, h2, h3⟩ | ⟨h1, h2, h3⟩ | ⟨h1, h2, h3⟩
        · exact ⟨by simp only; omega, by simp only; omega, h3⟩
        · refine ⟨by simp only; omega, by simp only; omega, ?_⟩
          simp only [h3, buckets, seg_nil h2.le]; rfl
        · refine ⟨by simp only; omega, by simp only; omega, ?_⟩
          simp only [h3, (hbperm v h1).length_eq, hlenL])
    refine ⟨m', e, ?_, ?_⟩
    · intro v h0 h1
      apply p1 v
      by_cases hv : v < a.vl
      · exact ⟨0, (hW _ _).mpr (Or.inr ((hg _ _).mpr (by omega)))⟩
      · by_cases hv2 : v ≤ a.vh + 1
        · exact ⟨_, (hW _ _).mpr (Or.inl ⟨by omega, hv2, rfl⟩)⟩
        · exact ⟨a.n, (hW _ _).mpr (Or.inr ((hg _ _).mpr (by omega)))⟩
    · split
      · rename_i h
        rw [p1 a.nVoxel ⟨_, (hW _ _).mpr (Or.inl ⟨by omega, by omega, rfl⟩)⟩,
          (hbperm _ h.le).length_eq, hlenL]
      · apply p2
        rintro ⟨x, hx⟩
        rw [hW, hg] at hx
        omega
  have hlenB : ((buckets key a.vl (a.vh + 1) L).length : ℤ) = a.n := by
    rw [(hbperm _ le_rfl).length_eq, hlenL]
  by_cases h1 : a.nSubsort = 1
  · -- single pipeline
    have hone : ∀ x ∈ L, V2P (key x) a.nSubsort a.vl a.vh = 0 := by
      intro x hx
      have := V2P_range (by omega : (0:ℤ) < (a.nSubsort : ℤ)) (hL x hx).1 (hL x hx).2
      rw [h1] at this ⊢
      push_cast at this ⊢
      omega
    have hF : ((List.range a.nSubsort).flatMap fun (s : ℕ) =>
        L.filter (fun x => V2P (key x) a.nSubsort a.vl a.vh = (s : ℤ))) = L := by
      rw [show List.range a.nSubsort = [0] by rw [h1]; rfl]
      simp only [List.flatMap_cons, List.flatMap_nil, List.append_nil]
      rw [List.filter_eq_self]
      intro x hx; simp [hone x hx]
    have hp : Holds p L := by
      intro j x hj
      rw [hLdef, List.getElem?_map] at hj
      by_cases hjn : j < a.n
      · rw [seg_getElem? j (by omega)] at hj
        simpa using hj
      · rw [List.getElem?_eq_none (by rw [length_seg]; omega)] at hj
        simp at hj
    obtain ⟨logs, e, q1, q2⟩ := subsort_phase key { a with nPipeline := 1 } p
      (put (put g.cp 0 0) 1 a.n) g.next L hlenL (by simp) hP hvv hL (by rw [hF]; exact hp) (by
        intro s hs
        simp only [h1] at hs
        have : s = 0 ∨ s = 1 := by omega
        rcases this with rfl | rfl
        · simp [put]
        · simp only [h1] at hF ⊢
          rw [hF, hlenL]; simp [put])
    obtain ⟨dlog, plog, e1⟩ : ∃ dlog plog, subsort key { a with nPipeline := 1 } p
        (put (put g.cp 0 0) 1 a.n) g.next 0 = some (dlog, plog) ∧ logs = [(dlog, plog)] := by
      simp only [List.range_one, List.mapM_cons, List.mapM_nil] at e
      cases hsub : subsort key { a with nPipeline := 1 } p (put (put g.cp 0 0) 1 a.n) g.next 0 with
      | none => rw [hsub] at e; simp at e
      | some r =>
        rw [hsub] at e
        simp only [Option.bind_eq_bind, Option.bind_some, Option.pure_def, Option.some.injEq] at e
        exact ⟨r.1, r.2, rfl, e.symm⟩
    obtain ⟨e1, rfl⟩ := e1
    obtain ⟨aux, ea, ha1, ha2⟩ := applyLog_block a.n _ hlenB.le dlog (fun j x => by
      rw [← q1]; simp) g.aux
    obtain ⟨part', ep, hp1, hp2⟩ := hpart (plog ++ ghostLog a) (by
      intro v x
      rw [List.mem_append, ← q2]; simp)
    refine ⟨fun i => if 0 ≤ i ∧ i < a.n then aux i else p i, part', ?_, ?_, ?_, hp1, hp2⟩
    · rw [sortArgs]
      simp only []
      rw [if_neg (by simp [h1]), e1]
      simp only [Option.bind_eq_bind, Option.bind_some]
      rw [ea]
      simp only [Option.bind_some]
      rw [ep]
      rfl
    · intro j x hj
      have hjl : j < (buckets key a.vl (a.vh + 1) L).length :=
        (List.getElem?_eq_some_iff.mp hj).1
      show (if 0 ≤ (j : ℤ) ∧ (j : ℤ) < a.n then aux j else p j) = x
      rw [if_pos (by omega)]
      exact ha1 j x hj
    · intro j hj
      show (if 0 ≤ j ∧ j < a.n then aux j else p j) = p j
      rw [if_neg (by omega)]
  · -- several pipelines
    set P := a.nSubsort with hPdef
    have hPz : (0 : ℤ) < (P : ℤ) := by omega
    obtain ⟨sl, hsl, hdist⟩ := slices R hR a.n P hP hP2 hn p
    have hslmem : ∀ r < P, ∀ x ∈ sl r, x ∈ L := by
      intro r hr x hx
      rw [hLdef, ← hsl, List.mem_flatMap]
      exact ⟨r, List.mem_range.mpr hr, hx⟩
    set bin : α → ℤ := fun x => V2P (key x) P a.vl a.vh with hbin
    have hbinr : ∀ x ∈ L, 0 ≤ bin x ∧ bin x < P := fun x hx =>
      V2P_range hPz (hL x hx).1 (hL x hx).2
    have hstride : P ≤ cpStride P := by unfold cpStride; omega
    -- coarse count
    have hcc : ∀ r ∈ List.range P, coarseCount R key a p r = some ((seg 0 P).map fun (k : ℤ) =>
        (((cpStride P * r : ℕ) : ℤ) + k, (((sl r).filter (fun x => bin x = k)).length : ℤ))) := by
      intro r hr
      rw [List.mem_range] at hr
      obtain ⟨i, k, d1, d2⟩ := hdist r hr
      obtain ⟨c, c1, c2⟩ := countLoop_spec bin 0 P (sl r) (fun _ => 0)
        (fun x hx => hbinr x (hslmem r hr x hx))
      rw [coarseCount]
      rw [if_neg (by omega), hPS, d1]
      simp only [Option.bind_eq_bind, Option.bind_some, d2]
      rw [c1]
      simp only [Option.bind_some, c2, zero_add]
      rfl
    obtain ⟨cp1, ecp1, hcp1, -⟩ := applyLog_agree ((cpStride P * P + 1 : ℕ) : ℤ)
      (fun ad => (((sl (ad / cpStride P).toNat).filter
        (fun x => bin x = ad % cpStride P)).length : ℤ))
      (S.count.run ((List.range P).map fun r => (seg 0 P).map fun k =>
        (((cpStride P * r : ℕ) : ℤ) + k, (((sl r).filter (fun x => bin x = k)).length : ℤ)))) g.cp (by
        rintro ⟨ad, x⟩ hw
        rw [Sched.mem] at hw
        obtain ⟨w, hw, hx⟩ := hw
        rw [List.mem_map] at hw
        obtain ⟨r, hr, rfl⟩ := hw
        rw [List.mem_map] at hx
        obtain ⟨k, hk, he⟩ := hx
        rw [Prod.mk.injEq] at he
        obtain ⟨rfl, rfl⟩ := he
        rw [mem_seg] at hk
        rw [List.mem_range] at hr
        have hcs : (0 : ℤ) < cpStride P := by omega
        have hb : cpStride P * r + cpStride P ≤ cpStride P * P := by
          rw [← Nat.mul_succ]; exact Nat.mul_le_mul_left _ hr
        refine ⟨by simp only; omega, by simp only; push_cast; zify at hb; omega, ?_⟩
        simp only
        have e1 : (((cpStride P * r : ℕ) : ℤ) + k) / cpStride P = r := by
          push_cast
          rw [add_comm, Int.add_mul_ediv_left _ _ hcs.ne',
            Int.ediv_eq_zero_of_lt hk.1 (by omega)]; simp
        have e2 : (((cpStride P * r : ℕ) : ℤ) + k) % cpStride P = k := by
          push_cast
          rw [add_comm, Int.add_mul_emod_self_left, Int.emod_eq_of_lt hk.1 (by omega)]
        rw [e1, e2]; simp)
    have hcp1' : ∀ s < P, ∀ r < P, cp1 ((s + cpStride P * r : ℕ) : ℤ)
        = ((sl r).filter (fun x => bin x = (s : ℤ))).length := by
      intro s hs r hr
      have hcs : (0 : ℤ) < cpStride P := by omega
      have hcomm : ((s + cpStride P * r : ℕ) : ℤ) = ((cpStride P * r : ℕ) : ℤ) + (s : ℤ) := by
        push_cast; ring
      rw [hcp1 _ ⟨_, (Sched.mem _ _ _).mpr ⟨_, List.mem_map_of_mem (List.mem_range.mpr hr),
        List.mem_map.mpr ⟨(s : ℤ), mem_seg.mpr (by omega), by rw [hcomm]⟩⟩⟩]
      have e1 : ((s + cpStride P * r : ℕ) : ℤ) / cpStride P = r := by
        push_cast
        rw [Int.add_mul_ediv_left _ _ hcs.ne', Int.ediv_eq_zero_of_lt (by omega) (by omega)]; simp
      have e2 : ((s + cpStride P * r : ℕ) : ℤ) % cpStride P = s := by
        push_cast
        rw [Int.add_mul_emod_self_left, Int.emod_eq_of_lt (by omega) (by omega)]
      rw [e1, e2]; simp
    -- coarse prefix
    set prs : List (ℕ × ℕ) := (List.range P).flatMap fun s => (List.range P).map fun r => (s, r)
      with hprs
    set addr : ℕ × ℕ → ℤ := fun b => ((b.1 + cpStride P * b.2 : ℕ) : ℤ) with haddr
    set f : ℕ × ℕ → List α := fun b => (sl b.2).filter (fun x => bin x = (b.1 : ℤ)) with hfdef
    have haddrs : ((List.range P).flatMap fun s =>
      (List.range P).map fun r => ((s + cpStride P * r : ℕ) : ℤ)) = prs.map addr := by
      rw [hprs, List.map_flatMap]
      apply List.flatMap_congr
      intro s _
      rw [List.map_map]; rfl
    have hmemprs : ∀ b, b ∈ prs ↔ b.1 < P ∧ b.2 < P := by
      rintro ⟨s, r⟩
      simp [hprs]
    have hnodup : (prs.map addr).Nodup := by
      have hnd : prs.Nodup := by
        have : prs = (List.range P) ×ˢ (List.range P) := rfl
        rw [this]
        exact List.nodup_range.product List.nodup_range
      refine List.Nodup.map_on ?_ hnd
      rintro ⟨s, r⟩ hb ⟨s', r'⟩ hb' he
      rw [hmemprs] at hb hb'
      simp only [haddr] at he
      have he' : s + cpStride P * r = s' + cpStride P * r' := by exact_mod_cast he
      have hcs : 0 < cpStride P := by omega
      have m1 := congrArg (· % cpStride P) he'
      have m2 := congrArg (· / cpStride P) he'
      simp only [Nat.add_mul_mod_self_left, Nat.add_mul_div_left _ _ hcs] at m1 m2
      rw [Nat.mod_eq_of_lt (by simp at hb; omega), Nat.mod_eq_of_lt (by simp at hb'; omega)] at m1
      rw [Nat.div_eq_of_lt (by simp at hb; omega), Nat.div_eq_of_lt (by simp at hb'; omega)] at m2
      rw [m1]; congr 1; omega
    obtain ⟨p1, p2, p3, p4⟩ := prefixLoop_spec prs addr f 0 cp1 hnodup (by
      rintro ⟨s, r⟩ hb
      rw [hmemprs] at hb
      exact hcp1' s hb.1 r hb.2)
    set cp2 := (prefixLoop (prs.map addr) 0 cp1).1 with hcp2
    have hrow : ∀ s : ℕ, ((List.range P).map fun r => (s, r)).flatMap f
        = L.filter (fun x => bin x = (s : ℤ)) := by
      intro s
      rw [hLdef, ← hsl, List.filter_flatMap, List.flatMap_map]
    have hrows : ∀ n : ℕ, ((List.range n).flatMap fun s => (List.range P).map fun r => (s, r)).flatMap f
        = (List.range n).flatMap fun (s : ℕ) => L.filter (fun x => bin x = (s : ℤ)) := by
      intro n
      rw [List.flatMap_assoc]
      apply List.flatMap_congr
      intro s _
      exact hrow s
    have hprsf : prs.flatMap f = (List.range P).flatMap fun (s : ℕ) =>
        L.filter (fun x => bin x = (s : ℤ)) := hrows P
    have hCperm : (prs.flatMap f).Perm L := by
      rw [hprsf]
      have := bucket_perm (fun x => (bin x).toNat) (List.range P) List.nodup_range L (by
        intro x hx
        have := hbinr x hx
        rw [List.mem_range]; omega)
      refine List.Perm.trans (List.Perm.of_eq ?_) this
      apply List.flatMap_congr
      intro k _
      apply List.filter_congr
      intro x hx
      have := hbinr x hx
      simp only [decide_eq_decide]
      omega
    -- coarse sort
    have hcs : ∀ r ∈ List.range P, ∃ log, coarseSort R key a p cp2 r = some log ∧
        ∀ j x, (j, x) ∈ log ↔ ∃ s < P, (j, x) ∈ blockLog (cp2 (addr (s, r))) (f (s, r)) := by
      intro r hr
      rw [List.mem_range] at hr
      obtain ⟨i, k, d1, d2⟩ := hdist r hr
      obtain ⟨log, c1, c2⟩ := scatterLoop_spec bin 0 P (sl r)
        (fun k => cp2 (((cpStride P * r : ℕ) : ℤ) + k))
        (fun x hx => hbinr x (hslmem r hr x hx))
      refine ⟨log, ?_, ?_⟩
      · rw [coarseSort]
        rw [if_neg (by omega), hPS, d1]
        simp only [Option.bind_eq_bind, Option.bind_some, d2]
        exact c1
      · intro j x
        rw [c2]
        constructor
        · rintro ⟨k, hk⟩
          have hk' := hk
          rw [mem_blockLog] at hk'
          obtain ⟨i', -, hi'⟩ := hk'
          have hx := List.mem_of_getElem? hi'
          rw [List.mem_filter] at hx
          have hb := hbinr x (hslmem r hr x hx.1)
          have e : bin x = k := by simpa using hx.2
          refine ⟨k.toNat, by omega, ?_⟩
          have ek : ((k.toNat : ℕ) : ℤ) = k := by omega
          simp only [haddr, hfdef, ek]
          push_cast at hk ⊢
          rw [ek, add_comm k]
          exact hk
        · rintro ⟨s, hs, hk⟩
          refine ⟨s, ?_⟩
          simp only [haddr, hfdef] at hk
          push_cast at hk ⊢
          rw [add_comm]
          exact hk
    choose! clog hclog hclogm using hcs
    have hlenC : ((prs.flatMap f).length : ℤ) = a.n := by rw [hCperm.length_eq, hlenL]
    obtain ⟨aux, eaux, haux, -⟩ := applyLog_block a.n (prs.flatMap f) hlenC.le
      (S.coarse.run ((List.range P).map clog)) (by
        intro j x
        rw [Sched.mem, p3]
        constructor
        · rintro ⟨w, hw, hx⟩
          rw [List.mem_map] at hw
          obtain ⟨r, hr, rfl⟩ := hw
          obtain ⟨s, hs, hx⟩ := (hclogm r hr j x).mp hx
          exact ⟨(s, r), (hmemprs _).mpr ⟨hs, List.mem_range.mp hr⟩, hx⟩
        · rintro ⟨⟨s, r⟩, hb, hx⟩
          rw [hmemprs] at hb
          have hr := List.mem_range.mpr hb.2
          exact ⟨_, List.mem_map_of_mem hr, (hclogm r hr j x).mpr ⟨s, hb.1, hx⟩⟩) g.aux
    -- subsort
    obtain ⟨flogs, ef, q1, q2⟩ := subsort_phase key a aux (put cp2 P a.n) g.next L hlenL
      (by omega) hP hvv hL (by rw [hprsf] at haux; exact haux) (by
        intro s hs
        show put cp2 P a.n s = (((List.range s).flatMap fun (s : ℕ) =>
          L.filter (fun x => bin x = (s : ℤ))).length : ℤ)
        by_cases hsP : s = P
        · subst hsP
          rw [put_self, ← hlenC, hprsf]
        · rw [put_ne _ _ (by exact_mod_cast hsP)]
          have hs' : s < P := by omega
          have hsplit : prs = ((List.range s).flatMap fun s => (List.range P).map fun r => (s, r)) ++
              (s, 0) :: (((List.range (P - 1)).map fun r => (s, r + 1)) ++
                ((List.range (P - (s + 1))).map (s + 1 + ·)).flatMap
                  fun s => (List.range P).map fun r => (s, r)) := by
            have e1 : P = (s + 1) + (P - (s + 1)) := by omega
            have e2 : (List.range P).map (fun r => (s, r))
                = (s, 0) :: (List.range (P - 1)).map fun r => (s, r + 1) := by
              conv_lhs => rw [show P = (P - 1) + 1 by omega, List.range_succ_eq_map]
              simp [List.map_map, Function.comp_def]
            rw [hprs]
            conv_lhs => 
              arg 2
              rw [e1]
            rw [List.range_add, List.range_succ, List.flatMap_append, List.flatMap_append]
            simp only [List.flatMap_cons, List.flatMap_nil, List.append_nil, List.append_assoc]
            rw [e2]
            rfl
          have := p4 _ _ _ hsplit
          rw [hrows] at this
          simp only [haddr, Nat.mul_zero, Nat.add_zero, zero_add] at this
          exact this)
    obtain ⟨p', ep', hp'1, hp'2⟩ := applyLog_block a.n _ hlenB.le
      (S.sub.run (flogs.map Prod.fst)) (by
        intro j x
        rw [Sched.mem, ← q1]
        constructor
        · rintro ⟨w, hw, hx⟩
          rw [List.mem_map] at hw
          obtain ⟨l, hl, rfl⟩ := hw
          exact ⟨l, hl, hx⟩
        · rintro ⟨l, hl, hx⟩
          exact ⟨_, List.mem_map_of_mem hl, hx⟩) p
    obtain ⟨part', ep, hpt1, hpt2⟩ := hpart (S.part.run (flogs.map Prod.snd ++ [ghostLog a])) (by
      intro v x
      rw [Sched.mem, ← q2]
      constructor
      · rintro ⟨w, hw, hx⟩
        rw [List.mem_append, List.mem_map, List.mem_singleton] at hw
        rcases hw with ⟨l, hl, rfl⟩ | rfl
        · exact Or.inl ⟨l, hl, hx⟩
        · exact Or.inr hx
      · rintro (⟨l, hl, hx⟩ | hx)
        · exact ⟨l.2, by simp only [List.mem_append]; exact Or.inl (List.mem_map_of_mem hl), hx⟩
        · exact ⟨ghostLog a, by simp, hx⟩)
    refine ⟨p', part', ?_, hp'1, ?_, hpt1, hpt2⟩
    · rw [sortArgs]
      rw [hPS] at ef ⊢
      simp only [← hPdef]
      rw [if_pos h1, mapM_some _ _ _ hcc]
      simp only [Option.bind_eq_bind, Option.bind_some]
      rw [ecp1]
      simp only [Option.bind_some]
      rw [haddrs, ← hcp2, mapM_some _ _ _ hclog]
      simp only [Option.bind_some]
      rw [eaux]
      simp only [Option.bind_some]
      rw [ef]
      simp only [Option.bind_some]
      rw [ep']
      simp only [Option.bind_some]
      rw [ep]
      rfl
    · intro j hj
      apply hp'2
      rw [hlenB]; exact hj

end Verif.SortP
