import Verif.Global.Uniform

/-!
# C104: flight in a uniform magnetic field
-/
namespace Verif.Global

open Grid MoveP Charge Torus Threads
open Boundary (live)
open Field (Pos FC FMem World EntOn fieldExt vox)

variable {K : Type} [Field K] [LinearOrder K] [IsStrictOrderedRing K] [Archimedean K] {S : Type*}

/-- **C104.** A periodic box without electric field, with a uniform magnetic field `b` (in a medium where it stays: everything if `b` is
zero, else one of uniform permeability), and with particles without charge, e.g. tracers; cut in any way.  In a run of any number of steps the
fields stay exactly as they are, all errors printed are zero, and every particle keeps its weight and its energy; without field every particle
keeps its momentum and flies straight on, at its velocity. -/
theorem flight_in_uniform_field {n : ℕ} {Z : Setup K S n} {V : Drive K} (hZ : Cut Z V) {q : ℕ → K} {μ0 μ1 μ2 : Machine K S n} {x0 : Box K}
    (hμ : Fit Z μ0) (h0 : Holding Z q μ0 x0) {b : Fin 3 → K} (he : ∀ a s, x0.f (.e a) s = 0) (hb : ∀ a s, x0.f (.cb a) s = b a)
    (hm : ∀ a s s', b a * (Z.M.face a s).rmu a = b a * (Z.M.face a s').rmu a) (hc : chargesOf Z V q μ0 = 0)
    {A : Settings} {l1 l2 : List (Msg K)} {i j : ℤ} (h1 : Begin Z V μ0 μ1 l1) (h2 : Cycles Z V A i μ1 j μ2 l2) :
    (∀ r c a, EntOn (Z.F r).g fieldExt (.e a) c → μ2.m r (vox (Z.F r).g c, .e a) = 0) ∧
    (∀ r c a, EntOn (Z.F r).g fieldExt (.cb a) c → μ2.m r (vox (Z.F r).g c, .cb a) = b a) ∧
    (∀ m ∈ l1 ++ l2, m = .sync 0 ∨ m = .divE 0 ∨ m = .divB 0) ∧
    ∀ id < Z.nsp, ∃ F : GPart K → GPart K, gather Z.D Z.B μ2.R id = (gather Z.D Z.B μ0.R id).map F ∧ ∀ p ∈ gather Z.D Z.B μ0.R id,
      (F p).w = p.w ∧ Boris.dot (F p).u (F p).u = Boris.dot p.u p.u ∧ (∀ a, -1 ≤ (F p).d a ∧ (F p).d a ≤ 1) ∧
      (b = 0 → (F p).u = p.u ∧ ∀ a, ∃ z : ℤ, 2 * ((F p).cell a : K) + (F p).d a =
        2 * (p.cell a : K) + p.d a + ((j - i : ℤ) : K) * (2 * (p.u a * V.cdt_d a * (1 / V.rt (1 + Boris.dot p.u p.u)))) +
          2 * ((z * Torus.sizeOf Z.D a : ℤ) : K)) := by
  have hr : V.rt 0 = 0 := by
    have := (hZ.sane.root 0 le_rfl).2
    exact mul_self_eq_zero.mp this
  have hd : ∀ id < Z.nsp, ∀ p ∈ x0.parts id, ∀ k, -1 ≤ p.d k ∧ p.d k ≤ 1 := by
    intro id hid p hp
    rw [← h0.parts id hid] at hp
    unfold gather at hp
    rw [Multiset.mem_sum] at hp
    obtain ⟨r, -, hp⟩ := hp
    rw [Multiset.mem_map] at hp
    obtain ⟨p0, hp0, rfl⟩ := hp
    have hs := hμ.particles r id (by rw [hZ.whole.nsp r]; exact hid)
    unfold live Distribute.upTo at hp0
    simp only [Multiset.mem_coe, List.map_map, List.mem_map, List.mem_range] at hp0
    obtain ⟨i, hi, rfl⟩ := hp0
    exact (hs.within i (by omega) (by exact_mod_cast hi)).2
  obtain ⟨a1, x, a2, a3⟩ := run_in_box hZ hμ h0 h1 h2
  obtain ⟨c1, c2, c3, c4⟩ := boxBegin_calm (U := universeOf Z q) (V := V) hr hm he hb (by rw [charges_holding V h0, hc]) hd
  obtain ⟨d1, d2, d3, d4⟩ := boxCycles_calm hr hm a2 c1 c2 fun id hid p hp => by
    obtain ⟨F, e, hF⟩ := c4 id hid
    rw [e] at hp
    obtain ⟨p0, h0, rfl⟩ := Multiset.mem_map.mp hp
    exact (hF p0 h0).inside
  refine ⟨fun r c a hc => ?_, fun r c a hc => ?_, fun m hm => ?_, fun id hid => ?_⟩
  · rw [a3.fields (.e a) (.inl (.inl ⟨a, rfl⟩)) r c hc, d1.e]
  · rw [a3.fields (.cb a) (.inl (.inr (.inl ⟨a, rfl⟩))) r c hc, d1.cb]
  · rcases List.mem_append.mp hm with hm | hm
    · rw [a1] at hm
      exact c3 m hm
    · exact d3 m hm
  · obtain ⟨F, e, hF⟩ := (c4 id hid).trans (d4 id hid)
    refine ⟨F, by rw [a3.parts id hid, h0.parts id hid, e], fun p hp => ?_⟩
    have h := hF p (by rw [← h0.parts id hid]; exact hp)
    refine ⟨h.w, h.energy, h.inside, fun h00 => ⟨h.momentum h00, fun a => ?_⟩⟩
    obtain ⟨z, hz⟩ := h.place h00 a
    rw [zero_add] at hz
    exact ⟨z, hz⟩

end Verif.Global
