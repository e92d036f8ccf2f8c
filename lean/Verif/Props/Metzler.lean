import Verif.Props.SemRun

/-!
Positivity of solutions of time-dependent linear systems with nonnegative couplings (used for C119).
-/

namespace Ormatex.Props
open Filter Topology

variable {ι : Type} [Fintype ι]

/-- a function that is larger to the left has a nonpositive derivative -/
theorem deriv_nonpos_of_left {f : ℝ → ℝ} {f' x : ℝ} (hf : HasDerivAt f f' x) {a : ℝ} (ha : a < x)
    (h : ∀ t, a ≤ t → t < x → f x ≤ f t) : f' ≤ 0 := by
  have hs := hf.tendsto_slope_zero_left
  refine le_of_tendsto hs ?_
  have : ∀ᶠ t in 𝓝[<] (0 : ℝ), a - x < t :=
    mem_nhdsWithin_of_mem_nhds (Ioi_mem_nhds (by linarith))
  filter_upwards [this, self_mem_nhdsWithin] with t h1 h2
  have h2' : t < 0 := h2
  have := h (x + t) (by linarith) (by linarith)
  rw [smul_eq_mul]
  exact mul_nonpos_of_nonpos_of_nonneg (inv_nonpos.2 h2'.le) (by linarith)

/-- **Positivity.** If the couplings between different components are nonnegative and bounded and the source is nonnegative,
solutions that start nonnegative stay nonnegative. -/
theorem metzler_nonneg {M : ℝ → ι → ι → ℝ} {b : ℝ → ι → ℝ} {Y : ℝ → ι → ℝ} {t0 t1 c : ℝ}
    (hc : ∀ t ∈ Set.Icc t0 t1, ∀ i j, |M t i j| ≤ c) (hM : ∀ t ∈ Set.Icc t0 t1, ∀ i j, i ≠ j → 0 ≤ M t i j)
    (hb : ∀ t ∈ Set.Icc t0 t1, ∀ i, 0 ≤ b t i)
    (hY : ∀ t ∈ Set.Icc t0 t1, ∀ i, HasDerivAt (fun s => Y s i) (∑ j, M t i j * Y t j + b t i) t) (h0 : ∀ i, 0 ≤ Y t0 i) :
    ∀ t ∈ Set.Icc t0 t1, ∀ i, 0 ≤ Y t i := by
  classical
  set K : ℝ := Fintype.card ι * c + 1 with hK
  have key : ∀ ε > 0, ∀ t ∈ Set.Icc t0 t1, ∀ i, 0 < Y t i + ε * Real.exp (K * (t - t0)) := by
    intro ε hε
    by_contra hcon
    push Not at hcon
    obtain ⟨s0, hs0, i0, hi0⟩ := hcon
    set z : ℝ → ι → ℝ := fun t i => Y t i + ε * Real.exp (K * (t - t0)) with hz
    have hexp : ∀ t, HasDerivAt (fun t => ε * Real.exp (K * (t - t0))) (ε * (Real.exp (K * (t - t0)) * K)) t := fun t => by
      have h1 : HasDerivAt (fun t => K * (t - t0)) K t := by
        simpa using ((hasDerivAt_id t).sub_const t0).const_mul K
      exact (h1.exp).const_mul ε
    have hzd : ∀ t ∈ Set.Icc t0 t1, ∀ i, HasDerivAt (fun s => z s i)
        (∑ j, M t i j * Y t j + b t i + ε * (Real.exp (K * (t - t0)) * K)) t := fun t ht i => (hY t ht i).add (hexp t)
    set S : Set ℝ := ⋃ i, {t | t ∈ Set.Icc t0 t1 ∧ z t i ≤ 0} with hS
    have hSc : IsCompact S := by
      refine isCompact_iUnion fun i => ?_
      refine (isCompact_Icc (a := t0) (b := t1)).of_isClosed_subset ?_ (fun t ht => ht.1)
      have hcont : ContinuousOn (fun s => z s i) (Set.Icc t0 t1) := fun t ht => (hzd t ht i).continuousAt.continuousWithinAt
      have := hcont.preimage_isClosed_of_isClosed isClosed_Icc (isClosed_Iic (a := (0 : ℝ)))
      exact this
    obtain ⟨ts, hts, hleast⟩ := hSc.exists_isLeast ⟨s0, Set.mem_iUnion.2 ⟨i0, hs0, hi0⟩⟩
    obtain ⟨i, htI, hzi⟩ := Set.mem_iUnion.1 hts
    have hbefore : ∀ t, t0 ≤ t → t < ts → ∀ j, 0 < z t j := by
      intro t h1 h2 j
      by_contra hneg
      have : ts ≤ t := hleast (Set.mem_iUnion.2 ⟨j, ⟨h1, h2.le.trans htI.2⟩, not_lt.1 hneg⟩)
      linarith
    have ht0 : t0 < ts := by
      rcases eq_or_lt_of_le htI.1 with h | h
      · exfalso
        have : 0 < z t0 i := by
          have := h0 i
          simp only [hz, sub_self, mul_zero, Real.exp_zero, mul_one]
          linarith
        rw [h] at this
        linarith
      · exact h
    have hge : ∀ j, 0 ≤ z ts j := by
      intro j
      have hcont : Tendsto (fun s => z s j) (𝓝[<] ts) (𝓝 (z ts j)) :=
        ((hzd ts htI j).continuousAt.tendsto).mono_left nhdsWithin_le_nhds
      refine ge_of_tendsto hcont ?_
      have : ∀ᶠ t in 𝓝[<] ts, t0 < t := mem_nhdsWithin_of_mem_nhds (Ioi_mem_nhds ht0)
      filter_upwards [this, self_mem_nhdsWithin] with t h1 h2
      exact (hbefore t h1.le h2 j).le
    have hzi0 : z ts i = 0 := le_antisymm hzi (hge i)
    have hder := deriv_nonpos_of_left (hzd ts htI i) ht0 (fun t h1 h2 => by
      show z ts i ≤ z t i
      rw [hzi0]
      exact (hbefore t h1 h2 i).le)
    set E := Real.exp (K * (ts - t0)) with hE
    have hEpos : 0 < E := Real.exp_pos _
    have hYz : ∀ j, Y ts j = z ts j - ε * E := fun j => by simp only [hz]; ring
    have hsum : -(Fintype.card ι * c * (ε * E)) ≤ ∑ j, M ts i j * Y ts j := by
      have h1 : ∀ j, -(c * (ε * E)) ≤ M ts i j * Y ts j := by
        intro j
        have hle := abs_le.1 (hc ts htI i j)
        have h2 : 0 ≤ M ts i j * z ts j := by
          by_cases hij : i = j
          · subst hij; rw [hzi0, mul_zero]
          · exact mul_nonneg (hM ts htI i j hij) (hge j)
        have h3 : M ts i j * (ε * E) ≤ c * (ε * E) := mul_le_mul_of_nonneg_right hle.2 (mul_pos hε hEpos).le
        rw [hYz j, mul_sub]
        linarith
      calc -(Fintype.card ι * c * (ε * E)) = ∑ _j : ι, -(c * (ε * E)) := by
            rw [Finset.sum_const, Finset.card_univ, nsmul_eq_mul]; ring
        _ ≤ _ := Finset.sum_le_sum fun j _ => h1 j
    have hpos : 0 < ε * E := mul_pos hε hEpos
    have := hb ts htI i
    have e : ε * (E * K) = Fintype.card ι * c * (ε * E) + ε * E := by rw [hK]; ring
    rw [e] at hder
    linarith
  intro t ht i
  by_contra hneg
  push Not at hneg
  have hE : 0 < Real.exp (K * (t - t0)) := Real.exp_pos _
  have := key (-Y t i / Real.exp (K * (t - t0))) (div_pos (by linarith) hE) t ht i
  rw [div_mul_cancel₀ _ hE.ne'] at this
  linarith

end Ormatex.Props
