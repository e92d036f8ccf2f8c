import Verif.Props.OrderBase
import Mathlib.Topology.Compactness.Compact
import Mathlib.Analysis.SpecialFunctions.Exp

/-!
From local order to convergence: tools for C91.  A smooth step map whose local error is `O(h^(p+1))` at every point of the exact
solution, as `h → 0`, has a local error bounded by `C h^(p+1)` uniformly along a compact piece of the solution, is Lipschitz with
constant `1 + L h` in a tube around it, and therefore converges with order `p`.
-/

namespace Ormatex.Props
open Filter Asymptotics Topology

section
variable {E X : Type*} [NormedAddCommGroup E] [NormedSpace ℝ E] [NormedAddCommGroup X] [NormedSpace ℝ X]

/-! ### a polynomial that is `O(h^m)` vanishes -/

theorem poly_isBigO_zero (m : ℕ) : ∀ c : ℕ → E, (fun h : ℝ => ∑ i ∈ Finset.range m, h ^ i • c i) =O[𝓝[≠] 0] (fun h => h ^ m) →
    ∀ i < m, c i = 0 := by
  induction m with
  | zero => intro c _ i hi; omega
  | succ m ih =>
    intro c hO
    have h0 : c 0 = 0 := by
      have t1 : Tendsto (fun h : ℝ => ∑ i ∈ Finset.range (m + 1), h ^ i • c i) (𝓝[≠] 0) (𝓝 0) := by
        refine hO.trans_tendsto ?_
        have : Tendsto (fun h : ℝ => h ^ (m + 1)) (𝓝 0) (𝓝 (0 ^ (m + 1))) := (continuous_pow _).tendsto 0
        rw [zero_pow (by omega)] at this
        exact this.mono_left nhdsWithin_le_nhds
      have t2 : Tendsto (fun h : ℝ => ∑ i ∈ Finset.range (m + 1), h ^ i • c i) (𝓝[≠] 0) (𝓝 (c 0)) := by
        have hc : Continuous (fun h : ℝ => ∑ i ∈ Finset.range (m + 1), h ^ i • c i) :=
          continuous_finset_sum _ fun i _ => (continuous_pow i).smul continuous_const
        have := hc.tendsto 0
        have e : ∑ i ∈ Finset.range (m + 1), (0 : ℝ) ^ i • c i = c 0 := by
          rw [Finset.sum_range_succ']; simp
        rw [e] at this
        exact this.mono_left nhdsWithin_le_nhds
      exact tendsto_nhds_unique t2 t1
    have hrest := ih (fun i => c (i + 1)) (by
      have e : ∀ h : ℝ, ∑ i ∈ Finset.range (m + 1), h ^ i • c i = h • ∑ i ∈ Finset.range m, h ^ i • c (i + 1) := by
        intro h
        rw [Finset.sum_range_succ', h0, smul_zero, add_zero, Finset.smul_sum]
        exact Finset.sum_congr rfl fun i _ => by rw [smul_smul, pow_succ']
      obtain ⟨C, hC⟩ := hO.bound
      refine IsBigO.of_bound C ?_
      filter_upwards [hC, self_mem_nhdsWithin] with h hh hne
      have hne' : (h : ℝ) ≠ 0 := hne
      rw [e, norm_smul, pow_succ', norm_mul] at hh
      have hp : 0 < ‖h‖ := norm_pos_iff.2 hne'
      have : ‖h‖ * ‖∑ i ∈ Finset.range m, h ^ i • c (i + 1)‖ ≤ ‖h‖ * (C * ‖h ^ m‖) := by linarith
      exact le_of_mul_le_mul_left this hp)
    intro i hi
    rcases i with _ | i
    · exact h0
    · exact hrest i (by omega)

/-! ### Taylor expansion in `h`, uniformly in `t` -/

/-- derivative in the second variable -/
noncomputable def dSnd (e : ℝ × ℝ → E) : ℝ × ℝ → E := fun p => fderiv ℝ e p (0, 1)

theorem dSnd_contDiffAt {e : ℝ × ℝ → E} {m : ℕ} {p : ℝ × ℝ} (h : ContDiffAt ℝ (m + 1 : ℕ) e p) : ContDiffAt ℝ m (dSnd e) p := by
  have := h.fderiv_right (m := m) (by norm_cast)
  exact this.clm_apply contDiffAt_const

theorem dSnd_hasDerivAt {e : ℝ × ℝ → E} {t s : ℝ} (h : DifferentiableAt ℝ e (t, s)) :
    HasDerivAt (fun s => e (t, s)) (dSnd e (t, s)) s := by
  have h1 : HasDerivAt (fun s : ℝ => (t, s)) ((0 : ℝ), (1 : ℝ)) s := (hasDerivAt_const s t).prodMk (hasDerivAt_id s)
  exact h.hasFDerivAt.comp_hasDerivAt s h1

theorem joint_taylor (m : ℕ) (t : ℝ) : ∀ e : ℝ × ℝ → E, ContDiffAt ℝ m e (t, 0) →
    (fun p : ℝ × ℝ => e p - ∑ i ∈ Finset.range m, p.2 ^ i • (((Nat.factorial i : ℝ)⁻¹) • (dSnd^[i] e) (p.1, 0)))
      =O[𝓝 (t, 0)] fun p => p.2 ^ m := by
  induction m with
  | zero =>
    intro e he
    simp only [Finset.range_zero, Finset.sum_empty, sub_zero, pow_zero]
    exact he.continuousAt.isBigO_one ℝ
  | succ m ih =>
    intro e he
    have hev : ∀ᶠ p in 𝓝 ((t, 0) : ℝ × ℝ), ContDiffAt ℝ (m + 1 : ℕ) e p := he.eventually (by simp)
    obtain ⟨C, hC⟩ := (ih (dSnd e) (dSnd_contDiffAt he)).bound
    obtain ⟨ρ, hρ, hb⟩ := Metric.eventually_nhds_iff_ball.1 (hev.and hC)
    refine IsBigO.of_bound |C| ?_
    filter_upwards [Metric.ball_mem_nhds ((t, 0) : ℝ × ℝ) hρ] with p hp
    obtain ⟨a, h⟩ := p
    have hp' : |a - t| < ρ ∧ |h| < ρ := by
      rw [Metric.mem_ball, Prod.dist_eq, max_lt_iff, Real.dist_eq, Real.dist_eq, sub_zero] at hp
      exact hp
    have hsub : ∀ x ∈ Set.uIcc (0 : ℝ) h, |x| ≤ |h| := by
      intro x hx
      rcases Set.mem_uIcc.1 hx with ⟨h1, h2⟩ | ⟨h1, h2⟩
      · rw [abs_of_nonneg h1, abs_of_nonneg (h1.trans h2)]; exact h2
      · rw [abs_of_nonpos h2, abs_of_nonpos (h1.trans h2)]; linarith
    have hball : ∀ x ∈ Set.uIcc (0 : ℝ) h, ((a, x) : ℝ × ℝ) ∈ Metric.ball ((t, 0) : ℝ × ℝ) ρ := by
      intro x hx
      rw [Metric.mem_ball, Prod.dist_eq, max_lt_iff, Real.dist_eq, Real.dist_eq, sub_zero]
      exact ⟨hp'.1, (hsub x hx).trans_lt hp'.2⟩
    set D : ℝ → E := fun s => e (a, s) - ∑ i ∈ Finset.range (m + 1), s ^ i • (((Nat.factorial i : ℝ)⁻¹) • (dSnd^[i] e) (a, 0)) with hD
    set D' : ℝ → E := fun s => dSnd e (a, s) - ∑ i ∈ Finset.range m, s ^ i • (((Nat.factorial i : ℝ)⁻¹) • (dSnd^[i] (dSnd e)) (a, 0))
      with hD'
    have hderiv : ∀ x ∈ Set.uIcc (0 : ℝ) h, HasDerivAt D (D' x) x := by
      intro x hx
      have h1 := dSnd_hasDerivAt ((hb _ (hball x hx)).1.differentiableAt (by simp))
      refine h1.sub ?_
      have h2 : HasDerivAt (fun s : ℝ => ∑ i ∈ Finset.range (m + 1), s ^ i • (((Nat.factorial i : ℝ)⁻¹) • (dSnd^[i] e) (a, 0)))
          (∑ i ∈ Finset.range (m + 1), ((i : ℝ) * x ^ (i - 1)) • (((Nat.factorial i : ℝ)⁻¹) • (dSnd^[i] e) (a, 0))) x := by
        have := HasDerivAt.fun_sum (u := Finset.range (m + 1)) (x := x)
          (A := fun i (s : ℝ) => s ^ i • (((Nat.factorial i : ℝ)⁻¹) • (dSnd^[i] e) (a, 0)))
          (A' := fun i => ((i : ℝ) * x ^ (i - 1)) • (((Nat.factorial i : ℝ)⁻¹) • (dSnd^[i] e) (a, 0)))
          (fun i _ => (hasDerivAt_pow i x).smul_const _)
        exact this
      convert h2 using 1
      rw [Finset.sum_range_succ']
      simp only [Nat.cast_zero, zero_mul, zero_smul, add_zero]
      refine Finset.sum_congr rfl fun i _ => ?_
      rw [Function.iterate_succ_apply, smul_smul, smul_smul]
      congr 1
      rw [Nat.add_sub_cancel, Nat.factorial_succ]
      push_cast
      have : ((i : ℝ) + 1) ≠ 0 := by positivity
      have : (Nat.factorial i : ℝ) ≠ 0 := by positivity
      field_simp
    have hbd : ∀ x ∈ Set.uIcc (0 : ℝ) h, ‖D' x‖ ≤ |C| * |h| ^ m := by
      intro x hx
      have := (hb _ (hball x hx)).2
      simp only [norm_pow, Real.norm_eq_abs] at this
      refine this.trans ?_
      refine mul_le_mul (le_abs_self C) (pow_le_pow_left₀ (abs_nonneg _) (hsub x hx) m) (by positivity) (abs_nonneg _)
    have hD0 : D 0 = 0 := by
      rw [hD]
      simp only
      rw [Finset.sum_range_succ']
      simp
    have := (convex_uIcc (0 : ℝ) h).norm_image_sub_le_of_norm_hasDerivWithin_le (f := D) (f' := D') (C := |C| * |h| ^ m)
      (fun x hx => (hderiv x hx).hasDerivWithinAt) hbd Set.left_mem_uIcc Set.right_mem_uIcc
    rw [hD0, sub_zero, sub_zero, Real.norm_eq_abs] at this
    rw [norm_pow, Real.norm_eq_abs, pow_succ, ← mul_assoc]
    exact this

/-- pointwise order and joint smoothness give the order uniformly near `(t, 0)` -/
theorem joint_isBigO {e : ℝ × ℝ → E} {m : ℕ} {t : ℝ} (he : ContDiffAt ℝ m e (t, 0))
    (hp : ∀ᶠ a in 𝓝 t, (fun h => e (a, h)) =O[𝓝 0] fun h => h ^ m) : e =O[𝓝 (t, 0)] fun p => p.2 ^ m := by
  have hJ := joint_taylor m t e he
  have hev : ∀ᶠ p in 𝓝 ((t, 0) : ℝ × ℝ), ContDiffAt ℝ m e p := he.eventually (by simp)
  have hev' : ∀ᶠ a in 𝓝 t, ContDiffAt ℝ m e (a, 0) := by
    have : Tendsto (fun a : ℝ => ((a, 0) : ℝ × ℝ)) (𝓝 t) (𝓝 (t, 0)) := by
      have : Continuous (fun a : ℝ => ((a, 0) : ℝ × ℝ)) := by fun_prop
      exact this.tendsto t
    exact this.eventually hev
  have hz : ∀ᶠ a in 𝓝 t, ∀ i < m, (dSnd^[i] e) (a, 0) = 0 := by
    filter_upwards [hp, hev'] with a ha hc
    have h1 := joint_taylor m a e hc
    have h2 : Tendsto (fun h : ℝ => ((a, h) : ℝ × ℝ)) (𝓝 0) (𝓝 (a, 0)) := by
      have : Continuous (fun h : ℝ => ((a, h) : ℝ × ℝ)) := by fun_prop
      exact this.tendsto 0
    have h3 := h1.comp_tendsto h2
    have h4 : (fun h : ℝ => ∑ i ∈ Finset.range m, h ^ i • (((Nat.factorial i : ℝ)⁻¹) • (dSnd^[i] e) (a, 0))) =O[𝓝 0] fun h => h ^ m := by
      have := ha.sub h3
      refine this.congr_left fun h => ?_
      simp [Function.comp]
    intro i hi
    have := poly_isBigO_zero m _ (h4.mono nhdsWithin_le_nhds) i hi
    rw [smul_eq_zero] at this
    rcases this with h | h
    · exact absurd h (by positivity)
    · exact h
  have hz2 : ∀ᶠ p in 𝓝 ((t, 0) : ℝ × ℝ), ∀ i < m, (dSnd^[i] e) (p.1, 0) = 0 := by
    have : Tendsto (fun p : ℝ × ℝ => p.1) (𝓝 (t, 0)) (𝓝 t) := continuous_fst.tendsto _
    exact this.eventually hz
  refine hJ.congr' ?_ EventuallyEq.rfl
  filter_upwards [hz2] with p hp
  rw [Finset.sum_eq_zero, sub_zero]
  intro i hi
  rw [hp i (Finset.mem_range.1 hi), smul_zero, smul_zero]

/-- uniform bound on a compact interval -/
theorem uniform_isBigO {e : ℝ × ℝ → E} {m : ℕ} {a b : ℝ} (h : ∀ t ∈ Set.Icc a b, e =O[𝓝 (t, 0)] fun p => p.2 ^ m) :
    ∃ C δ : ℝ, 0 ≤ C ∧ 0 < δ ∧ ∀ t ∈ Set.Icc a b, ∀ h, |h| < δ → ‖e (t, h)‖ ≤ C * |h| ^ m := by
  have key : ∃ C δ : ℝ, 0 ≤ C ∧ 0 < δ ∧ ∀ t ∈ Set.Icc a b, ∀ h, |h| < δ → ‖e (t, h)‖ ≤ C * |h| ^ m := by
    refine isCompact_Icc.induction_on (p := fun s => ∃ C δ : ℝ, 0 ≤ C ∧ 0 < δ ∧ ∀ t ∈ s, ∀ h, |h| < δ → ‖e (t, h)‖ ≤ C * |h| ^ m)
      ⟨0, 1, le_rfl, one_pos, by simp⟩ ?_ ?_ ?_
    · rintro s s' hss ⟨C, δ, h1, h2, h3⟩
      exact ⟨C, δ, h1, h2, fun t ht => h3 t (hss ht)⟩
    · rintro s s' ⟨C, δ, h1, h2, h3⟩ ⟨C', δ', h1', h2', h3'⟩
      refine ⟨max C C', min δ δ', le_max_of_le_left h1, lt_min h2 h2', ?_⟩
      rintro t (ht | ht) h hh
      · refine (h3 t ht h (hh.trans_le (min_le_left _ _))).trans ?_
        exact mul_le_mul_of_nonneg_right (le_max_left _ _) (by positivity)
      · refine (h3' t ht h (hh.trans_le (min_le_right _ _))).trans ?_
        exact mul_le_mul_of_nonneg_right (le_max_right _ _) (by positivity)
    · intro t ht
      obtain ⟨C, hC⟩ := (h t ht).bound
      obtain ⟨ρ, hρ, hb⟩ := Metric.eventually_nhds_iff_ball.1 hC
      refine ⟨Metric.ball t ρ, mem_nhdsWithin_of_mem_nhds (Metric.ball_mem_nhds t hρ), |C|, ρ, abs_nonneg _, hρ, ?_⟩
      intro s hs x hx
      have := hb (s, x) (by
        rw [Metric.mem_ball, Prod.dist_eq, max_lt_iff]
        exact ⟨hs, by rw [Real.dist_eq, sub_zero]; exact hx⟩)
      rw [norm_pow, Real.norm_eq_abs] at this
      exact this.trans (mul_le_mul_of_nonneg_right (le_abs_self _) (by positivity))
  exact key

/-! ### Lipschitz constant of the increment -/

/-- An increment `G(h, t, x)` that is `C^2` and vanishes at `h = 0` is Lipschitz in `x` with constant `L |h|` near any point. -/
theorem increment_lipschitz {G : ℝ × ℝ × X → E} {t : ℝ} {x : X} (hG : ContDiffAt ℝ 2 G (0, t, x)) (h0 : ∀ t x, G (0, t, x) = 0) :
    ∃ L ρ : ℝ, 0 ≤ L ∧ 0 < ρ ∧ ∀ h s y z, |h| < ρ → |s - t| < ρ → ‖y - x‖ < ρ → ‖z - x‖ < ρ →
      ‖G (h, s, y) - G (h, s, z)‖ ≤ L * |h| * ‖y - z‖ := by
  have hev : ∀ᶠ p in 𝓝 ((0, t, x) : ℝ × ℝ × X), ContDiffAt ℝ 2 G p := hG.eventually (by simp)
  have hD : ContDiffAt ℝ 1 (fderiv ℝ G) (0, t, x) := hG.fderiv_right (m := 1) (by norm_num)
  obtain ⟨K, U, hU, hK⟩ := hD.exists_lipschitzOnWith
  obtain ⟨ρ, hρ, hb⟩ := Metric.eventually_nhds_iff_ball.1 (hev.and hU)
  have hmem : ∀ h s y, |h| < ρ → |s - t| < ρ → ‖y - x‖ < ρ → ((h, s, y) : ℝ × ℝ × X) ∈ Metric.ball ((0, t, x) : ℝ × ℝ × X) ρ := by
    intro h s y a b c
    rw [Metric.mem_ball, Prod.dist_eq, Prod.dist_eq, max_lt_iff, max_lt_iff, Real.dist_eq, Real.dist_eq, sub_zero, dist_eq_norm]
    exact ⟨a, b, c⟩
  refine ⟨K, ρ, K.2, hρ, ?_⟩
  intro h s y z hh hs hy hz
  -- the partial derivative in x
  have hpart : ∀ w, ‖w - x‖ < ρ → ∀ k, |k| < ρ → HasFDerivAt (fun w => G (k, s, w))
      ((fderiv ℝ G (k, s, w)).comp ((ContinuousLinearMap.inr ℝ ℝ (ℝ × X)).comp (ContinuousLinearMap.inr ℝ ℝ X))) w := by
    intro w hw k hk
    have h1 : HasFDerivAt G (fderiv ℝ G (k, s, w)) (k, s, w) :=
      ((hb _ (hmem k s w hk hs hw)).1.differentiableAt (by simp)).hasFDerivAt
    have h2 : HasFDerivAt (fun w : X => ((k, s, w) : ℝ × ℝ × X))
        ((ContinuousLinearMap.inr ℝ ℝ (ℝ × X)).comp (ContinuousLinearMap.inr ℝ ℝ X)) w := by
      have a1 : HasFDerivAt (fun w : X => ((s, w) : ℝ × X)) (ContinuousLinearMap.inr ℝ ℝ X) w := hasFDerivAt_prodMk_right s w
      have a2 : HasFDerivAt (fun p : ℝ × X => ((k, p) : ℝ × ℝ × X)) (ContinuousLinearMap.inr ℝ ℝ (ℝ × X)) (s, w) :=
        hasFDerivAt_prodMk_right k (s, w)
      exact a2.comp w a1
    exact h1.comp w h2
  have hbound : ∀ w ∈ Metric.ball x ρ, ‖(fderiv ℝ G (h, s, w)).comp ((ContinuousLinearMap.inr ℝ ℝ (ℝ × X)).comp
      (ContinuousLinearMap.inr ℝ ℝ X))‖ ≤ K * |h| := by
    intro w hw
    rw [Metric.mem_ball, dist_eq_norm] at hw
    have hz0 : (fderiv ℝ G (0, s, w)).comp ((ContinuousLinearMap.inr ℝ ℝ (ℝ × X)).comp (ContinuousLinearMap.inr ℝ ℝ X)) = 0 := by
      have a := hpart w hw 0 (by simpa using hρ)
      have e : (fun w => G (0, s, w)) = fun _ => (0 : E) := by funext w; exact h0 s w
      rw [e] at a
      exact a.unique (hasFDerivAt_const 0 w)
    have hl := hK.dist_le_mul _ (hb _ (hmem h s w hh hs hw)).2 _ (hb _ (hmem 0 s w (by simpa using hρ) hs hw)).2
    have hd : dist ((h, s, w) : ℝ × ℝ × X) (0, s, w) = |h| := by
      rw [Prod.dist_eq, dist_self, Real.dist_eq, sub_zero]
      exact max_eq_left (abs_nonneg _)
    rw [hd, dist_eq_norm] at hl
    have e : (fderiv ℝ G (h, s, w)).comp ((ContinuousLinearMap.inr ℝ ℝ (ℝ × X)).comp (ContinuousLinearMap.inr ℝ ℝ X))
        = (fderiv ℝ G (h, s, w) - fderiv ℝ G (0, s, w)).comp ((ContinuousLinearMap.inr ℝ ℝ (ℝ × X)).comp (ContinuousLinearMap.inr ℝ ℝ X)) := by
      rw [ContinuousLinearMap.sub_comp, hz0, sub_zero]
    rw [e]
    refine (ContinuousLinearMap.opNorm_comp_le _ _).trans ?_
    have hi : ‖(ContinuousLinearMap.inr ℝ ℝ (ℝ × X)).comp (ContinuousLinearMap.inr ℝ ℝ X)‖ ≤ 1 := by
      refine ContinuousLinearMap.opNorm_le_bound _ zero_le_one fun v => ?_
      simp [Prod.norm_def]
    calc _ ≤ (K * |h|) * 1 := mul_le_mul hl hi (norm_nonneg _) (mul_nonneg K.2 (abs_nonneg _))
      _ = K * |h| := mul_one _
  exact (convex_ball x ρ).norm_image_sub_le_of_norm_hasFDerivWithin_le (f := fun w => G (h, s, w))
    (fun w hw => (hpart w (by rwa [Metric.mem_ball, dist_eq_norm] at hw) h hh).hasFDerivWithinAt) hbound
    (by rw [Metric.mem_ball, dist_eq_norm]; exact hz) (by rw [Metric.mem_ball, dist_eq_norm]; exact hy)

/-- the same along a compact piece of a continuous curve, with uniform constants -/
theorem tube_lipschitz {G : ℝ × ℝ × X → E} {x : ℝ → X} {a b : ℝ} (hG : ∀ t ∈ Set.Icc a b, ContDiffAt ℝ 2 G (0, t, x t))
    (h0 : ∀ t x, G (0, t, x) = 0) (hx : ∀ t ∈ Set.Icc a b, ContinuousAt x t) :
    ∃ L ρ : ℝ, 0 ≤ L ∧ 0 < ρ ∧ ∀ t ∈ Set.Icc a b, ∀ h y z, |h| < ρ → ‖y - x t‖ < ρ → ‖z - x t‖ < ρ →
      ‖G (h, t, y) - G (h, t, z)‖ ≤ L * |h| * ‖y - z‖ := by
  refine isCompact_Icc.induction_on (p := fun s => ∃ L ρ : ℝ, 0 ≤ L ∧ 0 < ρ ∧ ∀ t ∈ s, ∀ h y z, |h| < ρ → ‖y - x t‖ < ρ →
    ‖z - x t‖ < ρ → ‖G (h, t, y) - G (h, t, z)‖ ≤ L * |h| * ‖y - z‖) ⟨0, 1, le_rfl, one_pos, by simp⟩ ?_ ?_ ?_
  · rintro s s' hss ⟨C, δ, h1, h2, h3⟩
    exact ⟨C, δ, h1, h2, fun t ht => h3 t (hss ht)⟩
  · rintro s s' ⟨C, δ, h1, h2, h3⟩ ⟨C', δ', h1', h2', h3'⟩
    refine ⟨max C C', min δ δ', le_max_of_le_left h1, lt_min h2 h2', ?_⟩
    rintro t (ht | ht) h y z hh hy hz
    · refine (h3 t ht h y z (hh.trans_le (min_le_left _ _)) (hy.trans_le (min_le_left _ _)) (hz.trans_le (min_le_left _ _))).trans ?_
      have := le_max_left C C'
      gcongr
    · refine (h3' t ht h y z (hh.trans_le (min_le_right _ _)) (hy.trans_le (min_le_right _ _)) (hz.trans_le (min_le_right _ _))).trans ?_
      have := le_max_right C C'
      gcongr
  · intro t ht
    obtain ⟨L, ρ, hL, hρ, hb⟩ := increment_lipschitz (hG t ht) h0
    have hc := Metric.continuousAt_iff.1 (hx t ht) (ρ / 2) (by linarith)
    obtain ⟨η, hη, hc⟩ := hc
    refine ⟨Metric.ball t (min ρ η), mem_nhdsWithin_of_mem_nhds (Metric.ball_mem_nhds t (lt_min hρ hη)), L, ρ / 2, hL, by linarith, ?_⟩
    intro s hs h y z hh hy hz
    have hs' : |s - t| < min ρ η := by rwa [Metric.mem_ball, Real.dist_eq] at hs
    have hxs : ‖x s - x t‖ < ρ / 2 := by
      rw [← dist_eq_norm]
      exact hc (by rw [Real.dist_eq]; exact hs'.trans_le (min_le_right _ _))
    refine hb h s y z (hh.trans (by linarith)) (hs'.trans_le (min_le_left _ _)) ?_ ?_
    · calc ‖y - x t‖ = ‖(y - x s) + (x s - x t)‖ := by congr 1; abel
        _ ≤ _ := norm_add_le _ _
        _ < ρ := by linarith
    · calc ‖z - x t‖ = ‖(z - x s) + (x s - x t)‖ := by congr 1; abel
        _ ≤ _ := norm_add_le _ _
        _ < ρ := by linarith

/-! ### discrete Gronwall inequality inside a tube -/

theorem gronwall_tube {L h η η0 r T : ℝ} (hL : 0 ≤ L) (hh : 0 ≤ h) (hη : 0 ≤ η) (hη0 : 0 ≤ η0) (N : ℕ) (hN : N * h ≤ T) (hT : 0 ≤ T)
    (hr : Real.exp (L * T) * (η0 + T * η) < r) (e : ℕ → ℝ) (h0 : e 0 ≤ η0)
    (hs : ∀ k < N, e k < r → e (k + 1) ≤ (1 + L * h) * e k + h * η) :
    ∀ k ≤ N, e k ≤ Real.exp (L * T) * (η0 + T * η) := by
  have key : ∀ k ≤ N, e k ≤ Real.exp (L * (k * h)) * (η0 + k * h * η) := by
    intro k
    induction k with
    | zero => intro _; simpa using h0
    | succ k ih =>
      intro hk
      have hk' := ih (by omega)
      have hkN : (k : ℝ) * h ≤ T := by
        refine le_trans ?_ hN
        have : (k : ℝ) ≤ N := by exact_mod_cast (by omega : k ≤ N)
        exact mul_le_mul_of_nonneg_right this hh
      have hkh : 0 ≤ (k : ℝ) * h := by positivity
      have hlt : e k < r := by
        refine lt_of_le_of_lt (hk'.trans ?_) hr
        have : Real.exp (L * (k * h)) ≤ Real.exp (L * T) := Real.exp_le_exp.2 (mul_le_mul_of_nonneg_left hkN hL)
        have h2 : η0 + k * h * η ≤ η0 + T * η := by
          have := mul_le_mul_of_nonneg_right hkN hη
          linarith
        exact mul_le_mul this h2 (by positivity) (Real.exp_pos _).le
      refine (hs k (by omega) hlt).trans ?_
      have e1 : 1 + L * h ≤ Real.exp (L * h) := by
        have := Real.add_one_le_exp (L * h); linarith
      have e2 : Real.exp (L * ((k + 1 : ℕ) * h)) = Real.exp (L * h) * Real.exp (L * (k * h)) := by
        rw [← Real.exp_add]; congr 1; push_cast; ring
      have e3 : (1 : ℝ) ≤ Real.exp (L * ((k + 1 : ℕ) * h)) := Real.one_le_exp (by positivity)
      have hB : 0 ≤ Real.exp (L * (k * h)) * (η0 + k * h * η) := by positivity
      calc (1 + L * h) * e k + h * η
          ≤ Real.exp (L * h) * (Real.exp (L * (k * h)) * (η0 + k * h * η)) + Real.exp (L * ((k + 1 : ℕ) * h)) * (h * η) := by
            refine add_le_add ?_ ?_
            · refine (mul_le_mul_of_nonneg_left hk' (by positivity)).trans ?_
              exact mul_le_mul_of_nonneg_right e1 hB
            · have : 0 ≤ h * η := by positivity
              nlinarith
        _ = Real.exp (L * ((k + 1 : ℕ) * h)) * (η0 + (k + 1 : ℕ) * h * η) := by
            rw [e2]; push_cast; ring
  intro k hk
  refine (key k hk).trans ?_
  have hkN : (k : ℝ) * h ≤ T := by
    refine le_trans ?_ hN
    have : (k : ℝ) ≤ N := by exact_mod_cast hk
    exact mul_le_mul_of_nonneg_right this hh
  have : Real.exp (L * (k * h)) ≤ Real.exp (L * T) := Real.exp_le_exp.2 (mul_le_mul_of_nonneg_left hkN hL)
  have h2 : η0 + k * h * η ≤ η0 + T * η := by
    have := mul_le_mul_of_nonneg_right hkN hη
    linarith
  exact mul_le_mul this h2 (by positivity) (Real.exp_pos _).le

end
end Ormatex.Props
