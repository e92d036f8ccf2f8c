import Verif.Props.OrderBase

/-!
C37: order of consistency of the Rosenbrock and EPI methods with exact phi kernels.
-/

namespace Ormatex.Props
open Matrix Ormatex.Spec Filter Asymptotics Topology

section
variable {n : ℕ}

/-- Expansion of a solution of `E' = J E + R`, `E(0) = 0` from the expansion of `R`. -/
theorem flow_expand (J : Mat n) {E R : ℝ → Vec n} (h0 : E 0 = 0) (hE : ∀ᶠ s in 𝓝 (0 : ℝ), HasDerivAt E (J *ᵥ E s + R s) s)
    (m : ℕ) (a : ℕ → Vec n) (hR : (fun s => R s - ∑ i ∈ Finset.range m, s ^ i • a i) =O[𝓝 0] fun s => s ^ m) :
    (fun s => E s - ∑ i ∈ Finset.range m, (Nat.factorial i : ℝ) • (s ^ (i + 1) • (phiM (i + 1) (s • J) *ᵥ a i)))
      =O[𝓝 0] fun s => s ^ (m + 1) := by
  refine defect_isBigO J (r := fun s => R s - ∑ i ∈ Finset.range m, s ^ i • a i) ?_ ?_ hR
  · simp [h0]
  · filter_upwards [hE] with s hs
    have hsum : HasDerivAt (fun s : ℝ => ∑ i ∈ Finset.range m,
          (Nat.factorial i : ℝ) • (s ^ (i + 1) • (phiM (i + 1) (s • J) *ᵥ a i)))
        (∑ i ∈ Finset.range m, (Nat.factorial i : ℝ) • (s ^ i • (phiM i (s • J) *ᵥ a i))) s := by
      refine HasDerivAt.fun_sum fun i _ => ?_
      have hh := (hasDerivAt_mulVec_const (hasDerivAt_phiM_succ i J s) (a i)).const_smul (Nat.factorial i : ℝ)
      simp only [Matrix.smul_mulVec] at hh
      exact hh
    refine (hs.sub hsum).congr_deriv ?_
    have e : ∀ i, (Nat.factorial i : ℝ) • (s ^ i • (phiM i (s • J) *ᵥ a i))
        = J *ᵥ ((Nat.factorial i : ℝ) • (s ^ (i + 1) • (phiM (i + 1) (s • J) *ᵥ a i))) + s ^ i • a i := by
      intro i
      have hr := phiM_recurrence i (s • J)
      have h2 := congrArg (fun M => M *ᵥ a i) hr
      simp only [Matrix.sub_mulVec, Matrix.smul_mulVec, Matrix.one_mulVec, ← Matrix.mulVec_mulVec] at h2
      rw [eq_sub_iff_add_eq] at h2
      rw [← h2, Matrix.mulVec_smul, Matrix.mulVec_smul, smul_add, smul_add, smul_smul _ s, ← pow_succ]
      congr 1
      rw [smul_smul, smul_smul]
      congr 1
      have : (Nat.factorial i : ℝ) ≠ 0 := by positivity
      field_simp
    simp only [e, Finset.sum_add_distrib, Matrix.mulVec_sub, Matrix.mulVec_sum]
    abel

/-- For a `C^2` map, `f p - f q = Df(p0) (p - q) + O(h |p - q|)` when `p`, `q` are within `O(h)` of `p0`. -/
theorem strict_isBigO {X Z : Type*} [NormedAddCommGroup X] [NormedSpace ℝ X] [NormedAddCommGroup Z] [NormedSpace ℝ Z]
    {f : X → Z} {p0 : X} (hf : ContDiffAt ℝ (2 : ℕ) f p0) {p q : ℝ → X}
    (hp : (fun h => p h - p0) =O[𝓝 0] fun h : ℝ => h) (hq : (fun h => q h - p0) =O[𝓝 0] fun h : ℝ => h) :
    (fun h => f (p h) - f (q h) - fderiv ℝ f p0 (p h - q h)) =O[𝓝 0] fun h : ℝ => h * ‖p h - q h‖ := by
  have hev : ∀ᶠ x in 𝓝 p0, ContDiffAt ℝ (2 : ℕ) f x := hf.eventually (by simp)
  have hd1 : ContDiffAt ℝ (1 : ℕ) (fderiv ℝ f) p0 := hf.fderiv_right (by norm_cast)
  obtain ⟨K, t, ht, hK⟩ := hd1.exists_lipschitzOnWith
  obtain ⟨C1, hC1⟩ := hp.bound
  obtain ⟨C2, hC2⟩ := hq.bound
  have hp0 : Tendsto p (𝓝 0) (𝓝 p0) := by
    have := hp.trans_tendsto tendsto_id
    simpa using this.add_const p0
  have hq0 : Tendsto q (𝓝 0) (𝓝 p0) := by
    have := hq.trans_tendsto tendsto_id
    simpa using this.add_const p0
  obtain ⟨ε, hε, hb⟩ := Metric.mem_nhds_iff.1 (Filter.inter_mem ht hev)
  refine IsBigO.of_bound (K * max C1 C2) ?_
  filter_upwards [hC1, hC2, hp0 (Metric.ball_mem_nhds p0 hε), hq0 (Metric.ball_mem_nhds p0 hε)] with h h1 h2 h3 h4
  have hseg : ∀ x ∈ segment ℝ (p h) (q h), x ∈ Metric.ball p0 ε ∧ ‖x - p0‖ ≤ max C1 C2 * ‖h‖ := by
    intro x hx
    refine ⟨(convex_ball p0 ε).segment_subset h3 h4 hx, ?_⟩
    have hcl : x ∈ Metric.closedBall p0 (max C1 C2 * ‖h‖) := by
      refine (convex_closedBall p0 _).segment_subset ?_ ?_ hx
      · rw [Metric.mem_closedBall, dist_eq_norm]
        exact h1.trans (mul_le_mul_of_nonneg_right (le_max_left _ _) (norm_nonneg _))
      · rw [Metric.mem_closedBall, dist_eq_norm]
        exact h2.trans (mul_le_mul_of_nonneg_right (le_max_right _ _) (norm_nonneg _))
    rwa [Metric.mem_closedBall, dist_eq_norm] at hcl
  have := (convex_segment (p h) (q h)).norm_image_sub_le_of_norm_hasFDerivWithin_le' (f := f) (f' := fderiv ℝ f)
    (φ := fderiv ℝ f p0) (C := K * (max C1 C2 * ‖h‖))
    (fun x hx => by
      have hx2 : ContDiffAt ℝ (2 : ℕ) f x := (hb (hseg x hx).1).2
      exact (hx2.differentiableAt (by simp)).hasFDerivAt.hasFDerivWithinAt)
    (fun x hx => by
      have hl := hK.dist_le_mul x (hb (hseg x hx).1).1 p0 (mem_of_mem_nhds ht)
      rw [dist_eq_norm, dist_eq_norm] at hl
      exact hl.trans (mul_le_mul_of_nonneg_left (hseg x hx).2 K.coe_nonneg))
    (right_mem_segment ℝ _ _) (left_mem_segment ℝ _ _)
  refine this.trans (le_of_eq ?_)
  rw [norm_mul, norm_norm]
  ring

/-! ### the nonlinear remainder along the solution -/

section rem
variable {f : ℝ → Vec n → Vec n} {t : ℝ} {Y : ℝ → Vec n}

theorem shift_eventually {p : ℝ → Prop} {t : ℝ} (h : ∀ᶠ s in 𝓝 t, p s) : ∀ᶠ s in 𝓝 (0 : ℝ), p (t + s) := by
  have : Tendsto (fun s : ℝ => t + s) (𝓝 0) (𝓝 t) := by
    simpa using (continuous_const.add continuous_id (X := ℝ)).tendsto (0 : ℝ) (f := fun s => t + s)
  exact this.eventually h

theorem SmoothIVP.path_isBigO {m : ℕ} (h : SmoothIVP f m t Y) (c : ℝ) :
    (fun s : ℝ => Y (t + c * s) - Y t) =O[𝓝 0] fun s => s := by
  have hd : HasDerivAt Y (f t (Y t)) t := h.sol.self_of_nhds
  have h1 : HasDerivAt (fun s : ℝ => t + c * s) c 0 := by
    simpa using ((hasDerivAt_id (0 : ℝ)).const_mul c).const_add t
  have h2 : HasDerivAt Y (f t (Y t)) (t + c * 0) := by simpa using hd
  have h3 := (HasDerivAt.scomp (0 : ℝ) h2 h1).isBigO_sub
  simpa using h3

/-- any linear part: `f(t+s, Y(t+s)) - F - L (Y(t+s) - y) - s e` has a Taylor expansion -/
theorem SmoothIVP.rem_expand {m : ℕ} (h : SmoothIVP f m t Y) (L : Mat n) (e : Vec n) :
    let R := fun s : ℝ => f (t + s) (Y (t + s)) - f t (Y t) - L *ᵥ (Y (t + s) - Y t) - s • e
    ∃ a : ℕ → Vec n, a 0 = 0 ∧ a 1 = deriv R 0 ∧
      (fun s => R s - ∑ i ∈ Finset.range m, s ^ i • a i) =O[𝓝 0] fun s => s ^ m := by
  intro R
  have hY : ContDiffAt ℝ m (fun s : ℝ => Y (t + s)) 0 := by
    have h1 : ContDiffAt ℝ m Y (t + 0) := by
      rw [add_zero]; exact h.contDiff.of_le (by exact_mod_cast Nat.le_succ m)
    exact h1.comp (0 : ℝ) (contDiffAt_const.add contDiffAt_id)
  have hF : ContDiffAt ℝ m (fun s : ℝ => f (t + s) (Y (t + s))) 0 := by
    have h1 : ContDiffAt ℝ m (fun p : ℝ × Vec n => f p.1 p.2) (t + 0, Y (t + 0)) := by
      rw [add_zero]; exact h.smooth
    exact h1.comp (0 : ℝ) ((contDiffAt_const.add contDiffAt_id).prodMk hY)
  have hL : ContDiffAt ℝ m (fun s : ℝ => L *ᵥ (Y (t + s) - Y t)) 0 :=
    (Matrix.mulVecLin L).toContinuousLinearMap.contDiff.contDiffAt.comp (0 : ℝ) (hY.sub contDiffAt_const)
  have hR : ContDiffAt ℝ m R 0 := ((hF.sub contDiffAt_const).sub hL).sub (contDiffAt_id.smul contDiffAt_const)
  refine ⟨fun i => ((Nat.factorial i : ℝ)⁻¹) • iteratedDeriv i R 0, ?_, ?_, taylor_isBigO m R hR⟩
  · simp [R]
  · simp [iteratedDeriv_one]

end rem

/-! ### Rosenbrock -/

section ros
variable {f : ℝ → Vec n → Vec n} {t : ℝ} {Y : ℝ → Vec n} {J : Mat n} {e : Vec n}

/-- nonlinear remainder along the solution -/
def remAt (f : ℝ → Vec n → Vec n) (t : ℝ) (Y : ℝ → Vec n) (J : Mat n) (e : Vec n) (s : ℝ) : Vec n :=
  f (t + s) (Y (t + s)) - f t (Y t) - J *ᵥ (Y (t + s) - Y t) - s • e

theorem rem_second {m : ℕ} (h : SmoothIVP f m t Y) (hm : 2 ≤ m)
    (hJ : ∀ τ v, fderiv ℝ (fun p : ℝ × Vec n => f p.1 p.2) (t, Y t) (τ, v) = τ • e + J *ᵥ v) :
    ∃ a : ℕ → Vec n, a 0 = 0 ∧ a 1 = 0 ∧
      (fun s => remAt f t Y J e s - ∑ i ∈ Finset.range m, s ^ i • a i) =O[𝓝 0] fun s => s ^ m := by
  obtain ⟨a, h0, h1, h2⟩ := h.rem_expand J e
  refine ⟨a, h0, ?_, h2⟩
  rw [h1]
  have hd : HasDerivAt Y (f t (Y t)) t := h.sol.self_of_nhds
  have hs : HasDerivAt (fun s : ℝ => t + s) 1 0 := (hasDerivAt_id (0 : ℝ)).const_add t
  have hY : HasDerivAt (fun s : ℝ => Y (t + s)) (f t (Y t)) 0 := by
    have h2 : HasDerivAt Y (f t (Y t)) (t + 0) := by simpa using hd
    exact HasDerivAt.comp_const_add t 0 h2
  have hfd : HasFDerivAt (fun p : ℝ × Vec n => f p.1 p.2) (fderiv ℝ (fun p : ℝ × Vec n => f p.1 p.2) (t, Y t)) (t + 0, Y (t + 0)) := by
    rw [add_zero]
    exact (h.smooth.differentiableAt (by
      have : m ≠ 0 := by omega
      exact_mod_cast this)).hasFDerivAt
  have hF : HasDerivAt (fun s : ℝ => f (t + s) (Y (t + s))) (e + J *ᵥ f t (Y t)) 0 := by
    have := hfd.comp_hasDerivAt (0 : ℝ) (hs.prodMk hY)
    rw [hJ, one_smul] at this
    exact this
  have hL := hasDerivAt_const_mulVec J (hY.sub_const (Y t))
  have := (((hF.sub_const (f t (Y t))).sub hL).sub ((hasDerivAt_id (0 : ℝ)).smul_const e)).deriv
  refine Eq.trans this ?_
  rw [one_smul]
  abel

/-- error of the exponential Rosenbrock-Euler step obeys the linear equation driven by the remainder -/
theorem rosEuler_error_deriv {m : ℕ} (h : SmoothIVP f m t Y) (J : Mat n) (e : Vec n) :
    ∀ᶠ s in 𝓝 (0 : ℝ), HasDerivAt (fun s => Y (t + s) - rosEuler J (Y t) (f t (Y t)) e s 1)
      (J *ᵥ (Y (t + s) - rosEuler J (Y t) (f t (Y t)) e s 1) + remAt f t Y J e s) s := by
  filter_upwards [shift_eventually h.sol] with s hs
  have h1 : HasDerivAt (fun s => Y (t + s)) _ s := HasDerivAt.comp_const_add t s hs
  have h2 := hasDerivAt_mulVec_const (hasDerivAt_phiM_succ 0 J s) (f t (Y t))
  have h3 := hasDerivAt_mulVec_const (hasDerivAt_phiM_succ 1 J s) e
  have h4 := h1.sub ((h2.const_add (Y t)).add h3)
  have hfun : (fun s => Y (t + s) - rosEuler J (Y t) (f t (Y t)) e s 1)
      = ((fun s => Y (t + s)) - ((fun s => Y t + (s ^ (0 + 1) • phiM (0 + 1) (s • J)) *ᵥ f t (Y t))
        + fun s => (s ^ (1 + 1) • phiM (1 + 1) (s • J)) *ᵥ e)) := by
    funext s
    simp [rosEuler, Matrix.smul_mulVec]
  rw [hfun]
  refine h4.congr_deriv ?_
  have r0 := congrArg (fun M => M *ᵥ f t (Y t)) (phiM_recurrence 0 (s • J))
  have r1 := congrArg (fun M => M *ᵥ e) (phiM_recurrence 1 (s • J))
  simp only [Nat.factorial, Nat.cast_one, inv_one, one_smul, Matrix.sub_mulVec, Matrix.one_mulVec, zero_add,
    Matrix.smul_mulVec, ← Matrix.mulVec_mulVec, mul_one] at r0 r1
  rw [eq_sub_iff_add_eq] at r0 r1
  unfold remAt rosEuler
  simp only [pow_zero, one_smul, pow_one, Matrix.smul_mulVec, one_mul, one_pow, Matrix.mulVec_sub, Matrix.mulVec_add,
    Matrix.mulVec_smul]
  rw [← r0, ← r1, smul_add, smul_smul, ← sq]
  abel

theorem rosEuler_zero (J : Mat n) (y F e : Vec n) (c : ℝ) : rosEuler J y F e 0 c = y := by simp [rosEuler]

theorem rosEuler_scale (J : Mat n) (y F e : Vec n) (h c : ℝ) : rosEuler J y F e h c = rosEuler J y F e (c * h) 1 := by
  simp [rosEuler, mul_pow]

/-- expansion of the error of exponential Rosenbrock-Euler -/
theorem rosEuler_expand {m : ℕ} (h : SmoothIVP f m t Y) {a : ℕ → Vec n}
    (ha : (fun s => remAt f t Y J e s - ∑ i ∈ Finset.range m, s ^ i • a i) =O[𝓝 0] fun s => s ^ m) :
    (fun s => Y (t + s) - rosEuler J (Y t) (f t (Y t)) e s 1
        - ∑ i ∈ Finset.range m, (Nat.factorial i : ℝ) • (s ^ (i + 1) • (phiM (i + 1) (s • J) *ᵥ a i)))
      =O[𝓝 0] fun s => s ^ (m + 1) :=
  flow_expand J (by simp [rosEuler_zero]) (rosEuler_error_deriv h J e) m a ha

/-- **exponential Rosenbrock-Euler is of order two**, with any fraction `c` of the step -/
theorem rosEuler_order (h : SmoothIVP f 2 t Y)
    (hJ : ∀ τ v, fderiv ℝ (fun p : ℝ × Vec n => f p.1 p.2) (t, Y t) (τ, v) = τ • e + J *ᵥ v) (c : ℝ) :
    (fun s => rosEuler J (Y t) (f t (Y t)) e s c - Y (t + c * s)) =O[𝓝 0] fun s => s ^ 3 := by
  obtain ⟨a, a0, a1, ha⟩ := rem_second h le_rfl hJ
  have h1 := rosEuler_expand h ha
  simp only [Finset.sum_range_succ, Finset.sum_range_zero, a0, a1, Matrix.mulVec_zero, smul_zero, add_zero, sub_zero] at h1
  have hc : Tendsto (fun s : ℝ => c * s) (𝓝 0) (𝓝 0) := by
    simpa using (continuous_const.mul continuous_id (X := ℝ)).tendsto (0 : ℝ) (f := fun s => c * s)
  have h2 := (h1.comp_tendsto hc).neg_left
  have h3 : ((fun s : ℝ => s ^ (2 + 1)) ∘ fun s => c * s) =O[𝓝 0] fun s => s ^ 3 := by
    have : ((fun s : ℝ => s ^ (2 + 1)) ∘ fun s => c * s) = fun s => c ^ 3 * s ^ 3 := by funext s; simp [mul_pow]
    rw [this]
    exact (isBigO_refl _ _).const_mul_left _
  refine (h2.trans h3).congr_left ?_
  intro s
  simp only [Function.comp_apply, neg_sub]
  rw [rosEuler_scale J _ _ e s c]

/-- value of the remainder at an approximate stage: `z(s)` within `O(s^q)` of `Y(t + c s)` -/
theorem stage_rem (h : SmoothIVP f 2 t Y)
    (hJ : ∀ τ v, fderiv ℝ (fun p : ℝ × Vec n => f p.1 p.2) (t, Y t) (τ, v) = τ • e + J *ᵥ v) (c : ℝ) {q : ℕ} (hq : 1 ≤ q)
    {z : ℝ → Vec n} (hz : (fun s => z s - Y (t + c * s)) =O[𝓝 0] fun s => s ^ q) :
    (fun s => (f (t + c * s) (z s) - f t (Y t) - J *ᵥ (z s - Y t) - (c * s) • e) - remAt f t Y J e (c * s))
      =O[𝓝 0] fun s => s ^ (q + 1) := by
  have hs : (fun s : ℝ => c * s) =O[𝓝 0] fun s => s := (isBigO_refl _ _).const_mul_left c
  have hzq : (fun s => z s - Y (t + c * s)) =O[𝓝 0] fun s => s := by
    refine hz.trans ?_
    obtain ⟨k, rfl⟩ : ∃ k, q = k + 1 := ⟨q - 1, by omega⟩
    refine IsBigO.of_bound 1 ?_
    filter_upwards [Metric.closedBall_mem_nhds (0 : ℝ) one_pos] with s hs
    have hs1 : |s| ≤ 1 := by simpa using hs
    rw [one_mul, norm_pow, Real.norm_eq_abs, pow_succ]
    exact mul_le_of_le_one_left (abs_nonneg _) (pow_le_one₀ (abs_nonneg _) hs1)
  have hpath := h.path_isBigO c
  have hp : (fun s : ℝ => ((t + c * s, z s) : ℝ × Vec n) - (t, Y t)) =O[𝓝 0] fun s => s := by
    have h1 := hzq.add hpath
    refine IsBigO.congr_left (hs.prod_left h1) fun s => ?_
    simp
  have hp' : (fun s : ℝ => ((t + c * s, Y (t + c * s)) : ℝ × Vec n) - (t, Y t)) =O[𝓝 0] fun s => s := by
    refine IsBigO.congr_left (hs.prod_left hpath) fun s => ?_
    simp
  have key := strict_isBigO h.smooth hp hp'
  have hn : (fun s : ℝ => s * ‖((t + c * s, z s) : ℝ × Vec n) - (t + c * s, Y (t + c * s))‖) =O[𝓝 0] fun s => s ^ (q + 1) := by
    have : (fun s : ℝ => s * ‖((t + c * s, z s) : ℝ × Vec n) - (t + c * s, Y (t + c * s))‖)
        = fun s => s * ‖z s - Y (t + c * s)‖ := by
      funext s
      rw [Prod.mk_sub_mk, sub_self, Prod.norm_mk, norm_zero, max_eq_right (norm_nonneg _)]
    rw [this]
    refine ((isBigO_refl (fun s : ℝ => s) (𝓝 0)).mul hz.norm_left).congr_right fun s => ?_
    rw [pow_succ']
  refine (key.trans hn).congr_left fun s => ?_
  rw [Prod.mk_sub_mk, sub_self, hJ, zero_smul, zero_add]
  unfold remAt
  simp only [Matrix.mulVec_sub]
  abel

end ros

end
end Ormatex.Props
