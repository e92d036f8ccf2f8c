import Verif.Props.OrderSplit

/-!
C66: the classical Runge-Kutta integrator is of order four.
-/

namespace Ormatex.Props
open Matrix Ormatex.Spec Filter Asymptotics Topology

section
variable {n : ℕ}

/-- For a `C^2` map, `f p - f q = Df(q) (p - q) + O(|p - q|^2)` when `p`, `q` tend to a point. -/
theorem second_isBigO {X Z : Type*} [NormedAddCommGroup X] [NormedSpace ℝ X] [NormedAddCommGroup Z] [NormedSpace ℝ Z]
    {f : X → Z} {p0 : X} (hf : ContDiffAt ℝ (2 : ℕ) f p0) {p q : ℝ → X}
    (hp0 : Tendsto p (𝓝 0) (𝓝 p0)) (hq0 : Tendsto q (𝓝 0) (𝓝 p0)) :
    (fun h => f (p h) - f (q h) - fderiv ℝ f (q h) (p h - q h)) =O[𝓝 0] fun h : ℝ => ‖p h - q h‖ ^ 2 := by
  have hev : ∀ᶠ x in 𝓝 p0, ContDiffAt ℝ (2 : ℕ) f x := hf.eventually (by simp)
  have hd1 : ContDiffAt ℝ (1 : ℕ) (fderiv ℝ f) p0 := hf.fderiv_right (by norm_cast)
  obtain ⟨K, t, ht, hK⟩ := hd1.exists_lipschitzOnWith
  obtain ⟨ε, hε, hb⟩ := Metric.mem_nhds_iff.1 (Filter.inter_mem ht hev)
  refine IsBigO.of_bound K ?_
  filter_upwards [hp0 (Metric.ball_mem_nhds p0 hε), hq0 (Metric.ball_mem_nhds p0 hε)] with h h3 h4
  have hseg : ∀ x ∈ segment ℝ (p h) (q h), x ∈ Metric.ball p0 ε ∧ ‖x - q h‖ ≤ ‖p h - q h‖ := by
    intro x hx
    refine ⟨(convex_ball p0 ε).segment_subset h3 h4 hx, ?_⟩
    have hcl : x ∈ Metric.closedBall (q h) ‖p h - q h‖ := by
      refine (convex_closedBall (q h) _).segment_subset ?_ ?_ hx
      · rw [Metric.mem_closedBall, dist_eq_norm]
      · rw [Metric.mem_closedBall, dist_self]; exact norm_nonneg _
    rwa [Metric.mem_closedBall, dist_eq_norm] at hcl
  have := (convex_segment (p h) (q h)).norm_image_sub_le_of_norm_hasFDerivWithin_le' (f := f) (f' := fderiv ℝ f)
    (φ := fderiv ℝ f (q h)) (C := K * ‖p h - q h‖)
    (fun x hx => by
      have hx2 : ContDiffAt ℝ (2 : ℕ) f x := (hb (hseg x hx).1).2
      exact (hx2.differentiableAt (by simp)).hasFDerivAt.hasFDerivWithinAt)
    (fun x hx => by
      have hl := hK.dist_le_mul x (hb (hseg x hx).1).1 (q h) (hb h4).1
      rw [dist_eq_norm, dist_eq_norm] at hl
      exact hl.trans (mul_le_mul_of_nonneg_left (hseg x hx).2 K.coe_nonneg))
    (right_mem_segment ℝ _ _) (left_mem_segment ℝ _ _)
  refine this.trans (le_of_eq ?_)
  rw [norm_pow, norm_norm]
  ring

variable {f : ℝ → Vec n → Vec n} {t : ℝ} {Y : ℝ → Vec n}

/-- derivative of the right-hand side along the solution, and its linear growth -/
theorem rk_stage (h : SmoothIVP f 3 t Y) : ∃ J J1 : Vec n →L[ℝ] Vec n, ∀ (c : ℝ) (z : ℝ → Vec n) (u v : Vec n),
    (fun s => z s - Y (t + c * s) - (s ^ 2 • u + s ^ 3 • v)) =O[𝓝 0] (fun s : ℝ => s ^ 4) →
    (fun s => f (t + c * s) (z s) - f (t + c * s) (Y (t + c * s)) - (s ^ 2 • J u + s ^ 3 • (J v + c • J1 u)))
      =O[𝓝 0] fun s : ℝ => s ^ 4 := by
  set ft : ℝ × Vec n → Vec n := fun p => f p.1 p.2 with hft
  have hY : ContDiffAt ℝ 3 (fun s : ℝ => Y (t + s)) 0 := by
    have h1 : ContDiffAt ℝ 3 Y (t + 0) := by
      rw [add_zero]; exact h.contDiff.of_le (by norm_num)
    exact h1.comp (0 : ℝ) (contDiffAt_const.add contDiffAt_id)
  set D : ℝ → (ℝ × Vec n →L[ℝ] Vec n) := fun s => fderiv ℝ ft (t + s, Y (t + s)) with hD
  have hDc : ContDiffAt ℝ (2 : ℕ) D 0 := by
    have h1 : ContDiffAt ℝ (2 : ℕ) (fderiv ℝ ft) (t + 0, Y (t + 0)) := by
      rw [add_zero]; exact h.smooth.fderiv_right (by norm_cast)
    have h2 : ContDiffAt ℝ (2 : ℕ) (fun s : ℝ => (t + s, Y (t + s))) 0 :=
      (contDiffAt_const.add contDiffAt_id).prodMk (hY.of_le (by norm_num))
    exact h1.comp (0 : ℝ) h2
  have hDe := taylor_isBigO 2 D hDc
  simp only [Finset.sum_range_succ, Finset.sum_range_zero, zero_add, pow_zero, one_smul, pow_one, Nat.factorial_zero,
    Nat.factorial_one, Nat.cast_one, inv_one] at hDe
  set D0 := iteratedDeriv 0 D 0
  set D1 := iteratedDeriv 1 D 0
  refine ⟨D0.comp (ContinuousLinearMap.inr ℝ ℝ (Vec n)), D1.comp (ContinuousLinearMap.inr ℝ ℝ (Vec n)), ?_⟩
  intro c z u v hz
  have hmain : (fun s : ℝ => s ^ 2 • u + s ^ 3 • v) =O[𝓝 0] fun s : ℝ => s ^ 2 := by
    have e1 : (fun s : ℝ => s ^ 2 • u) =O[𝓝 0] fun s : ℝ => s ^ 2 := by
      simpa using (isBigO_refl (fun s : ℝ => s ^ 2) (𝓝 0)).smul (isBigO_const_const u (one_ne_zero (α := ℝ)) (𝓝 0))
    have e2 : (fun s : ℝ => s ^ 3 • v) =O[𝓝 0] fun s : ℝ => s ^ 3 := by
      simpa using (isBigO_refl (fun s : ℝ => s ^ 3) (𝓝 0)).smul (isBigO_const_const v (one_ne_zero (α := ℝ)) (𝓝 0))
    exact e1.add (isBigO_weaken e2 (by norm_num))
  have hδ : (fun s => z s - Y (t + c * s)) =O[𝓝 0] fun s : ℝ => s ^ 2 :=
    ((isBigO_weaken hz (by norm_num : 2 ≤ 4)).add hmain).congr_left fun s => by abel
  have hδ1 : (fun s => z s - Y (t + c * s)) =O[𝓝 0] fun s : ℝ => s := by simpa using isBigO_weaken hδ (by norm_num : 1 ≤ 2)
  have hpath := h.path_isBigO c
  have ht : Tendsto (fun s : ℝ => t + c * s) (𝓝 0) (𝓝 t) := by
    have : Continuous (fun s : ℝ => t + c * s) := by fun_prop
    simpa using this.tendsto 0
  have h1 : Tendsto z (𝓝 0) (𝓝 (Y t)) := path_tendsto ((hδ1.add hpath).congr_left fun s => by abel)
  have h2 : Tendsto (fun s => Y (t + c * s)) (𝓝 0) (𝓝 (Y t)) := path_tendsto hpath
  have key := second_isBigO (f := ft) (h.smooth.of_le (by norm_num)) (ht.prodMk_nhds h1) (ht.prodMk_nhds h2)
  have hn : (fun s : ℝ => ‖((t + c * s, z s) : ℝ × Vec n) - (t + c * s, Y (t + c * s))‖ ^ 2) =O[𝓝 0] fun s : ℝ => s ^ 4 := by
    have h3 : (fun s : ℝ => ((t + c * s, z s) : ℝ × Vec n) - (t + c * s, Y (t + c * s))) =O[𝓝 0] fun s => s ^ 2 := by
      refine IsBigO.trans (IsBigO.of_bound 1 (Eventually.of_forall fun s => ?_)) hδ
      rw [one_mul, Prod.mk_sub_mk, sub_self, Prod.norm_mk, norm_zero, max_eq_right (norm_nonneg _)]
    refine (h3.norm_left.pow 2).congr_right fun s => ?_
    ring
  have hA := key.trans hn
  -- `(D(cs) - D0 - cs D1) δ = O(s^4)`
  have hB : (fun s : ℝ => (D (c * s) - (D0 + (c * s) • D1)) (0, z s - Y (t + c * s))) =O[𝓝 0] fun s : ℝ => s ^ 4 := by
    have h3 : (fun s : ℝ => ‖D (c * s) - (D0 + (c * s) • D1)‖ * ‖z s - Y (t + c * s)‖) =O[𝓝 0] fun s : ℝ => s ^ 4 := by
      refine ((isBigO_scale (c := c) hDe).norm_left.mul hδ.norm_left).congr_right fun s => ?_
      ring
    refine IsBigO.trans (IsBigO.of_bound 1 (Eventually.of_forall fun s => ?_)) h3
    refine ((D (c * s) - (D0 + (c * s) • D1)).le_opNorm _).trans (le_of_eq ?_)
    rw [Prod.norm_mk, norm_zero, max_eq_right (norm_nonneg _), one_mul, norm_mul, norm_norm, norm_norm]
  -- linear part on the expansion of δ
  have hC : (fun s : ℝ => (D0 + (c * s) • D1) (0, z s - Y (t + c * s) - (s ^ 2 • u + s ^ 3 • v))) =O[𝓝 0] fun s : ℝ => s ^ 4 := by
    have hz' : (fun s : ℝ => ((0 : ℝ), z s - Y (t + c * s) - (s ^ 2 • u + s ^ 3 • v))) =O[𝓝 0] fun s : ℝ => s ^ 4 := by
      refine IsBigO.trans (IsBigO.of_bound 1 (Eventually.of_forall fun s => ?_)) hz
      rw [one_mul, Prod.norm_mk, norm_zero, max_eq_right (norm_nonneg _)]
    have e0 := (D0.isBigO_comp (fun s : ℝ => ((0 : ℝ), z s - Y (t + c * s) - (s ^ 2 • u + s ^ 3 • v))) (𝓝 0)).trans hz'
    have e1 := (D1.isBigO_comp (fun s : ℝ => ((0 : ℝ), z s - Y (t + c * s) - (s ^ 2 • u + s ^ 3 • v))) (𝓝 0)).trans hz'
    have e2 := isBigO_weaken (smul_isBigO c e1 rfl) (by norm_num : 4 ≤ 4 + 1)
    exact (e0.add e2).congr_left fun s => by simp
  have hE : (fun s : ℝ => (c * s ^ 4) • D1 (0, v)) =O[𝓝 0] fun s : ℝ => s ^ 4 := by
    simpa using ((isBigO_refl (fun s : ℝ => s ^ 4) (𝓝 0)).const_mul_left c).smul
      (isBigO_const_const (D1 (0, v)) (one_ne_zero (α := ℝ)) (𝓝 0))
  refine (((hA.add hB).add hC).add hE).congr_left fun s => ?_
  have hsub : ((t + c * s, z s) : ℝ × Vec n) - (t + c * s, Y (t + c * s)) = (0, z s - Y (t + c * s)) := by
    rw [Prod.mk_sub_mk, sub_self]
  have hs0 : ((0 : ℝ), z s - Y (t + c * s) - (s ^ 2 • u + s ^ 3 • v))
      = (0, z s - Y (t + c * s)) - (s ^ 2 • ((0 : ℝ), u) + s ^ 3 • ((0 : ℝ), v)) := by
    simp
  rw [hsub, hs0]
  have hDd : fderiv ℝ ft (t + c * s, Y (t + c * s)) = D (c * s) := rfl
  have hfa : f (t + c * s) (z s) = ft (t + c * s, z s) := rfl
  have hfb : f (t + c * s) (Y (t + c * s)) = ft (t + c * s, Y (t + c * s)) := rfl
  rw [hDd, hfa, hfb]
  generalize ft (t + c * s, z s) = A1
  generalize ft (t + c * s, Y (t + c * s)) = A2
  generalize ((0 : ℝ), z s - Y (t + c * s)) = A3
  simp only [_root_.sub_apply, _root_.add_apply, _root_.smul_apply, map_sub, map_add,
    map_smul, ContinuousLinearMap.comp_apply, ContinuousLinearMap.inr_apply]
  module

/-- **the classical Runge-Kutta update is of order four** -/
theorem rk4_order (h : SmoothIVP f 4 t Y) :
    (fun s => rk4Kernel f t (Y t) s - Y (t + s)) =O[𝓝 0] fun s => s ^ 5 := by
  obtain ⟨J, J1, hst⟩ := rk_stage (h.mono (by norm_num : 3 ≤ 4))
  set g : ℝ → Vec n := fun s => f (t + s) (Y (t + s)) with hg
  have hgc : ContDiffAt ℝ (4 : ℕ) g 0 := by
    have hY : ContDiffAt ℝ (4 : ℕ) (fun s : ℝ => Y (t + s)) 0 := by
      have h1 : ContDiffAt ℝ (4 : ℕ) Y (t + 0) := by
        rw [add_zero]; exact h.contDiff.of_le (by norm_num)
      exact h1.comp (0 : ℝ) (contDiffAt_const.add contDiffAt_id)
    have h1 : ContDiffAt ℝ (4 : ℕ) (fun p : ℝ × Vec n => f p.1 p.2) (t + 0, Y (t + 0)) := by
      rw [add_zero]; exact h.smooth
    exact h1.comp (0 : ℝ) ((contDiffAt_const.add contDiffAt_id).prodMk hY)
  have hT := taylor_isBigO 4 g hgc
  obtain ⟨a, ha, ha0⟩ : ∃ a : ℕ → Vec n, (fun s => g s - (a 0 + s • a 1 + s ^ 2 • a 2 + s ^ 3 • a 3)) =O[𝓝 0] (fun s : ℝ => s ^ 4) ∧
      a 0 = f t (Y t) := by
    refine ⟨fun i => ((Nat.factorial i : ℝ)⁻¹) • iteratedDeriv i g 0, hT.congr_left fun s => ?_, ?_⟩
    · simp only [Finset.sum_range_succ, Finset.sum_range_zero, zero_add, pow_zero, one_smul, pow_one]
    · simp [hg]
  have hYe : (fun s => Y (t + s) - (Y t + s • a 0 + (s ^ 2 / 2) • a 1 + (s ^ 3 / 3) • a 2 + (s ^ 4 / 4) • a 3))
      =O[𝓝 0] fun s : ℝ => s ^ 5 := by
    refine int_isBigO (k := 4) (by simp) ?_ ha
    filter_upwards [shift_eventually h.sol] with s hs
    have h1 : HasDerivAt (fun s => Y (t + s)) (g s) s := HasDerivAt.comp_const_add t s hs
    refine h1.sub ?_
    have e1 := (hasDerivAt_id s).smul_const (a 0)
    have e2 := (((hasDerivAt_id s).pow 2).div_const 2).smul_const (a 1)
    have e3 := (((hasDerivAt_id s).pow 3).div_const 3).smul_const (a 2)
    have e4 := (((hasDerivAt_id s).pow 4).div_const 4).smul_const (a 3)
    refine ((((e1.const_add (Y t)).add e2).add e3).add e4).congr_deriv ?_
    simp
  -- auxiliary: a multiple of s^4
  have hs4 : ∀ (c : ℝ) (w : Vec n), (fun s : ℝ => (c * s ^ 4) • w) =O[𝓝 0] fun s : ℝ => s ^ 4 := fun c w => by
    simpa using ((isBigO_refl (fun s : ℝ => s ^ 4) (𝓝 0)).const_mul_left c).smul
      (isBigO_const_const w (one_ne_zero (α := ℝ)) (𝓝 0))
  have hYh : (fun s => Y (t + 1 / 2 * s) - (Y t + (1 / 2 * s) • a 0 + ((1 / 2 * s) ^ 2 / 2) • a 1
      + ((1 / 2 * s) ^ 3 / 3) • a 2)) =O[𝓝 0] fun s : ℝ => s ^ 4 := by
    have := isBigO_weaken (isBigO_scale (c := 1 / 2) hYe) (by norm_num : 4 ≤ 5)
    refine (this.add (hs4 (1 / 64) (a 3))).congr_left fun s => ?_
    module
  have hY1 : (fun s => Y (t + s) - (Y t + s • a 0 + (s ^ 2 / 2) • a 1 + (s ^ 3 / 3) • a 2)) =O[𝓝 0] fun s : ℝ => s ^ 4 := by
    have := isBigO_weaken hYe (by norm_num : 4 ≤ 5)
    refine (this.add (hs4 (1 / 4) (a 3))).congr_left fun s => ?_
    module
  have hgh := isBigO_scale (c := 1 / 2) ha
  set f1 := f t (Y t) with hf1
  set f2 : ℝ → Vec n := fun s => f (t + 1 / 2 * s) (Y t + (1 / 2 * s) • f1) with hf2
  set f3 : ℝ → Vec n := fun s => f (t + 1 / 2 * s) (Y t + (1 / 2 * s) • f2 s) with hf3
  set f4 : ℝ → Vec n := fun s => f (t + 1 * s) (Y t + s • f3 s) with hf4
  have d2 := hst (1 / 2) (fun s => Y t + (1 / 2 * s) • f1) ((-1 / 8 : ℝ) • a 1) ((-1 / 24 : ℝ) • a 2) (by
    refine hYh.neg_left.congr_left fun s => ?_
    rw [ha0]
    module)
  have hδ3 : (fun s => (1 / 2 * s) • (f2 s - g (1 / 2 * s) - (s ^ 2 • J ((-1 / 8 : ℝ) • a 1)
      + s ^ 3 • (J ((-1 / 24 : ℝ) • a 2) + (1 / 2 : ℝ) • J1 ((-1 / 8 : ℝ) • a 1))))) =O[𝓝 0] fun s : ℝ => s ^ 4 :=
    isBigO_weaken (smul_isBigO (1 / 2) d2 rfl) (by norm_num : 4 ≤ 4 + 1)
  have hgh1 := isBigO_weaken (smul_isBigO (1 / 2) hgh rfl) (by norm_num : 4 ≤ 4 + 1)
  have d3 := hst (1 / 2) (fun s => Y t + (1 / 2 * s) • f2 s) ((1 / 8 : ℝ) • a 1) ((1 / 12 : ℝ) • a 2 - (1 / 16 : ℝ) • J (a 1)) (by
    refine ((((hδ3.add hgh1).sub hYh).add (hs4 (1 / 2) (J ((-1 / 24 : ℝ) • a 2) + (1 / 2 : ℝ) • J1 ((-1 / 8 : ℝ) • a 1)))).add
      (hs4 (1 / 16) (a 3))).congr_left fun s => ?_
    simp only [map_smul]
    module)
  have hδ4 := isBigO_weaken (smul_isBigO 1 d3 rfl) (by norm_num : 4 ≤ 4 + 1)
  have hgh2 := isBigO_weaken (smul_isBigO 1 hgh rfl) (by norm_num : 4 ≤ 4 + 1)
  have d4 := hst 1 (fun s => Y t + s • f3 s) 0 ((-1 / 12 : ℝ) • a 2 + (1 / 8 : ℝ) • J (a 1)) (by
    refine ((((hδ4.add hgh2).sub hY1).add (hs4 1 (J ((1 / 12 : ℝ) • a 2 - (1 / 16 : ℝ) • J (a 1)) + (1 / 2 : ℝ) • J1 ((1 / 8 : ℝ) • a 1)))).add
      (hs4 (1 / 8) (a 3))).congr_left fun s => ?_
    simp only [map_smul, map_sub, one_mul]
    module)
  have hsum := smul_isBigO (1 / 6) (((d2.const_smul_left (2 : ℝ)).add (d3.const_smul_left (2 : ℝ))).add d4) (rfl : 5 = 4 + 1)
  have hsimp := smul_isBigO (1 / 6) ((hgh.const_smul_left (4 : ℝ)).add ha) (rfl : 5 = 4 + 1)
  refine ((hsum.add hsimp).sub hYe).congr_left fun s => ?_
  have hk : rk4Kernel f t (Y t) s = Y t + (s / 6) • (f1 + (2 : ℝ) • f2 s + (2 : ℝ) • f3 s + f4 s) := by
    simp only [rk4Kernel, hf2, hf3, hf4, one_mul, show 1 / 2 * s = s / 2 by ring, hf1]
  rw [hk, ← ha0]
  have e1 : f (t + 1 / 2 * s) (Y (t + 1 / 2 * s)) = g (1 / 2 * s) := rfl
  have e2 : f (t + 1 * s) (Y (t + 1 * s)) = g s := by rw [one_mul]
  simp only [e1, e2, map_smul, map_sub, map_add, map_zero, Pi.smul_apply]
  have k2 : f (t + 1 / 2 * s) (Y t + (1 / 2 * s) • a 0) = f2 s := by rw [ha0]
  have k3 : f (t + 1 / 2 * s) (Y t + (1 / 2 * s) • f2 s) = f3 s := rfl
  have k4 : f (t + 1 * s) (Y t + s • f3 s) = f4 s := rfl
  simp only [k2, k3, k4]
  module

variable {P : Type}

/-- **C66.**  One step of the `rk4` integrator from the exact value of a solution of `y' = f(t, y)`, `f` of class `C^4`,
never fails and has local error `O(dt^5)`. -/
theorem C66_rk4_order4 (sys : OdeSys n P) (s : Base (Vec n)) (t : ℝ) (Y : ℝ → Vec n) (hs : At s t (Y t))
    (hm : s.method = "rk4") (hY : SmoothIVP (sys.frhs none) 4 t Y) :
    LocalOrder 4 (fun dt => RK.step sys s dt none) t Y := by
  refine ⟨fun dt => StepResult.mk (t + dt) dt (rk4Kernel (sys.frhs none) t (Y t) dt) (-1), ?_, fun _ => rfl, rk4_order hY⟩
  intro dt
  unfold RK.step stepRk4
  simp only [hm, if_true, hs.yNew, hs.time, Bind.bind, Except.bind, pure, Except.pure]

/-- The hypotheses are met by `y0' = t, y1' = y1^2` from `(0, 1)`. -/
example : ∃ s, RK.new 0 (demoY 0) "rk4" = .ok s ∧
    LocalOrder 4 (fun dt => RK.step (OdeSys.ofFrhs demoF) s dt none) 0 demoY :=
  ⟨_, rfl, C66_rk4_order4 _ _ 0 demoY ⟨rfl, rfl, rfl⟩ rfl (demo_smooth 4)⟩

end
end Ormatex.Props
