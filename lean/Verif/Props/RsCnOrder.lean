import Verif.Props.RsRobust
import Verif.Props.RobustRad

/-!
C121: Crank-Nicolson of the Rust crate is of order two on smooth autonomous systems with exact Jacobians, and only of order one otherwise.
-/

namespace Ormatex.Props
open Filter Asymptotics Topology Matrix Ormatex.Spec Ormatex.Rs
open scoped Classical NNReal
open scoped Matrix.Norms.Operator

section
variable {n : ℕ} {Y : ℝ → Vec n} {t0 T : ℝ}

/-- quadratic remainder near a point of smoothness -/
theorem quad_local {g : Vec n → Vec n} {c : Vec n} (hg : ContDiffAt ℝ 2 g c) : ∃ K ρ : ℝ, 0 ≤ K ∧ 0 < ρ ∧
    ∀ z z', ‖z - c‖ < ρ → ‖z' - c‖ < ρ → ‖fderiv ℝ g z‖ ≤ K ∧ ‖g z - g z' - fderiv ℝ g z (z - z')‖ ≤ K * ‖z - z'‖ ^ 2 := by
  have h1 : ContDiffAt ℝ 1 (fderiv ℝ g) c := hg.fderiv_right (by norm_num)
  obtain ⟨L, U, hU, hL⟩ := h1.exists_lipschitzOnWith
  have h2 : ∀ᶠ x in 𝓝 c, ContDiffAt ℝ 2 g x := hg.eventually (by simp)
  obtain ⟨ρ, hρ, hb⟩ := Metric.mem_nhds_iff.1 (Filter.inter_mem hU h2)
  have hdiff : ∀ x ∈ Metric.ball c ρ, DifferentiableAt ℝ g x := by
    intro x hx
    have h3 : ContDiffAt ℝ 2 g x := (hb hx).2
    exact h3.differentiableAt (by norm_num)
  have hlip : ∀ x ∈ Metric.ball c ρ, ∀ x' ∈ Metric.ball c ρ, ‖fderiv ℝ g x - fderiv ℝ g x'‖ ≤ L * ‖x - x'‖ := by
    intro x hx x' hx'
    have := hL.dist_le_mul x (hb hx).1 x' (hb hx').1
    rwa [dist_eq_norm, dist_eq_norm] at this
  refine ⟨‖fderiv ℝ g c‖ + L * ρ + L, ρ, by positivity, hρ, ?_⟩
  intro z z' hz hz'
  have mz : z ∈ Metric.ball c ρ := by rwa [mem_ball_iff_norm]
  have mz' : z' ∈ Metric.ball c ρ := by rwa [mem_ball_iff_norm]
  have mc : c ∈ Metric.ball c ρ := Metric.mem_ball_self hρ
  have hL0 : (0 : ℝ) ≤ L := L.2
  constructor
  · have a1 := hlip z mz c mc
    have a2 := norm_sub_norm_le (fderiv ℝ g z) (fderiv ℝ g c)
    have a3 : (L : ℝ) * ‖z - c‖ ≤ L * ρ := mul_le_mul_of_nonneg_left hz.le hL0
    linarith
  · have hseg : segment ℝ z z' ⊆ Metric.ball c ρ := (convex_ball c ρ).segment_subset mz mz'
    have := (convex_segment z z').norm_image_sub_le_of_norm_hasFDerivWithin_le' (f := g) (f' := fderiv ℝ g) (φ := fderiv ℝ g z)
      (C := L * ‖z - z'‖) (fun x hx => (hdiff x (hseg hx)).hasFDerivAt.hasFDerivWithinAt)
      (by
        intro x hx
        refine (hlip x (hseg hx) z mz).trans (mul_le_mul_of_nonneg_left ?_ hL0)
        obtain ⟨θ, hθ, rfl⟩ := (segment_eq_image ℝ z z') ▸ hx
        have e : (1 - θ) • z + θ • z' - z = -(θ • (z - z')) := by module
        show ‖(1 - θ) • z + θ • z' - z‖ ≤ _
        rw [e, norm_neg, norm_smul, Real.norm_of_nonneg hθ.1]
        exact mul_le_of_le_one_left (norm_nonneg _) hθ.2)
      (right_mem_segment ℝ z z') (left_mem_segment ℝ z z')
    refine this.trans ?_
    have : 0 ≤ (‖fderiv ℝ g c‖ + L * ρ) * ‖z - z'‖ ^ 2 := by positivity
    nlinarith

/-- quadratic remainder along a solution -/
theorem quad_tube {g : Vec n → Vec n} (hg : ∀ t ∈ Set.Icc t0 T, ContDiffAt ℝ 2 g (Y t)) (hY : ContinuousOn Y (Set.Icc t0 T)) :
    ∃ K ρ : ℝ, 0 ≤ K ∧ 0 < ρ ∧ ∀ t ∈ Set.Icc t0 T, ∀ z z', ‖z - Y t‖ < ρ → ‖z' - Y t‖ < ρ →
      ‖fderiv ℝ g z‖ ≤ K ∧ ‖g z - g z' - fderiv ℝ g z (z - z')‖ ≤ K * ‖z - z'‖ ^ 2 := by
  have key : ∃ K ρ : ℝ, 0 ≤ K ∧ 0 < ρ ∧ ∀ t ∈ Set.Icc t0 T, t ∈ Set.Icc t0 T → ∀ z z', ‖z - Y t‖ < ρ → ‖z' - Y t‖ < ρ →
      ‖fderiv ℝ g z‖ ≤ K ∧ ‖g z - g z' - fderiv ℝ g z (z - z')‖ ≤ K * ‖z - z'‖ ^ 2 := by
    refine isCompact_Icc.induction_on (p := fun S => ∃ K ρ : ℝ, 0 ≤ K ∧ 0 < ρ ∧ ∀ t ∈ S, t ∈ Set.Icc t0 T → ∀ z z',
      ‖z - Y t‖ < ρ → ‖z' - Y t‖ < ρ →
      ‖fderiv ℝ g z‖ ≤ K ∧ ‖g z - g z' - fderiv ℝ g z (z - z')‖ ≤ K * ‖z - z'‖ ^ 2) ⟨0, 1, le_rfl, one_pos, by simp⟩ ?_ ?_ ?_
    · rintro S S' hss ⟨C, δ, h1, h2, h3⟩
      exact ⟨C, δ, h1, h2, fun t ht => h3 t (hss ht)⟩
    · rintro S S' ⟨C, δ, h1, h2, h3⟩ ⟨C', δ', h1', h2', h3'⟩
      refine ⟨max C C', min δ δ', le_max_of_le_left h1, lt_min h2 h2', ?_⟩
      rintro t (ht | ht) hti z z' e1 e2
      · rw [lt_min_iff] at e1 e2
        obtain ⟨a, b⟩ := h3 t ht hti z z' e1.1 e2.1
        exact ⟨a.trans (le_max_left _ _), b.trans (mul_le_mul_of_nonneg_right (le_max_left _ _) (by positivity))⟩
      · rw [lt_min_iff] at e1 e2
        obtain ⟨a, b⟩ := h3' t ht hti z z' e1.2 e2.2
        exact ⟨a.trans (le_max_right _ _), b.trans (mul_le_mul_of_nonneg_right (le_max_right _ _) (by positivity))⟩
    · intro s hs
      obtain ⟨K, ρ, hK, hρ, hq⟩ := quad_local (hg s hs)
      obtain ⟨ε, hε, hc⟩ := Metric.continuousWithinAt_iff.1 (hY s hs) (ρ / 2) (by linarith)
      refine ⟨Metric.ball s ε, mem_nhdsWithin_of_mem_nhds (Metric.ball_mem_nhds s hε), K, ρ / 2, hK, by linarith, ?_⟩
      intro t ht hti z z' e1 e2
      have hYt := hc hti ht
      rw [dist_eq_norm] at hYt
      have f1 : ∀ x, ‖x - Y t‖ < ρ / 2 → ‖x - Y s‖ < ρ := by
        intro x hx
        have := norm_add_le (x - Y t) (Y t - Y s)
        rw [sub_add_sub_cancel] at this
        linarith
      exact hq z z' (f1 z e1) (f1 z' e2)
  obtain ⟨K, ρ, h1, h2, h3⟩ := key
  exact ⟨K, ρ, h1, h2, fun t ht => h3 t ht ht⟩

theorem smooth_lipIVP {f : ℝ → Vec n → Vec n} {m : ℕ} (hm : 1 ≤ m) (hY : ∀ t ∈ Set.Icc t0 T, SmoothIVP f m t Y) : LipIVP f Y t0 T where
  sol t ht := ((hY t ht).sol.self_of_nhds).hasDerivWithinAt
  lip s hs := by
    have h1 : ContDiffAt ℝ 1 (fun p : ℝ × Vec n => f p.1 p.2) (s, Y s) := (hY s hs).smooth.of_le (by exact_mod_cast hm)
    obtain ⟨L, U, hU, hL⟩ := h1.exists_lipschitzOnWith
    exact ⟨L, U, hU, hL⟩

/-- constants for the system with its exact Jacobian -/
theorem exact_tube {sys : Sys n} (hj : ExactJacsRs sys) {m : ℕ} (hm : 2 ≤ m) (hY : ∀ t ∈ Set.Icc t0 T, SmoothIVP sys.frhs m t Y) :
    ∃ K ρ : ℝ, 0 ≤ K ∧ 0 < ρ ∧ ∀ t ∈ Set.Icc t0 T, ∀ s z, ‖z - Y t‖ < ρ → ∃ J : Mat n, IsMatrix (sys.fjac s z) J ∧ ‖J‖ ≤ K ∧
      ∀ z', ‖z' - Y t‖ < ρ → ‖sys.frhs s z - sys.frhs s z' - J *ᵥ (z - z')‖ ≤ K * ‖z - z'‖ ^ 2 := by
  have hg : ∀ t ∈ Set.Icc t0 T, ContDiffAt ℝ 2 (sys.frhs 0) (Y t) := by
    intro t ht
    have h1 : ContDiffAt ℝ 2 (fun p : ℝ × Vec n => sys.frhs p.1 p.2) (t, Y t) := (hY t ht).smooth.of_le (by exact_mod_cast hm)
    have h2 := ContDiffAt.comp (g := fun p : ℝ × Vec n => sys.frhs p.1 p.2) (f := fun y : Vec n => (t, y)) (Y t) h1 (by fun_prop)
    refine h2.congr_of_eventuallyEq (Eventually.of_forall fun y => hj.auto _ _ _)
  obtain ⟨K, ρ, hK, hρ, hq⟩ := quad_tube hg (fun t ht => ((hY t ht).contDiff.continuousAt).continuousWithinAt)
  refine ⟨K, ρ, hK, hρ, fun t ht s z hz => ?_⟩
  obtain ⟨J, hJ, hd⟩ := hj.jac s z
  have e : sys.frhs s = sys.frhs 0 := funext fun y => hj.auto _ _ _
  rw [e] at hd ⊢
  have hf := hd.fderiv
  have hJv : ∀ v, fderiv ℝ (sys.frhs 0) z v = J *ᵥ v := by intro v; rw [hf]; simp
  refine ⟨J, hJ, ?_, fun z' hz' => ?_⟩
  · refine norm_le_of_mulVec hK fun v => ?_
    rw [← hJv]
    exact ((fderiv ℝ (sys.frhs 0) z).le_opNorm v).trans (mul_le_mul_of_nonneg_right (hq t ht z z hz hz).1 (norm_nonneg _))
  · rw [← hJv]
    exact (hq t ht z z' hz hz').2

theorem exactRs_tame {sys : Sys n} (hj : ExactJacsRs sys) {m : ℕ} (hm : 2 ≤ m) (hY : ∀ t ∈ Set.Icc t0 T, SmoothIVP sys.frhs m t Y) :
    TameJacsRs sys Y t0 T := by
  obtain ⟨K, ρ, hK, hρ, h⟩ := exact_tube hj hm hY
  refine ⟨K, ρ, hρ, fun t ht s z _ hz => ?_⟩
  obtain ⟨J, h1, h2, -⟩ := h t ht s z hz
  exact ⟨J, h1, h2⟩

/-- Heun's method -/
noncomputable def heun (f : ℝ → Vec n → Vec n) (h t : ℝ) (y : Vec n) : Vec n := y + (h / 2) • (f t y + f t (y + h • f t y))

theorem heun_order {f : ℝ → Vec n → Vec n} {t : ℝ} (h : SmoothIVP f 3 t Y) (hf : ∀ s s' y, f s y = f s' y) :
    (fun s => heun f s t (Y t) - Y (t + s)) =O[𝓝 0] fun s : ℝ => s ^ 3 := by
  obtain ⟨a0, a1, a2, J, ha0, hYe, h2, -⟩ := rk_stage2 h hf
  have h2' := isBigO_scale (c := 2) h2
  have h2s := isBigO_weaken (smul_isBigO (1 / 2) h2' (rfl : 4 = 3 + 1)) (by norm_num : 3 ≤ 4)
  have pw : (fun s : ℝ => (1 * s ^ 3) • ((1 / 6 : ℝ) • a2 - (1 / 4 : ℝ) • J a1)) =O[𝓝 0] fun s : ℝ => s ^ 3 := by
    simpa using ((isBigO_refl (fun s : ℝ => s ^ 3) (𝓝 0)).const_mul_left 1).smul
      (isBigO_const_const ((1 / 6 : ℝ) • a2 - (1 / 4 : ℝ) • J a1) (one_ne_zero (α := ℝ)) (𝓝 0))
  have := (h2s.sub (isBigO_weaken hYe (by norm_num : 3 ≤ 4))).add pw
  refine this.congr_left fun s => ?_
  have e : 2 * s / 2 = s := by ring
  simp only [heun, ← ha0, e]
  module

theorem heun_smooth {f : ℝ → Vec n → Vec n} {m : ℕ} {t : ℝ} {y : Vec n}
    (hf : ContDiffAt ℝ m (fun p : ℝ × Vec n => f p.1 p.2) (t, y)) :
    ContDiffAt ℝ m (fun q : ℝ × ℝ × (Vec n × Vec n) => heun f q.1 q.2.1 q.2.2.1 + q.1 • q.2.2.2) (0, t, (y, 0)) := by
  have hh : ContDiffAt ℝ m (fun q : ℝ × ℝ × (Vec n × Vec n) => q.1) (0, t, (y, (0 : Vec n))) := by fun_prop
  have hc : ContDiffAt ℝ m (fun q : ℝ × ℝ × (Vec n × Vec n) => q.1 / 2) (0, t, (y, (0 : Vec n))) := by fun_prop
  have hy : ContDiffAt ℝ m (fun q : ℝ × ℝ × (Vec n × Vec n) => q.2.2.1) (0, t, (y, (0 : Vec n))) := by fun_prop
  have hz : ContDiffAt ℝ m (fun q : ℝ × ℝ × (Vec n × Vec n) => q.2.2.2) (0, t, (y, (0 : Vec n))) := by fun_prop
  have h1 := smoothF' hf
  have h2 := comp_contDiffAt (τ := fun q : ℝ × ℝ × (Vec n × Vec n) => q.2.1) hf (by fun_prop)
    (hy.add (hh.smul h1)) (by simp) (by simp)
  exact (hy.add (hc.smul (h1.add h2))).add (hh.smul hz)

/-- **C121, Crank-Nicolson.**  On an autonomous, three times continuously differentiable system with its exact Jacobian, every call of
the binding with `cn`, step size `dt ≤ δ`, and a linear solver with relative residual `η ≤ δ` succeeds with error at most
`C (dt^2 + η)`, in spite of the stopping test of Newton's method. -/
theorem C121_cn (sys : Sys n) (hj : ExactJacsRs sys) (hY : ∀ t ∈ Set.Icc t0 T, SmoothIVP sys.frhs 3 t Y) (split : ℕ → Option (Split ℕ)) :
    ∃ C δ : ℝ, 0 ≤ C ∧ 0 < δ ∧ ∀ (dt η : ℝ) (N : ℕ) (gmres : Gmres n) (kd : Kwds) (o : RunOpts), 0 < dt → dt ≤ δ → 0 ≤ η → η ≤ δ →
      GmresTo η gmres → t0 + N * dt ≤ T → parseOpts kd = .ok o → o.method = "cn" → 0 < o.osteps →
      ∃ out, integrateWrapperRs gmres split sys (Y t0) t0 dt N kd = .ok out ∧
        RsRunAccurate out t0 dt o.osteps N Y (C * (dt ^ 2 + η)) := by
  have hL : LipIVP sys.frhs Y t0 T := smooth_lipIVP (by norm_num) hY
  obtain ⟨Λ, B, F, ρ1, hΛ, hB, hF, hρ1, hbox⟩ := impl_uniform hL (exactRs_tame hj (by norm_num) hY)
  obtain ⟨Q, ρ2, hQ, hρ2, hquad⟩ := exact_tube hj (by norm_num) hY
  obtain ⟨ρ, hρe⟩ : ∃ ρ, ρ = min ρ1 ρ2 := ⟨_, rfl⟩
  have hρ : 0 < ρ := by rw [hρe]; positivity
  have hρ1' : ρ ≤ ρ1 := hρe ▸ min_le_left _ _
  have hρ2' : ρ ≤ ρ2 := hρe ▸ min_le_right _ _
  obtain ⟨B', hB'e⟩ : ∃ B', B' = max B Q := ⟨_, rfl⟩
  have hB' : 0 ≤ B' := by rw [hB'e]; exact hB.trans (le_max_left _ _)
  have hBB : B ≤ B' := hB'e ▸ le_max_left _ _
  have hQB : Q ≤ B' := hB'e ▸ le_max_right _ _
  have hbox' : ∀ t ∈ Set.Icc t0 T, ImplBox sys t (Y t) Λ B' F ρ := fun t ht => by
    refine ⟨fun t1 t2 y1 y2 e1 e2 e3 e4 => (hbox t ht).lip t1 t2 y1 y2 (e1.trans_le hρ1') (e2.trans_le hρ1') (e3.trans_le hρ1') (e4.trans_le hρ1'),
      fun t' y e1 e2 => (hbox t ht).size t' y (e1.trans_le hρ1') (e2.trans_le hρ1'), fun t' y e1 e2 => ?_⟩
    obtain ⟨J, h1, h2⟩ := (hbox t ht).jac t' y (e1.trans_le hρ1') (e2.trans_le hρ1')
    exact ⟨J, h1, h2.trans hBB⟩
  obtain ⟨δ1, hδ1, hsmall⟩ := impl_small n hΛ hB' hF hρ
  obtain ⟨D1, hD1e⟩ : ∃ D1, D1 = implConst Λ B' F := ⟨_, rfl⟩
  have hD1 : 0 ≤ D1 := hD1e ▸ implConst_nonneg hΛ hB' hF
  -- the step map
  set S : ℝ × ℝ × (Vec n × Vec n) → Vec n := fun q => heun sys.frhs q.1 q.2.1 q.2.2.1 + q.1 • q.2.2.2 with hS
  have hsm : ∀ t ∈ Set.Icc t0 T, ContDiffAt ℝ (2 + 1 : ℕ) S (0, t, (Y t, 0)) := fun t ht => heun_smooth (hY t ht).smooth
  obtain ⟨C0, δ0, hC0, hδ0, hdef⟩ := uniform_defect (S := S) (f := sys.frhs) (Y := Y) (β := fun _ _ => (0 : Vec n)) (t0 := t0) (T := T)
    2 3 (by norm_num) hY hsm (fun t ht => contDiffAt_const)
    (fun t h => (heun_order h hj.auto).congr_left fun s => by simp [hS])
  obtain ⟨C, δ2, hC, hδ2, hmain⟩ := rs_converge_run (S := S) (Y := Y) (a := fun _ => (0 : Vec n)) (t0 := t0) (T := T) 2 (by norm_num)
    (fun t ht => (hsm t ht).of_le (by norm_cast)) (fun t x => by simp [hS, heun])
    (fun t ht => (hY t ht).contDiff.continuousAt) (fun t ht => continuousAt_const) 0 C0 (ρ / 2) le_rfl hC0 (by positivity)
  obtain ⟨A, hAe⟩ : ∃ A, A = F + 64 * (Q * F) * F + Λ * D1 := ⟨_, rfl⟩
  have hA : 0 ≤ A := by rw [hAe]; positivity
  refine ⟨C * (1 + A), min (min (min δ1 (1 / 4)) (δ0 / 2)) (min (min 1 δ2) (min (1 / (64 * (Q * F) + 1)) (δ2 / (2 * (A + 1))))), by positivity, by positivity, ?_⟩
  intro dt η N gmres kd o hdt hdtδ hη hηδ hg hN hp hom ho
  have d1 : dt ≤ δ1 := hdtδ.trans ((min_le_left _ _).trans ((min_le_left _ _).trans (min_le_left _ _)))
  have d4 : dt ≤ 1 / 4 := hdtδ.trans ((min_le_left _ _).trans ((min_le_left _ _).trans (min_le_right _ _)))
  have e4 : η ≤ 1 / 4 := hηδ.trans ((min_le_left _ _).trans ((min_le_left _ _).trans (min_le_right _ _)))
  have d0 : dt ≤ δ0 / 2 := hdtδ.trans ((min_le_left _ _).trans (min_le_right _ _))
  have d3 : dt ≤ 1 := hdtδ.trans ((min_le_right _ _).trans ((min_le_left _ _).trans (min_le_left _ _)))
  have d2 : dt ≤ δ2 := hdtδ.trans ((min_le_right _ _).trans ((min_le_left _ _).trans (min_le_right _ _)))
  have d5 : dt * (64 * (Q * F) + 1) ≤ 1 := by
    have := hdtδ.trans ((min_le_right _ _).trans ((min_le_right _ _).trans (min_le_left _ _)))
    rwa [le_div_iff₀ (by positivity)] at this
  have d6 : dt * (2 * (A + 1)) ≤ δ2 := by
    have := hdtδ.trans ((min_le_right _ _).trans ((min_le_right _ _).trans (min_le_right _ _)))
    rwa [le_div_iff₀ (by positivity)] at this
  have e6 : η * (2 * (A + 1)) ≤ δ2 := by
    have := hηδ.trans ((min_le_right _ _).trans ((min_le_right _ _).trans (min_le_right _ _)))
    rwa [le_div_iff₀ (by positivity)] at this
  have e1 : η ≤ δ1 := hηδ.trans ((min_le_left _ _).trans ((min_le_left _ _).trans (min_le_left _ _)))
  have hs := hsmall dt η hdt d1 hη e1
  have hdt2 : dt ^ 2 ≤ dt := by
    calc dt ^ 2 = dt * dt := sq dt
      _ ≤ dt * 1 := mul_le_mul_of_nonneg_left d3 hdt.le
      _ = dt := mul_one dt
  have hdt20 : 0 ≤ dt ^ 2 := by positivity
  have hin : ∀ k < N, t0 + (k : ℝ) * dt ∈ Set.Icc t0 T := by
    intro k hk
    have h1 : (k : ℝ) ≤ N := by exact_mod_cast hk.le
    have h2 := mul_le_mul_of_nonneg_right h1 hdt.le
    have h3 : 0 ≤ (k : ℝ) * dt := by positivity
    constructor <;> linarith
  have hε : A * (dt ^ 2 + η) ≤ δ2 := by
    have := mul_le_mul_of_nonneg_left hdt2 hA
    linarith
  -- one step
  have hstep : ∀ (s : Bdf n) (k : ℕ) (y : Vec n) (l : List (Vec n)), k < N → ‖y - Y (t0 + k * dt)‖ < ρ / 2 →
      s.t = t0 + k * dt → s.yHist = y :: l →
      ∃ z al, Bdf.stepCn gmres sys s dt = .ok ⟨t0 + k * dt + dt, dt, z, none⟩ ∧ z = S (dt, t0 + k * dt, (y, al)) ∧
        ‖al‖ ≤ A * (dt ^ 2 + η) := by
    intro s k y l hk hnear e2 e3
    have hbx := hbox' _ (hin k hk)
    generalize htk : t0 + (k : ℝ) * dt = t at *
    have hdF : 0 ≤ dt * F := by positivity
    have hyρ : ‖y - Y t‖ < ρ := by linarith [norm_nonneg (y - Y t)]
    have hball : ∀ z, ‖z - y‖ ≤ 8 * (dt * F) → ‖z - Y t‖ < ρ := by
      intro z hz
      have := norm_add_le (z - y) (y - Y t)
      rw [sub_add_sub_cancel] at this
      linarith [hs.ball]
    have hex : ∀ z, ∃ J : Mat n, ‖z - y‖ ≤ 8 * (dt * F) → IsMatrix (sys.fjac (s.t + 2 * dt) z) J ∧ ‖J‖ ≤ B' ∧
        ∀ z', ‖z' - Y t‖ < ρ2 → ‖sys.frhs (s.t + 2 * dt) z - sys.frhs (s.t + 2 * dt) z' - J *ᵥ (z - z')‖ ≤ Q * ‖z - z'‖ ^ 2 := by
      intro z
      by_cases hz : ‖z - y‖ ≤ 8 * (dt * F)
      · obtain ⟨J, a1, a2, a3⟩ := hquad t (htk ▸ hin k hk) (s.t + 2 * dt) z ((hball z hz).trans_le hρ2')
        exact ⟨J, fun _ => ⟨a1, a2.trans hQB, a3⟩⟩
      · exact ⟨0, fun h => absurd h hz⟩
    choose Jf hJf using hex
    have hq0 : 0 ≤ 16 * (Q * (dt * F)) := by positivity
    obtain ⟨z', b1, b2, b3⟩ := stepCn_rob hbx hs hg e2 e3 hnear
    obtain ⟨z, g1, g2, g3⟩ := stepCn_newton (Jf := Jf) (γ := dt * F) (q := 16 * (Q * (dt * F))) hη hq0 hg e3 hdt.le
      (by
        refine (norm_add_le _ _).trans ?_
        rw [norm_smul, norm_smul, Real.norm_of_nonneg (by linarith : 0 ≤ dt / 2), hj.auto (s.t + dt) t, hj.auto (s.t + 2 * dt) t]
        have a1 := mul_le_mul_of_nonneg_left (hbx.size t y (by simpa using hρ) hyρ) (by linarith : 0 ≤ dt / 2)
        linarith)
      (fun z hz => ⟨(hJf z hz).1, (hJf z hz).2.1⟩)
      (by
        intro z z' hz hz'
        refine ((hJf z hz).2.2 z' ((hball z' hz').trans_le hρ2')).trans ?_
        have hzz : ‖z - z'‖ ≤ 16 * (dt * F) := by
          have := norm_sub_le (z - y) (z' - y)
          rw [sub_sub_sub_cancel_right] at this
          linarith
        rw [sq]
        have := mul_le_mul_of_nonneg_right hzz (norm_nonneg (z - z'))
        have := mul_le_mul_of_nonneg_left this hQ
        linarith)
      hs.jac hB'
      (by
        have h64 : 64 * (Q * F) * dt ≤ 1 := by linarith
        have hq1 : 4 * (dt * (16 * (Q * (dt * F)))) = dt * (64 * (Q * F) * dt) := by ring
        rw [hq1]
        have h65 : dt * (64 * (Q * F) * dt) ≤ dt * 1 := mul_le_mul_of_nonneg_left h64 hdt.le
        linarith)
      (lt_of_le_of_lt (mul_le_mul_of_nonneg_left (by linarith) (Real.sqrt_nonneg _)) hs.tol)
    have hzz : z' = z := by
      rw [g1, e2] at b1
      have := Except.ok.inj b1
      exact ((StepRes.mk.injEq _ _ _ _ _ _ _ _).mp this).2.2.1.symm
    subst hzz
    rw [e2] at g1
    refine ⟨z', dt⁻¹ • (z' - heun sys.frhs dt t y), g1, ?_, ?_⟩
    · simp only [hS]
      rw [smul_smul, mul_inv_cancel₀ hdt.ne', one_smul]; abel
    · rw [hj.auto (s.t + dt) t, hj.auto (s.t + 2 * dt) t] at g2
      have hfy := hbx.size t y (by simpa using hρ) hyρ
      have hpred : ‖(y + dt • sys.frhs t y) - Y t‖ < ρ := by
        refine hball _ ?_
        rw [add_sub_cancel_left, norm_smul, Real.norm_of_nonneg hdt.le]
        have := mul_le_mul_of_nonneg_left hfy hdt.le
        linarith
      have hlip := hbx.lip t t z' (y + dt • sys.frhs t y) (by simpa using hρ) (by simpa using hρ) (hball z' g3) hpred
      rw [sub_self, abs_zero, zero_add, ← sub_sub] at hlip
      rw [← hD1e] at b2
      have hlip2 := hlip.trans (mul_le_mul_of_nonneg_left b2 hΛ)
      have e : z' - heun sys.frhs dt t y = (z' - (y + (dt / 2) • sys.frhs t y) - (dt / 2) • sys.frhs t z')
          + (dt / 2) • (sys.frhs t z' - sys.frhs t (y + dt • sys.frhs t y)) := by unfold heun; module
      rw [norm_smul, Real.norm_of_nonneg (by positivity : 0 ≤ dt⁻¹), e]
      have n1 := norm_add_le (z' - (y + (dt / 2) • sys.frhs t y) - (dt / 2) • sys.frhs t z')
        ((dt / 2) • (sys.frhs t z' - sys.frhs t (y + dt • sys.frhs t y)))
      rw [norm_smul, Real.norm_of_nonneg (by linarith : 0 ≤ dt / 2)] at n1
      have n2 := mul_le_mul_of_nonneg_left hlip2 (by linarith : 0 ≤ dt / 2)
      rw [inv_mul_le_iff₀ hdt]
      refine (n1.trans (add_le_add g2 n2)).trans ?_
      rw [hAe]
      have i1 : 0 ≤ Λ * D1 := by positivity
      have i2 : dt * η ≤ 1 * η := mul_le_mul_of_nonneg_right d3 hη
      have i3 : dt / 2 * (Λ * (dt * (D1 * (dt + η)))) = dt * ((Λ * D1) * ((dt ^ 2 + dt * η) / 2)) := by ring
      have i4 : (Λ * D1) * ((dt ^ 2 + dt * η) / 2) ≤ (Λ * D1) * (dt ^ 2 + η) := mul_le_mul_of_nonneg_left (by linarith) i1
      have i5 := mul_le_mul_of_nonneg_left i4 hdt.le
      have i6 : (η + 4 * (dt * (16 * (Q * (dt * F))))) * (dt * F) = dt * (F * η + 64 * (Q * F) * F * dt ^ 2) := by ring
      have i7 : F * η + 64 * (Q * F) * F * dt ^ 2 ≤ (F + 64 * (Q * F) * F) * (dt ^ 2 + η) := by
        have j1 : 0 ≤ F * dt ^ 2 := by positivity
        have j2 : 0 ≤ 64 * (Q * F) * F * η := by positivity
        linarith
      have i8 := mul_le_mul_of_nonneg_left i7 hdt.le
      rw [i3, i6]
      linarith
  have hsel : selectSolver split t0 (Y t0) o.method o.expmvMethod o.krylovDim o.iom o.tolFdt = .ok (.bdf (Bdf.new t0 (Y t0) 3)) := by
    unfold selectSolver
    rw [hom]
    simp
  obtain ⟨out, g1, g2⟩ := hmain dt (A * (dt ^ 2 + η)) N (fun _ => 0) hdt d2 (by positivity) hε hN
    (fun k hk => by simpa using hδ2.le)
    (by
      intro k hk
      have h1 := hdef _ (hin k hk) dt (by rw [abs_of_pos hdt]; linarith)
      rw [abs_of_pos hdt] at h1
      have e : t0 + ((k + 1 : ℕ) : ℝ) * dt = t0 + k * dt + dt := by push_cast; ring
      rw [e]; exact h1)
    (solverIntegrator gmres sys)
    (fun o k u => ∃ s l, o = .bdf s ∧ s.order = 3 ∧ s.t = t0 + k * dt ∧ s.yHist = u k :: l)
    (.bdf (Bdf.new t0 (Y t0) 3)) o.osteps ho rfl rfl
    (fun u hu => ⟨Bdf.new t0 (Y t0) 3, [], rfl, rfl, by simp [Bdf.new], by rw [hu]; rfl⟩)
    (by
      rintro o k u hk - hnear ⟨s, l, rfl, a1, a2, a3⟩
      obtain ⟨z, al, b1, b2, b3⟩ := hstep s k (u k) l hk (hnear k le_rfl) a2 a3
      have e : t0 + ((k + 1 : ℕ) : ℝ) * dt = t0 + k * dt + dt := by push_cast; ring
      refine ⟨_, al, (bdf_step_3 gmres sys s dt a1).trans b1, rfl, e.symm, b2, ?_, fun hz => ?_⟩
      · rw [sub_zero, zero_mul, zero_add]; exact b3
      · exact ⟨⟨s.order, t0 + k * dt + dt, z :: s.yHist⟩, s.yHist, rfl, a1, e.symm, by rw [hz]⟩)
  refine ⟨out, ?_, g2.1, g2.2.1, fun i y t hy ht => (g2.2.2 i y t hy ht).trans (by have := mul_nonneg hC hη; linarith)⟩
  unfold integrateWrapperRs
  simp only [hp, hsel, Bind.bind, Except.bind]
  exact g1

end

/-! ### sharpness and non-vacuity -/

section

/-- `y' = 2 t` -/
def timeSys : Sys 1 where
  frhs t _ := fun _ => 2 * t
  fjac _ _ := LinOp.mk (fun _ => 0) (.error .notImplemented)

theorem timeSys_jac (t : ℝ) (y : Vec 1) : IsMatrix (timeSys.fjac t y) 0 := fun v => (zero_mulVec v).symm

/-- **C121, the order of Crank-Nicolson drops for time-dependent systems.**  For `y' = 2 t`, `y(0) = 0`, with an exact linear solver,
the last state returned by the binding after `N` steps is `(N dt)^2 + 2 (N dt) dt`: the error is exactly `2 T dt`, because the method
evaluates the right-hand side at `t + dt` and `t + 2 dt` (`C71_false`). -/
theorem C121_cn_first_order (gmres : Gmres 1) (hg : ExactGmres gmres) (split : ℕ → Option (Split ℕ)) (dt : ℝ) (N : ℕ) (kd : Kwds)
    (o : RunOpts) (hp : parseOpts kd = .ok o) (hom : o.method = "cn") (ho : 0 < o.osteps) :
    ∃ out, integrateWrapperRs gmres split timeSys (fun _ => 0) 0 dt N kd = .ok out ∧
      out.1.getLast? = some (fun _ => (N * dt) ^ 2 + 2 * (N * dt) * dt) := by
  obtain ⟨u, hu⟩ : ∃ u : ℕ → Vec 1, u = fun (k : ℕ) (_ : Fin 1) => ((k : ℝ) * dt) ^ 2 + 2 * (k * dt) * dt := ⟨_, rfl⟩
  have hu0 : u 0 = fun _ => 0 := by rw [hu]; funext i; simp
  have hsel : selectSolver split 0 (u 0) o.method o.expmvMethod o.krylovDim o.iom o.tolFdt = .ok (.bdf (Bdf.new 0 (u 0) 3)) := by
    unfold selectSolver
    rw [hom]
    simp
  have hrun := bdf_follow gmres timeSys 3 0 dt u N o.osteps ho (by
    intro s k l hk g1 g2 g3 g4 g5
    rw [bdf_step_3 gmres timeSys s dt g1]
    unfold Bdf.stepCn
    rw [g3]
    have hN := newton_affine gmres hg (s.t + dt) (u k) (u (k + 1)) 1 (by simp)
      (fun (t : ℝ) (z : Vec 1) => -((dt * 0.5) • timeSys.frhs (t + dt) z) - (dt * 0.5) • timeSys.frhs t (u k) - u k + z)
      (fun (t : ℝ) (z : Vec 1) => timeSys.fjacShifted (t + dt) z (-0.5 * dt) (some 1))
      (by
        intro x
        rw [one_mulVec, hu, g2]
        funext i
        simp only [timeSys, Pi.add_apply, Pi.sub_apply, Pi.neg_apply, Pi.smul_apply, smul_eq_mul]
        push_cast
        ring)
      (by
        intro x
        have := shifted_isMatrix (timeSys_jac (s.t + dt + dt) x) (0.5 * dt)
        rw [smul_zero, sub_zero] at this
        rw [show (-0.5 * dt : ℝ) = -(0.5 * dt) by ring]
        exact this)
      1e-6 1e-8 (by norm_num) 98 1000
    rw [inv_one, one_mulVec] at hN
    show (do let yNew ← jacNewton gmres (s.t + dt) (u k) _ _ 1e-6 1e-8 100 1000; pure _ : RsM (StepRes 1)) = _
    rw [hN]
    rfl)
  refine ⟨((outputSteps o.osteps N).map u, (outputSteps o.osteps N).map fun i : ℕ => 0 + i * dt), ?_, ?_⟩
  · unfold integrateWrapperRs
    rw [← hu0]
    simp only [hp, hsel, Bind.bind, Except.bind]
    exact hrun
  · simp [outputSteps, hu]

/-- an arbitrary matrix -/
def sevenM : Mat 1 := Matrix.of fun _ _ => 7

/-- the hypotheses of `C121_robust` are met by a system with a kink, a wrong Jacobian, and a linear solver that is not exact -/
def kinkRs : Sys 1 where
  frhs t u := fun i => 1 + |u i| - |t|
  fjac _ _ := LinOp.mk (fun v => sevenM *ᵥ v) (.error .notImplemented)

theorem kinkRs_tame : TameJacsRs kinkRs kinkY (-1) 1 := ⟨‖sevenM‖, 1, one_pos, fun _ _ _ _ _ _ => ⟨sevenM, fun _ => rfl, le_rfl⟩⟩

example (split : ℕ → Option (Split ℕ)) : ∃ C δ : ℝ, 0 ≤ C ∧ 0 < δ ∧ ∀ (dt η : ℝ) (N : ℕ), 0 < dt → dt ≤ δ → 0 ≤ η → η ≤ δ → N * dt ≤ 2 →
    ∃ out, integrateWrapperRs (fun op b _ _ _ => .ok ((opMatrix op)⁻¹ *ᵥ ((1 + η) • b))) split kinkRs (kinkY (-1)) (-1) dt N
        (fun k => if k = "method" then some (.str "bdf2") else none) = .ok out ∧
      RsRunAccurate out (-1) dt 1 N kinkY (C * (dt + η)) := by
  have h : LipIVP kinkRs.frhs kinkY (-1) 1 := kink_ivp (P := List Unit)
  obtain ⟨C, δ, hC, hδ, hm⟩ := C121_robust kinkRs h kinkRs_tame split "bdf2" 2 (by simp [rsImplicit])
  refine ⟨C, δ, hC, hδ, fun dt η N h1 h2 h3 h4 h5 => ?_⟩
  exact hm dt η N _ (fun k => if k = "method" then some (.str "bdf2") else none)
    { method := "bdf2", expmvMethod := "pade", krylovDim := 100, iom := 2, tol := 1e-8, tolFdt := 1e-8, osteps := 1 } h1 h2 h3 h4
    (gmresTo_scaled η h3) (by linarith)
    (by simp [parseOpts, getValOrDefault, PyVal.asString, Bind.bind, Except.bind, Pure.pure, Except.pure]) rfl (by norm_num)

/-- the hypotheses of `C121_cn` are met by `y' = y^2` on `[0, 1/2]` -/
example (split : ℕ → Option (Split ℕ)) : ∃ C δ : ℝ, 0 ≤ C ∧ 0 < δ ∧ ∀ (dt η : ℝ) (N : ℕ), 0 < dt → dt ≤ δ → 0 ≤ η → η ≤ δ → N * dt ≤ 1 / 2 →
    ∃ out, integrateWrapperRs (fun op b _ _ _ => .ok ((opMatrix op)⁻¹ *ᵥ ((1 + η) • b))) split squareSys (fun _ => 1) 0 dt N
        (fun k => if k = "method" then some (.str "cn") else none) = .ok out ∧
      RsRunAccurate out 0 dt 1 N (fun s _ => (1 - s)⁻¹) (C * (dt ^ 2 + η)) := by
  obtain ⟨C, δ, hC, hδ, hm⟩ := C121_cn (Y := fun s _ => (1 - s)⁻¹) (t0 := 0) (T := 1 / 2) squareSys squareSys_exact
    (fun t ht => squareSys_smooth 3 t (by linarith [ht.2])) split
  refine ⟨C, δ, hC, hδ, fun dt η N h1 h2 h3 h4 h5 => ?_⟩
  have := hm dt η N _ (fun k => if k = "method" then some (.str "cn") else none)
    { method := "cn", expmvMethod := "pade", krylovDim := 100, iom := 2, tol := 1e-8, tolFdt := 1e-8, osteps := 1 } h1 h2 h3 h4
    (gmresTo_scaled η h3) (by linarith)
    (by simp [parseOpts, getValOrDefault, PyVal.asString, Bind.bind, Except.bind, Pure.pure, Except.pure]) rfl (by norm_num)
  simpa using this

end
end Ormatex.Props
