import Verif.Props.RsConverge
import Verif.Props.RsExp

/-!
C106: convergence of runs of the exponential integrators of the Rust crate on autonomous systems away from equilibria.
-/

namespace Ormatex.Props
open Filter Asymptotics Topology Matrix Ormatex.Spec Ormatex.Rs
open scoped Classical

section
variable {n : ℕ}

/-- **Specification.** An autonomous system whose Jacobian operator applies the derivative of the right-hand side. -/
structure ExactJacsRs (sys : Sys n) : Prop where
  auto : ∀ t t' y, sys.frhs t y = sys.frhs t' y
  jac : ∀ t y, ∃ J, IsMatrix (sys.fjac t y) J ∧ HasFDerivAt (sys.frhs t) (LinearMap.toContinuousLinearMap (Matrix.toLin' J)) y

theorem ExactJacsRs.deriv {sys : Sys n} (h : ExactJacsRs sys) (t : ℝ) (y : Vec n) :
    IsMatrix (sys.fjac t y) (jacM sys.frhs (t, y)) ∧ dtM sys.frhs (t, y) = 0 := by
  obtain ⟨J, hJ, hd⟩ := h.jac t y
  have e : (fun p : ℝ × Vec n => sys.frhs p.1 p.2) = sys.frhs t ∘ Prod.snd := by
    funext p; exact h.auto _ _ _
  have h1 : HasFDerivAt (fun p : ℝ × Vec n => sys.frhs p.1 p.2)
      ((LinearMap.toContinuousLinearMap (Matrix.toLin' J)).comp (ContinuousLinearMap.snd ℝ ℝ (Vec n))) (t, y) := by
    rw [e]
    exact HasFDerivAt.comp (t, y) hd hasFDerivAt_snd
  have h2 := h1.fderiv
  constructor
  · have : jacM sys.frhs (t, y) = J := by
      unfold jacM
      rw [h2]
      have : ((LinearMap.toContinuousLinearMap (Matrix.toLin' J)).comp (ContinuousLinearMap.snd ℝ ℝ (Vec n))).toLinearMap.comp
          (LinearMap.inr ℝ ℝ (Vec n)) = Matrix.toLin' J := by
        ext; simp
      rw [this, LinearMap.toMatrix'_toLin']
    rw [this]; exact hJ
  · unfold dtM
    rw [h2]; simp

theorem rsFdt_zero {sys : Sys n} (h : ExactJacsRs sys) (t : ℝ) (y : Vec n) : rsFdt sys t y = 0 := by
  funext i
  unfold rsFdt
  rw [h.auto (t + 1e-8) t y]
  simp

/-- near the graph of a solution that is never at an equilibrium the right-hand side does not vanish -/
theorem nonzero_tube {f : ℝ → Vec n → Vec n} {Y : ℝ → Vec n} {t0 T : ℝ} (hY : ∀ t ∈ Set.Icc t0 T, SmoothIVP f 2 t Y)
    (hne : ∀ t ∈ Set.Icc t0 T, f t (Y t) ≠ 0) : ∃ r : ℝ, 0 < r ∧ ∀ t ∈ Set.Icc t0 T, ∀ y, ‖y - Y t‖ < r → f t y ≠ 0 := by
  obtain ⟨L, ρ, hL, hρ, hb⟩ := tube_lipschitz (G := fun q : ℝ × ℝ × Vec n => q.1 • f q.2.1 q.2.2) (x := Y) (a := t0) (b := T)
    (fun t ht => by
      have h2 : ContDiffAt ℝ 2 (fun p : ℝ × Vec n => f p.1 p.2) (t, Y t) := (hY t ht).smooth
      exact contDiffAt_fst.smul (ContDiffAt.comp (g := fun p : ℝ × Vec n => f p.1 p.2) (0, t, Y t) h2 contDiffAt_snd))
    (fun t x => by simp) (fun t ht => (hY t ht).contDiff.continuousAt)
  rcases Set.eq_empty_or_nonempty (Set.Icc t0 T) with he | hn
  · exact ⟨1, one_pos, fun t ht => by rw [he] at ht; exact absurd ht (Set.notMem_empty t)⟩
  have hc : ContinuousOn (fun t => ‖f t (Y t)‖) (Set.Icc t0 T) := fun t ht => by
    have h1 : ContinuousAt (fun p : ℝ × Vec n => f p.1 p.2) (t, Y t) := (hY t ht).smooth.continuousAt
    have h2 : ContinuousAt (fun s => ((s, Y s) : ℝ × Vec n)) t := continuousAt_id.prodMk (hY t ht).contDiff.continuousAt
    exact (ContinuousAt.comp (g := fun p : ℝ × Vec n => f p.1 p.2) (f := fun s => ((s, Y s) : ℝ × Vec n)) h1 h2).norm.continuousWithinAt
  obtain ⟨s, hs, hmin⟩ := isCompact_Icc.exists_isMinOn hn hc
  have hpos : 0 < ‖f s (Y s)‖ := norm_pos_iff.2 (hne s hs)
  refine ⟨min ρ (‖f s (Y s)‖ / (L + 1)), by positivity, fun t ht y hy h0 => ?_⟩
  have h1 := hb t ht (ρ / 2) y (Y t) (by rw [abs_of_pos (by linarith)]; linarith) (hy.trans_le (min_le_left _ _)) (by simpa using hρ)
  simp only [h0, smul_zero, zero_sub, norm_neg, norm_smul, Real.norm_eq_abs, abs_of_pos (by linarith : 0 < ρ / 2)] at h1
  have h2 : ρ / 2 * ‖f t (Y t)‖ ≤ ρ / 2 * (L * ‖y - Y t‖) := by linarith
  have h3 := le_of_mul_le_mul_left h2 (by linarith : 0 < ρ / 2)
  have h4 : ‖f s (Y s)‖ ≤ ‖f t (Y t)‖ := hmin ht
  have h5 : ‖y - Y t‖ < ‖f s (Y s)‖ / (L + 1) := hy.trans_le (min_le_right _ _)
  rw [lt_div_iff₀ (by positivity)] at h5
  have h6 : 0 ≤ ‖y - Y t‖ := norm_nonneg _
  nlinarith

/-- the object `select_solver` builds for an exponential method -/
theorem epirk_built {t0 tol : ℝ} {y0 : Vec n} {m : String} {s1 s0 : Epirk n} (h1 : Epirk.new t0 y0 m = .ok s1)
    (h2 : s1.withOpt "tol_fdt" tol = .ok s0) : s0.method = m ∧ s0.t = t0 ∧ s0.yHist = [y0] ∧ s0.tHist = [t0] := by
  obtain ⟨o, rfl⟩ := epirk_new h1
  unfold Epirk.withOpt at h2
  rw [if_pos rfl] at h2
  cases h2
  exact ⟨rfl, rfl, rfl, rfl⟩

/-- one step of the second order methods -/
theorem rs_step2 {K : Kern n} (hK : ExactKern K) {sys : Sys n} (hj : ExactJacsRs sys) (s : Epirk n) {t : ℝ} {y : Vec n}
    (hs : AtRs s t y) (dt : ℝ) (hdt : dt ≠ 0) (hf : sys.frhs t y ≠ 0) :
    Epirk.stepOrder2 K sys s dt = .ok ⟨t + dt, dt, mapRB2 sys.frhs (dt, t, (y, 0)), none⟩ := by
  rw [rsOrder2_closed hK sys s hs _ (hj.deriv t y).1 dt hdt hf, rsFdt_zero hj, effFdt_zero]
  rfl

/-- **C106, second order exponential methods.**  Let `Y` solve the autonomous smooth system on a neighbourhood of `[t0, T]` and
never be at an equilibrium there.  With exact phi products and exact Jacobians there are `C` and `δ > 0` such that every run of
`epi2` or `exprb2` with `dt ≤ δ` that stays in `[t0, T]`, whatever the tolerance for the time derivative, succeeds and every
output state is within `C dt^2` of `Y` at its time.  (At equilibria the step fails, `C76_false`.) -/
theorem C106_exp2 {K : Kern n} (hK : ExactKern K) (sys : Sys n) (hj : ExactJacsRs sys) (m : String)
    (hm : m = "epi2" ∨ m = "exprb2") (Y : ℝ → Vec n) (t0 T : ℝ) (hY : ∀ t ∈ Set.Icc t0 T, SmoothIVP sys.frhs 4 t Y)
    (hne : ∀ t ∈ Set.Icc t0 T, sys.frhs t (Y t) ≠ 0) :
    ∃ C δ : ℝ, 0 ≤ C ∧ 0 < δ ∧ ∀ (dt tol : ℝ) (N osteps : ℕ) (s1 s0 : Epirk n), 0 < dt → dt ≤ δ → t0 + N * dt ≤ T → 0 < osteps →
      Epirk.new t0 (Y t0) m = .ok s1 → s1.withOpt "tol_fdt" tol = .ok s0 →
      ∃ out, outLoop (Epirk.integrator K sys) dt osteps N 0 s0 [] [] = .ok out ∧
        RsRunAccurate out t0 dt osteps N Y (C * dt ^ 2) := by
  obtain ⟨C, δ, hC, hδ, hmain⟩ := rb_converge (f := sys.frhs) (Y := Y) (t0 := t0) (T := T) (m := "exprb2") (p := 2)
    (by simp [rbOrders]) hY
  obtain ⟨r, hr, htube⟩ := nonzero_tube (fun t ht => (hY t ht).mono (by norm_num : 2 ≤ 4)) hne
  refine ⟨C, min (min 1 δ) (r / (2 * (C + 1))), hC, by positivity, ?_⟩
  intro dt tol N osteps s1 s0 h1 h2 h3 ho hn1 hn0
  have a1 : dt ≤ 1 := h2.trans ((min_le_left _ _).trans (min_le_left _ _))
  have a2 : dt ≤ δ := h2.trans ((min_le_left _ _).trans (min_le_right _ _))
  have a3 : dt * (2 * (C + 1)) ≤ r := by
    have : dt ≤ r / (2 * (C + 1)) := h2.trans (min_le_right _ _)
    rwa [le_div_iff₀ (by positivity)] at this
  have herr := hmain dt 0 0 N h1 a2 le_rfl hδ.le h3 (Or.inr (Or.inl fun t y => (hj.deriv t y).2))
  set u := iterSeq (fun t y => rbMap "exprb2" sys.frhs (dt, t, (y, rbEff "exprb2" 0 (dtM sys.frhs (t, y))))) t0 dt (Y t0) with hu
  have hu1 : ∀ k, u (k + 1) = mapRB2 sys.frhs (dt, t0 + k * dt, (u k, 0)) := by
    intro k
    have e1 : rbMap (n := n) "exprb2" = mapRB2 := by simp [rbMap]
    have e2 : ∀ t y, rbEff "exprb2" 0 (dtM sys.frhs (t, y)) = 0 := fun t y => by
      rw [(hj.deriv t y).2]; simp [rbEff, effFdt_zero]
    rw [hu]
    simp only [iterSeq, e1, e2]
  have hnz : ∀ k < N, sys.frhs (t0 + k * dt) (u k) ≠ 0 := by
    intro k hk
    have hk1 : (k : ℝ) ≤ N := by exact_mod_cast hk.le
    have hk2 := mul_le_mul_of_nonneg_right hk1 h1.le
    have hk3 : 0 ≤ (k : ℝ) * dt := by positivity
    refine htube _ ⟨by linarith, by linarith⟩ _ ((herr k hk.le).trans_lt ?_)
    have : dt ^ 2 ≤ dt := by nlinarith
    have h4 := mul_le_mul_of_nonneg_left this hC
    nlinarith
  obtain ⟨g1, g2, g3, g4⟩ := epirk_built hn1 hn0
  refine ⟨_, rs_follow (Epirk.integrator K sys) (fun o k => o.method = m ∧ AtRs o (t0 + k * dt) (u k)) u t0 dt N ?_ ?_ s0 ?_ osteps ho,
    rsAccurate_of (by simpa using herr)⟩
  · rintro o k ⟨-, e⟩
    exact ⟨e.yNew, e.time⟩
  · rintro o k hk ⟨e1, e2⟩
    refine ⟨StepRes.mk (t0 + k * dt + dt) dt (u (k + 1)) none, ?_, e1, ?_⟩
    · show Epirk.step K sys o dt = _
      unfold Epirk.step
      rw [e1, if_pos hm, rs_step2 hK hj o e2 dt h1.ne' (hnz k hk), hu1]
    · have e : t0 + ((k + 1 : ℕ) : ℝ) * dt = t0 + k * dt + dt := by push_cast; ring
      rw [e]
      exact ⟨rfl, rfl, rfl⟩
  · refine ⟨g1, ?_⟩
    refine ⟨by simp [g2], by rw [g4]; simp [rsGet], by rw [g3]; rfl⟩

/-- the two-step formula from a start with error `η` -/
theorem epi3_tail {f : ℝ → Vec n → Vec n} {Y : ℝ → Vec n} {t0 T : ℝ} (hY : ∀ t ∈ Set.Icc t0 T, SmoothIVP f 5 t Y) :
    ∃ C δ : ℝ, 0 ≤ C ∧ 0 < δ ∧ ∀ (dt η : ℝ) (N : ℕ) (u : ℕ → Vec n), 0 < dt → dt ≤ δ → 0 ≤ η → η ≤ δ →
      t0 + (N + 1 : ℕ) * dt ≤ T → u 0 = Y t0 → ‖u 1 - Y (t0 + dt)‖ ≤ η →
      (∀ k < N, u (k + 2) = mapEpi3 f (dt, t0 + dt + k * dt, (u (k + 1), u k))) →
      ∀ k ≤ N + 1, ‖u k - Y (t0 + k * dt)‖ ≤ C * (dt ^ 3 + η) := by
  have hsm : ∀ t ∈ Set.Icc t0 T, ContDiffAt ℝ (3 + 1 : ℕ) (mapEpi3 f) (0, t, (Y t, Y t)) := fun t ht =>
    mapEpi3_smooth (m := 4) (hY t ht).smooth
  have hYc : ∀ t ∈ Set.Icc t0 T, ContDiffAt ℝ (3 + 1 : ℕ) Y t := fun t ht => (hY t ht).contDiff.of_le (by norm_cast)
  obtain ⟨C0, δ0, hC0, hδ0, hdef⟩ := uniform_defect (S := mapEpi3 f) (f := f) (Y := Y) (β := fun t h => Y (t - h))
    (t0 := t0) (T := T) 3 5 (by norm_num) hY (fun t ht => by simpa using hsm t ht)
    (fun t ht => by
      refine ContDiffAt.comp (g := Y) (f := fun q : ℝ × ℝ => q.1 - q.2) (t, 0) ?_ (by fun_prop)
      simpa using hYc t ht)
    (fun t h => epi3_order' (h.mono (by norm_num)))
  obtain ⟨C, δ, hC, hδ, hmain⟩ := converge_abstract (S := mapEpi3 f) (Y := Y) (a := Y) (t0 := t0) (T := T)
    3 (by norm_num) (fun t ht => (hsm t ht).of_le (by norm_cast)) (fun t x => mapEpi3_zero x)
    (fun t ht => (hY t ht).contDiff.continuousAt) (fun t ht => (hY t ht).contDiff.continuousAt) 1 C0 1 zero_le_one hC0 one_pos
  have hcont : ContinuousOn Y (Set.Icc t0 T) := fun t ht => (hY t ht).contDiff.continuousAt.continuousWithinAt
  have huc := isCompact_Icc.uniformContinuousOn_of_continuous hcont
  obtain ⟨δ2, hδ2, huc⟩ := Metric.uniformContinuousOn_iff.1 huc δ hδ
  refine ⟨C, min δ (min (δ0 / 2) (δ2 / 2)), hC, by positivity, ?_⟩
  intro dt η N u hdt0 hdtδ hη0 hηδ hN hu0 hu1 hu
  have a2 : dt ≤ δ := hdtδ.trans (min_le_left _ _)
  have a4 : dt ≤ δ0 / 2 := hdtδ.trans ((min_le_right _ _).trans (min_le_left _ _))
  have a5 : dt ≤ δ2 / 2 := hdtδ.trans ((min_le_right _ _).trans (min_le_right _ _))
  have hNdt : 0 ≤ (N : ℝ) * dt := by positivity
  push_cast at hN
  have hin : ∀ k < N, t0 + dt + (k : ℝ) * dt ∈ Set.Icc t0 T ∧ t0 + (k : ℝ) * dt ∈ Set.Icc t0 T := by
    intro k hk
    have h1 : (k : ℝ) + 1 ≤ N := by exact_mod_cast hk
    have h2 := mul_le_mul_of_nonneg_right h1 hdt0.le
    have h3 : 0 ≤ (k : ℝ) * dt := by positivity
    refine ⟨⟨?_, ?_⟩, ⟨?_, ?_⟩⟩ <;> linarith
  have := hmain (t0 + dt) dt 0 η N (fun k => u (k + 1)) u (fun k => Y (t0 + k * dt))
    hdt0 a2 le_rfl hδ.le hη0 (hηδ.trans (min_le_left _ _)) (by linarith) (by linarith) hu1 hu
    (by
      intro k hk _
      rw [one_mul, add_zero]
      rcases k with _ | k
      · simp only [Nat.cast_zero, zero_mul, add_zero]
        rw [hu0, sub_self, norm_zero]
        exact (norm_nonneg (u (0 + 1) - Y (t0 + dt + ((0 : ℕ) : ℝ) * dt))).trans
          (le_maxErr (fun j : ℕ => ‖u (j + 1) - Y (t0 + dt + j * dt)‖) 0 0 le_rfl)
      · have h1 := le_maxErr (fun j : ℕ => ‖u (j + 1) - Y (t0 + dt + j * dt)‖) (k + 1) k (by omega)
        have e : t0 + ((k + 1 : ℕ) : ℝ) * dt = t0 + dt + k * dt := by push_cast; ring
        rw [e]
        exact h1)
    (by
      intro k hk
      have h1 := huc _ (hin k hk).2 _ (hin k hk).1 (by
        rw [Real.dist_eq]
        have : t0 + (k : ℝ) * dt - (t0 + dt + k * dt) = -dt := by ring
        rw [this, abs_neg, abs_of_pos hdt0]
        linarith)
      rw [dist_eq_norm] at h1
      exact h1.le)
    (by
      intro k hk
      have h1 := hdef _ (hin k hk).1 dt (by rw [abs_of_pos hdt0]; linarith)
      rw [abs_of_pos hdt0] at h1
      have e : t0 + dt + ((k + 1 : ℕ) : ℝ) * dt = t0 + dt + k * dt + dt := by push_cast; ring
      have e2 : t0 + dt + (k : ℝ) * dt - dt = t0 + k * dt := by ring
      rw [e2] at h1
      rw [e]; exact h1)
  intro k hk
  rcases k with _ | k
  · have : u 0 - Y (t0 + ((0 : ℕ) : ℝ) * dt) = 0 := by simp [hu0]
    rw [this, norm_zero]
    positivity
  · have h := this k (by omega)
    have e : t0 + ((k + 1 : ℕ) : ℝ) * dt = t0 + dt + k * dt := by push_cast; ring
    rw [e]
    rw [add_zero] at h
    exact h

/-- the values of a run of the Rust `epi3`: one second order step, then the two-step formula -/
noncomputable def rsEpi3Seq (f : ℝ → Vec n → Vec n) (t0 dt : ℝ) (y0 : Vec n) : ℕ → Vec n × Vec n
  | 0 => (y0, mapRB2 f (dt, t0, (y0, 0)))
  | k + 1 => ((rsEpi3Seq f t0 dt y0 k).2,
      mapEpi3 f (dt, t0 + dt + k * dt, ((rsEpi3Seq f t0 dt y0 k).2, (rsEpi3Seq f t0 dt y0 k).1)))

theorem rs_step3 {K : Kern n} (hK : ExactKern K) {sys : Sys n} (hj : ExactJacsRs sys) (s : Epirk n) {t tp : ℝ} {y yp : Vec n}
    (hs : AtRs s t y) (htp : rsGet s.tHist 1 = .ok tp) (hyp : rsGet s.yHist 1 = .ok yp) (dt : ℝ) :
    Epirk.stepOrder3 K sys s dt = .ok ⟨t + dt, dt, mapEpi3 sys.frhs (dt, t, (y, yp)), none⟩ := by
  rw [rsOrder3_closed hK sys s hs _ (hj.deriv t y).1 dt tp yp htp hyp]
  simp only [rsFdt_zero hj, ite_self, effFdt_zero, mapEpi3, (hj.deriv t y).2, smul_zero, sub_zero, hj.auto tp (t - dt) yp]

/-- **C106, the two-step method.**  Under the same conditions, but with only the initial state required not to be an equilibrium,
`epi3` converges with order three, although its first step is only of second order. -/
theorem C106_epi3 {K : Kern n} (hK : ExactKern K) (sys : Sys n) (hj : ExactJacsRs sys) (Y : ℝ → Vec n) (t0 T : ℝ)
    (hT : t0 ≤ T) (hY : ∀ t ∈ Set.Icc t0 T, SmoothIVP sys.frhs 5 t Y) (hne : sys.frhs t0 (Y t0) ≠ 0) :
    ∃ C δ : ℝ, 0 ≤ C ∧ 0 < δ ∧ ∀ (dt tol : ℝ) (N osteps : ℕ) (s1 s0 : Epirk n), 0 < dt → dt ≤ δ → t0 + N * dt ≤ T → 0 < osteps →
      Epirk.new t0 (Y t0) "epi3" = .ok s1 → s1.withOpt "tol_fdt" tol = .ok s0 →
      ∃ out, outLoop (Epirk.integrator K sys) dt osteps N 0 s0 [] [] = .ok out ∧
        RsRunAccurate out t0 dt osteps N Y (C * dt ^ 3) := by
  obtain ⟨C, δ, hC, hδ, hmain⟩ := epi3_tail hY
  have h0 : SmoothIVP sys.frhs 5 t0 Y := hY t0 ⟨le_rfl, hT⟩
  have hfirst : (fun h => mapRB2 sys.frhs (h, t0, (Y t0, 0)) - Y (t0 + h)) =O[𝓝 0] fun h => h ^ 3 := by
    have := (rbMap_facts (f := sys.frhs) (m := "exprb2") (p := 2) (by simp [rbOrders])).2.2.2 t0 Y (h0.mono (by norm_num))
    simp only [rbMap, String.reduceEq, if_false, (hj.deriv t0 (Y t0)).2] at this
    exact this
  obtain ⟨C1, hC1, hb⟩ := hfirst.exists_pos
  rw [IsBigOWith, Metric.eventually_nhds_iff] at hb
  obtain ⟨δ1, hδ1, hb⟩ := hb
  refine ⟨C * (1 + C1), min (min 1 δ) (min (δ1 / 2) (δ / (C1 + 1))), by positivity, by positivity, ?_⟩
  intro dt tol N osteps s1 s0 h1 h2 h3 ho hn1 hn0
  have a1 : dt ≤ 1 := h2.trans ((min_le_left _ _).trans (min_le_left _ _))
  have a2 : dt ≤ δ := h2.trans ((min_le_left _ _).trans (min_le_right _ _))
  have a3 : dt ≤ δ1 / 2 := h2.trans ((min_le_right _ _).trans (min_le_left _ _))
  have a4 : dt * (C1 + 1) ≤ δ := by
    have : dt ≤ δ / (C1 + 1) := h2.trans ((min_le_right _ _).trans (min_le_right _ _))
    rwa [le_div_iff₀ (by positivity)] at this
  have hd3 : dt ^ 3 ≤ dt := by
    calc dt ^ 3 ≤ dt ^ 1 := pow_le_pow_of_le_one h1.le a1 (by norm_num)
      _ = dt := pow_one dt
  have hd30 : 0 ≤ dt ^ 3 := by positivity
  set v := rsEpi3Seq sys.frhs t0 dt (Y t0) with hv
  set u : ℕ → Vec n := fun k => (v k).1 with hu
  have hv2 : ∀ k, (v k).2 = u (k + 1) := fun k => rfl
  have e1 : ‖u 1 - Y (t0 + dt)‖ ≤ C1 * dt ^ 3 := by
    have := hb (y := dt) (by rw [Real.dist_eq, sub_zero, abs_of_pos h1]; linarith)
    rw [Real.norm_of_nonneg hd30] at this
    exact this
  have herr : ∀ k ≤ N, ‖u k - Y (t0 + k * dt)‖ ≤ C * (1 + C1) * dt ^ 3 := by
    rcases N with _ | N
    · intro k hk
      rw [Nat.le_zero.1 hk]
      have : u 0 - Y (t0 + ((0 : ℕ) : ℝ) * dt) = 0 := by simp [hu, hv, rsEpi3Seq]
      rw [this, norm_zero]
      positivity
    · intro k hk
      have := hmain dt (C1 * dt ^ 3) N u h1 a2 (by positivity)
        (by
          have := mul_le_mul_of_nonneg_left hd3 hC1.le
          nlinarith) h3 rfl e1 (fun k _ => rfl) k hk
      calc _ ≤ _ := this
        _ = _ := by ring
  obtain ⟨g1, g2, g3, g4⟩ := epirk_built hn1 hn0
  refine ⟨_, rs_follow (Epirk.integrator K sys) (fun o k => o.method = "epi3" ∧ AtRs o (t0 + k * dt) (u k) ∧
    o.yHist.length = k + 1 ∧ (0 < k → rsGet o.yHist 1 = .ok (u (k - 1)) ∧ ∃ tp, rsGet o.tHist 1 = .ok tp)) u t0 dt N ?_ ?_ s0 ?_ osteps ho,
    rsAccurate_of herr⟩
  · rintro o k ⟨-, e, -⟩
    exact ⟨e.yNew, e.time⟩
  · rintro o k hk ⟨i1, i2, i3, i4⟩
    refine ⟨StepRes.mk (t0 + k * dt + dt) dt (u (k + 1)) none, ?_, i1, ?_, ?_, fun _ => ⟨?_, t0 + k * dt, ?_⟩⟩
    · show Epirk.step K sys o dt = _
      unfold Epirk.step
      rw [i1, if_neg (by decide), if_pos rfl]
      rcases k with _ | k
      · rw [if_neg (by omega), rs_step2 hK hj o i2 dt h1.ne' (by
          have : u 0 = Y t0 := rfl
          simpa [this] using hne)]
        simp [hu, hv, rsEpi3Seq]
      · obtain ⟨j1, tp, j2⟩ := i4 (by omega)
        rw [if_pos (by omega), rs_step3 hK hj o i2 j2 j1 dt]
        congr 2
        show _ = mapEpi3 sys.frhs (dt, t0 + dt + k * dt, (u (k + 1), u k))
        rw [show t0 + ((k + 1 : ℕ) : ℝ) * dt = t0 + dt + k * dt by push_cast; ring]
        rfl
    · have e : t0 + ((k + 1 : ℕ) : ℝ) * dt = t0 + k * dt + dt := by push_cast; ring
      rw [e]
      exact ⟨rfl, rfl, rfl⟩
    · show (_ :: o.yHist).length = _
      rw [List.length_cons, i3]
    · exact i2.yNew
    · exact i2.tNew
  · refine ⟨g1, ⟨by simp [g2], by rw [g4]; simp [rsGet], by rw [g3]; rfl⟩, by rw [g3]; rfl, fun h => absurd h (by omega)⟩

/-! ### non-vacuity -/

theorem squareSys_exact : ExactJacsRs squareSys := by
  refine ⟨fun _ _ _ => rfl, fun t y => ⟨Matrix.diagonal fun i => 2 * y i, ?_, ?_⟩⟩
  · intro v
    funext i
    simp [squareSys, mulVec_diagonal]
  · rw [hasFDerivAt_pi']
    intro i
    have h1 : HasFDerivAt (fun y : Vec 1 => y i) (ContinuousLinearMap.proj (R := ℝ) (φ := fun _ : Fin 1 => ℝ) i) y :=
      (ContinuousLinearMap.proj (R := ℝ) (φ := fun _ : Fin 1 => ℝ) i).hasFDerivAt
    have h2 := h1.pow 2
    refine h2.congr_fderiv ?_
    ext v
    simp [mulVec_diagonal]

/-- on `y' = y^2`, `y(0) = 1` the two-step method has order three on `[0, 1/2]` -/
example : ∃ C δ : ℝ, 0 ≤ C ∧ 0 < δ ∧ ∀ (dt : ℝ) (N : ℕ), 0 < dt → dt ≤ δ → N * dt ≤ 1 / 2 →
    ∃ s0 out, Epirk.new 0 (fun _ => 1) "epi3" = .ok s0 ∧
      outLoop (Epirk.integrator (exactKern 1) squareSys) dt 2 N 0 s0 [] [] = .ok out ∧
      RsRunAccurate out 0 dt 2 N (fun s _ => (1 - s)⁻¹) (C * dt ^ 3) := by
  obtain ⟨C, δ, hC, hδ, h⟩ := C106_epi3 (exactKern_exact 1) squareSys squareSys_exact (fun s _ => (1 - s)⁻¹) 0 (1 / 2) (by norm_num)
    (fun t ht => squareSys_smooth 5 t (by linarith [ht.2])) (fun h => by simpa [squareSys] using congrFun h 0)
  refine ⟨C, δ, hC, hδ, fun dt N h1 h2 h3 => ?_⟩
  obtain ⟨out, h4, h5⟩ := h dt (-1) N 2 ⟨3, "epi3", 0, -1, [fun _ => 1], [0]⟩ ⟨3, "epi3", 0, -1, [fun _ => 1], [0]⟩ h1 h2 (by linarith)
    (by norm_num) (by simp [Epirk.new, Bind.bind, Except.bind, Pure.pure, Except.pure]) rfl
  exact ⟨_, out, by simp [Epirk.new, Bind.bind, Except.bind, Pure.pure, Except.pure], h4, h5⟩

end

end Ormatex.Props
