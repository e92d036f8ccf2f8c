import Verif.Props.LejaConvPair
import Verif.Props.ApproxEpi3

/-!
C116 for runs of the conjugate-pair methods `epi2_leja_im` and `epi3_leja_im`.
-/

namespace Ormatex.Props
open Filter Asymptotics Topology Matrix Ormatex.Spec
open scoped Classical
open scoped Matrix.Norms.Operator

section
variable {n : ℕ} {P : Type} [EmptyCollection P]
set_option linter.unusedSectionVars false

/-- **C116, `epi2_leja_im`.**  Every run that returns is accurate to `C (dt^2 + (tol + θ)/dt)`. -/
theorem C116_converge_im2 (sys : OdeSys n P) (hj : ExactJacs sys) (Y : ℝ → Vec n) (t0 T : ℝ)
    (hY : ∀ t ∈ Set.Icc t0 T, SmoothIVP (sys.frhs none) 4 t Y) (A : ℝ) :
    ∃ C δ ρ : ℝ, 0 ≤ C ∧ 0 < δ ∧ ∀ (o : LejaOpts) (θ dt : ℝ) (nsteps : ℕ) (s : ExpLeja n), LejaAccurateIm o A θ ρ → 0 < dt → dt ≤ δ →
      o.tol + θ ≤ δ * dt → t0 + nsteps * dt ≤ T → ExpLeja.new t0 (Y t0) "epi2_leja_im" = .ok s →
      ∀ {Q W : Type} (before : Option (W → ℝ → Vec n → P × W)) (after : Option (W → ℝ → Vec n → Q × W)) (w : W) l,
        integrateOrmatex (lejaStepper o sys) s (Y t0) t0 dt nsteps before after w = .ok l →
        RunAccurate l t0 dt nsteps Y (C * (dt ^ 2 + (o.tol + θ) / dt)) := by
  obtain ⟨C, δ, B, hC, hδ, hδ1, hB, hmain⟩ := leja2_run sys hj Y t0 T hY
  set R := max (1 + 4 * B) (A * (1 + Real.sqrt (n + 2 : ℕ) * (1 + 4 * B))) with hR
  have hR0 : 0 ≤ R := le_trans (by positivity) (le_max_left _ _)
  have hH := stepConst_nonneg n hR0
  set H := stepConst n R with hHdef
  refine ⟨C * (H + 1), δ / (H + 1), R, by positivity, by positivity, ?_⟩
  intro o θ dt N s ho hdt0 hdtδ hsmall hN hnew Q W before after w l hl
  have hd : δ / (H + 1) ≤ δ := div_le_self hδ.le (by linarith)
  have hdt1 : dt ≤ δ := hdtδ.trans hd
  have hs0 : 0 ≤ o.tol + θ := add_nonneg ho.tol_pos.le ho.theta_nonneg
  have hη : H * (o.tol + θ) ≤ δ * dt := by
    have h1 : (H + 1) * (o.tol + θ) ≤ (H + 1) * (δ / (H + 1) * dt) := mul_le_mul_of_nonneg_left hsmall (by linarith)
    have h2 : (H + 1) * (δ / (H + 1) * dt) = δ * dt := by field_simp
    linarith
  have hacc := hmain o "epi2_leja_im" dt (H * (o.tol + θ)) N s hdt0 hdt1 (mul_nonneg hH hs0) hη hN hnew
    (fun s t y kw J r s' h1 h2 h3 h4 h5 h6 h7 h8 => C116_step_im2 o sys s h1 h2 (Or.inl h3) dt hdt0.le (hdt1.trans hδ1) kw J h4 r s' h8
      h5 h6 h7 ho le_rfl (le_max_left _ _) (le_max_right _ _)) before after w l hl
  refine ⟨hacc.1, hacc.2.1, fun i y hi => (hacc.2.2 i y hi).trans ?_⟩
  rw [mul_assoc]
  refine mul_le_mul_of_nonneg_left ?_ hC
  have h1 : 0 ≤ dt ^ 2 := by positivity
  have h2 : 0 ≤ (o.tol + θ) / dt := by positivity
  have h3 := mul_nonneg hH h1
  rw [mul_div_assoc]
  linarith

/-- **C116, `epi2_leja_im`, complete.**  With a given interval `leja_a = a < 0` and enough terms, padded zeros included, the run returns. -/
theorem C116_complete_im2 (sys : OdeSys n P) (hj : ExactJacs sys) (Y : ℝ → Vec n) (t0 T : ℝ)
    (hY : ∀ t ∈ Set.Icc t0 T, SmoothIVP (sys.frhs none) 4 t Y) (a : ℝ) (ha0 : a < 0) :
    ∃ C δ ρ : ℝ, 0 ≤ C ∧ 0 < δ ∧ ∀ (o : LejaOpts) (θ dt : ℝ) (nsteps : ℕ) (s : ExpLeja n), LejaAccurateIm o |a| θ ρ → o.lejaA = some a →
      2 ≤ o.nLeja → 2000 < o.tol * 2 ^ (o.nZeros + o.nLeja - 2) → 0 < dt → dt ≤ δ →
      o.tol + θ ≤ δ * dt → t0 + nsteps * dt ≤ T → ExpLeja.new t0 (Y t0) "epi2_leja_im" = .ok s →
      ∀ {Q W : Type} (before : Option (W → ℝ → Vec n → P × W)) (after : Option (W → ℝ → Vec n → Q × W)) (w : W),
        ∃ l, integrateOrmatex (lejaStepper o sys) s (Y t0) t0 dt nsteps before after w = .ok l ∧
        RunAccurate l t0 dt nsteps Y (C * (dt ^ 2 + (o.tol + θ) / dt)) := by
  obtain ⟨C, δ, B, hC, hδ, hδ1, hB, hmain⟩ := leja2_run_total sys hj Y t0 T hY
  set R := max (1 + 4 * B) (|a| * (1 + Real.sqrt (n + 2 : ℕ) * (1 + 4 * B))) with hR
  have hR1 : 1 + 4 * B ≤ R := le_max_left _ _
  have hR0 : 0 ≤ R := le_trans (by positivity) hR1
  have hH := stepConst_nonneg n hR0
  set H := stepConst n R with hHdef
  set G := 4 * (|a| + Real.sqrt n * (4 * B)) + 1 with hG
  have hG1 : 1 ≤ G := by
    have : 0 ≤ 4 * (|a| + Real.sqrt n * (4 * B)) := by positivity
    linarith
  refine ⟨C * (H + 1), min (δ / (H + 1)) (1 / G), R, by positivity, by positivity, ?_⟩
  intro o θ dt N s ho ha hn2 hterms hdt0 hdtδ hsmall hN hnew Q W before after w
  have hd : δ / (H + 1) ≤ δ := div_le_self hδ.le (by linarith)
  have hdt1 : dt ≤ δ := hdtδ.trans ((min_le_left _ _).trans hd)
  have hdtG : dt * G ≤ 1 := by
    have := hdtδ.trans (min_le_right _ _)
    rwa [le_div_iff₀ (by positivity)] at this
  have hs0 : 0 ≤ o.tol + θ := add_nonneg ho.tol_pos.le ho.theta_nonneg
  have hη : H * (o.tol + θ) ≤ δ * dt := by
    have h0 : o.tol + θ ≤ δ / (H + 1) * dt := hsmall.trans (mul_le_mul_of_nonneg_right (min_le_left _ _) hdt0.le)
    have h1 : (H + 1) * (o.tol + θ) ≤ (H + 1) * (δ / (H + 1) * dt) := mul_le_mul_of_nonneg_left h0 (by linarith)
    have h2 : (H + 1) * (δ / (H + 1) * dt) = δ * dt := by field_simp
    linarith
  have hq : 0 ≤ dt * (Real.sqrt n * (4 * B)) := by positivity
  have hq2 : 0 ≤ dt * |a| := by positivity
  have hGe : dt * G = 4 * (dt * |a|) + 4 * (dt * (Real.sqrt n * (4 * B))) + dt := by rw [hG]; ring
  obtain ⟨l, hl, hacc⟩ := hmain o "epi2_leja_im" dt (H * (o.tol + θ)) N s hdt0 hdt1 (mul_nonneg hH hs0) hη hN hnew
    (by
      intro s t y kw J h1 h2 h3 h4 h5 h6 h7
      obtain ⟨r, s', g1, g2⟩ := C116_returns_im o sys s h1 h2 dt hdt0 (hdt1.trans hδ1) (kw.getD ∅) false 0 0 (fun h => by cases h) J h4 h5 h6
        h7 (fun h => by cases h) ho ha ha0 (by linarith) (le_max_right _ _) (by linarith) hn2 hterms
      have g1' : ExpLeja.step o sys s dt kw = .ok (r, s') := by
        unfold ExpLeja.step
        simp only
        rw [h3, if_neg (by decide), if_pos rfl]
        exact g1
      obtain ⟨g3, g4⟩ := C116_step_im2 o sys s h1 (by rw [h2]; norm_num) (Or.inl h3) dt hdt0.le (hdt1.trans hδ1) kw J h4 r s' g1' h5 h6 h7 ho
        le_rfl hR1 (le_max_right _ _)
      exact ⟨r, s', g1', g2, g3, g4⟩) before after w
  refine ⟨l, hl, hacc.1, hacc.2.1, fun i y hi => (hacc.2.2 i y hi).trans ?_⟩
  rw [mul_assoc]
  refine mul_le_mul_of_nonneg_left ?_ hC
  have h1 : 0 ≤ dt ^ 2 := by positivity
  have h2 : 0 ≤ (o.tol + θ) / dt := by positivity
  have h3 := mul_nonneg hH h1
  rw [mul_div_assoc]
  linarith

/-! ### the two-step method -/

/-- the two-step formula with an error `ε` per unit time from a start with error `η` -/
theorem epi3_tail_err {f : ℝ → Vec n → Vec n} {Y : ℝ → Vec n} {t0 T : ℝ} (hY : ∀ t ∈ Set.Icc t0 T, SmoothIVP f 5 t Y) :
    ∃ C δ : ℝ, 0 ≤ C ∧ 0 < δ ∧ ∀ (dt ε η : ℝ) (N : ℕ) (u d : ℕ → Vec n), 0 < dt → dt ≤ δ → 0 ≤ ε → ε ≤ δ → 0 ≤ η → η ≤ δ →
      t0 + (N + 1 : ℕ) * dt ≤ T → u 0 = Y t0 → ‖u 1 - Y (t0 + dt)‖ ≤ η → (∀ k < N, ‖d k‖ ≤ ε) →
      (∀ k < N, u (k + 2) = mapEpi3E f (dt, t0 + dt + k * dt, (u (k + 1), (u k, d k)))) →
      ∀ k ≤ N + 1, ‖u k - Y (t0 + k * dt)‖ ≤ C * (dt ^ 3 + ε + η) := by
  have hsm : ∀ t ∈ Set.Icc t0 T, ContDiffAt ℝ (3 + 1 : ℕ) (mapEpi3E f) (0, t, (Y t, (Y t, 0))) := fun t ht =>
    mapEpi3E_smooth (m := 4) (hY t ht).smooth
  have hYc : ∀ t ∈ Set.Icc t0 T, ContDiffAt ℝ (3 + 1 : ℕ) Y t := fun t ht => (hY t ht).contDiff.of_le (by norm_cast)
  obtain ⟨C0, δ0, hC0, hδ0, hdef⟩ := uniform_defect (S := mapEpi3E f) (f := f) (Y := Y) (β := fun t h => ((Y (t - h), 0) : Vec n × Vec n))
    (t0 := t0) (T := T) 3 5 (by norm_num) hY (fun t ht => by simpa using hsm t ht)
    (fun t ht => by
      refine ContDiffAt.prodMk ?_ contDiffAt_const
      refine ContDiffAt.comp (g := Y) (f := fun q : ℝ × ℝ => q.1 - q.2) (t, 0) ?_ (by fun_prop)
      simpa using hYc t ht)
    (fun t h => by
      have := epi3_order' (h.mono (by norm_num))
      simpa [mapEpi3E] using this)
  obtain ⟨C, δ, hC, hδ, hmain⟩ := converge_abstract (S := mapEpi3E f) (Y := Y) (a := fun t => ((Y t, 0) : Vec n × Vec n)) (t0 := t0) (T := T)
    3 (by norm_num) (fun t ht => (hsm t ht).of_le (by norm_cast)) (fun t x => mapEpi3E_zero x)
    (fun t ht => (hY t ht).contDiff.continuousAt) (fun t ht => (hY t ht).contDiff.continuousAt.prodMk continuousAt_const)
    1 C0 1 zero_le_one hC0 one_pos
  have hcont : ContinuousOn Y (Set.Icc t0 T) := fun t ht => (hY t ht).contDiff.continuousAt.continuousWithinAt
  have huc := isCompact_Icc.uniformContinuousOn_of_continuous hcont
  obtain ⟨δ2, hδ2, huc⟩ := Metric.uniformContinuousOn_iff.1 huc δ hδ
  refine ⟨C, min δ (min (δ0 / 2) (δ2 / 2)), hC, by positivity, ?_⟩
  intro dt ε η N u d hdt0 hdtδ hε0 hεδ hη0 hηδ hN hu0 hu1 hd hu
  have a2 : dt ≤ δ := hdtδ.trans (min_le_left _ _)
  have a4 : dt ≤ δ0 / 2 := hdtδ.trans ((min_le_right _ _).trans (min_le_left _ _))
  have a5 : dt ≤ δ2 / 2 := hdtδ.trans ((min_le_right _ _).trans (min_le_right _ _))
  have hNdt : 0 ≤ (N : ℝ) * dt := by positivity
  push_cast at hN
  have hin : ∀ k < N, t0 + dt + (k : ℝ) * dt ∈ Set.Icc t0 T ∧ t0 + (k : ℝ) * dt ∈ Set.Icc t0 T := by
    intro k hk
    have h1 : (k : ℝ) + 1 ≤ N := by exact_mod_cast hk
    have h2 := mul_le_mul_of_nonneg_right h1 hdt0.le
    have h3 : 0 ≤ (k : ℝ) * dt := by positivity
    refine ⟨⟨?_, ?_⟩, ⟨?_, ?_⟩⟩ <;> linarith
  have := hmain (t0 + dt) dt ε η N (fun k => u (k + 1)) (fun k => (u k, d k)) (fun k => (Y (t0 + k * dt), 0))
    hdt0 a2 hε0 (hεδ.trans (min_le_left _ _)) hη0 (hηδ.trans (min_le_left _ _)) (by linarith) (by linarith) hu1 hu
    (by
      intro k hk _
      rw [one_mul, Prod.mk_sub_mk, Prod.norm_mk, sub_zero]
      have hm0 : 0 ≤ maxErr (fun j : ℕ => ‖u (j + 1) - Y (t0 + dt + j * dt)‖) k :=
        (norm_nonneg _).trans (le_maxErr (fun j : ℕ => ‖u (j + 1) - Y (t0 + dt + j * dt)‖) k 0 (by omega))
      refine max_le ?_ ((hd k hk).trans (by linarith))
      rcases k with _ | k
      · have e : u 0 - Y (t0 + ((0 : ℕ) : ℝ) * dt) = 0 := by simp [hu0]
        rw [e, norm_zero]
        linarith
      · have h1 := le_maxErr (fun j : ℕ => ‖u (j + 1) - Y (t0 + dt + j * dt)‖) (k + 1) k (by omega)
        have e : t0 + ((k + 1 : ℕ) : ℝ) * dt = t0 + dt + k * dt := by push_cast; ring
        rw [e]
        linarith)
    (by
      intro k hk
      have h1 := huc _ (hin k hk).2 _ (hin k hk).1 (by
        rw [Real.dist_eq]
        have : t0 + (k : ℝ) * dt - (t0 + dt + k * dt) = -dt := by ring
        rw [this, abs_neg, abs_of_pos hdt0]
        linarith)
      rw [dist_eq_norm] at h1
      rw [Prod.mk_sub_mk, Prod.norm_mk, sub_self, norm_zero]
      exact max_le h1.le hδ.le)
    (by
      intro k hk
      have h1 := hdef _ (hin k hk).1 dt (by rw [abs_of_pos hdt0]; linarith)
      rw [abs_of_pos hdt0] at h1
      have e : t0 + dt + ((k + 1 : ℕ) : ℝ) * dt = t0 + dt + k * dt + dt := by push_cast; ring
      have e2 : t0 + dt + (k : ℝ) * dt - dt = t0 + k * dt := by ring
      rw [e2] at h1
      rw [e]; exact h1)
  intro k hk
  rcases k with _ | k
  · have e : u 0 - Y (t0 + ((0 : ℕ) : ℝ) * dt) = 0 := by simp [hu0]
    rw [e, norm_zero]
    positivity
  · have h := this k (by omega)
    have e : t0 + ((k + 1 : ℕ) : ℝ) * dt = t0 + dt + k * dt := by push_cast; ring
    rw [e]
    exact h

/-- what is known of step `k` of `epi3_leja_im`: a second order start, then the two-step formula, both up to `η` -/
def EpiRel (f : ℝ → Vec n → Vec n) (t0 dt η : ℝ) (k : ℕ) (u : ℕ → Vec n) : Prop :=
  ‖u (k + 1) - (if k = 0 then rosEuler (jacM f (t0, u 0)) (u 0) (f t0 (u 0)) (dtM f (t0, u 0)) dt 1
    else mapEpi3 f (dt, t0 + k * dt, (u k, u (k - 1))))‖ ≤ η

/-- along such a sequence the error is `C (dt^3 + η/dt)` and the data of the next step are bounded -/
theorem epi3_core {f : ℝ → Vec n → Vec n} {Y : ℝ → Vec n} {t0 T : ℝ} (hY : ∀ t ∈ Set.Icc t0 T, SmoothIVP f 5 t Y) :
    ∃ C δ B : ℝ, 0 ≤ C ∧ 0 < δ ∧ δ ≤ 1 ∧ 0 ≤ B ∧ ∀ (dt η : ℝ) (N : ℕ), 0 < dt → dt ≤ δ → 0 ≤ η → η ≤ δ * dt → t0 + N * dt ≤ T →
      ∀ k ≤ N, ∀ u : ℕ → Vec n, u 0 = Y t0 → (∀ j < k, EpiRel f t0 dt η j u) →
        (∀ j ≤ k, ‖u j - Y (t0 + j * dt)‖ ≤ C * (dt ^ 3 + η / dt)) ∧
        (‖f (t0 + k * dt) (u k)‖ ≤ B ∧ ‖dtM f (t0 + k * dt, u k)‖ ≤ B ∧ ‖jacM f (t0 + k * dt, u k)‖ ≤ B ∧
          (0 < k → ‖remP f (dt, t0 + k * dt, (u k, u (k - 1)))‖ ≤ B)) := by
  by_cases hT : t0 ≤ T
  swap
  · refine ⟨0, 1, 0, le_rfl, one_pos, le_rfl, le_rfl, fun dt η N hdt _ _ _ hN => ?_⟩
    have : 0 ≤ (N : ℝ) * dt := by positivity
    exact absurd (by linarith) hT
  obtain ⟨C1, δ1, hC1, hδ1, htail⟩ := epi3_tail_err hY
  have h0 : SmoothIVP f 5 t0 Y := hY t0 ⟨le_rfl, hT⟩
  have hfirst : (fun h => rosEuler (jacM f (t0, Y t0)) (Y t0) (f t0 (Y t0)) (dtM f (t0, Y t0)) h 1 - Y (t0 + h)) =O[𝓝 0] fun h => h ^ 3 := by
    have := (rbMap_facts (f := f) (m := "exprb2") (p := 2) (by simp [rbOrders])).2.2.2 t0 Y (h0.mono (by norm_num))
    simp only [rbMap, String.reduceEq, if_false] at this
    exact this
  obtain ⟨D, hD, hb⟩ := hfirst.exists_pos
  rw [IsBigOWith, Metric.eventually_nhds_iff] at hb
  obtain ⟨δ2, hδ2, hb⟩ := hb
  obtain ⟨B0, ρ, hB0, hρ, htube⟩ := rb_tube (f := f) (Y := Y) (t0 := t0) (T := T) fun t ht => (hY t ht).mono (by omega)
  have hcont : ContinuousOn Y (Set.Icc t0 T) := fun t ht => (hY t ht).contDiff.continuousAt.continuousWithinAt
  obtain ⟨BY, hBY⟩ := isCompact_Icc.exists_bound_of_continuousOn hcont
  have hBY0 : 0 ≤ BY := (norm_nonneg _).trans (hBY t0 ⟨le_rfl, hT⟩)
  set C := C1 * (D + 2) with hCd
  have hC : 0 ≤ C := by positivity
  set B := B0 + B0 + B0 * (2 * ρ + 2 * BY) + B0 with hBd
  have hBB : B0 ≤ B := by
    have : 0 ≤ B0 * (2 * ρ + 2 * BY) := by positivity
    linarith
  set δ := min (min 1 δ1) (min (δ2 / 2) (min (δ1 / (D + 1)) (ρ / (4 * (C + 1))))) with hδd
  have hδ0 : 0 < δ := by positivity
  refine ⟨C, δ, B, hC, hδ0, (min_le_left _ _).trans (min_le_left _ _), hB0.trans hBB, ?_⟩
  intro dt η N hdt0 hdtδ hη hηδ hN k hk u hu0 hrel
  have a1 : δ ≤ 1 := (min_le_left _ _).trans (min_le_left _ _)
  have a2 : δ ≤ δ1 := (min_le_left _ _).trans (min_le_right _ _)
  have a3 : δ ≤ δ2 / 2 := (min_le_right _ _).trans (min_le_left _ _)
  have a4 : δ * (D + 1) ≤ δ1 := by
    have : δ ≤ δ1 / (D + 1) := (min_le_right _ _).trans ((min_le_right _ _).trans (min_le_left _ _))
    rwa [le_div_iff₀ (by positivity)] at this
  have a5 : δ * (4 * (C + 1)) ≤ ρ := by
    have : δ ≤ ρ / (4 * (C + 1)) := (min_le_right _ _).trans ((min_le_right _ _).trans (min_le_right _ _))
    rwa [le_div_iff₀ (by positivity)] at this
  have hdt1 : dt ≤ 1 := hdtδ.trans a1
  have hd3 : dt ^ 3 ≤ dt := pow_le_of_le_one hdt0.le hdt1 (by norm_num)
  have hd30 : 0 ≤ dt ^ 3 := by positivity
  have hε : η / dt ≤ δ := by rwa [div_le_iff₀ hdt0]
  have hε0 : 0 ≤ η / dt := by positivity
  have hηε : η ≤ η / dt := by
    rw [le_div_iff₀ hdt0]
    exact mul_le_of_le_one_right hη hdt1
  have hkT : ∀ j ≤ k, t0 + (j : ℝ) * dt ∈ Set.Icc t0 T := by
    intro j hj
    have h1 : (j : ℝ) ≤ N := by exact_mod_cast hj.trans hk
    have h2 := mul_le_mul_of_nonneg_right h1 hdt0.le
    have h3 : 0 ≤ (j : ℝ) * dt := by positivity
    constructor <;> linarith
  have herr : ∀ j ≤ k, ‖u j - Y (t0 + j * dt)‖ ≤ C * (dt ^ 3 + η / dt) := by
    rcases k with _ | k
    · intro j hj
      rw [Nat.le_zero.1 hj]
      have e : u 0 - Y (t0 + ((0 : ℕ) : ℝ) * dt) = 0 := by simp [hu0]
      rw [e, norm_zero]
      positivity
    · have hst := hrel 0 (by omega)
      unfold EpiRel at hst
      rw [if_pos rfl, zero_add, hu0] at hst
      have hq := hb (y := dt) (by rw [Real.dist_eq, sub_zero, abs_of_pos hdt0]; linarith)
      rw [Real.norm_of_nonneg hd30] at hq
      have e1 : ‖u 1 - Y (t0 + dt)‖ ≤ D * dt ^ 3 + η := by
        calc ‖u 1 - Y (t0 + dt)‖ = ‖(u 1 - rosEuler (jacM f (t0, Y t0)) (Y t0) (f t0 (Y t0)) (dtM f (t0, Y t0)) dt 1)
              + (rosEuler (jacM f (t0, Y t0)) (Y t0) (f t0 (Y t0)) (dtM f (t0, Y t0)) dt 1 - Y (t0 + dt))‖ := by congr 1; abel
          _ ≤ _ := norm_add_le _ _
          _ ≤ _ := by linarith
      have e2 : D * dt ^ 3 + η ≤ δ1 := by
        have h1 := mul_le_mul_of_nonneg_left (hd3.trans hdtδ) hD.le
        linarith
      have hkN : t0 + ((k + 1 : ℕ) : ℝ) * dt ≤ T := (hkT (k + 1) le_rfl).2
      have := htail dt (η / dt) (D * dt ^ 3 + η) k u
        (fun j => dt⁻¹ • (u (j + 2) - mapEpi3 f (dt, t0 + dt + j * dt, (u (j + 1), u j)))) hdt0 (hdtδ.trans a2) hε0 (hε.trans a2)
        (by positivity) e2 hkN hu0 e1
        (by
          intro j hj
          have h1 := hrel (j + 1) (by omega)
          unfold EpiRel at h1
          rw [if_neg (by omega), Nat.add_sub_cancel] at h1
          have e : t0 + ((j + 1 : ℕ) : ℝ) * dt = t0 + dt + j * dt := by push_cast; ring
          rw [e] at h1
          rw [norm_smul, norm_inv, Real.norm_of_nonneg hdt0.le, div_eq_inv_mul]
          exact mul_le_mul_of_nonneg_left h1 (by positivity))
        (by
          intro j hj
          unfold mapEpi3E
          simp only
          rw [smul_inv_smul₀ hdt0.ne']
          abel)
      intro j hj
      refine (this j hj).trans ?_
      rw [hCd, mul_assoc]
      refine mul_le_mul_of_nonneg_left ?_ hC1
      have h1 : 0 ≤ D * (η / dt) := by positivity
      linarith
  have hsmall : C * (dt ^ 3 + η / dt) < ρ := by
    have h1 : dt ^ 3 + η / dt ≤ 2 * δ := by linarith
    have h2 := mul_le_mul_of_nonneg_left h1 hC
    linarith
  have hnear : ∀ j ≤ k, ‖u j - Y (t0 + j * dt)‖ < ρ := fun j hj => (herr j hj).trans_lt hsmall
  have hbd : ∀ j ≤ k, ‖f (t0 + j * dt) (u j)‖ ≤ B0 ∧ ‖dtM f (t0 + j * dt, u j)‖ ≤ B0 ∧ ‖jacM f (t0 + j * dt, u j)‖ ≤ B0 := by
    intro j hj
    obtain ⟨b1, b2, b3, -, -⟩ := htube _ (hkT j hj) (u j) (dtM f (t0 + j * dt, Y (t0 + j * dt))) 0 0 (hnear j hj) (by simpa using hρ)
      (by simpa using hρ) (by simpa using hρ)
    exact ⟨b1, b2, b3⟩
  refine ⟨herr, (hbd k le_rfl).1.trans hBB, (hbd k le_rfl).2.1.trans hBB, (hbd k le_rfl).2.2.trans hBB, ?_⟩
  intro hk0
  obtain ⟨i, rfl⟩ : ∃ i, k = i + 1 := ⟨k - 1, by omega⟩
  rw [Nat.add_sub_cancel]
  have et : t0 + ((i + 1 : ℕ) : ℝ) * dt - dt = t0 + i * dt := by push_cast; ring
  unfold remP
  simp only
  have et2 : t0 + ((i + 1 : ℕ) : ℝ) * dt - dt - (t0 + ((i + 1 : ℕ) : ℝ) * dt) = -dt := by ring
  rw [et2, et]
  obtain ⟨p1, -, -⟩ := hbd i (by omega)
  obtain ⟨q1, q2, q3⟩ := hbd (i + 1) le_rfl
  have hdiff : ‖u i - u (i + 1)‖ ≤ 2 * ρ + 2 * BY := by
    have m1 := hnear i (by omega)
    have m2 := hnear (i + 1) le_rfl
    have m3 := hBY _ (hkT i (by omega))
    have m4 := hBY _ (hkT (i + 1) le_rfl)
    calc ‖u i - u (i + 1)‖ = ‖(u i - Y (t0 + i * dt)) - (u (i + 1) - Y (t0 + ((i + 1 : ℕ) : ℝ) * dt))
          + (Y (t0 + i * dt) - Y (t0 + ((i + 1 : ℕ) : ℝ) * dt))‖ := by congr 1; abel
      _ ≤ (‖u i - Y (t0 + i * dt)‖ + ‖u (i + 1) - Y (t0 + ((i + 1 : ℕ) : ℝ) * dt)‖)
          + (‖Y (t0 + i * dt)‖ + ‖Y (t0 + ((i + 1 : ℕ) : ℝ) * dt)‖) :=
        (norm_add_le _ _).trans (add_le_add (norm_sub_le _ _) (norm_sub_le _ _))
      _ ≤ _ := by linarith
  have h1 : ‖jacM f (t0 + ((i + 1 : ℕ) : ℝ) * dt, u (i + 1)) *ᵥ (u i - u (i + 1))‖ ≤ B0 * (2 * ρ + 2 * BY) :=
    (Matrix.linfty_opNorm_mulVec _ _).trans (mul_le_mul q3 hdiff (norm_nonneg _) hB0)
  have h2 : ‖(-dt) • dtM f (t0 + ((i + 1 : ℕ) : ℝ) * dt, u (i + 1))‖ ≤ B0 := by
    rw [norm_smul, norm_neg, Real.norm_of_nonneg hdt0.le]
    exact (mul_le_of_le_one_left (norm_nonneg _) hdt1).trans q2
  refine (norm_sub_le _ _).trans ?_
  have h3 := norm_sub_le (f (t0 + i * dt) (u i) - f (t0 + ((i + 1 : ℕ) : ℝ) * dt) (u (i + 1)))
    (jacM f (t0 + ((i + 1 : ℕ) : ℝ) * dt, u (i + 1)) *ᵥ (u i - u (i + 1)))
  have h4 := norm_sub_le (f (t0 + i * dt) (u i)) (f (t0 + ((i + 1 : ℕ) : ℝ) * dt) (u (i + 1)))
  linarith

end
end Ormatex.Props
