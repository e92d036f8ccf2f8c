import Verif.Props.RobustStep
import Mathlib.Analysis.Calculus.FDeriv.Norm
import Mathlib.Analysis.Calculus.MeanValue

/-!
C120: runs of every Python integrator converge for right-hand sides that are merely locally Lipschitz (kinks allowed), whatever bounded
operator the system hands out as its Jacobian.
-/

namespace Ormatex.Props
open Filter Asymptotics Topology Matrix Ormatex.Spec
open scoped Classical NNReal
open scoped Matrix.Norms.Operator

section
variable {n : ℕ}

/-- `Y` solves `y' = f(t,y)` on `[t0,T]`, and `f` is Lipschitz near every point of the solution.  Nothing is assumed about
derivatives of `f`. -/
structure LipIVP (f : ℝ → Vec n → Vec n) (Y : ℝ → Vec n) (t0 T : ℝ) : Prop where
  sol : ∀ t ∈ Set.Icc t0 T, HasDerivWithinAt Y (f t (Y t)) (Set.Icc t0 T) t
  lip : ∀ s ∈ Set.Icc t0 T, ∃ Λ : ℝ≥0, ∃ U ∈ 𝓝 (s, Y s), LipschitzOnWith Λ (fun p : ℝ × Vec n => f p.1 p.2) U

variable {f : ℝ → Vec n → Vec n} {Y : ℝ → Vec n} {t0 T : ℝ}

theorem LipIVP.cont (h : LipIVP f Y t0 T) : ContinuousOn Y (Set.Icc t0 T) := fun t ht => (h.sol t ht).continuousWithinAt

/-- uniform Lipschitz constant in a tube -/
theorem LipIVP.tube (h : LipIVP f Y t0 T) : ∃ Λ ρ : ℝ, 0 ≤ Λ ∧ 0 < ρ ∧
    (∀ t ∈ Set.Icc t0 T, ∀ t' y y', |t' - t| < ρ → ‖y - Y t‖ < ρ → ‖y' - Y t‖ < ρ →
      ‖f t' y' - f t y‖ ≤ Λ * (|t' - t| + ‖y' - y‖)) ∧
    (∀ t ∈ Set.Icc t0 T, ∀ y, ‖y - Y t‖ < ρ → ‖fderiv ℝ (fun p : ℝ × Vec n => f p.1 p.2) (t, y)‖ ≤ Λ) := by
  have key : ∃ Λ ρ : ℝ, 0 ≤ Λ ∧ 0 < ρ ∧
      ∀ t ∈ Set.Icc t0 T, t ∈ Set.Icc t0 T → (∀ t' y y', |t' - t| < ρ → ‖y - Y t‖ < ρ → ‖y' - Y t‖ < ρ →
        ‖f t' y' - f t y‖ ≤ Λ * (|t' - t| + ‖y' - y‖)) ∧
        ∀ y, ‖y - Y t‖ < ρ → ‖fderiv ℝ (fun p : ℝ × Vec n => f p.1 p.2) (t, y)‖ ≤ Λ := by
    refine isCompact_Icc.induction_on (p := fun S => ∃ Λ ρ : ℝ, 0 ≤ Λ ∧ 0 < ρ ∧
      ∀ t ∈ S, t ∈ Set.Icc t0 T → (∀ t' y y', |t' - t| < ρ → ‖y - Y t‖ < ρ → ‖y' - Y t‖ < ρ →
        ‖f t' y' - f t y‖ ≤ Λ * (|t' - t| + ‖y' - y‖)) ∧
        ∀ y, ‖y - Y t‖ < ρ → ‖fderiv ℝ (fun p : ℝ × Vec n => f p.1 p.2) (t, y)‖ ≤ Λ) ⟨0, 1, le_rfl, one_pos, by simp⟩ ?_ ?_ ?_
    · rintro S S' hss ⟨C, δ, h1, h2, h3⟩
      exact ⟨C, δ, h1, h2, fun t ht => h3 t (hss ht)⟩
    · rintro S S' ⟨C, δ, h1, h2, h3⟩ ⟨C', δ', h1', h2', h3'⟩
      refine ⟨max C C', min δ δ', le_max_of_le_left h1, lt_min h2 h2', ?_⟩
      rintro t (ht | ht) hti
      · obtain ⟨a, b⟩ := h3 t ht hti
        refine ⟨fun t' y y' e1 e2 e3 => (a t' y y' (e1.trans_le (min_le_left _ _)) (e2.trans_le (min_le_left _ _))
          (e3.trans_le (min_le_left _ _))).trans ?_, fun y e => (b y (e.trans_le (min_le_left _ _))).trans (le_max_left _ _)⟩
        exact mul_le_mul_of_nonneg_right (le_max_left _ _) (by positivity)
      · obtain ⟨a, b⟩ := h3' t ht hti
        refine ⟨fun t' y y' e1 e2 e3 => (a t' y y' (e1.trans_le (min_le_right _ _)) (e2.trans_le (min_le_right _ _))
          (e3.trans_le (min_le_right _ _))).trans ?_, fun y e => (b y (e.trans_le (min_le_right _ _))).trans (le_max_right _ _)⟩
        exact mul_le_mul_of_nonneg_right (le_max_right _ _) (by positivity)
    · intro s hs
      obtain ⟨Λ, U, hU, hl⟩ := h.lip s hs
      obtain ⟨η, hη, hb⟩ := Metric.mem_nhds_iff.1 hU
      have hc := Metric.continuousWithinAt_iff.1 (h.cont s hs) (η / 2) (by linarith)
      obtain ⟨ε, hε, hc⟩ := hc
      have hin : ∀ t ∈ Metric.ball s (min (η / 2) ε), t ∈ Set.Icc t0 T → ∀ t' y, |t' - t| < η / 2 → ‖y - Y t‖ < η / 2 →
          ((t', y) : ℝ × Vec n) ∈ Metric.ball ((s, Y s) : ℝ × Vec n) η := by
        intro t ht hti t' y e1 e2
        rw [Metric.mem_ball, lt_min_iff] at ht
        have hY := hc hti ht.2
        rw [Metric.mem_ball, Prod.dist_eq, max_lt_iff]
        constructor
        · calc dist t' s ≤ dist t' t + dist t s := dist_triangle _ _ _
            _ < η := by rw [Real.dist_eq t' t]; linarith [ht.1]
        · calc dist y (Y s) ≤ dist y (Y t) + dist (Y t) (Y s) := dist_triangle _ _ _
            _ < η := by rw [dist_eq_norm y]; linarith
      refine ⟨Metric.ball s (min (η / 2) ε), mem_nhdsWithin_of_mem_nhds (Metric.ball_mem_nhds s (by positivity)), Λ, η / 2, Λ.2, by linarith, ?_⟩
      intro t ht hti
      refine ⟨fun t' y y' e1 e2 e3 => ?_, fun y e => ?_⟩
      · have := hl.dist_le_mul _ (hb (hin t ht hti t' y' e1 e3)) _ (hb (hin t ht hti t y (by simpa using hη) e2))
        rw [dist_eq_norm, Prod.dist_eq, Real.dist_eq, dist_eq_norm] at this
        refine this.trans (mul_le_mul_of_nonneg_left ?_ Λ.2)
        exact max_le (by linarith [norm_nonneg (y' - y)]) (by linarith [abs_nonneg (t' - t)])
      · have hm : U ∈ 𝓝 ((t, y) : ℝ × Vec n) :=
          mem_of_superset (Metric.isOpen_ball.mem_nhds (hin t ht hti t y (by simpa using hη) e)) hb
        exact norm_fderiv_le_of_lipschitzOn ℝ hm hl
  obtain ⟨Λ, ρ, h1, h2, h3⟩ := key
  exact ⟨Λ, ρ, h1, h2, fun t ht => (h3 t ht ht).1, fun t ht => (h3 t ht ht).2⟩

theorem LipIVP.bound (h : LipIVP f Y t0 T) : ∃ M : ℝ, 0 ≤ M ∧ ∀ t ∈ Set.Icc t0 T, ‖f t (Y t)‖ ≤ M := by
  have hc : ContinuousOn (fun t => f t (Y t)) (Set.Icc t0 T) := by
    intro s hs
    obtain ⟨Λ, U, hU, hl⟩ := h.lip s hs
    have h1 : ContinuousAt (fun p : ℝ × Vec n => f p.1 p.2) (s, Y s) := hl.continuousOn.continuousAt hU
    have h2 : ContinuousWithinAt (fun t => ((t, Y t) : ℝ × Vec n)) (Set.Icc t0 T) s := continuousWithinAt_id.prodMk (h.cont s hs)
    exact ContinuousAt.comp_continuousWithinAt (f := fun t => ((t, Y t) : ℝ × Vec n)) (g := fun p : ℝ × Vec n => f p.1 p.2) h1 h2
  obtain ⟨M, hM⟩ := isCompact_Icc.exists_bound_of_continuousOn hc
  exact ⟨max M 0, le_max_right _ _, fun t ht => (hM t ht).trans (le_max_left _ _)⟩

/-- local truncation error of Euler's method -/
theorem LipIVP.defect (h : LipIVP f Y t0 T) : ∃ C δ : ℝ, 0 ≤ C ∧ 0 < δ ∧ ∀ t dt, t0 ≤ t → 0 < dt → dt ≤ δ → t + dt ≤ T →
    ‖Y (t + dt) - Y t - dt • f t (Y t)‖ ≤ dt * (C * dt) := by
  obtain ⟨Λ, ρ, hΛ, hρ, htube, -⟩ := h.tube
  obtain ⟨M, hM, hMb⟩ := h.bound
  refine ⟨Λ * (1 + M), ρ / (2 * (M + 1)), by positivity, by positivity, ?_⟩
  intro t dt ht hdt hδ hT
  rw [le_div_iff₀ (by positivity)] at hδ
  have hsub : Set.Icc t (t + dt) ⊆ Set.Icc t0 T := Set.Icc_subset_Icc ht hT
  have htm : t ∈ Set.Icc t (t + dt) := ⟨le_rfl, by linarith⟩
  have hder : ∀ s ∈ Set.Icc t (t + dt), HasDerivWithinAt Y (f s (Y s)) (Set.Icc t (t + dt)) s := fun s hs => (h.sol s (hsub hs)).mono hsub
  have hY : ∀ s ∈ Set.Icc t (t + dt), ‖Y s - Y t‖ ≤ M * dt := by
    intro s hs
    have := (convex_Icc t (t + dt)).norm_image_sub_le_of_norm_hasDerivWithin_le hder (fun x hx => hMb x (hsub hx)) htm hs
    refine this.trans (mul_le_mul_of_nonneg_left ?_ hM)
    rw [Real.norm_eq_abs, abs_of_nonneg (by linarith [hs.1])]
    linarith [hs.2]
  have hder2 : ∀ s ∈ Set.Icc t (t + dt), HasDerivWithinAt (fun s => Y s - (s - t) • f t (Y t)) (f s (Y s) - f t (Y t)) (Set.Icc t (t + dt)) s := by
    intro s hs
    have h1 : HasDerivWithinAt (fun s : ℝ => (s - t) • f t (Y t)) ((1 : ℝ) • f t (Y t)) (Set.Icc t (t + dt)) s :=
      (((hasDerivAt_id s).sub_const t).smul_const (f t (Y t))).hasDerivWithinAt
    rw [one_smul] at h1
    exact (hder s hs).sub h1
  have hb : ∀ s ∈ Set.Icc t (t + dt), ‖f s (Y s) - f t (Y t)‖ ≤ Λ * (1 + M) * dt := by
    intro s hs
    have e1 : |s - t| ≤ dt := by rw [abs_of_nonneg (by linarith [hs.1])]; linarith [hs.2]
    have hMdt : 0 ≤ M * dt := by positivity
    have := htube t (hsub htm) s (Y t) (Y s) (by nlinarith) (by simpa using hρ) ((hY s hs).trans_lt (by nlinarith))
    refine this.trans ?_
    rw [mul_assoc]
    exact mul_le_mul_of_nonneg_left (by linarith [hY s hs]) hΛ
  have := (convex_Icc t (t + dt)).norm_image_sub_le_of_norm_hasDerivWithin_le hder2 hb htm ⟨by linarith, le_rfl⟩
  rw [sub_self, zero_smul, sub_zero, add_sub_cancel_left, Real.norm_of_nonneg hdt.le] at this
  have e : Y (t + dt) - Y t - dt • f t (Y t) = Y (t + dt) - dt • f t (Y t) - Y t := by abel
  rw [e]
  linarith

/-- sequences whose steps are Euler steps up to `O(dt (dt + κ))` as long as they are near the solution stay near the solution -/
theorem robust_bound (h : LipIVP f Y t0 T) (D r1 : ℝ) (hD : 0 ≤ D) (hr1 : 0 < r1) :
    ∃ C δ : ℝ, 0 ≤ C ∧ 0 < δ ∧ ∀ (dt κ : ℝ) (N : ℕ), 0 < dt → dt ≤ δ → 0 ≤ κ → κ ≤ δ → t0 + N * dt ≤ T →
      C * (dt + κ) < r1 ∧ ∀ u : ℕ → Vec n, u 0 = Y t0 →
      (∀ k < N, ‖u k - Y (t0 + k * dt)‖ < r1 → ‖u (k + 1) - u k - dt • f (t0 + k * dt) (u k)‖ ≤ dt * (D * (dt + κ))) →
      ∀ k ≤ N, ‖u k - Y (t0 + k * dt)‖ ≤ C * (dt + κ) := by
  obtain ⟨Λ, ρ, hΛ, hρ, htube, -⟩ := h.tube
  obtain ⟨C0, δ0, hC0, hδ0, hdef⟩ := h.defect
  set τ := max (T - t0) 0 with hτ
  have hτ0 : 0 ≤ τ := le_max_right _ _
  set C := Real.exp (Λ * τ) * (τ * (D + C0)) with hC
  have hC' : 0 ≤ C := by positivity
  set r := min r1 ρ with hr
  have hr0 : 0 < r := by positivity
  refine ⟨C, min δ0 (r / (4 * (C + 1))), hC', by positivity, ?_⟩
  intro dt κ N hdt hdtδ hκ hκδ hN
  have d1 : dt ≤ δ0 := hdtδ.trans (min_le_left _ _)
  have d2 : dt * (4 * (C + 1)) ≤ r := by
    have := hdtδ.trans (min_le_right _ _)
    rwa [le_div_iff₀ (by positivity)] at this
  have d3 : κ * (4 * (C + 1)) ≤ r := by
    have := hκδ.trans (min_le_right _ _)
    rwa [le_div_iff₀ (by positivity)] at this
  have hsmall : C * (dt + κ) < r := by nlinarith
  refine ⟨hsmall.trans_le (min_le_left _ _), fun u hu0 hs => ?_⟩
  have hNτ : (N : ℝ) * dt ≤ τ := le_trans (by linarith) (le_max_left _ _)
  have hin : ∀ k < N, t0 + (k : ℝ) * dt ∈ Set.Icc t0 T ∧ t0 + (k : ℝ) * dt + dt ≤ T := by
    intro k hk
    have h1 : ((k + 1 : ℕ) : ℝ) ≤ N := by exact_mod_cast hk
    have h2 := mul_le_mul_of_nonneg_right h1 hdt.le
    push_cast at h2
    have h3 : 0 ≤ (k : ℝ) * dt := by positivity
    exact ⟨⟨by linarith, by linarith⟩, by linarith⟩
  have hη : 0 ≤ (D + C0) * (dt + κ) := by positivity
  have hCe : Real.exp (Λ * τ) * (0 + τ * ((D + C0) * (dt + κ))) = C * (dt + κ) := by rw [hC]; ring
  have := gronwall_tube (L := Λ) (h := dt) (η := (D + C0) * (dt + κ)) (η0 := 0) (r := r) (T := τ) hΛ hdt.le hη le_rfl N hNτ hτ0
    (by rw [hCe]; exact hsmall) (fun k => ‖u k - Y (t0 + k * dt)‖) (by simp [hu0])
    (by
      intro k hk hlt
      have hlt1 : ‖u k - Y (t0 + k * dt)‖ < r1 := lt_of_lt_of_le hlt (min_le_left _ _)
      have hltρ : ‖u k - Y (t0 + k * dt)‖ < ρ := lt_of_lt_of_le hlt (min_le_right _ _)
      obtain ⟨hk1, hk2⟩ := hin k hk
      have a1 := hs k hk hlt1
      have a2 := hdef (t0 + k * dt) dt hk1.1 hdt d1 hk2
      have a3 := htube (t0 + k * dt) hk1 (t0 + k * dt) (Y (t0 + k * dt)) (u k) (by simpa using hρ) (by simpa using hρ) hltρ
      rw [sub_self, abs_zero, zero_add] at a3
      have e : t0 + ((k + 1 : ℕ) : ℝ) * dt = t0 + k * dt + dt := by push_cast; ring
      show ‖u (k + 1) - Y (t0 + ((k + 1 : ℕ) : ℝ) * dt)‖ ≤ (1 + Λ * dt) * ‖u k - Y (t0 + k * dt)‖ + dt * ((D + C0) * (dt + κ))
      rw [e]
      set t := t0 + (k : ℝ) * dt with ht
      have e2 : u (k + 1) - Y (t + dt) = (u k - Y t) + dt • (f t (u k) - f t (Y t)) + (u (k + 1) - u k - dt • f t (u k))
          - (Y (t + dt) - Y t - dt • f t (Y t)) := by module
      rw [e2]
      have n1 := norm_sub_le ((u k - Y t) + dt • (f t (u k) - f t (Y t)) + (u (k + 1) - u k - dt • f t (u k))) (Y (t + dt) - Y t - dt • f t (Y t))
      have n2 := norm_add_le ((u k - Y t) + dt • (f t (u k) - f t (Y t))) (u (k + 1) - u k - dt • f t (u k))
      have n3 := norm_add_le (u k - Y t) (dt • (f t (u k) - f t (Y t)))
      rw [norm_smul, Real.norm_of_nonneg hdt.le] at n3
      have n4 := mul_le_mul_of_nonneg_left a3 hdt.le
      have n5 : 0 ≤ dt * (C0 * κ) := by positivity
      nlinarith)
  intro k hk
  have := this k hk
  rwa [hCe] at this

/-- **Runs whose steps are Euler steps up to `O(dt (dt + κ))` are first-order accurate.** -/
theorem robust_run (h : LipIVP f Y t0 T) (D r1 : ℝ) (hD : 0 ≤ D) (hr1 : 0 < r1) :
    ∃ C δ : ℝ, 0 ≤ C ∧ 0 < δ ∧ ∀ (dt κ : ℝ) (N : ℕ), 0 < dt → dt ≤ δ → 0 ≤ κ → κ ≤ δ → t0 + N * dt ≤ T →
      ∀ {P σ Q W : Type} (I : Stepper σ P (Vec n)) (Inv : σ → ℕ → (ℕ → Vec n) → Prop)
        (before : Option (W → ℝ → Vec n → P × W)) (after : Option (W → ℝ → Vec n → Q × W)) (obj : σ) (w : W),
      (∀ u : ℕ → Vec n, u 0 = Y t0 → Inv obj 0 u) →
      (∀ o k (u : ℕ → Vec n) kw, k < N → (∀ j ≤ k, ‖u j - Y (t0 + j * dt)‖ < r1) →
        (∀ j < k, ‖u (j + 1) - u j - dt • f (t0 + j * dt) (u j)‖ ≤ dt * (D * (dt + κ))) →
        Inv o k u → ∃ r o', I.step o dt kw = .ok (r, o') ∧
        r.t = t0 + k * dt + dt ∧ ‖r.y - u k - dt • f (t0 + k * dt) (u k)‖ ≤ dt * (D * (dt + κ)) ∧
        ∀ u' : ℕ → Vec n, (∀ i ≤ k, u' i = u i) → u' (k + 1) = r.y → Inv (I.accept o' r) (k + 1) u') →
      ∃ l, integrateOrmatex I obj (Y t0) t0 dt N before after w = .ok l ∧ RunAccurate l t0 dt N Y (C * (dt + κ)) := by
  obtain ⟨C, δ, hC, hδ, hmain⟩ := robust_bound h D r1 hD hr1
  refine ⟨C, δ, hC, hδ, ?_⟩
  intro dt κ N hdt hdtδ hκ hκδ hN P σ Q W I Inv before after obj w h0 hs
  obtain ⟨hsm, hb⟩ := hmain dt κ N hdt hdtδ hκ hκδ hN
  have hb' : ∀ k ≤ N, ∀ u : ℕ → Vec n, u 0 = Y t0 →
      (∀ j < k, ‖u (j + 1) - u j - dt • f (t0 + j * dt) (u j)‖ ≤ dt * (D * (dt + κ))) →
      ∀ j ≤ k, ‖u j - Y (t0 + j * dt)‖ ≤ C * (dt + κ) := by
    intro k hk u hu0 hr
    have hkT : t0 + (k : ℝ) * dt ≤ T := by
      have h1 : (k : ℝ) ≤ N := by exact_mod_cast hk
      have h2 := mul_le_mul_of_nonneg_right h1 hdt.le
      linarith
    exact (hmain dt κ k hdt hdtδ hκ hκδ hkT).2 u hu0 (fun j hj _ => hr j hj)
  obtain ⟨l, u, g1, g2, g3, g4, g5⟩ := run_tube I Inv
    (fun k u => ‖u (k + 1) - u k - dt • f (t0 + k * dt) (u k)‖ ≤ dt * (D * (dt + κ)))
    (fun k u => (∀ j ≤ k, ‖u j - Y (t0 + j * dt)‖ < r1) ∧
      ∀ j < k, ‖u (j + 1) - u j - dt • f (t0 + j * dt) (u j)‖ ≤ dt * (D * (dt + κ))) t0 dt (Y t0) N before after
    (by
      intro k u u' h hr
      rw [h (k + 1) le_rfl, h k (by omega)]
      exact hr)
    (fun k hk u hu0 hr => ⟨fun j hj => (hb' k hk u hu0 hr j hj).trans_lt hsm, hr⟩)
    (by
      rintro o k u kw hk ⟨hg, hr⟩ hi
      obtain ⟨r, o', h1, h2, h3, h5⟩ := hs o k u kw hk hg hr hi
      refine ⟨r, o', h1, h2, fun u' ha hn => ⟨?_, h5 u' ha hn⟩⟩
      rw [hn, ha k le_rfl]
      exact h3)
    obj h0 w
  exact ⟨l, g1, runAccurate_of g2 g3 (hb' N le_rfl u g4 g5)⟩

end

/-! ### Rosenbrock family -/

section
variable {n : ℕ} {P : Type} [EmptyCollection P]
set_option linter.unusedSectionVars false

/-- Near the solution, `fjac` hands out operators of bounded size that carry the right-hand side, for every set of keyword
arguments.  They may be wrong, stale, or taken at a kink. -/
def TameJacs (sys : OdeSys n P) (Y : ℝ → Vec n) (t0 T : ℝ) : Prop :=
  ∃ B ρ : ℝ, 0 < ρ ∧ ∀ kw, ∀ t ∈ Set.Icc t0 T, ∀ y, ‖y - Y t‖ < ρ → ∃ J, TameJac (sys.fjac kw t y) (sys.frhs none t y) B J

theorem norm_le_of_mulVec {J : Mat n} {Λ : ℝ} (hΛ : 0 ≤ Λ) (h : ∀ v, ‖J *ᵥ v‖ ≤ Λ * ‖v‖) : ‖J‖ ≤ Λ := by
  rw [Matrix.linfty_opNorm_eq_opNorm]
  exact ContinuousLinearMap.opNorm_le_bound _ hΛ h

/-- The default autodiff Jacobian of a locally Lipschitz right-hand side is tame: it is bounded by the Lipschitz constant wherever
the right-hand side is differentiable, and `0` elsewhere. -/
theorem tameJacs_autodiff (F : Option P → ℝ → Vec n → Vec n) (hF : ∀ kw, F kw = F none) (fl : ℝ → Vec n → LinOp n)
    {Y : ℝ → Vec n} {t0 T : ℝ} (h : LipIVP (F none) Y t0 T) : TameJacs (OdeSys.ofFrhs F fl) Y t0 T := by
  obtain ⟨Λ, ρ, hΛ, hρ, -, hder⟩ := h.tube
  refine ⟨Λ, ρ, hρ, fun kw t ht y hy => ?_⟩
  obtain ⟨J, hJ⟩ := exactJac_autodiff (F none) t y
  have hn := hder t ht y hy
  have e : (OdeSys.ofFrhs F fl).fjac kw t y = adJac (F none) t y := by
    show adJac (F kw) t y = _
    rw [hF kw]
  rw [e]
  refine ⟨J, hJ.mat, hJ.dense, hJ.rhs, norm_le_of_mulVec hΛ fun v => ?_, ?_⟩
  · have h1 := hJ.deriv 0 v
    rw [zero_smul, zero_add] at h1
    rw [← h1]
    refine (ContinuousLinearMap.le_opNorm _ _).trans (mul_le_mul hn ?_ (norm_nonneg _) hΛ)
    simp [Prod.norm_def]
  · have h1 := hJ.deriv 1 0
    rw [one_smul, Matrix.mulVec_zero, add_zero] at h1
    rw [← h1]
    refine (ContinuousLinearMap.le_opNorm _ _).trans ?_
    have : ‖((1 : ℝ), (0 : Vec n))‖ = 1 := by simp [Prod.norm_def]
    rw [this, mul_one]
    exact hn

/-- bounds available to a step near the solution -/
theorem tame_tube {sys : OdeSys n P} {Y : ℝ → Vec n} {t0 T : ℝ} (h : LipIVP (sys.frhs none) Y t0 T) (hj : TameJacs sys Y t0 T) :
    ∃ B Λ ρ : ℝ, 0 ≤ B ∧ 0 ≤ Λ ∧ 0 < ρ ∧ (∀ t ∈ Set.Icc t0 T, ∀ y, ‖y - Y t‖ < ρ → ‖sys.frhs none t y‖ ≤ B ∧
      ∀ kw, ∃ J, TameJac (sys.fjac kw t y) (sys.frhs none t y) B J) ∧
      ∀ G, 0 ≤ G → ∀ t ∈ Set.Icc t0 T, ∀ dt y, 0 < dt → dt * (1 + G) < ρ → ‖y - Y t‖ < ρ → ∀ c z, |c| ≤ 1 → ‖z - y‖ ≤ dt * G →
        ‖sys.frhs none (t + c * dt) z - sys.frhs none t y‖ ≤ Λ * (1 + G) * dt := by
  obtain ⟨Λ, ρ, hΛ, hρ, htube, -⟩ := h.tube
  obtain ⟨M, hM, hMb⟩ := h.bound
  obtain ⟨B, ρ', hρ', hB⟩ := hj
  refine ⟨max B (M + Λ * ρ), Λ, min (ρ / 2) ρ', le_max_of_le_right (by positivity), hΛ, by positivity, ?_, ?_⟩
  · intro t ht y hy
    have h1 : ‖y - Y t‖ < ρ := hy.trans_le ((min_le_left _ _).trans (by linarith))
    refine ⟨?_, fun kw => ?_⟩
    · have := htube t ht t (Y t) y (by simpa using hρ) (by simpa using hρ) h1
      rw [sub_self, abs_zero, zero_add] at this
      refine le_trans ?_ (le_max_right _ _)
      calc ‖sys.frhs none t y‖ = ‖(sys.frhs none t y - sys.frhs none t (Y t)) + sys.frhs none t (Y t)‖ := by congr 1; abel
        _ ≤ _ := norm_add_le _ _
        _ ≤ Λ * ρ + M := add_le_add (this.trans (mul_le_mul_of_nonneg_left h1.le hΛ)) (hMb t ht)
        _ = _ := by ring
    · obtain ⟨J, hJ⟩ := hB kw t ht y (hy.trans_le (min_le_right _ _))
      exact ⟨J, hJ.mat, hJ.dense, hJ.rhs, hJ.norm.trans (le_max_left _ _), hJ.fdt.trans (le_max_left _ _)⟩
  · intro G hG t ht dt y hdt hs hy c z hc hz
    have h0 : ‖y - Y t‖ < ρ / 2 := hy.trans_le (min_le_left _ _)
    have h1 : dt * (1 + G) < ρ / 2 := hs.trans_le (min_le_left _ _)
    have hG' : 0 ≤ dt * G := by positivity
    have hcd : |t + c * dt - t| ≤ dt := by
      rw [add_sub_cancel_left, abs_mul, abs_of_pos hdt]
      nlinarith
    have hzY : ‖z - Y t‖ < ρ := by
      calc ‖z - Y t‖ = ‖(z - y) + (y - Y t)‖ := by congr 1; abel
        _ ≤ _ := norm_add_le _ _
        _ < ρ := by linarith
    have := htube t ht (t + c * dt) y z (by linarith) (by linarith) hzY
    refine this.trans ?_
    rw [mul_assoc]
    exact mul_le_mul_of_nonneg_left (by linarith) hΛ

/-- one step of the one-step Rosenbrock methods -/
theorem rb_step_rob {K : Kernels n} (hasRust : Bool) (sys : OdeSys n P) (s : ExpRB n) (t : ℝ) (y : Vec n)
    (hs : At s.base t y) (kw : Option P) (dt κ B Λ : ℝ) (p : ℕ) (m : String) (hsm : s.base.method = m) (hm : (m, p) ∈ rbOrders)
    (hrust : m = "exprb2_pfd_rs" → hasRust = true) (hK : ApproxFor m K dt B κ)
    (hdt : 0 < dt) (hdt1 : dt ≤ 1) (hκ : 0 ≤ κ) (hκ1 : κ ≤ 1) (hF : ‖sys.frhs none t y‖ ≤ B) (hΛ : 0 ≤ Λ)
    (hj : ∀ kw, ∃ J, TameJac (sys.fjac kw t y) (sys.frhs none t y) B J)
    (hf : ∀ c, 0 < c → c ≤ 1 → ∀ z, ‖z - y‖ ≤ dt * stageSize B → ‖sys.frhs none (t + c * dt) z - sys.frhs none t y‖ ≤ Λ * dt) :
    ∃ v, ExpRB.step hasRust K sys s dt kw = .ok (StepResult.mk (t + dt) dt v (-1)) ∧
      ‖v - y - dt • sys.frhs none t y‖ ≤ dt * (robustConst B Λ * (dt + κ)) := by
  have hB : 0 ≤ B := (norm_nonneg _).trans hF
  obtain ⟨J, hJ⟩ := hj (some (kw.getD ∅))
  obtain ⟨J', hJ'⟩ := hj none
  have up : ∀ v : Vec n, ‖v - y - dt • sys.frhs none t y‖ ≤ dt * (((B + 1) * (Real.exp B * B) + 4 * B) * (dt + κ)) →
      ‖v - y - dt • sys.frhs none t y‖ ≤ dt * (robustConst B Λ * (dt + κ)) := by
    intro v hv
    refine hv.trans (mul_le_mul_of_nonneg_left (mul_le_mul_of_nonneg_right ?_ (by positivity)) hdt.le)
    unfold robustConst
    have h1 : 0 ≤ 200 * (Real.exp B + 1) * remSize B Λ := by have := remSize_nonneg hB hΛ; positivity
    have h2 : 0 ≤ 10 * (Real.exp B + 1) * stageSize B := by have := stageSize_nonneg hB; positivity
    linarith
  unfold ExpRB.step
  simp only [hsm]
  simp only [rbOrders, List.mem_cons, List.not_mem_nil, or_false, Prod.mk.injEq] at hm
  obtain ⟨k1, k2, k3, k4, k5⟩ := hK
  rcases hm with ⟨rfl, -⟩ | ⟨rfl, -⟩ | ⟨rfl, -⟩ | ⟨rfl, -⟩ | ⟨rfl, -⟩ | ⟨rfl, -⟩ | ⟨rfl, -⟩ <;>
    simp only [String.reduceEq, if_true, if_false, false_and, true_and, List.mem_cons,
      List.not_mem_nil, or_false, or_true] at k1 k2 k3 k4 k5 ⊢
  · obtain ⟨v, h1, h2⟩ := exprb2_rob hdt hdt1 hκ hκ1 hs hF (k1 trivial) hJ
    exact ⟨v, h1, up v h2⟩
  · obtain ⟨v, h1, h2⟩ := epi2_rob hdt hdt1 hκ hκ1 hs hF (k2 trivial) hJ
    exact ⟨v, h1, up v h2⟩
  · obtain ⟨v, h1, h2⟩ := dense_rob hdt hdt1 hκ hκ1 hs hF (k3 trivial) hJ'
    exact ⟨v, h1, up v h2⟩
  · obtain ⟨v, h1, h2⟩ := pfd_rob hdt hdt1 hκ hκ1 hs hF (k4 trivial) hJ
    exact ⟨v, h1, up v h2⟩
  · simp only [hrust rfl, if_true]
    obtain ⟨v, h1, h2⟩ := pfdRs_rob hdt hdt1 hκ hκ1 hs hF (k5 trivial) hJ'
    exact ⟨v, h1, up v h2⟩
  · exact exprb3_rob hdt hdt1 hκ hκ1 hs hF (k1 trivial) hJ hΛ hf
  · exact pexprb4_rob hdt hdt1 hκ hκ1 hs hF (k1 trivial) (k2 trivial) hJ hΛ hf

/-- **C120, Rosenbrock and EPI methods.**  For a right-hand side that is only locally Lipschitz along the solution and **any** bounded
operators handed out by `fjac` (not necessarily Jacobians), there are constants such that for every `dt ≤ δ`, every threshold
`tol` and any kernels accurate to `κ ≤ δ`, `integrate` succeeds and every returned value is within `C (dt + κ)` of the solution. -/
theorem C120_rosenbrock (hasRust : Bool) (sys : OdeSys n P) (Y : ℝ → Vec n) (t0 T : ℝ) (h : LipIVP (sys.frhs none) Y t0 T)
    (hj : TameJacs sys Y t0 T) (m : String) (p : ℕ) (hm : (m, p) ∈ rbOrders) :
    ∃ C δ R : ℝ, 0 ≤ C ∧ 0 < δ ∧ ∀ (K : Kernels n) (dt κ tol : ℝ) (nsteps : ℕ) (s : ExpRB n), 0 < dt → dt ≤ δ →
      0 ≤ κ → κ ≤ δ → ApproxFor m K dt R κ →
      t0 + nsteps * dt ≤ T → ExpRB.new hasRust t0 (Y t0) m tol = .ok s →
      ∀ {Q W : Type} (before : Option (W → ℝ → Vec n → P × W)) (after : Option (W → ℝ → Vec n → Q × W)) (w : W),
      ∃ l, integrateOrmatex (rbStepper hasRust K sys) s (Y t0) t0 dt nsteps before after w = .ok l ∧
        RunAccurate l t0 dt nsteps Y (C * (dt + κ)) := by
  obtain ⟨B, Λ, ρ, hB, hΛ, hρ, htame, hlip⟩ := tame_tube h hj
  have hG := stageSize_nonneg hB
  set Λ' := Λ * (1 + stageSize B) with hΛ'
  have hΛ'0 : 0 ≤ Λ' := by positivity
  obtain ⟨C, δ, hC, hδ, hmain⟩ := robust_run h (robustConst B Λ') ρ (robustConst_nonneg hB hΛ'0) hρ
  refine ⟨C, min (min δ 1) (ρ / (2 * (1 + stageSize B))), B, hC, by positivity, ?_⟩
  intro K dt κ tol N s hdt hdtδ hκ hκδ hK hN hnew Q W before after w
  have hr : m = "exprb2_pfd_rs" → hasRust = true := fun h =>
    ((C09_construct_rb hasRust t0 (Y t0) m tol).1.2 ⟨s, hnew⟩).2 (Or.inl h)
  have d1 : dt ≤ δ := hdtδ.trans ((min_le_left _ _).trans (min_le_left _ _))
  have d2 : dt ≤ 1 := hdtδ.trans ((min_le_left _ _).trans (min_le_right _ _))
  have d3 : dt * (1 + stageSize B) < ρ := by
    have := hdtδ.trans (min_le_right _ _)
    rw [le_div_iff₀ (by positivity)] at this
    linarith
  have k1 : κ ≤ δ := hκδ.trans ((min_le_left _ _).trans (min_le_left _ _))
  have k2 : κ ≤ 1 := hκδ.trans ((min_le_left _ _).trans (min_le_right _ _))
  refine hmain dt κ N hdt d1 hκ k1 hN (rbStepper hasRust K sys) (fun (o : ExpRB n) k u => At o.base (t0 + k * dt) (u k) ∧ o.base.method = m ∧
      (Nonempty2 o.base ∧ 0 < o.base.yHist.maxlen ∧ o.base.tHist.maxlen = o.base.yHist.maxlen)) before after s w ?_ ?_
  · intro u hu
    obtain ⟨g1, g2, g3, g4⟩ := rb_new_at hnew
    exact ⟨by simpa [hu] using g1, g2, g4⟩
  · rintro o k u kw hk hsm - ⟨g1, g2, g4⟩
    have hin : t0 + (k : ℝ) * dt ∈ Set.Icc t0 T := by
      have h1 : (k : ℝ) ≤ N := by exact_mod_cast hk.le
      have h2 := mul_le_mul_of_nonneg_right h1 hdt.le
      have h3 : 0 ≤ (k : ℝ) * dt := by positivity
      constructor <;> linarith
    set t := t0 + (k : ℝ) * dt with ht
    have hyk := hsm k le_rfl
    obtain ⟨b1, b2⟩ := htame t hin (u k) hyk
    obtain ⟨v, hv, hvb⟩ := rb_step_rob hasRust sys o t (u k) g1 kw dt κ B Λ' p m g2 hm hr hK hdt d2 hκ k2 b1 hΛ'0 b2
      (fun c hc hc1 z hz => hlip _ hG t hin dt (u k) hdt d3 hyk c z (by rw [abs_of_pos hc]; exact hc1) hz)
    refine ⟨StepResult.mk (t + dt) dt v (-1), o, ?_, rfl, hvb, ?_⟩
    · show keep o (ExpRB.step hasRust K sys o dt kw) = _
      rw [hv]; rfl
    · intro u' hu' hn
      refine ⟨?_, g2, accept_nonempty g4 _⟩
      have := at_accept g4.2 (StepResult.mk (t + dt) dt (u' (k + 1)) (-1))
      have e : t0 + ((k + 1 : ℕ) : ℝ) * dt = t + dt := by rw [ht]; push_cast; ring
      rw [e]
      rw [hn] at this ⊢
      exact this

/-- **C120, `epi3`** (two-step, with its `exprb3` start). -/
theorem C120_epi3 (hasRust : Bool) (sys : OdeSys n P) (Y : ℝ → Vec n) (t0 T : ℝ) (h : LipIVP (sys.frhs none) Y t0 T)
    (hj : TameJacs sys Y t0 T) :
    ∃ C δ R : ℝ, 0 ≤ C ∧ 0 < δ ∧ ∀ (K : Kernels n) (dt κ tol : ℝ) (nsteps : ℕ) (s : ExpRB n), 0 < dt → dt ≤ δ →
      0 ≤ κ → κ ≤ δ → ApproxFor "epi3" K dt R κ →
      t0 + nsteps * dt ≤ T → ExpRB.new hasRust t0 (Y t0) "epi3" tol = .ok s →
      ∀ {Q W : Type} (before : Option (W → ℝ → Vec n → P × W)) (after : Option (W → ℝ → Vec n → Q × W)) (w : W),
      ∃ l, integrateOrmatex (rbStepper hasRust K sys) s (Y t0) t0 dt nsteps before after w = .ok l ∧
        RunAccurate l t0 dt nsteps Y (C * (dt + κ)) := by
  obtain ⟨B, Λ, ρ, hB, hΛ, hρ, htame, hlip⟩ := tame_tube h hj
  have hG := stageSize_nonneg hB
  obtain ⟨G, hGd⟩ : ∃ G, G = stageSize B + (B + 1) := ⟨_, rfl⟩
  have hG0 : 0 ≤ G := by rw [hGd]; positivity
  set Λ' := Λ * (1 + G) with hΛ'
  have hΛ'0 : 0 ≤ Λ' := by positivity
  set D := epiConst B Λ' (B + 1) with hD
  have hD0 : 0 ≤ D := epiConst_nonneg hB hΛ'0 (by positivity)
  have hDR : robustConst B Λ' ≤ D := by
    rw [hD]; unfold epiConst
    have : 0 ≤ (B + 1) * (Real.exp B * B) + (Real.exp B + 1) * (B + (Λ' + B * (B + 1) + B)) := by positivity
    linarith
  obtain ⟨C, δ, hC, hδ, hmain⟩ := robust_run h D (ρ / 2) hD0 (by positivity)
  refine ⟨C, min (min (min δ 1) (1 / (2 * (D + 1)))) (ρ / (2 * (1 + G))), B, hC, by positivity, ?_⟩
  intro K dt κ tol N s hdt hdtδ hκ hκδ hK hN hnew Q W before after w
  have q1 : min (min (min δ 1) (1 / (2 * (D + 1)))) (ρ / (2 * (1 + G))) ≤ min δ 1 := (min_le_left _ _).trans (min_le_left _ _)
  have q2 : min (min (min δ 1) (1 / (2 * (D + 1)))) (ρ / (2 * (1 + G))) ≤ 1 / (2 * (D + 1)) := (min_le_left _ _).trans (min_le_right _ _)
  have d1 : dt ≤ δ := hdtδ.trans (q1.trans (min_le_left _ _))
  have d2 : dt ≤ 1 := hdtδ.trans (q1.trans (min_le_right _ _))
  have d3 : dt * (1 + G) ≤ ρ / 2 := by
    have := hdtδ.trans (min_le_right _ _)
    rw [le_div_iff₀ (by positivity)] at this
    linarith
  have k1 : κ ≤ δ := hκδ.trans (q1.trans (min_le_left _ _))
  have k2 : κ ≤ 1 := hκδ.trans (q1.trans (min_le_right _ _))
  have hsmall : D * (dt + κ) ≤ 1 := by
    have h1 := hdtδ.trans q2
    have h2 := hκδ.trans q2
    rw [le_div_iff₀ (by positivity)] at h1 h2
    nlinarith
  have hs : s = ExpRB.mk (Base.mk t0 3 "epi3" ⟨3, [t0]⟩ ⟨3, [Y t0]⟩) tol := by
    have : ExpRB.new hasRust t0 (Y t0) "epi3" tol = .ok (ExpRB.mk (Base.mk t0 3 "epi3" ⟨3, [t0]⟩ ⟨3, [Y t0]⟩) tol) := by
      cases hasRust <;> rfl
    rw [this] at hnew
    cases hnew
    rfl
  have hkL : ApproxLinop K dt B κ 3 := by simpa using hK.linop (by decide)
  have hkK : ApproxKiops K dt B κ := hK.kiops (by decide)
  refine hmain dt κ N hdt d1 hκ k1 hN (rbStepper hasRust K sys) (fun (o : ExpRB n) k u => At o.base (t0 + k * dt) (u k) ∧
      o.base.method = "epi3" ∧ o.base.tHist.maxlen = 3 ∧ o.base.yHist.maxlen = 3 ∧
      (k = 0 → o.base.yHist.items.length = 1) ∧
      (0 < k → 2 ≤ o.base.yHist.items.length ∧ o.base.tHist.get 1 = .ok (t0 + k * dt - dt) ∧ o.base.yHist.get 1 = .ok (u (k - 1))))
    before after s w ?_ ?_
  · intro u hu
    rw [hs]
    refine ⟨?_, rfl, rfl, rfl, fun _ => rfl, fun h => absurd h (lt_irrefl 0)⟩
    have e : t0 + ((0 : ℕ) : ℝ) * dt = t0 := by simp
    rw [e, hu]
    exact ⟨rfl, rfl, rfl⟩
  · rintro o k u kw hk hsm hprev ⟨g1, g2, g4, g5, g6, g7⟩
    have hin : ∀ j ≤ k, t0 + (j : ℝ) * dt ∈ Set.Icc t0 T := by
      intro j hj
      have h1 : (j : ℝ) ≤ N := by exact_mod_cast hj.trans hk.le
      have h2 := mul_le_mul_of_nonneg_right h1 hdt.le
      have h3 : 0 ≤ (j : ℝ) * dt := by positivity
      constructor <;> linarith
    have hyk := hsm k le_rfl
    have hykρ : ‖u k - Y (t0 + k * dt)‖ < ρ := hyk.trans (by linarith)
    obtain ⟨b1, b2⟩ := htame _ (hin k le_rfl) (u k) hykρ
    obtain ⟨J, hJ⟩ := b2 (some (kw.getD ∅))
    -- the new object
    have hinv : ∀ (y : Vec n) (u' : ℕ → Vec n), (∀ i ≤ k, u' i = u i) → u' (k + 1) = y →
        At (o.acceptStep (StepResult.mk (t0 + k * dt + dt) dt y (-1))).base (t0 + ((k + 1 : ℕ) : ℝ) * dt) (u' (k + 1)) ∧
        o.base.method = "epi3" ∧ o.base.tHist.maxlen = 3 ∧ o.base.yHist.maxlen = 3 ∧
        (k + 1 = 0 → (o.acceptStep (StepResult.mk (t0 + k * dt + dt) dt y (-1))).base.yHist.items.length = 1) ∧
        (0 < k + 1 → 2 ≤ (o.acceptStep (StepResult.mk (t0 + k * dt + dt) dt y (-1))).base.yHist.items.length ∧
          (o.acceptStep (StepResult.mk (t0 + k * dt + dt) dt y (-1))).base.tHist.get 1 = .ok (t0 + ((k + 1 : ℕ) : ℝ) * dt - dt) ∧
          (o.acceptStep (StepResult.mk (t0 + k * dt + dt) dt y (-1))).base.yHist.get 1 = .ok (u' (k + 1 - 1))) := by
      intro y u' hu' hn
      have hacc : At (o.acceptStep (StepResult.mk (t0 + k * dt + dt) dt y (-1))).base (t0 + ((k + 1 : ℕ) : ℝ) * dt) y := by
        have := at_accept (b := o.base) ⟨by rw [g5]; norm_num, by rw [g4, g5]⟩ (StepResult.mk (t0 + k * dt + dt) dt y (-1))
        have e : t0 + ((k + 1 : ℕ) : ℝ) * dt = t0 + k * dt + dt := by push_cast; ring
        rw [e]
        exact this
      refine ⟨by rw [hn]; exact hacc, g2, g4, g5, by intro h; omega, fun _ => ?_⟩
      rw [Nat.add_sub_cancel, hu' k le_rfl]
      have ht := g1.tNew
      have hy := g1.yNew
      simp only [Deque.get] at ht hy
      have e : t0 + ((k + 1 : ℕ) : ℝ) * dt - dt = t0 + k * dt := by push_cast; ring
      rw [e]
      simp only [ExpRB.acceptStep, Base.acceptStep, Deque.appendleft, g4, g5, Deque.get]
      cases hti : o.base.tHist.items with
      | nil => rw [hti] at ht; cases ht
      | cons a as =>
        cases hyi : o.base.yHist.items with
        | nil => rw [hyi] at hy; cases hy
        | cons b bs =>
          rw [hti] at ht
          rw [hyi] at hy
          simp only [List.getElem?_cons_zero] at ht hy
          refine ⟨by simp, ?_, ?_⟩
          · simpa using ht
          · simpa using hy
    rcases k with _ | k
    · -- starting step
      obtain ⟨v, hv, hvb⟩ := exprb3_rob hdt d2 hκ k2 g1 b1 hkL hJ hΛ'0
        (fun c hc hc1 z hz => hlip _ hG0 _ (hin 0 le_rfl) dt (u 0) hdt (by linarith) hykρ c z (by rw [abs_of_pos hc]; exact hc1)
          (hz.trans (mul_le_mul_of_nonneg_left (by rw [hGd]; linarith) hdt.le)))
      refine ⟨StepResult.mk (t0 + ((0 : ℕ) : ℝ) * dt + dt) dt v (-1), o, ?_, rfl, ?_, fun u' hu' hn => hinv v u' hu' hn⟩
      · show keep o (ExpRB.step hasRust K sys o dt kw) = _
        have hl : ¬ (o.base.yHist.len ≥ 2) := by
          have := g6 rfl
          simp only [Deque.len]
          omega
        unfold ExpRB.step
        simp only [g2, String.reduceEq, if_true, if_false, hl]
        rw [hv]; rfl
      · refine hvb.trans (mul_le_mul_of_nonneg_left (mul_le_mul_of_nonneg_right hDR (by positivity)) hdt.le)
    · -- two-step formula
      obtain ⟨hlen, htp, hyp⟩ := g7 (Nat.succ_pos k)
      rw [Nat.add_sub_cancel] at hyp
      have hp := hprev k (Nat.lt_succ_self k)
      have hpk := hsm k (Nat.le_succ k)
      obtain ⟨c1, -⟩ := htame _ (hin k (Nat.le_succ k)) (u k) (hpk.trans (by linarith))
      have hinc : ‖u (k + 1) - u k‖ ≤ (B + 1) * dt := by
        calc ‖u (k + 1) - u k‖ = ‖(u (k + 1) - u k - dt • sys.frhs none (t0 + k * dt) (u k)) + dt • sys.frhs none (t0 + k * dt) (u k)‖ := by
              congr 1; abel
          _ ≤ _ := norm_add_le _ _
          _ ≤ dt * (D * (dt + κ)) + dt * B := by
            rw [norm_smul, Real.norm_of_nonneg hdt.le]
            exact add_le_add hp (mul_le_mul_of_nonneg_left c1 hdt.le)
          _ ≤ dt * 1 + dt * B := by gcongr
          _ = _ := by ring
      have hinc' : ‖u k - u (k + 1)‖ ≤ (B + 1) * dt := by rw [norm_sub_rev]; exact hinc
      have hP := hlip G hG0 _ (hin (k + 1) le_rfl) dt (u (k + 1)) hdt (by linarith) hykρ (-1) (u k) (by simp)
        (hinc'.trans (by rw [mul_comm]; exact mul_le_mul_of_nonneg_left (by rw [hGd]; linarith) hdt.le))
      rw [show t0 + ((k + 1 : ℕ) : ℝ) * dt + -1 * dt = t0 + ((k + 1 : ℕ) : ℝ) * dt - dt by ring] at hP
      obtain ⟨v, hv, hvb⟩ := epi3_rob hdt d2 hκ g1 b1 hkK hJ hΛ'0 hinc' hP htp hyp
      refine ⟨StepResult.mk (t0 + ((k + 1 : ℕ) : ℝ) * dt + dt) dt v (-1), o, ?_, rfl, hvb, fun u' hu' hn => hinv v u' hu' hn⟩
      show keep o (ExpRB.step hasRust K sys o dt kw) = _
      have hl : o.base.yHist.len ≥ 2 := hlen
      unfold ExpRB.step
      simp only [g2, String.reduceEq, if_true, if_false, hl]
      rw [hv]; rfl

/-- **C120, splitting methods**: any split operator, right or wrong. -/
theorem C120_split (sys : OdeSys n P) (lop : LinOp n) (hl : ∀ t y, sys.fl t y = lop)
    (L : Mat n) (hd : lop.dense = .ok L) (hL : IsMatrix lop L) (Y : ℝ → Vec n) (t0 T : ℝ) (h : LipIVP (sys.frhs none) Y t0 T)
    (m : String) (p : ℕ) (hm : (m, p) ∈ splitOrders) :
    ∃ C δ : ℝ, 0 ≤ C ∧ 0 < δ ∧ ∀ (K : Kernels n) (dt κ : ℝ) (nsteps : ℕ) (s : ExpSplit n), 0 < dt → dt ≤ δ → 0 ≤ κ → κ ≤ δ →
      ApproxFor m K dt ‖L‖ κ →
      t0 + nsteps * dt ≤ T → ExpSplit.new t0 (Y t0) m = .ok s →
      ∀ {Q W : Type} (before : Option (W → ℝ → Vec n → P × W)) (after : Option (W → ℝ → Vec n → Q × W)) (w : W),
      ∃ l, integrateOrmatex (splitStepper K sys) s (Y t0) t0 dt nsteps before after w = .ok l ∧
        RunAccurate l t0 dt nsteps Y (C * (dt + κ)) := by
  have hj : TameJacs (OdeSys.ofFrhs (P := P) (fun _ => sys.frhs none)) Y t0 T := tameJacs_autodiff _ (fun _ => rfl) _ h
  obtain ⟨B, Λ, ρ, hB, hΛ, hρ, htame, hlip⟩ := tame_tube (sys := OdeSys.ofFrhs (P := P) (fun _ => sys.frhs none)) h hj
  change ∀ t ∈ Set.Icc t0 T, ∀ y, ‖y - Y t‖ < ρ → ‖sys.frhs none t y‖ ≤ B ∧ _ at htame
  change ∀ G, 0 ≤ G → ∀ t ∈ Set.Icc t0 T, ∀ dt y, 0 < dt → dt * (1 + G) < ρ → ‖y - Y t‖ < ρ → ∀ c z, |c| ≤ 1 → ‖z - y‖ ≤ dt * G →
        ‖sys.frhs none (t + c * dt) z - sys.frhs none t y‖ ≤ Λ * (1 + G) * dt at hlip
  obtain ⟨G, hGd⟩ : ∃ G, G = splitSize B ‖L‖ := ⟨_, rfl⟩
  have hG0 : 0 ≤ G := by rw [hGd]; unfold splitSize; positivity
  set Λ' := Λ * (1 + G) with hΛ'
  have hΛ'0 : 0 ≤ Λ' := by positivity
  obtain ⟨R, hRd⟩ : ∃ R, R = splitRem B ‖L‖ Λ' := ⟨_, rfl⟩
  have hR0 : 0 ≤ R := by rw [hRd]; exact splitRem_nonneg hB (norm_nonneg _) hΛ'0
  have hE := Real.exp_pos ‖L‖
  obtain ⟨C, δ, hC, hδ, hmain⟩ := robust_run h (splitConst B ‖L‖ Λ') ρ
    (by unfold splitConst; rw [← hRd]; positivity) hρ
  refine ⟨C, min (min (min δ 1) (ρ / (2 * (1 + G)))) (min (1 / (4 * R + 1)) (1 / (Real.exp ‖L‖ * R + 1))), hC, by positivity, ?_⟩
  intro K dt κ N s hdt hdtδ hκ hκδ hK hN hnew Q W before after w
  have q1 : min (min (min δ 1) (ρ / (2 * (1 + G)))) (min (1 / (4 * R + 1)) (1 / (Real.exp ‖L‖ * R + 1))) ≤ min δ 1 :=
    (min_le_left _ _).trans (min_le_left _ _)
  have d1 : dt ≤ δ := hdtδ.trans (q1.trans (min_le_left _ _))
  have d2 : dt ≤ 1 := hdtδ.trans (q1.trans (min_le_right _ _))
  have d3 : dt * (1 + G) < ρ := by
    have := hdtδ.trans ((min_le_left _ _).trans (min_le_right _ _))
    rw [le_div_iff₀ (by positivity)] at this
    have : 0 < dt * (1 + G) := by positivity
    linarith
  have d4 : dt * (Real.exp ‖L‖ * R) ≤ 1 := by
    have := hdtδ.trans ((min_le_right _ _).trans (min_le_right _ _))
    rw [le_div_iff₀ (by positivity)] at this
    linarith
  have k1 : κ ≤ δ := hκδ.trans (q1.trans (min_le_left _ _))
  have k4 : κ * (4 * R) ≤ 1 := by
    have := hκδ.trans ((min_le_right _ _).trans (min_le_left _ _))
    rw [le_div_iff₀ (by positivity)] at this
    linarith
  rw [hRd] at d4 k4
  refine hmain dt κ N hdt d1 hκ k1 hN (splitStepper K sys) (fun (o : ExpSplit n) k u => At o.base (t0 + k * dt) (u k) ∧ o.base.method = m ∧
      Coherent K lop o ∧ (Nonempty2 o.base ∧ 0 < o.base.yHist.maxlen ∧ o.base.tHist.maxlen = o.base.yHist.maxlen))
    before after s w ?_ ?_
  · intro u hu
    obtain ⟨g1, g2, g3, g4⟩ := split_new_at (K := K) (lop := lop) hnew
    exact ⟨by simpa [hu] using g1, g2, g3, g4⟩
  · rintro o k u kw hk hsm - ⟨g1, g2, g3, g4⟩
    have hin : t0 + (k : ℝ) * dt ∈ Set.Icc t0 T := by
      have h1 : (k : ℝ) ≤ N := by exact_mod_cast hk.le
      have h2 := mul_le_mul_of_nonneg_right h1 hdt.le
      have h3 : 0 ≤ (k : ℝ) * dt := by positivity
      constructor <;> linarith
    set t := t0 + (k : ℝ) * dt with ht
    have hyk := hsm k le_rfl
    have b1 := (htame t hin (u k) hyk).1
    have hf : ∀ c, 0 < c → c ≤ 1 → ∀ z, ‖z - u k‖ ≤ dt * splitSize B ‖L‖ →
        ‖sys.frhs none (t + c * dt) z - sys.frhs none t (u k)‖ ≤ Λ' * dt := fun c hc hc1 z hz =>
      hlip G hG0 t hin dt (u k) hdt d3 hyk c z (by rw [abs_of_pos hc]; exact hc1) (by rw [hGd]; exact hz)
    have hBR : B ≤ splitRem B ‖L‖ Λ' := by
      unfold splitRem
      have : 0 ≤ ‖L‖ * splitSize B ‖L‖ := by rw [← hGd]; positivity
      linarith
    have r1 := fun (c : ℝ) (hc : 0 < c) (hc1 : c ≤ 1) (d : Fin 3 → Vec n) (hd : ‖d‖ ≤ κ * (4 * splitRem B ‖L‖ Λ')) =>
      remS_rob hdt d2 hκ hΛ'0 b1 k4 d4 hf hc hc1 (z := stageS (sys.frhs none) L c) (d := d)
        (stageS_rob hdt d2 hκ hΛ'0 b1 k4 d4 hf hc hc1 hd)
    have r3 := fun (d : Fin 3 → Vec n) (hd : ‖d‖ ≤ κ * (4 * splitRem B ‖L‖ Λ')) =>
      remS_rob hdt d2 hκ hΛ'0 b1 k4 d4 hf (c := 2 / 3) (by norm_num) (by norm_num) (z := stageS3 (sys.frhs none) L) (d := d)
        (stageS3_rob hdt d2 hκ hΛ'0 b1 k4 d4 hf hd)
    obtain ⟨d, o', hdn, hbase, hst⟩ := split_step_approx sys lop hl L hd hL o t (u k) g1 g3 kw dt κ (splitRem B ‖L‖ Λ') ‖L‖ p m g2 hm hK hdt hκ le_rfl
      (b1.trans hBR) (r1 1 one_pos le_rfl) (r1 (2 / 3) (by norm_num) (by norm_num)) r3
    refine ⟨StepResult.mk (t + dt) dt (splitMapE m (sys.frhs none) L (dt, t, (u k, d))) (-1), o', hst, rfl,
      splitMapE_rob hdt d2 hκ hΛ'0 b1 k4 d4 hf m hdn, ?_⟩
    intro u' hu' hn
    rw [← hbase] at g4
    refine ⟨?_, by rw [← g2, ← hbase]; rfl, dense_step_coherent K sys lop hl o o' g3 dt kw _ hst, accept_nonempty g4 _⟩
    have := at_accept g4.2 (StepResult.mk (t + dt) dt (u' (k + 1)) (-1))
    have e : t0 + ((k + 1 : ℕ) : ℝ) * dt = t + dt := by rw [ht]; push_cast; ring
    rw [e]
    rw [hn] at this ⊢
    exact this

/-- **C120, `rk4`.** -/
theorem C120_rk4 (sys : OdeSys n P) (Y : ℝ → Vec n) (t0 T : ℝ) (h : LipIVP (sys.frhs none) Y t0 T) :
    ∃ C δ : ℝ, 0 ≤ C ∧ 0 < δ ∧ ∀ (dt : ℝ) (nsteps : ℕ) (s : Base (Vec n)), 0 < dt → dt ≤ δ →
      t0 + nsteps * dt ≤ T → RK.new t0 (Y t0) "rk4" = .ok s →
      ∀ {Q W : Type} (after : Option (W → ℝ → Vec n → Q × W)) (w : W),
      ∃ l, integrateOrmatex (rkStepper sys) s (Y t0) t0 dt nsteps none after w = .ok l ∧
        RunAccurate l t0 dt nsteps Y (C * dt) := by
  have hj : TameJacs (OdeSys.ofFrhs (P := P) (fun _ => sys.frhs none)) Y t0 T := tameJacs_autodiff _ (fun _ => rfl) _ h
  obtain ⟨B, Λ, ρ, hB, hΛ, hρ, htame, hlip⟩ := tame_tube (sys := OdeSys.ofFrhs (P := P) (fun _ => sys.frhs none)) h hj
  change ∀ t ∈ Set.Icc t0 T, ∀ y, ‖y - Y t‖ < ρ → ‖sys.frhs none t y‖ ≤ B ∧ _ at htame
  change ∀ G, 0 ≤ G → ∀ t ∈ Set.Icc t0 T, ∀ dt y, 0 < dt → dt * (1 + G) < ρ → ‖y - Y t‖ < ρ → ∀ c z, |c| ≤ 1 → ‖z - y‖ ≤ dt * G →
        ‖sys.frhs none (t + c * dt) z - sys.frhs none t y‖ ≤ Λ * (1 + G) * dt at hlip
  set Λ' := Λ * (1 + (B + 1)) with hΛ'
  have hΛ'0 : 0 ≤ Λ' := by positivity
  obtain ⟨C, δ, hC, hδ, hmain⟩ := robust_bound h Λ' ρ hΛ'0 hρ
  refine ⟨C, min δ (min (1 / (Λ' + 1)) (ρ / (2 * (1 + (B + 1))))), hC, by positivity, ?_⟩
  intro dt N s hdt hdtδ hN hnew Q W after w
  have d1 : dt ≤ δ := hdtδ.trans (min_le_left _ _)
  have d2 : Λ' * dt ≤ 1 := by
    have := hdtδ.trans ((min_le_right _ _).trans (min_le_left _ _))
    rw [le_div_iff₀ (by positivity)] at this
    linarith
  have d3 : dt * (1 + (B + 1)) < ρ := by
    have := hdtδ.trans ((min_le_right _ _).trans (min_le_right _ _))
    rw [le_div_iff₀ (by positivity)] at this
    have : 0 < dt * (1 + (B + 1)) := by positivity
    linarith
  set u := iterSeq (fun t y => rk4Kernel (sys.frhs none) t y dt) t0 dt (Y t0) with hu
  have herr := (hmain dt 0 N hdt d1 le_rfl hδ.le hN).2 u rfl (by
    intro k hk hy
    have hin : t0 + (k : ℝ) * dt ∈ Set.Icc t0 T := by
      have h1 : (k : ℝ) ≤ N := by exact_mod_cast hk.le
      have h2 := mul_le_mul_of_nonneg_right h1 hdt.le
      have h3 : 0 ≤ (k : ℝ) * dt := by positivity
      constructor <;> linarith
    have := rk4_rob (Λ := Λ') hdt (htame _ hin (u k) hy).1 d2 (fun c hc hc1 z hz => hlip (B + 1) (by positivity) _ hin dt (u k) hdt d3 hy c z
      (by rw [abs_of_pos hc]; exact hc1) hz)
    rw [add_zero]
    exact this)
  simp only [add_zero] at herr
  obtain ⟨l, e1, e2, e3⟩ := run_seq (rkStepper sys) (fun (o : Base (Vec n)) k => At o (t0 + k * dt) (u k) ∧ o.method = "rk4" ∧
    (Nonempty2 o ∧ 0 < o.yHist.maxlen ∧ o.tHist.maxlen = o.yHist.maxlen)) u t0 dt none after
    (by
      rintro o k kw hkw ⟨g1, g2, g4⟩
      rw [hkw rfl]
      refine ⟨StepResult.mk (t0 + k * dt + dt) dt (u (k + 1)) (-1), o, ?_, rfl, rfl, ?_, g2, accept_nonempty g4 _⟩
      · show keep o (RK.step sys o dt none) = _
        unfold RK.step stepRk4
        simp only [g2, if_true, g1.yNew, g1.time, Bind.bind, Except.bind, pure, Except.pure]
        rfl
      · have := at_accept g4.2 (StepResult.mk (t0 + k * dt + dt) dt (u (k + 1)) (-1))
        have e : t0 + ((k + 1 : ℕ) : ℝ) * dt = t0 + k * dt + dt := by push_cast; ring
        rw [e]
        exact this)
    s (by
      have hb : Base.init t0 (Y t0) 4 "rk4" = .ok s := hnew
      refine ⟨by simpa [hu, iterSeq] using at_init hb, ?_, init_nonempty hb⟩
      unfold Base.init at hb
      split at hb
      · cases hb; rfl
      · cases hb) N w
  exact ⟨l, e1, runAccurate_of e2 e3 herr⟩

end
end Ormatex.Props
