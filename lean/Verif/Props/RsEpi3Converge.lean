import Verif.Props.RsRobustExp
import Verif.Props.RsConvergeReal
import Verif.Props.ApproxEpi3

/-!
C111 for `epi3`: third order convergence of the crate's two-step method with approximate products.
-/

namespace Ormatex.Props
open Filter Asymptotics Topology Matrix Ormatex.Spec Ormatex.Rs
open scoped Classical
open scoped Matrix.Norms.Operator

section
variable {n : ℕ}

/-- the two-step formula with step errors `dt ε` from a start with error `η` -/
theorem epi3_tailE {f : ℝ → Vec n → Vec n} {Y : ℝ → Vec n} {t0 T : ℝ} (hY : ∀ t ∈ Set.Icc t0 T, SmoothIVP f 5 t Y) :
    ∃ C δ : ℝ, 0 ≤ C ∧ 0 < δ ∧ ∀ (dt ε η : ℝ) (N : ℕ) (u : ℕ → Vec n), 0 < dt → dt ≤ δ → 0 ≤ ε → ε ≤ δ → 0 ≤ η → η ≤ δ →
      t0 + (N + 1 : ℕ) * dt ≤ T → u 0 = Y t0 → ‖u 1 - Y (t0 + dt)‖ ≤ η →
      (∀ k < N, ∃ d, ‖d‖ ≤ ε ∧ u (k + 2) = mapEpi3E f (dt, t0 + dt + k * dt, (u (k + 1), (u k, d)))) →
      ∀ k ≤ N + 1, ‖u k - Y (t0 + k * dt)‖ ≤ C * (dt ^ 3 + ε + η) := by
  have hsm : ∀ t ∈ Set.Icc t0 T, ContDiffAt ℝ (3 + 1 : ℕ) (mapEpi3E f) (0, t, (Y t, (Y t, 0))) := fun t ht =>
    mapEpi3E_smooth (m := 4) (hY t ht).smooth
  have hYc : ∀ t ∈ Set.Icc t0 T, ContDiffAt ℝ (3 + 1 : ℕ) Y t := fun t ht => (hY t ht).contDiff.of_le (by norm_cast)
  obtain ⟨C0, δ0, hC0, hδ0, hdef⟩ := uniform_defect (S := mapEpi3E f) (f := f) (Y := Y) (β := fun t h => ((Y (t - h), 0) : Vec n × Vec n))
    (t0 := t0) (T := T) 3 5 (by norm_num) hY (fun t ht => by simpa using hsm t ht)
    (fun t ht => by
      refine ContDiffAt.prodMk ?_ contDiffAt_const
      refine ContDiffAt.comp (g := Y) (f := fun q : ℝ × ℝ => q.1 - q.2) (t, 0) ?_ (by fun_prop)
      simpa using hYc t ht)
    (fun t h => by
      have := epi3_order' (h.mono (by norm_num))
      simpa [mapEpi3E] using this)
  obtain ⟨C, δ, hC, hδ, hmain⟩ := converge_abstract (S := mapEpi3E f) (Y := Y) (a := fun t => ((Y t, 0) : Vec n × Vec n)) (t0 := t0) (T := T)
    3 (by norm_num) (fun t ht => (hsm t ht).of_le (by norm_cast)) (fun t x => mapEpi3E_zero x)
    (fun t ht => (hY t ht).contDiff.continuousAt) (fun t ht => (hY t ht).contDiff.continuousAt.prodMk continuousAt_const)
    1 C0 1 zero_le_one hC0 one_pos
  have hcont : ContinuousOn Y (Set.Icc t0 T) := fun t ht => (hY t ht).contDiff.continuousAt.continuousWithinAt
  have huc := isCompact_Icc.uniformContinuousOn_of_continuous hcont
  obtain ⟨δ2, hδ2, huc⟩ := Metric.uniformContinuousOn_iff.1 huc δ hδ
  refine ⟨C, min δ (min (δ0 / 2) (δ2 / 2)), hC, by positivity, ?_⟩
  intro dt ε η N u hdt0 hdtδ hε0 hεδ hη0 hηδ hN hu0 hu1 hu
  have a2 : dt ≤ δ := hdtδ.trans (min_le_left _ _)
  have a4 : dt ≤ δ0 / 2 := hdtδ.trans ((min_le_right _ _).trans (min_le_left _ _))
  have a5 : dt ≤ δ2 / 2 := hdtδ.trans ((min_le_right _ _).trans (min_le_right _ _))
  have hNdt : 0 ≤ (N : ℝ) * dt := by positivity
  push_cast at hN
  have hin : ∀ k < N, t0 + dt + (k : ℝ) * dt ∈ Set.Icc t0 T ∧ t0 + (k : ℝ) * dt ∈ Set.Icc t0 T := by
    intro k hk
    have h1 : (k : ℝ) + 1 ≤ N := by exact_mod_cast hk
    have h2 := mul_le_mul_of_nonneg_right h1 hdt0.le
    have h3 : 0 ≤ (k : ℝ) * dt := by positivity
    refine ⟨⟨?_, ?_⟩, ⟨?_, ?_⟩⟩ <;> linarith
  have := hmain (t0 + dt) dt ε η N (fun k => u (k + 1)) (fun k => (u k, if h : k < N then (hu k h).choose else 0))
    (fun k => (Y (t0 + k * dt), 0))
    hdt0 a2 hε0 (hεδ.trans (min_le_left _ _)) hη0 (hηδ.trans (min_le_left _ _)) (by linarith) (by linarith) hu1
    (by
      intro k hk
      simp only [hk, dif_pos]
      exact (hu k hk).choose_spec.2)
    (by
      intro k hk _
      simp only [hk, dif_pos]
      rw [one_mul, Prod.mk_sub_mk, Prod.norm_mk, sub_zero]
      have hd := (hu k hk).choose_spec.1
      have hm0 : 0 ≤ maxErr (fun j : ℕ => ‖u (j + 1) - Y (t0 + dt + j * dt)‖) k :=
        (norm_nonneg _).trans (le_maxErr (fun j : ℕ => ‖u (j + 1) - Y (t0 + dt + j * dt)‖) k 0 (by omega))
      refine max_le ?_ (by linarith)
      rcases k with _ | k
      · simp only [Nat.cast_zero, zero_mul, add_zero]
        rw [hu0, sub_self, norm_zero]
        positivity
      · have h1 := le_maxErr (fun j : ℕ => ‖u (j + 1) - Y (t0 + dt + j * dt)‖) (k + 1) k (by omega)
        have e : t0 + ((k + 1 : ℕ) : ℝ) * dt = t0 + dt + k * dt := by push_cast; ring
        rw [e]
        linarith)
    (by
      intro k hk
      have h1 := huc _ (hin k hk).2 _ (hin k hk).1 (by
        rw [Real.dist_eq]
        have : t0 + (k : ℝ) * dt - (t0 + dt + k * dt) = -dt := by ring
        rw [this, abs_neg, abs_of_pos hdt0]
        linarith)
      rw [dist_eq_norm] at h1
      rw [Prod.mk_sub_mk, Prod.norm_mk, sub_zero, norm_zero]
      exact max_le h1.le hδ.le)
    (by
      intro k hk
      have h1 := hdef _ (hin k hk).1 dt (by rw [abs_of_pos hdt0]; linarith)
      rw [abs_of_pos hdt0] at h1
      have e : t0 + dt + ((k + 1 : ℕ) : ℝ) * dt = t0 + dt + k * dt + dt := by push_cast; ring
      have e2 : t0 + dt + (k : ℝ) * dt - dt = t0 + k * dt := by ring
      rw [e2] at h1
      rw [e]; exact h1)
  intro k hk
  rcases k with _ | k
  · have : u 0 - Y (t0 + ((0 : ℕ) : ℝ) * dt) = 0 := by simp [hu0]
    rw [this, norm_zero]
    positivity
  · have h := this k (by omega)
    have e : t0 + ((k + 1 : ℕ) : ℝ) * dt = t0 + dt + k * dt := by push_cast; ring
    rw [e]
    exact h

/-- one step of `epi3` after the first, with an approximate product -/
theorem rs_step3_approx {K : Kern n} {dt R κ B B' : ℝ} (hK : ApproxKiopsRs K dt R κ) {sys : Sys n} (hj : ExactJacsRs sys) (s : Epirk n)
    {t tp : ℝ} {y yp : Vec n} (hs : AtRs s t y) (htp : rsGet s.tHist 1 = .ok tp) (hyp : rsGet s.yHist 1 = .ok yp) (hdt : 0 < dt)
    (hR : ‖jacM sys.frhs (t, y)‖ ≤ R) (hF : ‖sys.frhs t y‖ ≤ B) (hB' : 0 ≤ B') (hP : ‖remP sys.frhs (dt, t, (y, yp))‖ ≤ B' * dt)
    (hβ : dt * (B + B' + 1) ≤ 1) :
    ∃ d : Vec n, ‖d‖ ≤ κ * (B + B' + 1) ∧
      Epirk.stepOrder3 K sys s dt = .ok ⟨t + dt, dt, mapEpi3E sys.frhs (dt, t, (y, (yp, d))), none⟩ := by
  have hB : 0 ≤ B := (norm_nonneg _).trans hF
  have hJ := (hj.deriv t y).1
  obtain ⟨q, hq⟩ : ∃ q, q = remP sys.frhs (dt, t, (y, yp)) := ⟨_, rfl⟩
  rw [← hq] at hP
  obtain ⟨w, hw, he⟩ := hK _ _ hJ hR (dt • sys.frhs t y) ((dt * 2 / 3) • q) (dt * (B + B' + 1))
    (by have : 0 ≤ dt * (B + B') := by positivity
        linarith) hβ
    (by
      rw [norm_smul, Real.norm_of_nonneg hdt.le]
      exact mul_le_mul_of_nonneg_left (by linarith) hdt.le)
    (by
      rw [norm_smul, Real.norm_of_nonneg (by positivity)]
      have a2 : dt * 2 / 3 * ‖q‖ ≤ dt * (B' * dt) := mul_le_mul (by linarith) hP (norm_nonneg _) hdt.le
      have a3 : 0 ≤ dt * (dt * (B + 1)) := by positivity
      linarith)
  have hphi2 : Epirk.fphi2V K sys s (sys.frhs t y) (sys.fjac t y) dt = .ok (0, 0) := by
    unfold Epirk.fphi2V
    by_cases h : s.tolFdt < 0
    · rw [if_pos h]
    · rw [if_neg h]
      have hv : Epirk.frhsFdt sys s (sys.frhs t y) 1e-8 = .ok (rsFdt sys t y) := by
        unfold Epirk.frhsFdt
        rw [hs.yNew, hs.time]
        rfl
      rw [hv, rsFdt_zero hj]
      show (if ‖(0 : Vec n)‖ > s.tolFdt then _ else _) = _
      rw [norm_zero, if_neg h]
      rfl
  have er : Epirk.remf sys s tp yp (sys.frhs t y) (sys.fjac t y) (some 0) = .ok q := by
    rw [rsRemf_closed sys s hs _ _ _ _ _ hJ, hq]
    simp only [remP, (hj.deriv t y).2, smul_zero, hj.auto tp (t - dt) yp]
  obtain ⟨W, hW⟩ : ∃ W, W = phiM 1 (dt • jacM sys.frhs (t, y)) *ᵥ (dt • sys.frhs t y) + phiM 2 (dt • jacM sys.frhs (t, y)) *ᵥ ((dt * 2 / 3) • q) :=
    ⟨_, rfl⟩
  rw [← hW] at he
  refine ⟨dt⁻¹ • (w - W), ?_, ?_⟩
  · rw [norm_smul, Real.norm_of_nonneg (by positivity), inv_mul_le_iff₀ hdt]
    refine he.trans (le_of_eq ?_)
    ring
  · unfold Epirk.stepOrder3
    rw [hs.yNew, hs.time, htp, hyp]
    simp only [Bind.bind, Except.bind, Pure.pure, Except.pure, hphi2, er, hw]
    congr 2
    have em : mapEpi3 sys.frhs (dt, t, (y, yp)) = rosEuler (jacM sys.frhs (t, y)) y (sys.frhs t y) (dtM sys.frhs (t, y)) dt 1
        + (dt * (2 / 3)) • (phiM 2 (dt • jacM sys.frhs (t, y)) *ᵥ q) := by rw [hq]; rfl
    simp only [mapEpi3E, em, rosEuler, one_mul, smul_smul, mul_inv_cancel₀ hdt.ne', one_smul, one_pow, (hj.deriv t y).2, Matrix.mulVec_zero, smul_zero]
    rw [hW, Matrix.mulVec_smul, Matrix.mulVec_smul, show dt * 2 / 3 = dt * (2 / 3) by ring]
    abel

set_option maxHeartbeats 1600000 in
/-- **C111, epi3 with approximate products.**  Let `Y` solve the autonomous smooth system on a neighbourhood of `[t0, T]`, the initial
state not being an equilibrium.  There are constants `C`, `δ > 0` and `R`, depending on the problem only, such that every run of `epi3`
with `dt ≤ δ`, a `phi_1` product accurate to `κ1 ≤ δ` and a `kiops` product accurate to `κ ≤ δ` for operators of norm at most `R` succeeds
and every output state is within `C (dt^3 + dt κ1 + κ)` of `Y` at its time. -/
theorem C111_epi3_approx (sys : Sys n) (hj : ExactJacsRs sys) (Y : ℝ → Vec n) (t0 T : ℝ) (hT : t0 ≤ T)
    (hY : ∀ t ∈ Set.Icc t0 T, SmoothIVP sys.frhs 5 t Y) (hne : sys.frhs t0 (Y t0) ≠ 0) :
    ∃ C δ R : ℝ, 0 ≤ C ∧ 0 < δ ∧ 0 ≤ R ∧ ∀ (K : Kern n) (dt κ1 κ tol : ℝ) (N osteps : ℕ) (s1 s0 : Epirk n), 0 < dt → dt ≤ δ →
      0 ≤ κ1 → κ1 ≤ δ → 0 ≤ κ → κ ≤ δ → ApproxKern K dt R κ1 → ApproxKiopsRs K dt R κ → t0 + N * dt ≤ T → 0 < osteps →
      Epirk.new t0 (Y t0) "epi3" = .ok s1 → s1.withOpt "tol_fdt" tol = .ok s0 →
      ∃ out, outLoop (Epirk.integrator K sys) dt osteps N 0 s0 [] [] = .ok out ∧
        RsRunAccurate out t0 dt osteps N Y (C * (dt ^ 3 + dt * κ1 + κ)) := by
  obtain ⟨f, hfd⟩ : ∃ f, f = sys.frhs := ⟨_, rfl⟩
  rw [← hfd] at hY hne
  have hYc : ∀ t ∈ Set.Icc t0 T, ContinuousAt Y t := fun t ht => (hY t ht).contDiff.continuousAt
  have hdz : ∀ t y, dtM f (t, y) = 0 := fun t y => by rw [hfd]; exact (hj.deriv t y).2
  have ht0 : t0 ∈ Set.Icc t0 T := ⟨le_rfl, hT⟩
  have h0 : SmoothIVP f 5 t0 Y := hY t0 ht0
  obtain ⟨B, ρ, hB, hρ, htube⟩ := rb_tube (f := f) (Y := Y) (t0 := t0) (T := T) fun t ht => (hY t ht).mono (by omega)
  obtain ⟨C, δ, hC, hδ, hmain⟩ := epi3_tailE hY
  -- the first step
  have hfirst : (fun h => mapRB2 f (h, t0, (Y t0, 0)) - Y (t0 + h)) =O[𝓝 0] fun h => h ^ 3 := by
    have := (rbMap_facts (f := f) (m := "exprb2") (p := 2) (by simp [rbOrders])).2.2.2 t0 Y (h0.mono (by norm_num))
    simp only [rbMap, String.reduceEq, if_false, hdz] at this
    exact this
  obtain ⟨C1, hC1, hb⟩ := hfirst.exists_pos
  rw [IsBigOWith, Metric.eventually_nhds_iff] at hb
  obtain ⟨δ1, hδ1, hb⟩ := hb
  -- bounds along the run
  have hsm : ∀ t ∈ Set.Icc t0 T, ContDiffAt ℝ 2 (mapEpi3E f) (0, t, (Y t, (Y t, 0))) := fun t ht =>
    mapEpi3E_smooth (m := 2) ((hY t ht).mono (by norm_num) : SmoothIVP f 3 t Y).smooth
  have hrs : ∀ t ∈ Set.Icc t0 T, ContDiffAt ℝ 2 (remP f) (0, t, (Y t, Y t)) := fun t ht =>
    remP_smooth (m := 2) ((hY t ht).mono (by norm_num) : SmoothIVP f 3 t Y).smooth
  obtain ⟨Bl, ρl, hBl, hρl, htl⟩ := tube_lipschitz (G := fun q : ℝ × ℝ × (Vec n × Vec n) => q.1 • remP f q)
    (x := fun s => ((Y s, Y s) : Vec n × Vec n)) (a := t0) (b := T)
    (fun t ht => contDiffAt_fst.smul (hrs t ht)) (fun t x => by simp) (fun t ht => (hYc t ht).prodMk (hYc t ht))
  obtain ⟨Bd, ρd, hBd, hρd, htd⟩ := tube_bound (G := fun q : ℝ × ℝ × Vec n => remP f (q.1, q.2.1, (q.2.2, q.2.2)))
    (x := Y) (a := t0) (b := T)
    (fun t ht => ContDiffAt.comp (g := remP f) (f := fun q : ℝ × ℝ × Vec n => (q.1, q.2.1, (q.2.2, q.2.2))) (0, t, Y t) (hrs t ht) (by fun_prop))
    (fun t x => by simp [remP]) hYc
  obtain ⟨Gs, ρg, hGs, hρg, htg⟩ := tube_bound (G := fun q : ℝ × ℝ × (Vec n × (Vec n × Vec n)) => mapEpi3E f q - q.2.2.1)
    (x := fun s => ((Y s, (Y s, 0)) : Vec n × (Vec n × Vec n))) (a := t0) (b := T)
    (fun t ht => (hsm t ht).sub (by fun_prop)) (fun t x => by simp [mapEpi3E_zero])
    (fun t ht => (hYc t ht).prodMk ((hYc t ht).prodMk continuousAt_const))
  obtain ⟨By, ρy, hBy, hρy, hty⟩ := tube_bound (G := fun q : ℝ × ℝ × Vec n => Y (q.2.1 + q.1) - Y q.2.1)
    (x := Y) (a := t0) (b := T)
    (fun t ht => by
      have h2 : ContDiffAt ℝ 2 Y t := (hY t ht).contDiff.of_le (by norm_cast)
      refine ContDiffAt.sub (ContDiffAt.comp (g := Y) (f := fun q : ℝ × ℝ × Vec n => q.2.1 + q.1) (0, t, Y t) ?_ (by fun_prop))
        (ContDiffAt.comp (g := Y) (f := fun q : ℝ × ℝ × Vec n => q.2.1) (0, t, Y t) h2 (by fun_prop))
      simpa using h2) (fun t x => by simp) hYc
  obtain ⟨G, hG⟩ : ∃ G, G = C1 + B + By + Gs := ⟨_, rfl⟩
  have hG0 : 0 ≤ G := by rw [hG]; positivity
  obtain ⟨Bp, hBp⟩ : ∃ Bp, Bp = Bl * G + Bd := ⟨_, rfl⟩
  have hBp0 : 0 ≤ Bp := by rw [hBp]; positivity
  obtain ⟨b', hb'⟩ : ∃ b', b' = B + Bp + 1 := ⟨_, rfl⟩
  have hb'1 : 1 ≤ b' := by rw [hb']; linarith
  obtain ⟨X, hX⟩ : ∃ X, X = 1 + C1 + 2 * B + b' + By + 4 * C * (1 + C1 + B + b') := ⟨_, rfl⟩
  have hCC : 0 ≤ C * (1 + C1 + B + b') := by positivity
  have hX1 : 1 ≤ X := by rw [hX]; linarith
  obtain ⟨μ, hμ⟩ : ∃ μ, μ = min (min (min δ 1) (min δ1 ρ)) (min (min ρl ρd) (min ρg ρy)) := ⟨_, rfl⟩
  have hμ0 : 0 < μ := by rw [hμ]; positivity
  have n1 : μ ≤ δ := by rw [hμ]; exact (min_le_left _ _).trans ((min_le_left _ _).trans (min_le_left _ _))
  have n2 : μ ≤ 1 := by rw [hμ]; exact (min_le_left _ _).trans ((min_le_left _ _).trans (min_le_right _ _))
  have n3 : μ ≤ δ1 := by rw [hμ]; exact (min_le_left _ _).trans ((min_le_right _ _).trans (min_le_left _ _))
  have n4 : μ ≤ ρ := by rw [hμ]; exact (min_le_left _ _).trans ((min_le_right _ _).trans (min_le_right _ _))
  have n5 : μ ≤ ρl := by rw [hμ]; exact (min_le_right _ _).trans ((min_le_left _ _).trans (min_le_left _ _))
  have n6 : μ ≤ ρd := by rw [hμ]; exact (min_le_right _ _).trans ((min_le_left _ _).trans (min_le_right _ _))
  have n7 : μ ≤ ρg := by rw [hμ]; exact (min_le_right _ _).trans ((min_le_right _ _).trans (min_le_left _ _))
  have n8 : μ ≤ ρy := by rw [hμ]; exact (min_le_right _ _).trans ((min_le_right _ _).trans (min_le_right _ _))
  refine ⟨C * (1 + C1 + B + b'), μ / (4 * X), B, hCC, by positivity, hB, ?_⟩
  intro K dt κ1 κ tol N osteps s1 s0 hdt hdtδ hκ1 hκ1δ hκ hκδ hK1 hK hN ho hn1 hn0
  have hsc : ∀ x z, 0 ≤ z → z ≤ X → x ≤ μ / (4 * X) → x * z ≤ μ / 4 := by
    intro x z hz0 hz hx
    have h1 : x * z ≤ μ / (4 * X) * X := mul_le_mul hx hz hz0 (by positivity)
    have h2 : μ / (4 * X) * X = μ / 4 := by field_simp
    linarith
  have d0 : dt ≤ μ / 4 := by
    have := hsc dt 1 zero_le_one hX1 hdtδ
    linarith
  have k10 : κ1 ≤ μ / 4 := by
    have := hsc κ1 1 zero_le_one hX1 hκ1δ
    linarith
  have hdt1 : dt ≤ 1 := by linarith
  have habs : |dt| = dt := abs_of_pos hdt
  obtain ⟨ε, hε⟩ : ∃ ε, ε = κ * b' := ⟨_, rfl⟩
  obtain ⟨η, hη⟩ : ∃ η, η = C1 * dt ^ 3 + dt * κ1 * B := ⟨_, rfl⟩
  have hε0 : 0 ≤ ε := by rw [hε]; positivity
  have hη0 : 0 ≤ η := by rw [hη]; positivity
  have hεμ : ε ≤ μ / 4 := by
    rw [hε]
    exact hsc κ b' (by linarith) (by rw [hX]; linarith) hκδ
  have hd3 : dt ^ 3 ≤ dt := by
    calc dt ^ 3 ≤ dt ^ 1 := pow_le_pow_of_le_one hdt.le hdt1 (by norm_num)
      _ = dt := pow_one dt
  have hd30 : 0 ≤ dt ^ 3 := by positivity
  have hdk : dt * κ1 ≤ dt := mul_le_of_le_one_right hdt.le (by linarith)
  have hηdt : η ≤ (C1 + B) * dt := by
    rw [hη]
    have p1 := mul_le_mul_of_nonneg_left hd3 hC1.le
    have p2 := mul_le_mul_of_nonneg_right hdk hB
    linarith
  have hημ : η ≤ μ / 4 := by
    have := hsc dt (C1 + B) (by positivity) (by rw [hX]; linarith) hdtδ
    linarith
  obtain ⟨E, hE⟩ : ∃ E, E = C * (dt ^ 3 + ε + η) := ⟨_, rfl⟩
  have hE0 : 0 ≤ E := by rw [hE]; positivity
  have hEμ : E ≤ μ / 4 := by
    have p1 : E ≤ C * (dt + κ * b' + (C1 + B) * dt) := by
      rw [hE, hε]
      exact mul_le_mul_of_nonneg_left (by linarith) hC
    have p2 : C * (1 + C1 + B) * dt ≤ μ / 4 / 4 := by
      have := hsc dt (4 * (C * (1 + C1 + B))) (by positivity) (by
        rw [hX]
        have : 0 ≤ C * b' := by positivity
        linarith) hdtδ
      linarith
    have p3 : C * b' * κ ≤ μ / 4 / 4 := by
      have := hsc κ (4 * (C * b')) (by positivity) (by
        rw [hX]
        have : 0 ≤ C * (1 + C1 + B) := by positivity
        linarith) hκδ
      linarith
    linarith
  have hdβ : dt * (B + Bp + 1) ≤ 1 := by
    have := hsc dt b' (by linarith) (by rw [hX]; linarith) hdtδ
    rw [hb'] at this
    linarith
  have hin : ∀ k ≤ N, t0 + (k : ℝ) * dt ∈ Set.Icc t0 T := by
    intro k hk
    have h1 : (k : ℝ) ≤ N := by exact_mod_cast hk
    have h2 := mul_le_mul_of_nonneg_right h1 hdt.le
    have h3 : 0 ≤ (k : ℝ) * dt := by positivity
    constructor <;> linarith
  have hforw : ∀ k < N, ‖Y (t0 + k * dt + dt) - Y (t0 + k * dt)‖ ≤ By * dt := by
    intro k hk
    have := hty _ (hin k hk.le) dt (Y (t0 + k * dt)) (by rw [habs]; linarith) (by simpa using hρy)
    rwa [habs] at this
  have hBydt : By * dt ≤ μ / 4 := by
    have := hsc dt By hBy (by rw [hX]; linarith) hdtδ
    linarith
  obtain ⟨g1, g2, g3, g4⟩ := epirk_built hn1 hn0
  obtain ⟨Rel, hRel⟩ : ∃ Rel : ℕ → (ℕ → Vec n) → Prop, Rel = fun k u => ‖u (k + 1) - u k‖ ≤ G * dt ∧
      (k = 0 → ‖u 1 - Y (t0 + dt)‖ ≤ η) ∧
      (∀ j : ℕ, k = j + 1 → ∃ d, ‖d‖ ≤ ε ∧ u (j + 2) = mapEpi3E f (dt, t0 + dt + j * dt, (u (j + 1), (u j, d)))) := ⟨_, rfl⟩
  have hbound : ∀ k ≤ N, ∀ u : ℕ → Vec n, u 0 = Y t0 → (∀ j < k, Rel j u) → ∀ j ≤ k, ‖u j - Y (t0 + j * dt)‖ ≤ E := by
    intro k hk u hu0 hr
    rcases k with _ | k
    · intro j hj
      rw [Nat.le_zero.1 hj]
      have : u 0 - Y (t0 + ((0 : ℕ) : ℝ) * dt) = 0 := by simp [hu0]
      rw [this, norm_zero]
      exact hE0
    · rw [hRel] at hr
      rw [hE]
      exact hmain dt ε η k u hdt (by linarith) hε0 (by linarith) hη0 (by linarith) (hin _ hk).2 hu0
        ((hr 0 (by omega)).2.1 rfl) (fun j hj => (hr (j + 1) (by omega)).2.2 j rfl)
  obtain ⟨u, q1, q2, q3⟩ := rs_tube (Epirk.integrator K sys)
    (fun o k u => o.method = "epi3" ∧ AtRs o (t0 + k * dt) (u k) ∧ o.yHist.length = k + 1 ∧
      (0 < k → rsGet o.yHist 1 = .ok (u (k - 1)) ∧ ∃ tp, rsGet o.tHist 1 = .ok tp)) Rel
    (fun k u => u 0 = Y t0 ∧ (∀ j ≤ k, ‖u j - Y (t0 + j * dt)‖ ≤ E) ∧ (0 < k → ‖u k - u (k - 1)‖ ≤ G * dt)) t0 dt (Y t0) N
    (fun k hk u hu0 hr => ⟨hu0, hbound k hk u hu0 hr, fun h => by
      have := hr (k - 1) (by omega)
      rw [hRel] at this
      have h2 := this.1
      rwa [Nat.sub_add_cancel h] at h2⟩)
    (by
      rintro o k u hk ⟨hu0, hg, hgd⟩ ⟨i1, i2, i3, i4⟩
      have hnext : ∀ r : StepRes n, r.t = t0 + k * dt + dt → u (k + 1) = r.y →
          ((Epirk.integrator K sys).accept o r).method = "epi3" ∧
          AtRs ((Epirk.integrator K sys).accept o r) (t0 + ((k + 1 : ℕ) : ℝ) * dt) (u (k + 1)) ∧
          ((Epirk.integrator K sys).accept o r).yHist.length = k + 1 + 1 ∧
          (0 < k + 1 → rsGet ((Epirk.integrator K sys).accept o r).yHist 1 = .ok (u (k + 1 - 1)) ∧
            ∃ tp, rsGet ((Epirk.integrator K sys).accept o r).tHist 1 = .ok tp) := by
        intro r hrt hry
        have e : t0 + ((k + 1 : ℕ) : ℝ) * dt = r.t := by rw [hrt]; push_cast; ring
        refine ⟨i1, ?_, ?_, fun _ => ⟨?_, t0 + k * dt, ?_⟩⟩
        · rw [e, hry]
          exact ⟨rfl, rfl, rfl⟩
        · show (_ :: o.yHist).length = _
          rw [List.length_cons, i3]
        · exact i2.yNew
        · exact i2.tNew
      have hyk := hg k le_rfl
      obtain ⟨b1, -, b3, -, -⟩ := htube _ (hin k hk.le) (u k) 0 0 0 (by linarith) (by rw [hdz]; simpa using hρ)
        (by simpa using hρ) (by simpa using hρ)
      rcases k with _ | k
      · have e0 : t0 + ((0 : ℕ) : ℝ) * dt = t0 := by simp
        rw [e0, hu0] at i2 b1 b3
        have hnz : sys.frhs t0 (Y t0) ≠ 0 := by rw [← hfd]; exact hne
        obtain ⟨d, hd, hstep⟩ := rs_step2_approx hK1 hj o i2 hdt hnz (by rw [← hfd]; exact b3)
        rw [← hfd] at hd hstep
        have hdB : ‖d‖ ≤ κ1 * B := hd.trans (mul_le_mul_of_nonneg_left b1 hκ1)
        have hz : ‖stageE f 1 0 (dt, t0, (Y t0, (0, fun _ => d))) - Y (t0 + dt)‖ ≤ η := by
          have h1 := hb (y := dt) (by rw [Real.dist_eq, sub_zero, habs]; linarith)
          rw [Real.norm_of_nonneg hd30] at h1
          have e1 : stageE f 1 0 (dt, t0, (Y t0, (0, fun _ => d))) - Y (t0 + dt)
              = (mapRB2 f (dt, t0, (Y t0, 0)) - Y (t0 + dt)) + dt • d := by
            unfold stageE mapRB2
            abel
          rw [e1, hη]
          refine (norm_add_le _ _).trans ?_
          rw [norm_smul, Real.norm_of_nonneg hdt.le]
          have := mul_le_mul_of_nonneg_left hdB hdt.le
          linarith
        refine ⟨StepRes.mk (t0 + dt) dt (stageE f 1 0 (dt, t0, (Y t0, (0, fun _ => d)))) none, ?_, rfl, ?_, fun hu => ⟨?_, hnext _ (by rw [e0]) hu⟩⟩
        · show Epirk.step K sys o dt = _
          unfold Epirk.step
          rw [i1, if_neg (by decide), if_pos rfl, if_neg (by omega)]
          exact hstep
        · show t0 + dt = _
          push_cast; ring
        · rw [hRel]
          have hu' : u 1 = stageE f 1 0 (dt, t0, (Y t0, (0, fun _ => d))) := hu
          refine ⟨?_, fun _ => by rw [hu']; exact hz, fun j hj => absurd hj (by omega)⟩
          have h2 := hforw 0 hk
          rw [e0] at h2
          show ‖u 1 - u 0‖ ≤ _
          rw [hu', hu0, hG]
          have e1 : stageE f 1 0 (dt, t0, (Y t0, (0, fun _ => d))) - Y t0
              = (stageE f 1 0 (dt, t0, (Y t0, (0, fun _ => d))) - Y (t0 + dt)) + (Y (t0 + dt) - Y t0) := by abel
          rw [e1]
          refine (norm_add_le _ _).trans ?_
          have : 0 ≤ Gs * dt := by positivity
          linarith
      · obtain ⟨j1, tp, j2⟩ := i4 (by omega)
        have q4 := hgd (by omega)
        rw [Nat.add_sub_cancel] at j1 q4
        obtain ⟨t, ht⟩ : ∃ t, t = t0 + ((k + 1 : ℕ) : ℝ) * dt := ⟨_, rfl⟩
        have etk : t0 + k * dt + dt = t := by rw [ht]; push_cast; ring
        have hint : t ∈ Set.Icc t0 T := by rw [ht]; exact hin _ hk.le
        rw [← ht] at i2 hyk b1 b3
        have hprev := hg k (by omega)
        have hbk := hforw k (by omega)
        rw [etk] at hbk
        have hukp : ‖u k - Y t‖ ≤ μ / 2 := by
          have e1 : u k - Y t = (u k - Y (t0 + k * dt)) - (Y t - Y (t0 + k * dt)) := by abel
          rw [e1]
          refine (norm_sub_le _ _).trans ?_
          linarith
        have hrp : ‖remP f (dt, t, (u (k + 1), u k))‖ ≤ Bp * dt := by
          have h1 := htl t hint dt (u (k + 1), u k) (u (k + 1), u (k + 1)) (by rw [habs]; linarith) (by
            rw [Prod.mk_sub_mk, Prod.norm_mk]
            exact max_lt (by linarith) (by linarith)) (by
            rw [Prod.mk_sub_mk, Prod.norm_mk]
            exact max_lt (by linarith) (by linarith))
          have h2 := htd t hint dt (u (k + 1)) (by rw [habs]; linarith) (by linarith)
          simp only [Prod.mk_sub_mk, sub_self, Prod.norm_mk, norm_zero] at h1 h2
          rw [← smul_sub, norm_smul, Real.norm_of_nonneg hdt.le, habs, max_eq_right (norm_nonneg _), mul_comm Bl dt, mul_assoc] at h1
          rw [habs] at h2
          have h3 := le_of_mul_le_mul_left h1 hdt
          rw [norm_sub_rev (u k)] at h3
          have h4 := h3.trans (mul_le_mul_of_nonneg_left q4 hBl)
          have e1 : remP f (dt, t, (u (k + 1), u k)) = (remP f (dt, t, (u (k + 1), u k)) - remP f (dt, t, (u (k + 1), u (k + 1))))
            + remP f (dt, t, (u (k + 1), u (k + 1))) := by abel
          rw [e1]
          refine (norm_add_le _ _).trans ((add_le_add h4 h2).trans (le_of_eq ?_))
          rw [hBp]; ring
        obtain ⟨d, hd, hstep⟩ := rs_step3_approx hK hj o i2 j2 j1 hdt (by rw [← hfd]; exact b3) (by rw [← hfd]; exact b1) hBp0
          (by rw [← hfd]; exact hrp) hdβ
        rw [← hfd] at hstep
        rw [← hb', ← hε] at hd
        have hst2 : ‖mapEpi3E f (dt, t, (u (k + 1), (u k, d))) - u (k + 1)‖ ≤ G * dt := by
          have h1 := htg t hint dt (u (k + 1), (u k, d)) (by rw [habs]; linarith) (by
            rw [Prod.mk_sub_mk, Prod.norm_mk, Prod.mk_sub_mk, Prod.norm_mk, sub_zero]
            exact max_lt (by linarith) (max_lt (by linarith) (by linarith)))
          rw [habs] at h1
          refine h1.trans (mul_le_mul_of_nonneg_right ?_ hdt.le)
          rw [hG]
          linarith
        refine ⟨StepRes.mk (t + dt) dt (mapEpi3E f (dt, t, (u (k + 1), (u k, d)))) none, ?_, rfl, ?_, fun hu => ⟨?_, hnext _ (by rw [← ht]) hu⟩⟩
        · show Epirk.step K sys o dt = _
          unfold Epirk.step
          rw [i1, if_neg (by decide), if_pos rfl, if_pos (by omega)]
          exact hstep
        · show t + dt = _
          rw [ht]
          push_cast; ring
        · rw [hRel]
          have hu' : u (k + 1 + 1) = mapEpi3E f (dt, t, (u (k + 1), (u k, d))) := hu
          refine ⟨by rw [hu']; exact hst2, fun h => absurd h (by omega), fun j hj => ?_⟩
          have hjk : j = k := by omega
          subst hjk
          refine ⟨d, hd, ?_⟩
          rw [show t0 + dt + (j : ℝ) * dt = t by rw [← etk]; ring]
          exact hu')
    s0 (by show rsGet s0.yHist 0 = _; rw [g3]; rfl) g2
    (fun u hu0 => ⟨g1, ⟨by simp [g2], by rw [g4]; simp [rsGet], by rw [g3, hu0]; rfl⟩, by rw [g3]; rfl, fun h => absurd h (by omega)⟩)
    osteps ho
  refine ⟨_, q3, rsAccurate_of fun k hk => (hbound N le_rfl u q1 q2 k hk).trans ?_⟩
  rw [hE, hε, hη]
  refine (mul_le_mul_of_nonneg_left ?_ hC).trans (le_of_eq (mul_assoc _ _ _).symm)
  have p1 : 0 ≤ dt * κ1 := by positivity
  have p2 : 0 ≤ (B + b') * dt ^ 3 := by positivity
  have p3 : 0 ≤ (1 + C1 + b') * (dt * κ1) := by positivity
  have p4 : 0 ≤ (1 + C1 + B) * κ := by positivity
  linarith

end
end Ormatex.Props
