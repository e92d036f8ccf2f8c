import Verif.Props.RsRobustRk
import Verif.Props.RobustStep
import Verif.Props.RsExp

/-!
C122: the exponential integrators of the crate on right-hand sides that are only Lipschitz near the solution, with any bounded
matrices in the place of the Jacobian and approximate phi products.
-/

namespace Ormatex.Props
open Filter Asymptotics Topology Matrix Ormatex.Spec Ormatex.Rs
open scoped Classical NNReal
open scoped Matrix.Norms.Operator

set_option linter.unusedSectionVars false

section
variable {n : ℕ}

/-- **Specification.** Products `phi_k(dt A) v`, `k = 1, 2, 3`, of operators of norm at most `R`: they are computed for nonzero
vectors, and every product that is returned has relative error at most `κ`. -/
structure ApproxPhis (K : Kern n) (dt R κ : ℝ) : Prop where
  def' : ∀ (A : LinOp n) (M : Mat n), IsMatrix A M → ‖M‖ ≤ R → ∀ (v : Vec n) (k : ℕ), 1 ≤ k → k ≤ 3 → v ≠ 0 →
    ∃ w, K.phi A dt v k = .ok w
  acc : ∀ (A : LinOp n) (M : Mat n), IsMatrix A M → ‖M‖ ≤ R → ∀ (v : Vec n) (k : ℕ), 1 ≤ k → k ≤ 3 → ∀ w, K.phi A dt v k = .ok w →
    ‖w - phiM k (dt • M) *ᵥ v‖ ≤ κ * ‖v‖

/-- **Specification.** `kiops_fixedsteps` computes `phi_1(dt A) a + phi_2(dt A) b` with an error of at most `κ β` for vectors of norm at
most `β`, the second even at most `dt β`, where `dt ≤ β ≤ 1`. -/
def ApproxKiopsRs (K : Kern n) (dt R κ : ℝ) : Prop :=
  ∀ (A : LinOp n) (M : Mat n), IsMatrix A M → ‖M‖ ≤ R → ∀ (a b : Vec n) (β : ℝ), dt ≤ β → β ≤ 1 → ‖a‖ ≤ β → ‖b‖ ≤ dt * β →
    ∃ w, K.kiops dt A [0, a, b] 1 = .ok w ∧ ‖w - (phiM 1 (dt • M) *ᵥ a + phiM 2 (dt • M) *ᵥ b)‖ ≤ κ * β

/-- exact products satisfy the specifications with `κ = 0` -/
theorem exact_approxPhis {K : Kern n} (hK : ExactKern K) (hz : ∀ A dt k, K.phi A dt 0 k = .error .nan) (dt R : ℝ) : ApproxPhis K dt R 0 := by
  refine ⟨fun A M hA _ v k _ _ hv => ⟨_, hK.phi A M hA dt v k hv⟩, fun A M hA _ v k _ _ w hw => ?_⟩
  by_cases hv : v = 0
  · rw [hv, hz] at hw; cases hw
  · rw [hK.phi A M hA dt v k hv] at hw
    cases hw
    simp

theorem exact_approxKiops {K : Kern n} (hK : ExactKern K) (dt R : ℝ) : ApproxKiopsRs K dt R 0 := by
  intro A M hA _ a b β _ _ _ _
  refine ⟨_, hK.kiops A M hA dt [0, a, b] (by simp), ?_⟩
  simp [Finset.sum_range_succ]

section step
variable {K : Kern n} {sys : Sys n} {s : Epirk n} {t : ℝ} {y : Vec n} {dt κ B Λ : ℝ} {J : Mat n}
  (hdt : 0 < dt) (hdt1 : dt ≤ 1) (hκ : 0 ≤ κ) (hκ1 : κ ≤ 1) (hs : AtRs s t y) (hF : ‖sys.frhs t y‖ ≤ B)
  (hK : ApproxPhis K dt B κ) (hJ : IsMatrix (sys.fjac t y) J) (hJB : ‖J‖ ≤ B) (hv : s.tolFdt < 0 ∨ ‖rsFdt sys t y‖ ≤ B)

include hdt hκ hs hF hK hJ hJB hv in
theorem fphi2V_rob : ∃ e2 v η, Epirk.fphi2V K sys s (sys.frhs t y) (sys.fjac t y) dt = .ok (e2, v) ∧ ‖v‖ ≤ B ∧ ‖η‖ ≤ B ∧
    ‖e2 - dt ^ 2 • (phiM 2 (dt • J) *ᵥ η)‖ ≤ dt ^ 2 * (κ * B) := by
  have hB : 0 ≤ B := (norm_nonneg _).trans hF
  have hz : ‖(0 : Vec n) - dt ^ 2 • (phiM 2 (dt • J) *ᵥ (0 : Vec n))‖ ≤ dt ^ 2 * (κ * B) := by
    simp only [Matrix.mulVec_zero, smul_zero, sub_zero, norm_zero]; positivity
  unfold Epirk.fphi2V
  by_cases h : s.tolFdt < 0
  · rw [if_pos h]
    exact ⟨0, 0, 0, rfl, by simpa using hB, by simpa using hB, hz⟩
  · rw [if_neg h]
    have hvB := hv.resolve_left h
    have hf : Epirk.frhsFdt sys s (sys.frhs t y) 1e-8 = .ok (rsFdt sys t y) := by
      unfold Epirk.frhsFdt
      rw [hs.yNew, hs.time]
      rfl
    rw [hf]
    by_cases h2 : ‖rsFdt sys t y‖ > s.tolFdt
    · have hne : rsFdt sys t y ≠ 0 := by
        intro h0
        rw [h0, norm_zero] at h2
        exact h h2
      obtain ⟨w, hw⟩ := hK.def' _ _ hJ hJB (rsFdt sys t y) 2 (by norm_num) (by norm_num) hne
      have ha := hK.acc _ _ hJ hJB (rsFdt sys t y) 2 (by norm_num) (by norm_num) w hw
      refine ⟨dt ^ 2 • w, rsFdt sys t y, rsFdt sys t y, ?_, hvB, hvB, ?_⟩
      · simp only [Bind.bind, Except.bind, if_pos h2, hw, Pure.pure, Except.pure]
      · rw [← smul_sub, norm_smul, Real.norm_of_nonneg (by positivity)]
        exact mul_le_mul_of_nonneg_left (ha.trans (mul_le_mul_of_nonneg_left hvB hκ)) (by positivity)
    · refine ⟨0, rsFdt sys t y, 0, ?_, hvB, by simpa using hB, hz⟩
      simp only [Bind.bind, Except.bind, if_neg h2, Pure.pure, Except.pure]

include hdt hdt1 hκ hκ1 in
/-- the first stage -/
theorem rs_stage {F e2 p1 η : Vec n} (hF : ‖F‖ ≤ B) (hJB : ‖J‖ ≤ B) (hη : ‖η‖ ≤ B)
    (h2 : ‖e2 - dt ^ 2 • (phiM 2 (dt • J) *ᵥ η)‖ ≤ dt ^ 2 * (κ * B))
    (h1 : ‖p1 - phiM 1 (dt • J) *ᵥ (dt • F)‖ ≤ κ * ‖dt • F‖) :
    ‖y + e2 + p1 - y - dt • F‖ ≤ dt * (((B + 1) * (Real.exp B * B) + 4 * B) * (dt + κ)) ∧ ‖y + e2 + p1 - y‖ ≤ dt * stageSize B := by
  have hB : 0 ≤ B := (norm_nonneg _).trans hF
  have hd : ‖y + e2 + p1 - rosEuler J y F η dt 1‖ ≤ dt * (κ * (2 * B)) := by
    have e : y + e2 + p1 - rosEuler J y F η dt 1 = (e2 - dt ^ 2 • (phiM 2 (dt • J) *ᵥ η)) + (p1 - phiM 1 (dt • J) *ᵥ (dt • F)) := by
      unfold rosEuler
      simp only [one_mul, one_pow, Matrix.mulVec_smul]
      abel
    rw [e]
    refine (norm_add_le _ _).trans ?_
    have a1 : dt ^ 2 * (κ * B) ≤ dt * (κ * B) := mul_le_mul_of_nonneg_right (by nlinarith) (by positivity)
    have a2 : κ * ‖dt • F‖ ≤ dt * (κ * B) := by
      rw [norm_smul, Real.norm_of_nonneg hdt.le]
      calc κ * (dt * ‖F‖) ≤ κ * (dt * B) := by gcongr
        _ = _ := by ring
    linarith
  have b1 := ros_euler_le (y := y) hJB hdt hdt1 hF hη
  have b2 := ros_stage_le (y := y) hJB hdt hdt1 hF hη one_pos le_rfl
  constructor
  · have e : y + e2 + p1 - y - dt • F = (y + e2 + p1 - rosEuler J y F η dt 1) + (rosEuler J y F η dt 1 - y - dt • F) := by abel
    rw [e]
    refine (norm_add_le _ _).trans ?_
    have hE := Real.exp_pos B
    have h3 : 0 ≤ (B + 1) * (Real.exp B * B) := by positivity
    obtain ⟨X, hX⟩ : ∃ X, X = (B + 1) * (Real.exp B * B) := ⟨_, rfl⟩
    rw [← hX] at b1 h3 ⊢
    have h4 : 0 ≤ dt * (X * κ) := by positivity
    have h5 : 0 ≤ dt * (B * dt) := by positivity
    have h6 : 0 ≤ dt * (B * κ) := by positivity
    nlinarith
  · have e : y + e2 + p1 - y = (y + e2 + p1 - rosEuler J y F η dt 1) + (rosEuler J y F η dt 1 - y) := by abel
    rw [e]
    refine (norm_add_le _ _).trans ?_
    have h3 : κ * (2 * B) ≤ 2 * B := by nlinarith
    have h4 := mul_le_mul_of_nonneg_left h3 hdt.le
    unfold stageSize
    linarith

include hdt hdt1 hκ hκ1 hs hF hK hJ hJB hv

/-- one step of `epi2` and `exprb2`, and the first one of `epi3` -/
theorem rs_step2_rob (hΛ : 0 ≤ Λ) : (∀ r, Epirk.stepOrder2 K sys s dt = .ok r → r.t = t + dt ∧
      ‖r.y - y - dt • sys.frhs t y‖ ≤ dt * (robustConst B Λ * (dt + κ)) ∧ ‖r.y - y‖ ≤ dt * stageSize B) ∧
    (sys.frhs t y ≠ 0 → ∃ r, Epirk.stepOrder2 K sys s dt = .ok r) := by
  have hB : 0 ≤ B := (norm_nonneg _).trans hF
  obtain ⟨e2, v, η, h1, -, hη, h2⟩ := fphi2V_rob hdt hκ hs hF hK hJ hJB hv
  have hstep : Epirk.stepOrder2 K sys s dt = (do
      let p ← K.phi (sys.fjac t y) dt (dt • sys.frhs t y) 1
      pure (StepRes.mk (t + dt) dt (y + e2 + p) none)) := by
    unfold Epirk.stepOrder2
    rw [hs.yNew, hs.time]
    simp only [Bind.bind, Except.bind, h1]
  rw [hstep]
  constructor
  · intro r hr
    cases hp : K.phi (sys.fjac t y) dt (dt • sys.frhs t y) 1 with
    | error e => rw [hp] at hr; cases hr
    | ok p =>
      rw [hp] at hr
      cases hr
      obtain ⟨a1, a2⟩ := rs_stage (y := y) hdt hdt1 hκ hκ1 hF hJB hη h2 (hK.acc _ _ hJ hJB _ 1 le_rfl (by norm_num) p hp)
      refine ⟨rfl, a1.trans ?_, a2⟩
      refine mul_le_mul_of_nonneg_left (mul_le_mul_of_nonneg_right ?_ (by positivity)) hdt.le
      have := remSize_nonneg hB hΛ
      have := stageSize_nonneg hB
      unfold robustConst
      have : 0 ≤ 200 * (Real.exp B + 1) * remSize B Λ := by positivity
      have : 0 ≤ 10 * (Real.exp B + 1) * stageSize B := by positivity
      linarith
  · intro hf
    obtain ⟨p, hp⟩ := hK.def' _ _ hJ hJB (dt • sys.frhs t y) 1 le_rfl (by norm_num) (smul_ne_zero hdt.ne' hf)
    rw [hp]
    exact ⟨_, rfl⟩

/-- one step of `exprb3` -/
theorem rs_exprb3_rob (hΛ : 0 ≤ Λ)
    (hf : ∀ z, ‖z - y‖ ≤ dt * stageSize B → ‖sys.frhs (t + dt) z - sys.frhs t y‖ ≤ Λ * dt) :
    ∀ r, Epirk.stepExprb32 K sys s dt = .ok r → r.t = t + dt ∧
      ‖r.y - y - dt • sys.frhs t y‖ ≤ dt * (robustConst B Λ * (dt + κ)) := by
  have hB : 0 ≤ B := (norm_nonneg _).trans hF
  obtain ⟨e2, v, η, h1, hvB, hη, h2⟩ := fphi2V_rob hdt hκ hs hF hK hJ hJB hv
  intro r hr
  unfold Epirk.stepExprb32 at hr
  rw [hs.yNew, hs.time] at hr
  simp only [Bind.bind, Except.bind, h1] at hr
  cases hp : K.phi (sys.fjac t y) dt (dt • sys.frhs t y) 1 with
  | error e => rw [hp] at hr; cases hr
  | ok p =>
    rw [hp] at hr
    simp only at hr
    obtain ⟨a1, a2⟩ := rs_stage (y := y) hdt hdt1 hκ hκ1 hF hJB hη h2 (hK.acc _ _ hJ hJB _ 1 le_rfl (by norm_num) p hp)
    obtain ⟨z, hz⟩ : ∃ z, z = y + e2 + p := ⟨_, rfl⟩
    rw [← hz] at a1 a2 hr
    rw [rsRemf_closed sys s hs _ _ _ _ J hJ] at hr
    simp only [add_sub_cancel_left] at hr
    have hrem := rem_le (c := 1) hJB hdt hvB zero_le_one le_rfl a2 (hf z a2)
    rw [one_mul] at hrem
    obtain ⟨q, hq⟩ : ∃ q, q = sys.frhs (t + dt) z - sys.frhs t y - J *ᵥ (z - y) - dt • v := ⟨_, rfl⟩
    rw [← hq] at hrem hr
    cases hp3 : K.phi (sys.fjac t y) dt q 3 with
    | error e => rw [hp3] at hr; cases hr
    | ok p3 =>
      rw [hp3] at hr
      cases hr
      refine ⟨rfl, ?_⟩
      have h3 := hK.acc _ _ hJ hJB q 3 (by norm_num) le_rfl p3 hp3
      have hH := remSize_nonneg hB hΛ
      have hS := stageSize_nonneg hB
      have hE := Real.exp_pos B
      have h4 : ‖phiM 3 (dt • J) *ᵥ q‖ ≤ Real.exp B * (remSize B Λ * dt) :=
        (phi_le hJB hdt.le hdt1 3 q).trans (mul_le_mul_of_nonneg_left hrem hE.le)
      have h5 : κ * ‖q‖ ≤ κ * (remSize B Λ * dt) := mul_le_mul_of_nonneg_left hrem hκ
      have h6 : ‖p3‖ ≤ (Real.exp B + 1) * remSize B Λ * (dt + κ) := by
        have := norm_add_le (p3 - phiM 3 (dt • J) *ᵥ q) (phiM 3 (dt • J) *ᵥ q)
        rw [sub_add_cancel] at this
        have a3 : κ * (remSize B Λ * dt) ≤ remSize B Λ * κ := by
          have : remSize B Λ * κ * dt ≤ remSize B Λ * κ * 1 := mul_le_mul_of_nonneg_left hdt1 (by positivity)
          linarith
        have a4 : 0 ≤ remSize B Λ * dt := by positivity
        have a5 : 0 ≤ Real.exp B * remSize B Λ * κ := by positivity
        linarith
      show ‖z + (2 * dt) • p3 - y - dt • sys.frhs t y‖ ≤ _
      have e : z + (2 * dt) • p3 - y - dt • sys.frhs t y = (z - y - dt • sys.frhs t y) + (2 * dt) • p3 := by abel
      rw [e]
      refine (norm_add_le _ _).trans ?_
      rw [norm_smul, Real.norm_of_nonneg (by positivity : 0 ≤ 2 * dt)]
      have h7 := mul_le_mul_of_nonneg_left h6 (by positivity : 0 ≤ 2 * dt)
      have h8 : 0 ≤ dt * ((Real.exp B + 1) * remSize B Λ * (dt + κ)) := by positivity
      have h9 : 0 ≤ dt * ((Real.exp B + 1) * stageSize B * (dt + κ)) := by positivity
      unfold robustConst
      linarith

/-- one step of `epi3` after the first -/
theorem rs_epi3_rob (hKi : ApproxKiopsRs K dt B κ) {yp : Vec n} {G : ℝ} (hΛ : 0 ≤ Λ) (hG : 0 ≤ G)
    (hy : ‖yp - y‖ ≤ G * dt) (hP : ‖sys.frhs (t - dt) yp - sys.frhs t y‖ ≤ Λ * dt)
    (hβ1 : dt * (B + (Λ + B * G + B) + 1) ≤ 1)
    (htp : rsGet s.tHist 1 = .ok (t - dt)) (hyp : rsGet s.yHist 1 = .ok yp) :
    ∃ r, Epirk.stepOrder3 K sys s dt = .ok r ∧ r.t = t + dt ∧
      ‖r.y - y - dt • sys.frhs t y‖ ≤ dt * ((2 * epiConst B Λ G + 1) * (dt + κ)) := by
  have hB : 0 ≤ B := (norm_nonneg _).trans hF
  obtain ⟨e2, v, η, h1, hvB, hη, h2⟩ := fphi2V_rob hdt hκ hs hF hK hJ hJB hv
  obtain ⟨B', hB'⟩ : ∃ B', B' = Λ + B * G + B := ⟨_, rfl⟩
  have hB'0 : 0 ≤ B' := by rw [hB']; positivity
  obtain ⟨F, hFd⟩ : ∃ F, F = sys.frhs t y := ⟨_, rfl⟩
  obtain ⟨q, hq⟩ : ∃ q, q = sys.frhs (t - dt) yp - sys.frhs t y - J *ᵥ (yp - y) - (t - dt - t) • v := ⟨_, rfl⟩
  have hqn : ‖q‖ ≤ B' * dt := by
    have a1 : ‖J *ᵥ (yp - y)‖ ≤ B * (G * dt) :=
      (Matrix.linfty_opNorm_mulVec _ _).trans (mul_le_mul hJB hy (norm_nonneg _) hB)
    have a2 : ‖(t - dt - t) • v‖ ≤ dt * B := by
      rw [norm_smul, Real.norm_eq_abs, show t - dt - t = -dt by ring, abs_neg, abs_of_pos hdt]
      exact mul_le_mul_of_nonneg_left hvB hdt.le
    have a3 := norm_sub_le (sys.frhs (t - dt) yp - sys.frhs t y) (J *ᵥ (yp - y))
    rw [hq]
    refine (norm_sub_le _ _).trans ?_
    rw [hB']
    linarith
  have hbl : ‖(dt * 2 / 3) • q‖ ≤ dt * (dt * (B + B' + 1)) := by
    rw [norm_smul, Real.norm_of_nonneg (by positivity)]
    have a2 : dt * 2 / 3 * ‖q‖ ≤ dt * (B' * dt) := mul_le_mul (by linarith) hqn (norm_nonneg _) hdt.le
    have a3 : 0 ≤ dt * (dt * (B + 1)) := by positivity
    linarith
  have hbl0 : ‖(dt * 2 / 3) • q‖ ≤ dt * (dt * (B + B')) := by
    rw [norm_smul, Real.norm_of_nonneg (by positivity)]
    have a2 : dt * 2 / 3 * ‖q‖ ≤ dt * (B' * dt) := mul_le_mul (by linarith) hqn (norm_nonneg _) hdt.le
    have a3 : 0 ≤ dt * (dt * B) := by positivity
    linarith
  obtain ⟨w, hw, hwe⟩ := hKi _ _ hJ hJB (dt • sys.frhs t y) ((dt * 2 / 3) • q) (dt * (B + B' + 1))
    (by
      have : 0 ≤ dt * (B + B') := by positivity
      linarith)
    (by rw [hB']; exact hβ1)
    (by
      rw [norm_smul, Real.norm_of_nonneg hdt.le]
      exact mul_le_mul_of_nonneg_left (by linarith) hdt.le)
    hbl
  have er : Epirk.remf sys s (t - dt) yp (sys.frhs t y) (sys.fjac t y) (some v) = .ok q := by
    rw [rsRemf_closed sys s hs _ _ _ _ J hJ, hq]
  refine ⟨StepRes.mk (t + dt) dt (y + w + e2) none, ?_, rfl, ?_⟩
  · unfold Epirk.stepOrder3
    rw [hs.yNew, hs.time, htp, hyp]
    simp only [Bind.bind, Except.bind, Pure.pure, Except.pure, h1, er, hw]
  rw [← hFd] at hF hwe ⊢
  have hE := Real.exp_pos B
  have n1 : ‖dt • (phiM 1 (dt • J) *ᵥ F - F)‖ ≤ dt * (dt * (B * (Real.exp B * B))) := by
    rw [norm_smul, Real.norm_of_nonneg hdt.le]
    exact mul_le_mul_of_nonneg_left ((phi1_sub_le hJB hdt.le hdt1 F).trans (by gcongr)) hdt.le
  have n2 := (phi_le hJB hdt.le hdt1 2 ((dt * 2 / 3) • q)).trans (mul_le_mul_of_nonneg_left hbl0 hE.le)
  have n3 : ‖dt ^ 2 • (phiM 2 (dt • J) *ᵥ η)‖ ≤ dt * (dt * (Real.exp B * B)) := by
    rw [norm_smul, Real.norm_of_nonneg (by positivity)]
    have := mul_le_mul_of_nonneg_left ((phi_le hJB hdt.le hdt1 2 η).trans (mul_le_mul_of_nonneg_left hη hE.le)) (by positivity : 0 ≤ dt ^ 2)
    linarith
  have n4 : dt ^ 2 * (κ * B) ≤ dt * (κ * B) := mul_le_mul_of_nonneg_right (by nlinarith) (by positivity)
  show ‖y + w + e2 - y - dt • F‖ ≤ _
  have e0 : y + w + e2 - y - dt • F = dt • (phiM 1 (dt • J) *ᵥ F - F) + phiM 2 (dt • J) *ᵥ ((dt * 2 / 3) • q)
      + (w - (phiM 1 (dt • J) *ᵥ (dt • F) + phiM 2 (dt • J) *ᵥ ((dt * 2 / 3) • q))) + (e2 - dt ^ 2 • (phiM 2 (dt • J) *ᵥ η))
      + dt ^ 2 • (phiM 2 (dt • J) *ᵥ η) := by
    rw [Matrix.mulVec_smul (phiM 1 (dt • J)) dt F]; module
  rw [e0]
  refine (norm_add_le _ _).trans ?_
  have m1 := norm_add_le (dt • (phiM 1 (dt • J) *ᵥ F - F) + phiM 2 (dt • J) *ᵥ ((dt * 2 / 3) • q)
      + (w - (phiM 1 (dt • J) *ᵥ (dt • F) + phiM 2 (dt • J) *ᵥ ((dt * 2 / 3) • q)))) (e2 - dt ^ 2 • (phiM 2 (dt • J) *ᵥ η))
  have m2 := norm_add_le (dt • (phiM 1 (dt • J) *ᵥ F - F) + phiM 2 (dt • J) *ᵥ ((dt * 2 / 3) • q))
      (w - (phiM 1 (dt • J) *ᵥ (dt • F) + phiM 2 (dt • J) *ᵥ ((dt * 2 / 3) • q)))
  have m3 := norm_add_le (dt • (phiM 1 (dt • J) *ᵥ F - F)) (phiM 2 (dt • J) *ᵥ ((dt * 2 / 3) • q))
  have hR := robustConst_nonneg hB hΛ
  have hBR : 4 * B ≤ robustConst B Λ := by
    have := remSize_nonneg hB hΛ
    have := stageSize_nonneg hB
    unfold robustConst
    have : 0 ≤ 200 * (Real.exp B + 1) * remSize B Λ := by positivity
    have : 0 ≤ 10 * (Real.exp B + 1) * stageSize B := by positivity
    have : 0 ≤ (B + 1) * (Real.exp B * B) := by positivity
    linarith
  have a0 := mul_le_mul_of_nonneg_right hBR (by positivity : 0 ≤ dt * (dt + κ))
  have a1 : 0 ≤ dt * (B * (Real.exp B * B) * κ) := by positivity
  have a2 : 0 ≤ dt * (Real.exp B * B * (dt + κ)) := by positivity
  have a3 : 0 ≤ dt * ((B + B') * dt) := by positivity
  have a4 : 0 ≤ dt * (Real.exp B * (B + B') * κ) := by positivity
  have a5 : 0 ≤ dt * (Real.exp B * B * κ) := by positivity
  have a6 : 0 ≤ dt * (B * dt) := by positivity
  have a7 : 0 ≤ dt * (B * (Real.exp B * B) * dt) := by positivity
  have a8 : 0 ≤ dt * (Real.exp B * (B + B') * dt) := by positivity
  have a9 : 0 ≤ dt * ((B + B') * κ) := by positivity
  have a10 : 0 ≤ dt * (B * κ) := by positivity
  have a13 : 0 ≤ dt * dt := by positivity
  have a11 : 0 ≤ dt * (Real.exp B * B * dt) := by positivity
  have a12 : 0 ≤ robustConst B Λ * (dt * (dt + κ)) := by positivity
  have e : epiConst B Λ G = (B + 1) * (Real.exp B * B) + (Real.exp B + 1) * (B + B') + robustConst B Λ := by
    rw [hB']; rfl
  rw [e]
  linarith

end step
end
end Ormatex.Props
