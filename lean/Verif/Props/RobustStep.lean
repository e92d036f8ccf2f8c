import Verif.Props.ApproxEpi3
import Verif.Props.ApproxSplitRun

/-!
C120: one step of every method, taken with **any** bounded matrix in the place of the Jacobian (or of the split operator) and with
approximate kernels, is an explicit Euler step up to `O(dt (dt + κ))`.
-/

namespace Ormatex.Props
open Filter Asymptotics Topology Matrix Ormatex.Spec
open scoped Classical
open scoped Matrix.Norms.Operator

section
variable {n : ℕ} {P : Type} [EmptyCollection P]
set_option linter.unusedSectionVars false

/-- What the integrators need of the object returned by `fjac`: it is some linear operator, the same in all its representations, of
bounded size, and it carries the right-hand side at the point it was made at.  Nothing says that it is the Jacobian. -/
structure TameJac (jac : SysJac n) (F : Vec n) (B : ℝ) (J : Mat n) : Prop where
  mat : IsMatrix jac.toLinOp J
  dense : jac.dense = .ok J
  rhs : jac.frhsCached = F
  norm : ‖J‖ ≤ B
  fdt : ‖jac.fdt‖ ≤ B

section bounds
variable {J : Mat n} {B a : ℝ}

theorem phi_le (hJ : ‖J‖ ≤ B) (ha : 0 ≤ a) (ha1 : a ≤ 1) (k : ℕ) (v : Vec n) : ‖phiM k (a • J) *ᵥ v‖ ≤ Real.exp B * ‖v‖ := by
  refine (phi_bound k _ v).trans (mul_le_mul_of_nonneg_right (Real.exp_le_exp.2 ?_) (norm_nonneg v))
  rw [norm_smul, Real.norm_of_nonneg ha]
  calc a * ‖J‖ ≤ 1 * ‖J‖ := by gcongr
    _ ≤ B := by linarith

theorem phi1_sub_le (hJ : ‖J‖ ≤ B) (ha : 0 ≤ a) (ha1 : a ≤ 1) (v : Vec n) :
    ‖phiM 1 (a • J) *ᵥ v - v‖ ≤ a * (B * (Real.exp B * ‖v‖)) := by
  have h := phiM_recurrence 1 (a • J)
  rw [Nat.factorial_one, Nat.cast_one, inv_one, one_smul] at h
  have e : phiM 1 (a • J) *ᵥ v - v = a • (J *ᵥ (phiM 2 (a • J) *ᵥ v)) := by
    have : phiM 1 (a • J) = (a • J) * phiM 2 (a • J) + 1 := by rw [h]; abel
    rw [this, Matrix.add_mulVec, Matrix.one_mulVec, add_sub_cancel_right, Matrix.smul_mul, Matrix.smul_mulVec, Matrix.mulVec_mulVec]
  rw [e, norm_smul, Real.norm_of_nonneg ha]
  refine mul_le_mul_of_nonneg_left ((Matrix.linfty_opNorm_mulVec _ _).trans ?_) ha
  have hB : 0 ≤ B := (norm_nonneg _).trans hJ
  exact mul_le_mul hJ (phi_le hJ ha ha1 2 v) (norm_nonneg _) hB

theorem ros_stage_le (hJ : ‖J‖ ≤ B) {y F e : Vec n} {dt c : ℝ} (hdt : 0 < dt) (hdt1 : dt ≤ 1) (hF : ‖F‖ ≤ B) (he : ‖e‖ ≤ B) (hc : 0 < c) (hc1 : c ≤ 1) :
    ‖rosEuler J y F e dt c - y‖ ≤ dt * (2 * B * Real.exp B) := by
  have hB : 0 ≤ B := (norm_nonneg _).trans hJ
  have hcd : 0 ≤ c * dt := by positivity
  have hcd1 : c * dt ≤ 1 := by nlinarith
  have hcd2 : c * dt ≤ dt := by nlinarith
  have hE := Real.exp_pos B
  have h1 := phi_le hJ hcd hcd1 1 F
  have h2 := phi_le hJ hcd hcd1 2 e
  have e0 : rosEuler J y F e dt c - y = (c * dt) • (phiM 1 ((c * dt) • J) *ᵥ F) + (c ^ 2 * dt ^ 2) • (phiM 2 ((c * dt) • J) *ᵥ e) := by
    unfold rosEuler; abel
  rw [e0]
  refine (norm_add_le _ _).trans ?_
  rw [norm_smul, norm_smul, Real.norm_of_nonneg hcd, Real.norm_of_nonneg (by positivity)]
  have a1 : c * dt * ‖phiM 1 ((c * dt) • J) *ᵥ F‖ ≤ dt * (Real.exp B * B) :=
    mul_le_mul hcd2 (h1.trans (by gcongr)) (norm_nonneg _) hdt.le
  have a2 : c ^ 2 * dt ^ 2 * ‖phiM 2 ((c * dt) • J) *ᵥ e‖ ≤ dt * (Real.exp B * B) := by
    refine mul_le_mul ?_ (h2.trans (by gcongr)) (norm_nonneg _) hdt.le
    calc c ^ 2 * dt ^ 2 = (c * dt) * (c * dt) := by ring
      _ ≤ dt * 1 := mul_le_mul hcd2 hcd1 hcd hdt.le
      _ = dt := mul_one dt
  linarith

/-- the exponential Rosenbrock-Euler step is the Euler step up to `O(dt^2)`, whatever the matrix -/
theorem ros_euler_le (hJ : ‖J‖ ≤ B) {y F e : Vec n} {dt : ℝ} (hdt : 0 < dt) (hdt1 : dt ≤ 1) (hF : ‖F‖ ≤ B) (he : ‖e‖ ≤ B) :
    ‖rosEuler J y F e dt 1 - y - dt • F‖ ≤ dt * (dt * ((B + 1) * (Real.exp B * B))) := by
  have hB : 0 ≤ B := (norm_nonneg _).trans hJ
  have hE := Real.exp_pos B
  have h1 := phi1_sub_le hJ hdt.le hdt1 F
  have h2 := phi_le hJ hdt.le hdt1 2 e
  have e0 : rosEuler J y F e dt 1 - y - dt • F = dt • (phiM 1 (dt • J) *ᵥ F - F) + dt ^ 2 • (phiM 2 (dt • J) *ᵥ e) := by
    unfold rosEuler
    simp only [one_mul, one_pow]
    module
  rw [e0]
  refine (norm_add_le _ _).trans ?_
  rw [norm_smul, norm_smul, Real.norm_of_nonneg hdt.le, Real.norm_of_nonneg (by positivity)]
  have a1 : dt * ‖phiM 1 (dt • J) *ᵥ F - F‖ ≤ dt * (dt * (B * (Real.exp B * B))) :=
    mul_le_mul_of_nonneg_left (h1.trans (by gcongr)) hdt.le
  have a2 : dt ^ 2 * ‖phiM 2 (dt • J) *ᵥ e‖ ≤ dt ^ 2 * (Real.exp B * B) := by gcongr; exact h2.trans (by gcongr)
  linarith

end bounds

/-- the size of a stage increment divided by the step size -/
noncomputable def stageSize (B : ℝ) : ℝ := 2 * B * Real.exp B + 2 * B
/-- the size of a remainder divided by the step size; `Λ` bounds the change of the right-hand side divided by the step size -/
noncomputable def remSize (B Λ : ℝ) : ℝ := Λ + B * stageSize B + B

theorem stageSize_nonneg {B : ℝ} (hB : 0 ≤ B) : 0 ≤ stageSize B := by unfold stageSize; positivity
theorem remSize_nonneg {B Λ : ℝ} (hB : 0 ≤ B) (hΛ : 0 ≤ Λ) : 0 ≤ remSize B Λ := by
  unfold remSize; have := stageSize_nonneg hB; positivity

/-- The constant of one step. -/
noncomputable def robustConst (B Λ : ℝ) : ℝ :=
  (B + 1) * (Real.exp B * B) + 4 * B + 200 * (Real.exp B + 1) * remSize B Λ + 10 * (Real.exp B + 1) * stageSize B

theorem robustConst_nonneg {B Λ : ℝ} (hB : 0 ≤ B) (hΛ : 0 ≤ Λ) : 0 ≤ robustConst B Λ := by
  unfold robustConst; have := stageSize_nonneg hB; have := remSize_nonneg hB hΛ; positivity

theorem rem_le {B Λ dt c : ℝ} {J : Mat n} {z y Fz F e : Vec n} (hJ : ‖J‖ ≤ B) (hdt : 0 < dt) (he : ‖e‖ ≤ B) (hc : 0 ≤ c) (hc1 : c ≤ 1)
    (hz : ‖z - y‖ ≤ dt * stageSize B) (hf : ‖Fz - F‖ ≤ Λ * dt) :
    ‖Fz - F - J *ᵥ (z - y) - (c * dt) • e‖ ≤ remSize B Λ * dt := by
  have hB : 0 ≤ B := (norm_nonneg _).trans hJ
  have h1 : ‖J *ᵥ (z - y)‖ ≤ B * (dt * stageSize B) :=
    (Matrix.linfty_opNorm_mulVec _ _).trans (mul_le_mul hJ hz (norm_nonneg _) hB)
  have h2 : ‖(c * dt) • e‖ ≤ dt * B := by
    rw [norm_smul, Real.norm_of_nonneg (by positivity)]
    exact mul_le_mul (by nlinarith) he (norm_nonneg _) hdt.le
  refine (norm_sub_le _ _).trans ?_
  have h3 := norm_sub_le (Fz - F) (J *ᵥ (z - y))
  unfold remSize
  linarith

section step
variable {K : Kernels n} {sys : OdeSys n P} {s : ExpRB n} {t : ℝ} {y : Vec n} {dt κ B Λ : ℝ} {kw : P} {J : Mat n}
  (hdt : 0 < dt) (hdt1 : dt ≤ 1) (hκ : 0 ≤ κ) (hκ1 : κ ≤ 1) (hs : At s.base t y) (hF : ‖sys.frhs none t y‖ ≤ B)
include hdt hdt1 hκ hκ1 hs hF

/-- the common form of the one-stage methods -/
theorem euler_of_ros {η d : Vec n} (hJ : ‖J‖ ≤ B) (hη : ‖η‖ ≤ B) (hd : ‖d‖ ≤ κ * (2 * B)) :
    ‖rosEuler J y (sys.frhs none t y) η dt 1 + dt • d - y - dt • sys.frhs none t y‖
      ≤ dt * (((B + 1) * (Real.exp B * B) + 4 * B) * (dt + κ)) := by
  have hB : 0 ≤ B := (norm_nonneg _).trans hF
  have h := ros_euler_le (y := y) hJ hdt hdt1 hF hη
  have e : rosEuler J y (sys.frhs none t y) η dt 1 + dt • d - y - dt • sys.frhs none t y
      = (rosEuler J y (sys.frhs none t y) η dt 1 - y - dt • sys.frhs none t y) + dt • d := by abel
  rw [e]
  refine (norm_add_le _ _).trans ?_
  rw [norm_smul, Real.norm_of_nonneg hdt.le]
  have h2 := mul_le_mul_of_nonneg_left hd hdt.le
  have hE := Real.exp_pos B
  have h3 : 0 ≤ (B + 1) * (Real.exp B * B) := by positivity
  obtain ⟨X, hX⟩ : ∃ X, X = (B + 1) * (Real.exp B * B) := ⟨_, rfl⟩
  rw [← hX] at h h3 ⊢
  have h4 : 0 ≤ dt * (X * κ) := by positivity
  have h5 : 0 ≤ dt * (B * dt) := by positivity
  have h6 : 0 ≤ dt * (B * κ) := by positivity
  nlinarith

theorem stage_rob {kmax : ℕ} (hK : ApproxLinop K dt B κ kmax) (hk : 2 ≤ kmax)
    (hj : TameJac (sys.fjac (some kw) t y) (sys.frhs none t y) B J) (c : ℝ) (hc : 0 < c) (hc1 : c ≤ 1) :
    ∃ p1 e2 d η, ‖η‖ ≤ B ∧ ‖d‖ ≤ κ * (2 * B) ∧ K.phiLinop (sys.fjac (some kw) t y).toLinOp (c * dt) (sys.frhs none t y) 1 = .ok p1 ∧
      phi2vNonauto K s.tolFdt (sys.fjac (some kw) t y) dt c = .ok (e2, η) ∧
      y + (c * dt) • p1 + e2 = rosEuler J y (sys.frhs none t y) η dt c + dt • d := by
  have hB : 0 ≤ B := (norm_nonneg _).trans hF
  obtain ⟨e2, he2, h2⟩ := phi2v_approx hK hk hdt hκ s.tolFdt _ _ hj.mat hj.norm c hc hc1
  obtain ⟨e1, h1, he1⟩ := linop_err hK hj.mat hj.norm c hc hc1 (sys.frhs none t y) 1 le_rfl (by omega)
  rw [sw1, one_mul] at he1
  have hη : ‖effFdt s.tolFdt (sys.fjac (some kw) t y).fdt‖ ≤ B := (effFdt_norm_le _ _).trans hj.fdt
  have k1 : ‖c • e1‖ ≤ κ * B := by
    rw [norm_smul, Real.norm_of_nonneg hc.le]
    calc c * ‖e1‖ ≤ 1 * ‖e1‖ := by gcongr
      _ ≤ κ * ‖sys.frhs none t y‖ := by linarith
      _ ≤ _ := by gcongr
  have k2 : ‖e2‖ ≤ κ * B := he2.trans (mul_le_mul_of_nonneg_left hη hκ)
  refine ⟨_, _, c • e1 + e2, _, hη, (norm_add_le _ _).trans (by linarith), h1, h2, ?_⟩
  unfold rosEuler
  module

theorem stage_close {η d : Vec n} (hJ : ‖J‖ ≤ B) (hη : ‖η‖ ≤ B) (hd : ‖d‖ ≤ κ * (2 * B)) {c : ℝ} (hc : 0 < c) (hc1 : c ≤ 1) :
    ‖rosEuler J y (sys.frhs none t y) η dt c + dt • d - y‖ ≤ dt * stageSize B := by
  have hB : 0 ≤ B := (norm_nonneg _).trans hF
  have h := ros_stage_le (y := y) hJ hdt hdt1 hF hη hc hc1
  have e : rosEuler J y (sys.frhs none t y) η dt c + dt • d - y = (rosEuler J y (sys.frhs none t y) η dt c - y) + dt • d := by abel
  rw [e]
  refine (norm_add_le _ _).trans ?_
  rw [norm_smul, Real.norm_of_nonneg hdt.le]
  have h2 : ‖d‖ ≤ 2 * B := hd.trans (by nlinarith)
  have h3 := mul_le_mul_of_nonneg_left h2 hdt.le
  unfold stageSize
  linarith

theorem exprb2_rob (hK : ApproxLinop K dt B κ 2) (hj : TameJac (sys.fjac (some kw) t y) (sys.frhs none t y) B J) :
    ∃ v, stepExprb2 K sys s dt kw = .ok (StepResult.mk (t + dt) dt v (-1)) ∧
      ‖v - y - dt • sys.frhs none t y‖ ≤ dt * (((B + 1) * (Real.exp B * B) + 4 * B) * (dt + κ)) := by
  have hB : 0 ≤ B := (norm_nonneg _).trans hF
  obtain ⟨e2, he2, h2⟩ := phi2v_approx hK le_rfl hdt hκ s.tolFdt _ _ hj.mat hj.norm 1 one_pos le_rfl
  obtain ⟨w, h1, he1⟩ := linop_scaled hK hj.mat hj.norm 1 one_pos le_rfl dt hdt (sys.frhs none t y) 1 le_rfl (by norm_num)
  rw [one_mul] at h1 he1
  rw [sw1, one_mul] at he1
  have hη : ‖effFdt s.tolFdt (sys.fjac (some kw) t y).fdt‖ ≤ B := (effFdt_norm_le _ _).trans hj.fdt
  have k1 : ‖w - phiM 1 (dt • J) *ᵥ sys.frhs none t y‖ ≤ κ * B := he1.trans (by gcongr)
  have k2 : ‖e2‖ ≤ κ * B := he2.trans (mul_le_mul_of_nonneg_left hη hκ)
  have := euler_of_ros (sys := sys) hdt hdt1 hκ hκ1 hs hF hj.norm hη
    (d := (w - phiM 1 (dt • J) *ᵥ sys.frhs none t y) + e2) ((norm_add_le _ _).trans (by linarith))
  refine ⟨_, ?_, this⟩
  unfold stepExprb2
  rw [hs.yNew, hs.time]
  simp only [Bind.bind, Except.bind, pure, Except.pure, h2, hj.rhs, h1]
  congr 2
  simp only [rosEuler, one_mul]
  module

theorem epi2_rob (hK : ApproxKiops K dt B κ) (hj : TameJac (sys.fjac (some kw) t y) (sys.frhs none t y) B J) :
    ∃ v, stepEpi2 K sys s dt kw = .ok (StepResult.mk (t + dt) dt v (-1)) ∧
      ‖v - y - dt • sys.frhs none t y‖ ≤ dt * (((B + 1) * (Real.exp B * B) + 4 * B) * (dt + κ)) := by
  have hB : 0 ≤ B := (norm_nonneg _).trans hF
  set η := (sys.fjac (some kw) t y).fdt with hη
  have hD : ‖η‖ ≤ B := hj.fdt
  obtain ⟨w, h1, he1⟩ := hK _ _ hj.mat hj.norm [0, dt • sys.frhs none t y, dt ^ 2 • η] (by simp) (by simp) (dt * B)
    (by
      intro b hb
      simp only [List.mem_cons, List.not_mem_nil, or_false] at hb
      rcases hb with rfl | rfl | rfl
      · rw [norm_zero]; positivity
      · rw [norm_smul, Real.norm_of_nonneg hdt.le]; gcongr
      · rw [norm_smul, Real.norm_of_nonneg (by positivity)]
        have : dt ^ 2 ≤ dt := by nlinarith
        exact mul_le_mul this hD (norm_nonneg _) hdt.le)
    (by
      show ‖dt ^ 2 • η‖ ≤ _
      rw [norm_smul, Real.norm_of_nonneg (by positivity)]
      calc dt ^ 2 * ‖η‖ ≤ dt ^ 2 * B := by gcongr
        _ = _ := by ring)
  set W := ∑ j ∈ Finset.range [0, dt • sys.frhs none t y, dt ^ 2 • η].length,
    phiM j (dt • J) *ᵥ [0, dt • sys.frhs none t y, dt ^ 2 • η].getD j 0 with hW
  have he1' : ‖dt⁻¹ • (w - W)‖ ≤ κ * (2 * B) := by
    rw [norm_smul, Real.norm_of_nonneg (by positivity), inv_mul_le_iff₀ hdt]
    have : 0 ≤ κ * (dt * B) := by positivity
    nlinarith
  have := euler_of_ros (sys := sys) hdt hdt1 hκ hκ1 hs hF hj.norm hD he1'
  refine ⟨_, ?_, this⟩
  unfold stepEpi2
  rw [hs.yNew, hs.time]
  simp only [Bind.bind, Except.bind, pure, Except.pure, hj.rhs, ← hη, h1]
  congr 2
  have eW : W = dt • (phiM 1 (dt • J) *ᵥ sys.frhs none t y) + dt ^ 2 • (phiM 2 (dt • J) *ᵥ η) := by
    rw [hW]; simp [Finset.sum_range_succ, Matrix.mulVec_smul]
  simp only [rosEuler, one_mul, smul_smul, mul_inv_cancel₀ hdt.ne', one_smul, one_pow]
  rw [eW]
  abel

theorem dense_rob (hK : ApproxSq K dt B κ) (hj : TameJac (sys.fjac none t y) (sys.frhs none t y) B J) :
    ∃ v, stepExprb2Dense K sys s dt = .ok (StepResult.mk (t + dt) dt v (-1)) ∧
      ‖v - y - dt • sys.frhs none t y‖ ≤ dt * (((B + 1) * (Real.exp B * B) + 4 * B) * (dt + κ)) := by
  have hB : 0 ≤ B := (norm_nonneg _).trans hF
  set η := (sys.fjac none t y).fdt with hη
  have hD : ‖η‖ ≤ B := hj.fdt
  obtain ⟨L, h1, hl, he⟩ := hK _ hj.norm 1 one_pos le_rfl 2 le_rfl
  rw [one_mul] at h1 he
  have g1 := he 1 le_rfl (by norm_num)
  have g2 := he 2 (by norm_num) le_rfl
  have k1 := dense_vec (by rw [sw1]; exact zero_le_one) g1 (sys.frhs none t y)
  have k2 := dense_vec (by rw [sw2]; exact hdt.le) g2 η
  rw [sw1, one_mul] at k1
  rw [sw2] at k2
  have d2 : ‖dt • (L.getD 2 0 *ᵥ η - phiM 2 (dt • J) *ᵥ η)‖ ≤ κ * B := by
    rw [norm_smul, Real.norm_of_nonneg hdt.le]; exact k2.trans (by gcongr)
  have d1 : ‖L.getD 1 0 *ᵥ sys.frhs none t y - phiM 1 (dt • J) *ᵥ sys.frhs none t y‖ ≤ κ * B := k1.trans (by gcongr)
  have := euler_of_ros (sys := sys) hdt hdt1 hκ hκ1 hs hF hj.norm hD
    (d := (L.getD 1 0 *ᵥ sys.frhs none t y - phiM 1 (dt • J) *ᵥ sys.frhs none t y)
      + dt • (L.getD 2 0 *ᵥ η - phiM 2 (dt • J) *ᵥ η)) ((norm_add_le _ _).trans (by linarith))
  refine ⟨_, ?_, this⟩
  have p1 : pyGet L 1 = .ok (L.getD 1 0) := by
    unfold pyGet; rw [List.getD_eq_getElem?_getD, List.getElem?_eq_getElem (by omega)]; rfl
  have p2 : pyGet L 2 = .ok (L.getD 2 0) := by
    unfold pyGet; rw [List.getD_eq_getElem?_getD, List.getElem?_eq_getElem (by omega)]; rfl
  unfold stepExprb2Dense
  rw [hs.yNew, hs.time]
  simp only [Bind.bind, Except.bind, pure, Except.pure, hj.rhs, ← hη, hj.dense, h1, p1, p2]
  congr 2
  simp only [rosEuler, one_mul, one_pow]
  module

/-- both partial-fraction steps from their two products -/
theorem pfd_asm {w1 : Vec n} (hJ : ‖J‖ ≤ B) (h1 : ‖w1 - phiM 1 (dt • J) *ᵥ sys.frhs none t y‖ ≤ κ * ‖sys.frhs none t y‖)
    {w2 η : Vec n} (hη : ‖η‖ ≤ B) (h2 : dt * ‖w2 - phiM 2 (dt • J) *ᵥ η‖ ≤ κ * ‖η‖) :
    ‖y + dt • (w1 + dt • w2) - y - dt • sys.frhs none t y‖ ≤ dt * (((B + 1) * (Real.exp B * B) + 4 * B) * (dt + κ)) := by
  have hB : 0 ≤ B := (norm_nonneg _).trans hF
  have d1 : ‖w1 - phiM 1 (dt • J) *ᵥ sys.frhs none t y‖ ≤ κ * B := h1.trans (by gcongr)
  have d2 : ‖dt • (w2 - phiM 2 (dt • J) *ᵥ η)‖ ≤ κ * B := by
    rw [norm_smul, Real.norm_of_nonneg hdt.le]; exact h2.trans (by gcongr)
  have := euler_of_ros (sys := sys) hdt hdt1 hκ hκ1 hs hF hJ hη
    (d := (w1 - phiM 1 (dt • J) *ᵥ sys.frhs none t y) + dt • (w2 - phiM 2 (dt • J) *ᵥ η)) ((norm_add_le _ _).trans (by linarith))
  convert this using 3
  simp only [rosEuler, one_mul, one_pow]
  module

theorem pfd_rob (hK : ApproxPfd K dt B κ) (hj : TameJac (sys.fjac (some kw) t y) (sys.frhs none t y) B J) :
    ∃ v, stepExprb2Pfd K sys s dt kw = .ok (StepResult.mk (t + dt) dt v (-1)) ∧
      ‖v - y - dt • sys.frhs none t y‖ ≤ dt * (((B + 1) * (Real.exp B * B) + 4 * B) * (dt + κ)) := by
  obtain ⟨w1, h1, g1⟩ := hK _ hj.norm (sys.frhs none t y) 1 le_rfl (by norm_num)
  obtain ⟨w2, h2, g2⟩ := hK _ hj.norm (sys.fjac (some kw) t y).fdt 2 (by norm_num) le_rfl
  rw [sw1, one_mul] at g1
  rw [sw2] at g2
  have hB : 0 ≤ B := (norm_nonneg _).trans hF
  have k0 := pfd_asm hdt hdt1 hκ hκ1 hs hF hj.norm g1 (w2 := 0) (η := 0) (by rw [norm_zero]; exact hB) (by simp)
  have k1 := pfd_asm hdt hdt1 hκ hκ1 hs hF hj.norm g1 hj.fdt g2
  unfold stepExprb2Pfd
  rw [hs.yNew, hs.time]
  simp only [Bind.bind, Except.bind, hj.dense, hj.rhs]
  by_cases c1 : s.tolFdt ≥ 0
  · by_cases c2 : ‖(sys.fjac (some kw) t y).fdt‖ > s.tolFdt
    · simp only [c1, c2, if_true, h1, h2, pure, Except.pure]
      exact ⟨_, rfl, k1⟩
    · simp only [c1, c2, if_true, if_false, h1, pure, Except.pure]
      exact ⟨_, rfl, k0⟩
  · simp only [c1, if_false, h1, pure, Except.pure]
    exact ⟨_, rfl, k0⟩

theorem pfdRs_rob (hK : ApproxRs K dt B κ) (hj : TameJac (sys.fjac none t y) (sys.frhs none t y) B J) :
    ∃ v, stepExprb2PfdRs K sys s dt = .ok (StepResult.mk (t + dt) dt v (-1)) ∧
      ‖v - y - dt • sys.frhs none t y‖ ≤ dt * (((B + 1) * (Real.exp B * B) + 4 * B) * (dt + κ)) := by
  have g1 := hK _ hj.norm (sys.frhs none t y) 1 le_rfl (by norm_num)
  have g2 := hK _ hj.norm (sys.fjac none t y).fdt 2 (by norm_num) le_rfl
  rw [sw1, one_mul] at g1
  rw [sw2] at g2
  have hB : 0 ≤ B := (norm_nonneg _).trans hF
  have k0 := pfd_asm hdt hdt1 hκ hκ1 hs hF hj.norm g1 (w2 := 0) (η := 0) (by rw [norm_zero]; exact hB) (by simp)
  have k1 := pfd_asm hdt hdt1 hκ hκ1 hs hF hj.norm g1 hj.fdt g2
  unfold stepExprb2PfdRs
  rw [hs.yNew, hs.time]
  simp only [Bind.bind, Except.bind, hj.dense, hj.rhs, pure, Except.pure]
  by_cases c1 : s.tolFdt ≥ 0
  · by_cases c2 : ‖(sys.fjac none t y).fdt‖ > s.tolFdt
    · simp only [c1, c2, if_true]
      exact ⟨_, rfl, k1⟩
    · simp only [c1, c2, if_true, if_false]
      exact ⟨_, rfl, k0⟩
  · simp only [c1, if_false]
    exact ⟨_, rfl, k0⟩

theorem exprb3_rob (hK : ApproxLinop K dt B κ 3) (hj : TameJac (sys.fjac (some kw) t y) (sys.frhs none t y) B J) (hΛ : 0 ≤ Λ)
    (hf : ∀ c, 0 < c → c ≤ 1 → ∀ z, ‖z - y‖ ≤ dt * stageSize B → ‖sys.frhs none (t + c * dt) z - sys.frhs none t y‖ ≤ Λ * dt) :
    ∃ v, stepExprb3 K sys s dt kw = .ok (StepResult.mk (t + dt) dt v (-1)) ∧
      ‖v - y - dt • sys.frhs none t y‖ ≤ dt * (robustConst B Λ * (dt + κ)) := by
  have hB : 0 ≤ B := (norm_nonneg _).trans hF
  obtain ⟨p1, e2, d, η, hη, hd, h1, h2, h3⟩ := stage_rob hdt hdt1 hκ hκ1 hs hF hK (by norm_num) hj 1 one_pos le_rfl
  have hz := stage_close (sys := sys) hdt hdt1 hκ hκ1 hs hF hj.norm hη hd one_pos le_rfl
  have hr0 := euler_of_ros (sys := sys) hdt hdt1 hκ hκ1 hs hF hj.norm hη hd
  set z := rosEuler J y (sys.frhs none t y) η dt 1 + dt • d with hzd
  have hr := rem_le (c := 1) hj.norm hdt hη zero_le_one le_rfl hz (hf 1 one_pos le_rfl z hz)
  set r := sys.frhs none (t + 1 * dt) z - sys.frhs none t y - J *ᵥ (z - y) - (1 * dt) • η with hrd
  obtain ⟨e3, h4, he3⟩ := linop_err1 hK hj.mat hj.norm r 3 (by norm_num) le_rfl
  have hw : stepWeight dt 3 = dt := by simp [stepWeight]
  rw [hw] at he3
  have hH := remSize_nonneg hB hΛ
  have hG := stageSize_nonneg hB
  have he3' : ‖e3‖ ≤ κ * remSize B Λ := by
    have : dt * ‖e3‖ ≤ dt * (κ * remSize B Λ) := he3.trans (by
      calc κ * ‖r‖ ≤ κ * (remSize B Λ * dt) := by gcongr
        _ = _ := by ring)
    exact le_of_mul_le_mul_left this hdt
  have hp3 : ‖phiM 3 (dt • J) *ᵥ r‖ ≤ Real.exp B * (remSize B Λ * dt) :=
    (phi_le hj.norm hdt.le hdt1 3 r).trans (by gcongr)
  have er : remf sys s.base (t + dt) z (sys.frhs none t y) (sys.fjac (some kw) t y).toLinOp η = .ok r := by
    rw [remf_closed sys hs _ _ _ _ _ hj.mat, hrd]
    simp only [one_mul, add_sub_cancel_left]
  rw [one_mul] at h1 h3
  refine ⟨z + (2 * dt) • (phiM 3 (dt • J) *ᵥ r + e3), ?_, ?_⟩
  · unfold stepExprb3
    rw [hs.yNew, hs.time]
    simp only [Bind.bind, Except.bind, pure, Except.pure, hj.rhs, h2, h1, h3, er, h4]
  · have e : z + (2 * dt) • (phiM 3 (dt • J) *ᵥ r + e3) - y - dt • sys.frhs none t y
        = (z - y - dt • sys.frhs none t y) + (2 * dt) • (phiM 3 (dt • J) *ᵥ r + e3) := by abel
    rw [e]
    refine (norm_add_le _ _).trans ?_
    rw [norm_smul, Real.norm_of_nonneg (by positivity)]
    have hE := Real.exp_pos B
    have h5 : ‖phiM 3 (dt • J) *ᵥ r + e3‖ ≤ (Real.exp B + 1) * remSize B Λ * (dt + κ) := by
      refine (norm_add_le _ _).trans ?_
      have a1 : 0 ≤ remSize B Λ * dt := by positivity
      have a2 : 0 ≤ Real.exp B * remSize B Λ * κ := by positivity
      nlinarith
    have h6 := mul_le_mul_of_nonneg_left h5 (by positivity : 0 ≤ 2 * dt)
    have h7 : 0 ≤ dt * ((Real.exp B + 1) * remSize B Λ * (dt + κ)) := by positivity
    have h8 : 0 ≤ dt * ((Real.exp B + 1) * stageSize B * (dt + κ)) := by positivity
    unfold robustConst
    nlinarith

theorem pexprb4_rob (hK : ApproxLinop K dt B κ 2) (hK2 : ApproxKiops K dt B κ)
    (hj : TameJac (sys.fjac (some kw) t y) (sys.frhs none t y) B J) (hΛ : 0 ≤ Λ)
    (hf : ∀ c, 0 < c → c ≤ 1 → ∀ z, ‖z - y‖ ≤ dt * stageSize B → ‖sys.frhs none (t + c * dt) z - sys.frhs none t y‖ ≤ Λ * dt) :
    ∃ v, stepPexprb4 K sys s dt kw = .ok (StepResult.mk (t + dt) dt v (-1)) ∧
      ‖v - y - dt • sys.frhs none t y‖ ≤ dt * (robustConst B Λ * (dt + κ)) := by
  have hB : 0 ≤ B := (norm_nonneg _).trans hF
  obtain ⟨p1, e2, d, η, hη, hd, h1, h2, h3⟩ := stage_rob hdt hdt1 hκ hκ1 hs hF hK le_rfl hj 1 one_pos le_rfl
  obtain ⟨p1', e2', d', η', hη', hd', h1', h2', h3'⟩ := stage_rob hdt hdt1 hκ hκ1 hs hF hK le_rfl hj (1 / 2) (by norm_num) (by norm_num)
  have hz := stage_close (sys := sys) hdt hdt1 hκ hκ1 hs hF hj.norm hη hd one_pos le_rfl
  have hz' := stage_close (sys := sys) hdt hdt1 hκ hκ1 hs hF hj.norm hη' hd' (c := 1 / 2) (by norm_num) (by norm_num)
  have hr0 := euler_of_ros (sys := sys) hdt hdt1 hκ hκ1 hs hF hj.norm hη hd
  set z := rosEuler J y (sys.frhs none t y) η dt 1 + dt • d with hzd
  set z' := rosEuler J y (sys.frhs none t y) η' dt (1 / 2) + dt • d' with hzd'
  have hr3 := rem_le (c := 1) hj.norm hdt hη zero_le_one le_rfl hz (hf 1 one_pos le_rfl z hz)
  have hr2 := rem_le (c := 1 / 2) hj.norm hdt hη' (by norm_num) (by norm_num) hz' (hf (1 / 2) (by norm_num) (by norm_num) z' hz')
  set r3 := sys.frhs none (t + 1 * dt) z - sys.frhs none t y - J *ᵥ (z - y) - (1 * dt) • η with hrd3
  set r2 := sys.frhs none (t + 1 / 2 * dt) z' - sys.frhs none t y - J *ᵥ (z' - y) - (1 / 2 * dt) • η' with hrd2
  have hH := remSize_nonneg hB hΛ
  have hG := stageSize_nonneg hB
  have hl2 : ∀ a b : ℝ, |a| + |b| ≤ 60 → ‖dt • (a • r2 + b • r3)‖ ≤ dt * (dt * (60 * remSize B Λ)) := by
    intro a b hab
    rw [norm_smul, Real.norm_of_nonneg hdt.le]
    refine mul_le_mul_of_nonneg_left ((norm_add_le _ _).trans ?_) hdt.le
    rw [norm_smul, norm_smul, Real.norm_eq_abs, Real.norm_eq_abs]
    have q3 := mul_le_mul_of_nonneg_left hr2 (abs_nonneg a)
    have q4 := mul_le_mul_of_nonneg_left hr3 (abs_nonneg b)
    have q5 : 0 ≤ remSize B Λ * dt := by positivity
    nlinarith
  have hl : ∀ a b : ℝ, |a| + |b| ≤ 60 → ‖dt • (a • r2 + b • r3)‖ ≤ dt * (60 * remSize B Λ) := by
    intro a b hab
    refine (hl2 a b hab).trans (mul_le_mul_of_nonneg_left ?_ hdt.le)
    have : 0 ≤ 60 * remSize B Λ := by positivity
    nlinarith
  set bs : List (Vec n) := [0, 0, 0, dt • ((16 : ℝ) • r2 - (2 : ℝ) • r3), dt • ((-48 : ℝ) • r2 + (12 : ℝ) • r3)] with hbs
  have hb3 : ‖dt • ((16 : ℝ) • r2 - (2 : ℝ) • r3)‖ ≤ dt * (dt * (60 * remSize B Λ)) := by
    have := hl2 16 (-2) (by norm_num)
    rwa [neg_smul, ← sub_eq_add_neg] at this
  have hb4 := hl2 (-48) 12 (by norm_num)
  obtain ⟨w, h4, he4⟩ := hK2 _ _ hj.mat hj.norm bs (by simp [hbs]) (by simp [hbs]) (dt * (60 * remSize B Λ))
    (by
      intro b hb
      simp only [hbs, List.mem_cons, List.not_mem_nil, or_false] at hb
      rcases hb with rfl | rfl | rfl | rfl | rfl
      · rw [norm_zero]; positivity
      · rw [norm_zero]; positivity
      · rw [norm_zero]; positivity
      · have := hl 16 (-2) (by norm_num)
        rwa [neg_smul, ← sub_eq_add_neg] at this
      · exact hl (-48) 12 (by norm_num))
    hb4
  set W := ∑ j ∈ Finset.range bs.length, phiM j (dt • J) *ᵥ bs.getD j 0 with hW
  have eW : W = phiM 3 (dt • J) *ᵥ (dt • ((16 : ℝ) • r2 - (2 : ℝ) • r3)) + phiM 4 (dt • J) *ᵥ (dt • ((-48 : ℝ) • r2 + (12 : ℝ) • r3)) := by
    rw [hW]; simp [hbs, Finset.sum_range_succ]
  have hE := Real.exp_pos B
  have hWn : ‖W‖ ≤ Real.exp B * (dt * (dt * (60 * remSize B Λ))) + Real.exp B * (dt * (dt * (60 * remSize B Λ))) := by
    rw [eW]
    refine (norm_add_le _ _).trans (add_le_add ?_ ?_)
    · exact (phi_le hj.norm hdt.le hdt1 3 _).trans (by gcongr)
    · exact (phi_le hj.norm hdt.le hdt1 4 _).trans (by gcongr)
  have er3 : remf sys s.base (t + 1 * dt) z (sys.frhs none t y) (sys.fjac (some kw) t y).toLinOp η = .ok r3 := by
    rw [remf_closed sys hs _ _ _ _ _ hj.mat, hrd3]
    simp only [add_sub_cancel_left]
  have er2 : remf sys s.base (t + 1 / 2 * dt) z' (sys.frhs none t y) (sys.fjac (some kw) t y).toLinOp η' = .ok r2 := by
    rw [remf_closed sys hs _ _ _ _ _ hj.mat, hrd2]
    simp only [add_sub_cancel_left]
  refine ⟨z + w, ?_, ?_⟩
  · unfold stepPexprb4 fUn2 fUn3 pexprb4Final
    rw [hs.yNew, hs.time]
    simp only [Bind.bind, Except.bind, pure, Except.pure, hj.rhs, h2, h1, h3, h2', h1', h3', er3, er2]
    rw [← hbs, h4]
  · have e : z + w - y - dt • sys.frhs none t y = (z - y - dt • sys.frhs none t y) + ((w - W) + W) := by abel
    rw [e]
    refine (norm_add_le _ _).trans ?_
    have h5 := norm_add_le (w - W) W
    have a1 : 0 ≤ dt * (remSize B Λ * κ) := by positivity
    have a2 : 0 ≤ dt * (Real.exp B * remSize B Λ * κ) := by positivity
    have a3 : 0 ≤ dt * (remSize B Λ * dt) := by positivity
    have a4 : 0 ≤ dt * (Real.exp B * remSize B Λ * dt) := by positivity
    have h8 : 0 ≤ dt * ((Real.exp B + 1) * stageSize B * (dt + κ)) := by positivity
    unfold robustConst
    nlinarith

end step

/-! ### epi3 -/

/-- constant of `epi3`; `G` bounds the previous increment divided by the step size -/
noncomputable def epiConst (B Λ G : ℝ) : ℝ :=
  (B + 1) * (Real.exp B * B) + (Real.exp B + 1) * (B + (Λ + B * G + B)) + robustConst B Λ

theorem epiConst_nonneg {B Λ G : ℝ} (hB : 0 ≤ B) (hΛ : 0 ≤ Λ) (hG : 0 ≤ G) : 0 ≤ epiConst B Λ G := by
  unfold epiConst; have := robustConst_nonneg hB hΛ; positivity

theorem epi3_rob {K : Kernels n} {sys : OdeSys n P} {s : ExpRB n} {t : ℝ} {y yp : Vec n} {dt κ B Λ G : ℝ} {kw : P} {J : Mat n}
    (hdt : 0 < dt) (hdt1 : dt ≤ 1) (hκ : 0 ≤ κ) (hs : At s.base t y) (hF : ‖sys.frhs none t y‖ ≤ B)
    (hK : ApproxKiops K dt B κ) (hj : TameJac (sys.fjac (some kw) t y) (sys.frhs none t y) B J) (hΛ : 0 ≤ Λ)
    (hy : ‖yp - y‖ ≤ G * dt) (hP : ‖sys.frhs none (t - dt) yp - sys.frhs none t y‖ ≤ Λ * dt)
    (htp : s.base.tHist.get 1 = .ok (t - dt)) (hyp : s.base.yHist.get 1 = .ok yp) :
    ∃ v, stepEpi3 K sys s dt kw = .ok (StepResult.mk (t + dt) dt v (-1)) ∧
      ‖v - y - dt • sys.frhs none t y‖ ≤ dt * (epiConst B Λ G * (dt + κ)) := by
  have hB : 0 ≤ B := (norm_nonneg _).trans hF
  have hG : 0 ≤ G := nonneg_of_mul_nonneg_left ((norm_nonneg _).trans hy) hdt
  obtain ⟨B', hB'⟩ : ∃ B', B' = Λ + B * G + B := ⟨_, rfl⟩
  have hB'0 : 0 ≤ B' := by rw [hB']; positivity
  set f := sys.frhs none with hf
  set c := (sys.fjac (some kw) t y).fdt with hc
  have hD : ‖c‖ ≤ B := hj.fdt
  set r := f (t - dt) yp - f t y - J *ᵥ (yp - y) - (t - dt - t) • c with hr
  have hrn : ‖r‖ ≤ B' * dt := by
    have h1 : ‖J *ᵥ (yp - y)‖ ≤ B * (G * dt) :=
      (Matrix.linfty_opNorm_mulVec _ _).trans (mul_le_mul hj.norm hy (norm_nonneg _) hB)
    have h2 : ‖(t - dt - t) • c‖ ≤ dt * B := by
      rw [norm_smul, Real.norm_eq_abs, show t - dt - t = -dt by ring, abs_neg, abs_of_pos hdt]
      exact mul_le_mul_of_nonneg_left hD hdt.le
    have h3 := norm_sub_le (f (t - dt) yp - f t y) (J *ᵥ (yp - y))
    refine (norm_sub_le _ _).trans ?_
    rw [hB']
    linarith
  have hbl : ‖(dt * (2 / 3)) • r + dt ^ 2 • c‖ ≤ dt * (dt * (B + B')) := by
    refine (norm_add_le _ _).trans ?_
    rw [norm_smul, norm_smul, Real.norm_of_nonneg (by positivity), Real.norm_of_nonneg (by positivity)]
    have h1 : dt ^ 2 * ‖c‖ ≤ dt ^ 2 * B := by gcongr
    have h2 : dt * (2 / 3) * ‖r‖ ≤ dt * 1 * (B' * dt) := by gcongr; norm_num
    nlinarith
  obtain ⟨w, h1, he1⟩ := hK _ _ hj.mat hj.norm [0, dt • f t y, (dt * (2 / 3)) • r + dt ^ 2 • c] (by simp) (by simp) (dt * (B + B'))
    (by
      intro b hb
      simp only [List.mem_cons, List.not_mem_nil, or_false] at hb
      rcases hb with rfl | rfl | rfl
      · rw [norm_zero]; positivity
      · rw [norm_smul, Real.norm_of_nonneg hdt.le]
        exact mul_le_mul_of_nonneg_left (by linarith) hdt.le
      · refine hbl.trans (mul_le_mul_of_nonneg_left ?_ hdt.le)
        have : 0 ≤ B + B' := by positivity
        nlinarith)
    hbl
  set W := ∑ j ∈ Finset.range [0, dt • f t y, (dt * (2 / 3)) • r + dt ^ 2 • c].length,
    phiM j (dt • J) *ᵥ [0, dt • f t y, (dt * (2 / 3)) • r + dt ^ 2 • c].getD j 0 with hW
  have eW : W = dt • (phiM 1 (dt • J) *ᵥ f t y) + phiM 2 (dt • J) *ᵥ ((dt * (2 / 3)) • r + dt ^ 2 • c) := by
    rw [hW]; simp [Finset.sum_range_succ, Matrix.mulVec_smul]
  have er : remf sys s.base (t - dt) yp (f t y) (sys.fjac (some kw) t y).toLinOp c = .ok r := by
    rw [remf_closed sys hs _ _ _ _ _ hj.mat, hr]
  refine ⟨y + w, ?_, ?_⟩
  · unfold stepEpi3
    rw [hs.yNew, hs.time, htp, hyp]
    simp only [Bind.bind, Except.bind, pure, Except.pure, hj.rhs, ← hc, er, h1]
  have hE := Real.exp_pos B
  have e0 : y + w - y - dt • f t y = dt • (phiM 1 (dt • J) *ᵥ f t y - f t y)
      + phiM 2 (dt • J) *ᵥ ((dt * (2 / 3)) • r + dt ^ 2 • c) + (w - W) := by
    rw [eW]; module
  rw [e0]
  have n1 := phi1_sub_le hj.norm hdt.le hdt1 (f t y)
  have n2 := (phi_le hj.norm hdt.le hdt1 2 ((dt * (2 / 3)) • r + dt ^ 2 • c)).trans (mul_le_mul_of_nonneg_left hbl hE.le)
  have n3 : ‖dt • (phiM 1 (dt • J) *ᵥ f t y - f t y)‖ ≤ dt * (dt * (B * (Real.exp B * B))) := by
    rw [norm_smul, Real.norm_of_nonneg hdt.le]
    exact mul_le_mul_of_nonneg_left (n1.trans (by gcongr)) hdt.le
  have n4 := norm_add_le (dt • (phiM 1 (dt • J) *ᵥ f t y - f t y)) (phiM 2 (dt • J) *ᵥ ((dt * (2 / 3)) • r + dt ^ 2 • c))
  refine (norm_add_le _ _).trans ?_
  have hR := robustConst_nonneg hB hΛ
  have a0 : 0 ≤ dt * (robustConst B Λ * (dt + κ)) := by positivity
  have a1 : 0 ≤ dt * (B * (Real.exp B * B) * κ) := by positivity
  have a2 : 0 ≤ dt * (Real.exp B * B * (dt + κ)) := by positivity
  have a3 : 0 ≤ dt * ((B + B') * dt) := by positivity
  have a4 : 0 ≤ dt * (Real.exp B * (B + B') * κ) := by positivity
  have e : epiConst B Λ G = (B + 1) * (Real.exp B * B) + (Real.exp B + 1) * (B + B') + robustConst B Λ := by
    rw [hB']; rfl
  rw [e]
  nlinarith

/-! ### splitting methods -/

/-- stage size of the splitting methods divided by the step size -/
noncomputable def splitSize (B l : ℝ) : ℝ := Real.exp l * B + 2
/-- constant of the splitting methods -/
noncomputable def splitRem (B l Λ : ℝ) : ℝ := B + Λ + l * splitSize B l
noncomputable def splitConst (B l Λ : ℝ) : ℝ := l * (Real.exp l * B) + (2 * Real.exp l + 4) * splitRem B l Λ

theorem splitRem_nonneg {B l Λ : ℝ} (hB : 0 ≤ B) (hl : 0 ≤ l) (hΛ : 0 ≤ Λ) : 0 ≤ splitRem B l Λ := by
  unfold splitRem splitSize; positivity

section split
variable {f : ℝ → Vec n → Vec n} {L : Mat n} {t : ℝ} {y : Vec n} {dt κ B Λ : ℝ}
  (hdt : 0 < dt) (hdt1 : dt ≤ 1) (hκ : 0 ≤ κ) (hΛ : 0 ≤ Λ) (hF : ‖f t y‖ ≤ B) (hκs : κ * (4 * splitRem B ‖L‖ Λ) ≤ 1)
  (hds : dt * (Real.exp ‖L‖ * splitRem B ‖L‖ Λ) ≤ 1)
  (hf : ∀ c, 0 < c → c ≤ 1 → ∀ z, ‖z - y‖ ≤ dt * splitSize B ‖L‖ → ‖f (t + c * dt) z - f t y‖ ≤ Λ * dt)
include hdt hdt1 hκ hΛ hF hκs hds hf

theorem remS_rob {z : ArgS n → Vec n} {c : ℝ} (hc : 0 < c) (hc1 : c ≤ 1) {d : Fin 3 → Vec n}
    (hz : ‖z (dt, t, (y, d)) - y‖ ≤ dt * splitSize B ‖L‖) : ‖remS f L c z (dt, t, (y, d))‖ ≤ splitRem B ‖L‖ Λ * dt := by
  have hB : 0 ≤ B := (norm_nonneg _).trans hF
  have h1 := hf c hc hc1 _ hz
  have h2 : ‖L *ᵥ (z (dt, t, (y, d)) - y)‖ ≤ ‖L‖ * (dt * splitSize B ‖L‖) :=
    (Matrix.linfty_opNorm_mulVec _ _).trans (mul_le_mul_of_nonneg_left hz (norm_nonneg _))
  simp only [remS]
  refine (norm_sub_le _ _).trans ?_
  unfold splitRem
  have : 0 ≤ B * dt := by positivity
  linarith

theorem stageS_rob {c : ℝ} (hc : 0 < c) (hc1 : c ≤ 1) {d : Fin 3 → Vec n} (hd : ‖d‖ ≤ κ * (4 * splitRem B ‖L‖ Λ)) :
    ‖stageS f L c (dt, t, (y, d)) - y‖ ≤ dt * splitSize B ‖L‖ := by
  have hB : 0 ≤ B := (norm_nonneg _).trans hF
  have hcd : 0 ≤ c * dt := by positivity
  have hcd1 : c * dt ≤ 1 := by nlinarith
  have hcd2 : c * dt ≤ dt := by nlinarith
  have hd0 : ‖d 0‖ ≤ 1 := (norm_le_pi_norm d 0).trans (hd.trans hκs)
  have e : stageS f L c (dt, t, (y, d)) - y = (c * dt) • (phiM 1 ((c * dt) • L) *ᵥ f t y) + dt • d 0 := by
    simp only [stageS]; abel
  rw [e]
  refine (norm_add_le _ _).trans ?_
  rw [norm_smul, norm_smul, Real.norm_of_nonneg hcd, Real.norm_of_nonneg hdt.le]
  have h1 : ‖phiM 1 ((c * dt) • L) *ᵥ f t y‖ ≤ Real.exp ‖L‖ * B := (phi_le le_rfl hcd hcd1 1 (f t y)).trans (by gcongr)
  have h2 : c * dt * ‖phiM 1 ((c * dt) • L) *ᵥ f t y‖ ≤ dt * (Real.exp ‖L‖ * B) := mul_le_mul hcd2 h1 (norm_nonneg _) hdt.le
  have h3 := mul_le_mul_of_nonneg_left hd0 hdt.le
  unfold splitSize
  linarith

theorem stageS3_rob {d : Fin 3 → Vec n} (hd : ‖d‖ ≤ κ * (4 * splitRem B ‖L‖ Λ)) :
    ‖stageS3 f L (dt, t, (y, d)) - y‖ ≤ dt * splitSize B ‖L‖ := by
  have hB : 0 ≤ B := (norm_nonneg _).trans hF
  have hR := splitRem_nonneg hB (norm_nonneg L) hΛ
  have hE := Real.exp_pos ‖L‖
  have hcd : 0 ≤ 2 / 3 * dt := by positivity
  have hcd1 : 2 / 3 * dt ≤ 1 := by linarith
  have hd1 : ‖d 1‖ ≤ 1 := (norm_le_pi_norm d 1).trans (hd.trans hκs)
  have hr := remS_rob hdt hdt1 hκ hΛ hF hκs hds hf (c := 2 / 3) (by norm_num) (by norm_num) (z := stageS f L (2 / 3)) (d := d)
    (stageS_rob hdt hdt1 hκ hΛ hF hκs hds hf (by norm_num) (by norm_num) hd)
  set r := remS f L (2 / 3) (stageS f L (2 / 3)) (dt, t, (y, d)) with hrd
  have e : stageS3 f L (dt, t, (y, d)) - y = (2 / 3 * dt) • (phiM 1 ((2 / 3 * dt) • L) *ᵥ f t y)
      + (2 / 3 * dt) • (phiM 2 ((2 / 3 * dt) • L) *ᵥ r) + dt • d 1 := by
    simp only [stageS3, ← hrd]; abel
  rw [e]
  have h1 : ‖phiM 1 ((2 / 3 * dt) • L) *ᵥ f t y‖ ≤ Real.exp ‖L‖ * B := (phi_le le_rfl hcd hcd1 1 (f t y)).trans (by gcongr)
  have h2 : ‖phiM 2 ((2 / 3 * dt) • L) *ᵥ r‖ ≤ 1 := by
    refine (phi_le le_rfl hcd hcd1 2 r).trans ?_
    calc Real.exp ‖L‖ * ‖r‖ ≤ Real.exp ‖L‖ * (splitRem B ‖L‖ Λ * dt) := by gcongr
      _ = dt * (Real.exp ‖L‖ * splitRem B ‖L‖ Λ) := by ring
      _ ≤ 1 := hds
  have n := norm_add_le ((2 / 3 * dt) • (phiM 1 ((2 / 3 * dt) • L) *ᵥ f t y)) ((2 / 3 * dt) • (phiM 2 ((2 / 3 * dt) • L) *ᵥ r))
  refine (norm_add_le _ _).trans ?_
  rw [norm_smul, norm_smul, Real.norm_of_nonneg hcd] at n
  rw [norm_smul dt, Real.norm_of_nonneg hdt.le]
  have g1 := mul_le_mul_of_nonneg_left h1 hcd
  have g2 := mul_le_mul_of_nonneg_left h2 hcd
  have g3 := mul_le_mul_of_nonneg_left hd1 hdt.le
  have g4 : 0 ≤ dt * (Real.exp ‖L‖ * B) := by positivity
  unfold splitSize
  linarith

/-- every splitting update is the Euler step up to `O(dt (dt + κ))` -/
theorem splitMapE_rob (m : String) {d : Fin 3 → Vec n} (hd : ‖d‖ ≤ κ * (4 * splitRem B ‖L‖ Λ)) :
    ‖splitMapE m f L (dt, t, (y, d)) - y - dt • f t y‖ ≤ dt * (splitConst B ‖L‖ Λ * (dt + κ)) := by
  have hB : 0 ≤ B := (norm_nonneg _).trans hF
  have hR := splitRem_nonneg hB (norm_nonneg L) hΛ
  have hE := Real.exp_pos ‖L‖
  have n1 : ‖dt • (phiM 1 (dt • L) *ᵥ f t y - f t y)‖ ≤ dt * (dt * (‖L‖ * (Real.exp ‖L‖ * B))) := by
    rw [norm_smul, Real.norm_of_nonneg hdt.le]
    exact mul_le_mul_of_nonneg_left ((phi1_sub_le le_rfl hdt.le hdt1 (f t y)).trans (by gcongr)) hdt.le
  have nd : ∀ i, ‖dt • d i‖ ≤ dt * (κ * (4 * splitRem B ‖L‖ Λ)) := fun i => by
    rw [norm_smul, Real.norm_of_nonneg hdt.le]
    exact mul_le_mul_of_nonneg_left ((norm_le_pi_norm d i).trans hd) hdt.le
  have np : ∀ (a : ℝ) (r : Vec n), 0 ≤ a → a ≤ 3 / 2 * dt → ‖r‖ ≤ splitRem B ‖L‖ Λ * dt →
      ‖a • (phiM 2 (dt • L) *ᵥ r)‖ ≤ 3 / 2 * dt * (Real.exp ‖L‖ * (splitRem B ‖L‖ Λ * dt)) := by
    intro a r ha ha2 hr
    rw [norm_smul, Real.norm_of_nonneg ha]
    exact mul_le_mul ha2 ((phi_le le_rfl hdt.le hdt1 2 r).trans (by gcongr)) (norm_nonneg _) (by positivity)
  have fin : ∀ a b c : Vec n, ‖a‖ ≤ dt * (dt * (‖L‖ * (Real.exp ‖L‖ * B))) →
      ‖b‖ ≤ 3 / 2 * dt * (Real.exp ‖L‖ * (splitRem B ‖L‖ Λ * dt)) → ‖c‖ ≤ dt * (κ * (4 * splitRem B ‖L‖ Λ)) →
      ‖a + b + c‖ ≤ dt * (splitConst B ‖L‖ Λ * (dt + κ)) := by
    intro a b c ha hb hc
    have h1 := norm_add_le (a + b) c
    have h2 := norm_add_le a b
    have a1 : 0 ≤ dt * (‖L‖ * (Real.exp ‖L‖ * B) * κ) := by positivity
    have a2 : 0 ≤ dt * (Real.exp ‖L‖ * splitRem B ‖L‖ Λ * κ) := by positivity
    have a3 : 0 ≤ dt * (splitRem B ‖L‖ Λ * dt) := by positivity
    have a4 : 0 ≤ dt * (Real.exp ‖L‖ * splitRem B ‖L‖ Λ * dt) := by positivity
    unfold splitConst
    nlinarith
  have r1 := fun (c : ℝ) (hc : 0 < c) (hc1 : c ≤ 1) => remS_rob hdt hdt1 hκ hΛ hF hκs hds hf hc hc1 (z := stageS f L c) (d := d)
    (stageS_rob hdt hdt1 hκ hΛ hF hκs hds hf hc hc1 hd)
  have r3 := remS_rob hdt hdt1 hκ hΛ hF hκs hds hf (c := 2 / 3) (by norm_num) (by norm_num) (z := stageS3 f L) (d := d)
    (stageS3_rob hdt hdt1 hκ hΛ hF hκs hds hf hd)
  unfold splitMapE
  split_ifs
  · have := fin _ 0 _ n1 (by rw [norm_zero]; positivity) (nd 0)
    convert this using 2
    simp only [stageS, one_mul]; module
  · have := fin _ _ _ n1 (np (dt / 1) _ (by rw [div_one]; exact hdt.le) (by rw [div_one]; linarith) (r1 1 one_pos le_rfl)) (nd 1)
    convert this using 2
    simp only [mapS2]; module
  · have := fin _ _ _ n1 (np (dt / (2 / 3)) _ (by positivity) (by linarith) (r1 (2 / 3) (by norm_num) (by norm_num))) (nd 1)
    convert this using 2
    simp only [mapS2]; module
  · have := fin _ _ _ n1 (np (3 / 2 * dt) _ (by positivity) le_rfl r3) (nd 2)
    convert this using 2
    simp only [mapS3]; module

end split

/-! ### the classical Runge-Kutta method -/

theorem rk4_rob {f : ℝ → Vec n → Vec n} {t : ℝ} {y : Vec n} {dt B Λ : ℝ} (hdt : 0 < dt) (hB : ‖f t y‖ ≤ B) (hΛd : Λ * dt ≤ 1)
    (hf : ∀ c, 0 < c → c ≤ 1 → ∀ z, ‖z - y‖ ≤ dt * (B + 1) → ‖f (t + c * dt) z - f t y‖ ≤ Λ * dt) :
    ‖rk4Kernel f t y dt - y - dt • f t y‖ ≤ dt * (Λ * dt) := by
  have hB0 : 0 ≤ B := (norm_nonneg _).trans hB
  have key : ∀ (a : ℝ) (g : Vec n), 0 ≤ a → a ≤ dt → ‖g‖ ≤ B + 1 → ‖y + a • g - y‖ ≤ dt * (B + 1) := by
    intro a g h1 h2 h3
    rw [add_sub_cancel_left, norm_smul, Real.norm_of_nonneg h1]
    exact mul_le_mul h2 h3 (norm_nonneg _) hdt.le
  have near : ∀ g : Vec n, ‖g - f t y‖ ≤ Λ * dt → ‖g‖ ≤ B + 1 := by
    intro g hg
    calc ‖g‖ = ‖(g - f t y) + f t y‖ := by congr 1; abel
      _ ≤ _ := norm_add_le _ _
      _ ≤ B + 1 := by linarith
  set f1 := f t y with h1
  set f2 := f (t + 1 / 2 * dt) (y + (dt / 2) • f1) with h2
  have g2 : ‖f2 - f1‖ ≤ Λ * dt := hf (1 / 2) (by norm_num) (by norm_num) _ (key _ _ (by positivity) (by linarith) (by linarith))
  set f3 := f (t + 1 / 2 * dt) (y + (dt / 2) • f2) with h3
  have g3 : ‖f3 - f1‖ ≤ Λ * dt := hf (1 / 2) (by norm_num) (by norm_num) _ (key _ _ (by positivity) (by linarith) (near _ g2))
  set f4 := f (t + 1 * dt) (y + dt • f3) with h4
  have g4 : ‖f4 - f1‖ ≤ Λ * dt := hf 1 one_pos le_rfl _ (key _ _ hdt.le le_rfl (near _ g3))
  have e : rk4Kernel f t y dt - y - dt • f1 = (dt / 6) • ((2 : ℝ) • (f2 - f1) + (2 : ℝ) • (f3 - f1) + (f4 - f1)) := by
    have et : t + dt / 2 = t + 1 / 2 * dt := by ring
    have et' : t + dt = t + 1 * dt := by ring
    simp only [rk4Kernel]
    rw [et, et', ← h1, ← h2, ← h3, ← h4]
    module
  rw [e, norm_smul, Real.norm_of_nonneg (by positivity)]
  have n1 := norm_add_le ((2 : ℝ) • (f2 - f1) + (2 : ℝ) • (f3 - f1)) (f4 - f1)
  have n2 := norm_add_le ((2 : ℝ) • (f2 - f1)) ((2 : ℝ) • (f3 - f1))
  rw [norm_smul, norm_smul, Real.norm_of_nonneg (by norm_num)] at n2
  have n3 : ‖(2 : ℝ) • (f2 - f1) + (2 : ℝ) • (f3 - f1) + (f4 - f1)‖ ≤ 6 * (Λ * dt) := by linarith [norm_nonneg (f2 - f1)]
  calc dt / 6 * ‖(2 : ℝ) • (f2 - f1) + (2 : ℝ) • (f3 - f1) + (f4 - f1)‖ ≤ dt / 6 * (6 * (Λ * dt)) := by gcongr
    _ = _ := by ring

end
end Ormatex.Props
