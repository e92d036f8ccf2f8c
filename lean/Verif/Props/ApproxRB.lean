import Verif.Props.ApproxLoop

/-!
C103, Rosenbrock and EPI methods with approximate kernels.
-/

namespace Ormatex.Props
open Filter Asymptotics Topology Matrix Ormatex.Spec
open scoped Classical
open scoped Matrix.Norms.Operator

section
variable {n : ℕ} {P : Type} [EmptyCollection P]
set_option linter.unusedSectionVars false

theorem linop_err {K : Kernels n} {dt R κ : ℝ} {kmax : ℕ} (hK : ApproxLinop K dt R κ kmax) {A : LinOp n} {M : Mat n}
    (hA : IsMatrix A M) (hM : ‖M‖ ≤ R) (c : ℝ) (hc : 0 < c) (hc1 : c ≤ 1) (v : Vec n) (k : ℕ) (h1 : 1 ≤ k) (hk : k ≤ kmax) :
    ∃ e, K.phiLinop A (c * dt) v k = .ok (phiM k ((c * dt) • M) *ᵥ v + e) ∧ stepWeight dt k * ‖e‖ ≤ κ * ‖v‖ := by
  obtain ⟨w, h, he⟩ := hK A M hA hM c hc hc1 v k h1 hk
  exact ⟨w - phiM k ((c * dt) • M) *ᵥ v, by rw [h]; congr 1; abel, he⟩

theorem linop_err1 {K : Kernels n} {dt R κ : ℝ} {kmax : ℕ} (hK : ApproxLinop K dt R κ kmax) {A : LinOp n} {M : Mat n}
    (hA : IsMatrix A M) (hM : ‖M‖ ≤ R) (v : Vec n) (k : ℕ) (h1 : 1 ≤ k) (hk : k ≤ kmax) :
    ∃ e, K.phiLinop A dt v k = .ok (phiM k (dt • M) *ᵥ v + e) ∧ stepWeight dt k * ‖e‖ ≤ κ * ‖v‖ := by
  have := linop_err hK hA hM 1 one_pos le_rfl v k h1 hk
  rwa [one_mul] at this

theorem phi2v_approx {K : Kernels n} {dt R κ : ℝ} {kmax : ℕ} (hK : ApproxLinop K dt R κ kmax) (hk : 2 ≤ kmax) (hdt : 0 < dt) (hκ : 0 ≤ κ)
    (tol : ℝ) (jac : SysJac n) (J : Mat n)
    (hJ : IsMatrix jac.toLinOp J) (hR : ‖J‖ ≤ R) (c : ℝ) (hc : 0 < c) (hc1 : c ≤ 1) :
    ∃ e, ‖e‖ ≤ κ * ‖effFdt tol jac.fdt‖ ∧ phi2vNonauto K tol jac dt c
      = .ok ((c ^ 2 * dt ^ 2) • (phiM 2 ((c * dt) • J) *ᵥ effFdt tol jac.fdt) + dt • e, effFdt tol jac.fdt) := by
  unfold phi2vNonauto effFdt
  by_cases h1 : tol ≥ 0
  · by_cases h2 : ‖jac.fdt‖ > tol
    · obtain ⟨e, he, hb⟩ := linop_err hK hJ hR c hc hc1 jac.fdt 2 (by norm_num) hk
      have h : 0 ≤ tol ∧ tol < ‖jac.fdt‖ := ⟨h1, h2⟩
      refine ⟨(c ^ 2 * dt) • e, ?_, ?_⟩
      · rw [norm_smul, Real.norm_of_nonneg (by positivity), if_pos h]
        have hw : stepWeight dt 2 = dt := by simp [stepWeight]
        rw [hw] at hb
        have : c ^ 2 ≤ 1 := pow_le_one₀ hc.le hc1
        calc c ^ 2 * dt * ‖e‖ = c ^ 2 * (dt * ‖e‖) := by ring
          _ ≤ 1 * (dt * ‖e‖) := mul_le_mul_of_nonneg_right this (by positivity)
          _ ≤ _ := by linarith
      · simp only [h1, h2, if_true, he, and_self]
        show Except.ok _ = _
        congr 2
        rw [smul_add, smul_smul]
        congr 2
        ring
    · have h : ¬ (0 ≤ tol ∧ tol < ‖jac.fdt‖) := fun h => h2 h.2
      refine ⟨0, by rw [norm_zero]; positivity, ?_⟩
      simp only [h1, h2, h, if_true, if_false]
      simp [pure, Except.pure]
  · have h : ¬ (0 ≤ tol ∧ tol < ‖jac.fdt‖) := fun h => h1 h.1
    refine ⟨0, by rw [norm_zero]; positivity, ?_⟩
    simp only [h1, h, if_false]
    simp [pure, Except.pure]

theorem effFdt_norm_le (tol : ℝ) (c : Vec n) : ‖effFdt tol c‖ ≤ ‖c‖ := by
  unfold effFdt; split_ifs
  · exact le_rfl
  · rw [norm_zero]; exact norm_nonneg _

theorem rbEff_norm_le (m : String) (tol : ℝ) (c : Vec n) : ‖rbEff m tol c‖ ≤ ‖c‖ := by
  unfold rbEff; split_ifs
  · exact le_rfl
  · exact effFdt_norm_le _ _

theorem norm_three_le {a b c : Vec n} {r : ℝ} (ha : ‖a‖ ≤ r) (hb : ‖b‖ ≤ r) (hc : ‖c‖ ≤ r) : ‖(![a, b, c] : Fin 3 → Vec n)‖ ≤ r := by
  refine (pi_norm_le_iff_of_nonneg ((norm_nonneg _).trans ha)).2 fun i => ?_
  fin_cases i
  exacts [ha, hb, hc]

section step
variable {K : Kernels n} {sys : OdeSys n P} {s : ExpRB n} {t : ℝ} {y : Vec n} {dt R κ B : ℝ} {kw : P} {J : Mat n}
  (hdt : 0 < dt) (hdt1 : dt ≤ 1) (hκ : 0 ≤ κ) (hs : At s.base t y) (hR : ‖jacM (sys.frhs none) (t, y)‖ ≤ R)
  (hF : ‖sys.frhs none t y‖ ≤ B) (hD : ‖dtM (sys.frhs none) (t, y)‖ ≤ B)
include hdt hdt1 hκ hs hR hF hD

theorem exprb2_approx (hK : ApproxLinop K dt R κ 2)
    (hj : ExactJac (sys.fjac (some kw) t y) (sys.frhs none) t y (jacM (sys.frhs none) (t, y)))
    (hj2 : (sys.fjac (some kw) t y).fdt = dtM (sys.frhs none) (t, y)) :
    ∃ d, ‖d‖ ≤ κ * (60 * B) ∧ stepExprb2 K sys s dt kw = .ok (StepResult.mk (t + dt) dt
      (stageE (sys.frhs none) 1 0 (dt, t, (y, (effFdt s.tolFdt (dtM (sys.frhs none) (t, y)), d)))) (-1)) := by
  obtain ⟨e2, he2, h2⟩ := phi2v_approx hK le_rfl hdt hκ s.tolFdt _ _ hj.mat hR 1 one_pos le_rfl
  obtain ⟨e1, h1, he1⟩ := linop_err1 hK hj.mat hR (dt • sys.frhs none t y) 1 le_rfl (by norm_num)
  rw [hj2] at h2 he2
  have hB : 0 ≤ B := (norm_nonneg _).trans hF
  have hw : stepWeight dt 1 = 1 := by simp [stepWeight]
  rw [hw, one_mul, norm_smul, Real.norm_of_nonneg hdt.le] at he1
  have he1' : ‖dt⁻¹ • e1‖ ≤ κ * B := by
    rw [norm_smul, Real.norm_of_nonneg (by positivity), inv_mul_le_iff₀ hdt]
    calc ‖e1‖ ≤ κ * (dt * ‖sys.frhs none t y‖) := he1
      _ ≤ κ * (dt * B) := by gcongr
      _ = _ := by ring
  have he2' : ‖e2‖ ≤ κ * B := he2.trans (mul_le_mul_of_nonneg_left ((effFdt_norm_le _ _).trans hD) hκ)
  have hκB : 0 ≤ κ * B := by positivity
  refine ⟨![dt⁻¹ • e1 + e2, 0, 0], norm_three_le ((norm_add_le _ _).trans (by linarith)) (by rw [norm_zero]; linarith)
    (by rw [norm_zero]; linarith), ?_⟩
  unfold stepExprb2
  rw [hs.yNew, hs.time]
  simp only [Bind.bind, Except.bind, pure, Except.pure, h2, hj.rhs, h1]
  congr 2
  simp only [stageE, rosEuler, one_mul, Matrix.mulVec_smul, Matrix.cons_val_zero, smul_add, smul_smul, mul_inv_cancel₀ hdt.ne', one_smul]
  abel

theorem epi2_approx (hK : ApproxKiops K dt R κ)
    (hj : ExactJac (sys.fjac (some kw) t y) (sys.frhs none) t y (jacM (sys.frhs none) (t, y)))
    (hj2 : (sys.fjac (some kw) t y).fdt = dtM (sys.frhs none) (t, y)) :
    ∃ d, ‖d‖ ≤ κ * (60 * B) ∧ stepEpi2 K sys s dt kw = .ok (StepResult.mk (t + dt) dt
      (stageE (sys.frhs none) 1 0 (dt, t, (y, (dtM (sys.frhs none) (t, y), d)))) (-1)) := by
  have hB : 0 ≤ B := (norm_nonneg _).trans hF
  have hκB : 0 ≤ κ * B := by positivity
  obtain ⟨w, h1, he1⟩ := hK _ _ hj.mat hR [0, dt • sys.frhs none t y, dt ^ 2 • dtM (sys.frhs none) (t, y)] (by simp) (by simp) (dt * B)
    (by
      intro b hb
      simp only [List.mem_cons, List.not_mem_nil, or_false] at hb
      rcases hb with rfl | rfl | rfl
      · rw [norm_zero]; positivity
      · rw [norm_smul, Real.norm_of_nonneg hdt.le]; gcongr
      · rw [norm_smul, Real.norm_of_nonneg (by positivity)]
        have : dt ^ 2 ≤ dt := by nlinarith
        exact mul_le_mul this hD (norm_nonneg _) hdt.le)
    (by
      show ‖dt ^ 2 • dtM (sys.frhs none) (t, y)‖ ≤ _
      rw [norm_smul, Real.norm_of_nonneg (by positivity)]
      calc dt ^ 2 * ‖dtM (sys.frhs none) (t, y)‖ ≤ dt ^ 2 * B := by gcongr
        _ = _ := by ring)
  set W := ∑ j ∈ Finset.range [0, dt • sys.frhs none t y, dt ^ 2 • dtM (sys.frhs none) (t, y)].length,
    phiM j (dt • jacM (sys.frhs none) (t, y)) *ᵥ [0, dt • sys.frhs none t y, dt ^ 2 • dtM (sys.frhs none) (t, y)].getD j 0 with hW
  have he1' : ‖dt⁻¹ • (w - W)‖ ≤ κ * B := by
    rw [norm_smul, Real.norm_of_nonneg (by positivity), inv_mul_le_iff₀ hdt]
    linarith
  refine ⟨![dt⁻¹ • (w - W), 0, 0], norm_three_le (by linarith) (by rw [norm_zero]; linarith)
    (by rw [norm_zero]; linarith), ?_⟩
  unfold stepEpi2
  rw [hs.yNew, hs.time]
  simp only [Bind.bind, Except.bind, pure, Except.pure, hj.rhs, hj2, h1]
  congr 2
  have eW : W = dt • (phiM 1 (dt • jacM (sys.frhs none) (t, y)) *ᵥ sys.frhs none t y)
      + dt ^ 2 • (phiM 2 (dt • jacM (sys.frhs none) (t, y)) *ᵥ dtM (sys.frhs none) (t, y)) := by
    rw [hW]; simp [Finset.sum_range_succ, Matrix.mulVec_smul]
  simp only [stageE, rosEuler, one_mul, Matrix.cons_val_zero, smul_smul, mul_inv_cancel₀ hdt.ne', one_smul, one_pow]
  rw [eW]
  abel

theorem dense_approx (hK : ApproxSq K dt R κ)
    (hj : ExactJac (sys.fjac none t y) (sys.frhs none) t y (jacM (sys.frhs none) (t, y)))
    (hj2 : (sys.fjac none t y).fdt = dtM (sys.frhs none) (t, y)) :
    ∃ d, ‖d‖ ≤ κ * (60 * B) ∧ stepExprb2Dense K sys s dt = .ok (StepResult.mk (t + dt) dt
      (stageE (sys.frhs none) 1 0 (dt, t, (y, (dtM (sys.frhs none) (t, y), d)))) (-1)) := by
  have hB : 0 ≤ B := (norm_nonneg _).trans hF
  have hκB : 0 ≤ κ * B := by positivity
  obtain ⟨L, h1, hl, he⟩ := hK _ hR 1 one_pos le_rfl 2 le_rfl
  rw [one_mul] at h1 he
  have g1 := he 1 le_rfl (by norm_num)
  have g2 := he 2 (by norm_num) le_rfl
  simp only [stepWeight, le_refl, if_true, one_mul, show ¬ (2 ≤ 1) by norm_num, if_false] at g1 g2
  set J := jacM (sys.frhs none) (t, y) with hJ
  have k1 : ‖(L.getD 1 0 - phiM 1 (dt • J)) *ᵥ sys.frhs none t y‖ ≤ κ * B :=
    (Matrix.linfty_opNorm_mulVec _ _).trans (mul_le_mul g1 hF (norm_nonneg _) hκ)
  have k2 : ‖dt • ((L.getD 2 0 - phiM 2 (dt • J)) *ᵥ dtM (sys.frhs none) (t, y))‖ ≤ κ * B := by
    rw [norm_smul, Real.norm_of_nonneg hdt.le]
    have := Matrix.linfty_opNorm_mulVec (L.getD 2 0 - phiM 2 (dt • J)) (dtM (sys.frhs none) (t, y))
    calc dt * ‖(L.getD 2 0 - phiM 2 (dt • J)) *ᵥ dtM (sys.frhs none) (t, y)‖
        ≤ dt * (‖L.getD 2 0 - phiM 2 (dt • J)‖ * ‖dtM (sys.frhs none) (t, y)‖) := by gcongr
      _ = (dt * ‖L.getD 2 0 - phiM 2 (dt • J)‖) * ‖dtM (sys.frhs none) (t, y)‖ := by ring
      _ ≤ _ := mul_le_mul g2 hD (norm_nonneg _) hκ
  refine ⟨![(L.getD 1 0 - phiM 1 (dt • J)) *ᵥ sys.frhs none t y
    + dt • ((L.getD 2 0 - phiM 2 (dt • J)) *ᵥ dtM (sys.frhs none) (t, y)), 0, 0],
    norm_three_le ((norm_add_le _ _).trans (by linarith)) (by rw [norm_zero]; linarith) (by rw [norm_zero]; linarith), ?_⟩
  have p1 : pyGet L 1 = .ok (L.getD 1 0) := by
    unfold pyGet; rw [List.getD_eq_getElem?_getD, List.getElem?_eq_getElem (by omega)]; rfl
  have p2 : pyGet L 2 = .ok (L.getD 2 0) := by
    unfold pyGet; rw [List.getD_eq_getElem?_getD, List.getElem?_eq_getElem (by omega)]; rfl
  unfold stepExprb2Dense
  rw [hs.yNew, hs.time]
  simp only [Bind.bind, Except.bind, pure, Except.pure, hj.rhs, hj2, hj.dense, h1, p1, p2]
  congr 2
  simp only [stageE, rosEuler, one_mul, Matrix.cons_val_zero, one_pow, ← hJ, Matrix.sub_mulVec, Matrix.smul_mulVec]
  module

theorem pfd_approx (hK : ApproxPfd K dt R κ)
    (hj : ExactJac (sys.fjac (some kw) t y) (sys.frhs none) t y (jacM (sys.frhs none) (t, y)))
    (hj2 : (sys.fjac (some kw) t y).fdt = dtM (sys.frhs none) (t, y)) :
    ∃ d, ‖d‖ ≤ κ * (60 * B) ∧ stepExprb2Pfd K sys s dt kw = .ok (StepResult.mk (t + dt) dt
      (stageE (sys.frhs none) 1 0 (dt, t, (y, (effFdt s.tolFdt (dtM (sys.frhs none) (t, y)), d)))) (-1)) := by
  have hB : 0 ≤ B := (norm_nonneg _).trans hF
  have hκB : 0 ≤ κ * B := by positivity
  obtain ⟨w1, h1, g1⟩ := hK _ hR (sys.frhs none t y) 1 le_rfl (by norm_num)
  obtain ⟨w2, h2, g2⟩ := hK _ hR (dtM (sys.frhs none) (t, y)) 2 (by norm_num) le_rfl
  simp only [stepWeight, le_refl, if_true, one_mul, show ¬ (2 ≤ 1) by norm_num, if_false] at g1 g2
  set J := jacM (sys.frhs none) (t, y) with hJ
  have k1 : ‖w1 - phiM 1 (dt • J) *ᵥ sys.frhs none t y‖ ≤ κ * B := g1.trans (by gcongr)
  have k2 : ‖dt • (w2 - phiM 2 (dt • J) *ᵥ dtM (sys.frhs none) (t, y))‖ ≤ κ * B := by
    rw [norm_smul, Real.norm_of_nonneg hdt.le]; exact g2.trans (by gcongr)
  have key : ∀ (w η : Vec n), ‖dt • (w - phiM 2 (dt • J) *ᵥ η)‖ ≤ κ * B →
      ∃ d, ‖d‖ ≤ κ * (60 * B) ∧ StepResult.mk (t + dt) dt (y + dt • (w1 + dt • w)) (-1) = StepResult.mk (t + dt) dt
        (stageE (sys.frhs none) 1 0 (dt, t, (y, (η, d)))) (-1) := by
    intro w η hw
    refine ⟨![(w1 - phiM 1 (dt • J) *ᵥ sys.frhs none t y) + dt • (w - phiM 2 (dt • J) *ᵥ η), 0, 0],
      norm_three_le ((norm_add_le _ _).trans (by linarith)) (by rw [norm_zero]; linarith) (by rw [norm_zero]; linarith), ?_⟩
    congr 1
    simp only [stageE, rosEuler, one_mul, Matrix.cons_val_zero, one_pow, ← hJ]
    module
  unfold stepExprb2Pfd
  rw [hs.yNew, hs.time]
  simp only [Bind.bind, Except.bind, hj.dense, hj.rhs, hj2, ← hJ]
  by_cases c1 : s.tolFdt ≥ 0
  · by_cases c2 : ‖dtM (sys.frhs none) (t, y)‖ > s.tolFdt
    · have c : 0 ≤ s.tolFdt ∧ s.tolFdt < ‖dtM (sys.frhs none) (t, y)‖ := ⟨c1, c2⟩
      obtain ⟨d, hd, e⟩ := key w2 _ k2
      refine ⟨d, hd, ?_⟩
      rw [show effFdt s.tolFdt (dtM (sys.frhs none) (t, y)) = _ from if_pos c]
      simp only [c1, c2, if_true, h1, h2, pure, Except.pure]
      rw [e]
    · have c : ¬ (0 ≤ s.tolFdt ∧ s.tolFdt < ‖dtM (sys.frhs none) (t, y)‖) := fun h => c2 h.2
      obtain ⟨d, hd, e⟩ := key 0 0 (by simpa using hκB)
      refine ⟨d, hd, ?_⟩
      rw [show effFdt s.tolFdt (dtM (sys.frhs none) (t, y)) = _ from if_neg c]
      simp only [c1, c2, if_true, if_false, h1, pure, Except.pure]
      rw [e]
  · have c : ¬ (0 ≤ s.tolFdt ∧ s.tolFdt < ‖dtM (sys.frhs none) (t, y)‖) := fun h => c1 h.1
    obtain ⟨d, hd, e⟩ := key 0 0 (by simpa using hκB)
    refine ⟨d, hd, ?_⟩
    rw [show effFdt s.tolFdt (dtM (sys.frhs none) (t, y)) = _ from if_neg c]
    simp only [c1, if_false, h1, pure, Except.pure]
    rw [e]

theorem pfdRs_approx (hK : ApproxRs K dt R κ)
    (hj : ExactJac (sys.fjac none t y) (sys.frhs none) t y (jacM (sys.frhs none) (t, y)))
    (hj2 : (sys.fjac none t y).fdt = dtM (sys.frhs none) (t, y)) :
    ∃ d, ‖d‖ ≤ κ * (60 * B) ∧ stepExprb2PfdRs K sys s dt = .ok (StepResult.mk (t + dt) dt
      (stageE (sys.frhs none) 1 0 (dt, t, (y, (effFdt s.tolFdt (dtM (sys.frhs none) (t, y)), d)))) (-1)) := by
  have hB : 0 ≤ B := (norm_nonneg _).trans hF
  have hκB : 0 ≤ κ * B := by positivity
  have g1 := hK _ hR (sys.frhs none t y) 1 le_rfl (by norm_num)
  have g2 := hK _ hR (dtM (sys.frhs none) (t, y)) 2 (by norm_num) le_rfl
  simp only [stepWeight, le_refl, if_true, one_mul, show ¬ (2 ≤ 1) by norm_num, if_false] at g1 g2
  set J := jacM (sys.frhs none) (t, y) with hJ
  set w1 := K.phikvRs J dt (sys.frhs none t y) 1 with hw1
  set w2 := K.phikvRs J dt (dtM (sys.frhs none) (t, y)) 2 with hw2
  have k1 : ‖w1 - phiM 1 (dt • J) *ᵥ sys.frhs none t y‖ ≤ κ * B := g1.trans (by gcongr)
  have k2 : ‖dt • (w2 - phiM 2 (dt • J) *ᵥ dtM (sys.frhs none) (t, y))‖ ≤ κ * B := by
    rw [norm_smul, Real.norm_of_nonneg hdt.le]; exact g2.trans (by gcongr)
  have key : ∀ (w η : Vec n), ‖dt • (w - phiM 2 (dt • J) *ᵥ η)‖ ≤ κ * B →
      ∃ d, ‖d‖ ≤ κ * (60 * B) ∧ StepResult.mk (t + dt) dt (y + dt • (w1 + dt • w)) (-1) = StepResult.mk (t + dt) dt
        (stageE (sys.frhs none) 1 0 (dt, t, (y, (η, d)))) (-1) := by
    intro w η hw
    refine ⟨![(w1 - phiM 1 (dt • J) *ᵥ sys.frhs none t y) + dt • (w - phiM 2 (dt • J) *ᵥ η), 0, 0],
      norm_three_le ((norm_add_le _ _).trans (by linarith)) (by rw [norm_zero]; linarith) (by rw [norm_zero]; linarith), ?_⟩
    congr 1
    simp only [stageE, rosEuler, one_mul, Matrix.cons_val_zero, one_pow, ← hJ]
    module
  unfold stepExprb2PfdRs
  rw [hs.yNew, hs.time]
  simp only [Bind.bind, Except.bind, hj.dense, hj.rhs, hj2, ← hJ]
  by_cases c1 : s.tolFdt ≥ 0
  · by_cases c2 : ‖dtM (sys.frhs none) (t, y)‖ > s.tolFdt
    · have c : 0 ≤ s.tolFdt ∧ s.tolFdt < ‖dtM (sys.frhs none) (t, y)‖ := ⟨c1, c2⟩
      obtain ⟨d, hd, e⟩ := key w2 _ k2
      refine ⟨d, hd, ?_⟩
      rw [show effFdt s.tolFdt (dtM (sys.frhs none) (t, y)) = _ from if_pos c]
      simp only [c1, c2, if_true, pure, Except.pure]
      rw [← e]
    · have c : ¬ (0 ≤ s.tolFdt ∧ s.tolFdt < ‖dtM (sys.frhs none) (t, y)‖) := fun h => c2 h.2
      obtain ⟨d, hd, e⟩ := key 0 0 (by simpa using hκB)
      refine ⟨d, hd, ?_⟩
      rw [show effFdt s.tolFdt (dtM (sys.frhs none) (t, y)) = _ from if_neg c]
      simp only [c1, c2, if_true, if_false, pure, Except.pure]
      rw [← e]
  · have c : ¬ (0 ≤ s.tolFdt ∧ s.tolFdt < ‖dtM (sys.frhs none) (t, y)‖) := fun h => c1 h.1
    obtain ⟨d, hd, e⟩ := key 0 0 (by simpa using hκB)
    refine ⟨d, hd, ?_⟩
    rw [show effFdt s.tolFdt (dtM (sys.frhs none) (t, y)) = _ from if_neg c]
    simp only [c1, if_false, pure, Except.pure]
    rw [← e]

/-- a stage of `exprb3` or `pexprb4` -/
theorem stage_approx {kmax : ℕ} (hK : ApproxLinop K dt R κ kmax) (hk : 2 ≤ kmax)
    (hj : ExactJac (sys.fjac (some kw) t y) (sys.frhs none) t y (jacM (sys.frhs none) (t, y)))
    (hj2 : (sys.fjac (some kw) t y).fdt = dtM (sys.frhs none) (t, y)) (c : ℝ) (hc : 0 < c) (hc1 : c ≤ 1) :
    ∃ p1 e2 d, ‖d‖ ≤ κ * (2 * B) ∧ K.phiLinop (sys.fjac (some kw) t y).toLinOp (c * dt) (sys.frhs none t y) 1 = .ok p1 ∧
      phi2vNonauto K s.tolFdt (sys.fjac (some kw) t y) dt c = .ok (e2, effFdt s.tolFdt (dtM (sys.frhs none) (t, y))) ∧
      y + (c * dt) • p1 + e2 = rosEuler (jacM (sys.frhs none) (t, y)) y (sys.frhs none t y)
        (effFdt s.tolFdt (dtM (sys.frhs none) (t, y))) dt c + dt • d := by
  have hB : 0 ≤ B := (norm_nonneg _).trans hF
  obtain ⟨e2, he2, h2⟩ := phi2v_approx hK hk hdt hκ s.tolFdt _ _ hj.mat hR c hc hc1
  obtain ⟨e1, h1, he1⟩ := linop_err hK hj.mat hR c hc hc1 (sys.frhs none t y) 1 le_rfl (by omega)
  rw [hj2] at h2 he2
  have hw : stepWeight dt 1 = 1 := by simp [stepWeight]
  rw [hw, one_mul] at he1
  have k1 : ‖c • e1‖ ≤ κ * B := by
    rw [norm_smul, Real.norm_of_nonneg hc.le]
    calc c * ‖e1‖ ≤ 1 * ‖e1‖ := by gcongr
      _ ≤ κ * ‖sys.frhs none t y‖ := by linarith
      _ ≤ _ := by gcongr
  have k2 : ‖e2‖ ≤ κ * B := he2.trans (mul_le_mul_of_nonneg_left ((effFdt_norm_le _ _).trans hD) hκ)
  refine ⟨_, _, c • e1 + e2, (norm_add_le _ _).trans (by linarith), h1, h2, ?_⟩
  unfold rosEuler
  module

theorem exprb3_approx (hK : ApproxLinop K dt R κ 3)
    (hj : ExactJac (sys.fjac (some kw) t y) (sys.frhs none) t y (jacM (sys.frhs none) (t, y)))
    (hj2 : (sys.fjac (some kw) t y).fdt = dtM (sys.frhs none) (t, y))
    (hrem : ∀ d : Fin 3 → Vec n, ‖d‖ ≤ κ * (2 * B) →
      ‖remE (sys.frhs none) 1 0 (dt, t, (y, (effFdt s.tolFdt (dtM (sys.frhs none) (t, y)), d)))‖ ≤ B * dt) :
    ∃ d, ‖d‖ ≤ κ * (60 * B) ∧ stepExprb3 K sys s dt kw = .ok (StepResult.mk (t + dt) dt
      (mapE3 (sys.frhs none) (dt, t, (y, (effFdt s.tolFdt (dtM (sys.frhs none) (t, y)), d)))) (-1)) := by
  have hB : 0 ≤ B := (norm_nonneg _).trans hF
  have hκB : 0 ≤ κ * B := by positivity
  obtain ⟨p1, e2, d0, hd0, h1, h2, h3⟩ := stage_approx hdt hdt1 hκ hs hR hF hD hK (by norm_num) hj hj2 1 one_pos le_rfl
  rw [one_mul] at h1 h3
  set J := jacM (sys.frhs none) (t, y) with hJ
  set η := effFdt s.tolFdt (dtM (sys.frhs none) (t, y)) with hη
  have hr := hrem ![d0, 0, 0] (norm_three_le hd0 (by rw [norm_zero]; linarith) (by rw [norm_zero]; linarith))
  set r := remE (sys.frhs none) 1 0 (dt, t, (y, (η, ![d0, 0, 0]))) with hrd
  obtain ⟨e3, h4, he3⟩ := linop_err1 hK hj.mat hR r 3 (by norm_num) le_rfl
  have hw : stepWeight dt 3 = dt := by simp [stepWeight]
  rw [hw] at he3
  have he3' : ‖e3‖ ≤ κ * B := by
    have : dt * ‖e3‖ ≤ dt * (κ * B) := he3.trans (by
      calc κ * ‖r‖ ≤ κ * (B * dt) := by gcongr
        _ = _ := by ring)
    exact le_of_mul_le_mul_left this hdt
  refine ⟨![d0, (2 : ℝ) • e3, 0], norm_three_le (by linarith) ?_ (by rw [norm_zero]; linarith), ?_⟩
  · rw [norm_smul, Real.norm_of_nonneg (by norm_num)]; linarith
  have er : remf sys s.base (t + dt) (rosEuler J y (sys.frhs none t y) η dt 1 + dt • d0) (sys.frhs none t y)
      (sys.fjac (some kw) t y).toLinOp η = .ok r := by
    rw [remf_closed sys hs _ _ _ _ _ hj.mat, hrd]
    simp only [remE, stageE, Matrix.cons_val_zero, one_mul, add_sub_cancel_left]
    rfl
  unfold stepExprb3
  rw [hs.yNew, hs.time]
  simp only [Bind.bind, Except.bind, pure, Except.pure, hj.rhs, h2, h1, h3, er, h4]
  congr 2
  have es : ∀ x z, stageE (sys.frhs none) 1 0 (dt, t, (y, (η, ![d0, x, z]))) = rosEuler J y (sys.frhs none t y) η dt 1 + dt • d0 :=
    fun x z => rfl
  have e4 : remE (sys.frhs none) 1 0 (dt, t, (y, (η, ![d0, (2 : ℝ) • e3, 0]))) = r := rfl
  simp only [mapE3, es, e4, Matrix.cons_val_one, Matrix.cons_val_zero, ← hJ]
  module

theorem pexprb4_approx (hK : ApproxLinop K dt R κ 2) (hK2 : ApproxKiops K dt R κ)
    (hj : ExactJac (sys.fjac (some kw) t y) (sys.frhs none) t y (jacM (sys.frhs none) (t, y)))
    (hj2 : (sys.fjac (some kw) t y).fdt = dtM (sys.frhs none) (t, y))
    (hrem : ∀ d : Fin 3 → Vec n, ‖d‖ ≤ κ * (2 * B) →
      ‖remE (sys.frhs none) 1 0 (dt, t, (y, (effFdt s.tolFdt (dtM (sys.frhs none) (t, y)), d)))‖ ≤ B * dt ∧
      ‖remE (sys.frhs none) (1 / 2) 2 (dt, t, (y, (effFdt s.tolFdt (dtM (sys.frhs none) (t, y)), d)))‖ ≤ B * dt) :
    ∃ d, ‖d‖ ≤ κ * (60 * B) ∧ stepPexprb4 K sys s dt kw = .ok (StepResult.mk (t + dt) dt
      (mapE4 (sys.frhs none) (dt, t, (y, (effFdt s.tolFdt (dtM (sys.frhs none) (t, y)), d)))) (-1)) := by
  have hB : 0 ≤ B := (norm_nonneg _).trans hF
  have hκB : 0 ≤ κ * B := by positivity
  obtain ⟨p1, e2, d0, hd0, h1, h2, h3⟩ := stage_approx hdt hdt1 hκ hs hR hF hD hK le_rfl hj hj2 1 one_pos le_rfl
  obtain ⟨p1', e2', d2, hd2, h1', h2', h3'⟩ := stage_approx hdt hdt1 hκ hs hR hF hD hK le_rfl hj hj2 (1 / 2) (by norm_num) (by norm_num)
  set J := jacM (sys.frhs none) (t, y) with hJ
  set η := effFdt s.tolFdt (dtM (sys.frhs none) (t, y)) with hη
  obtain ⟨hr3, hr2⟩ := hrem ![d0, 0, d2] (norm_three_le hd0 (by rw [norm_zero]; linarith) hd2)
  set r3 := remE (sys.frhs none) 1 0 (dt, t, (y, (η, ![d0, 0, d2]))) with hrd3
  set r2 := remE (sys.frhs none) (1 / 2) 2 (dt, t, (y, (η, ![d0, 0, d2]))) with hrd2
  have hl2 : ∀ a b : ℝ, |a| + |b| ≤ 60 → ‖dt • (a • r2 + b • r3)‖ ≤ dt * (dt * (60 * B)) := by
    intro a b hab
    rw [norm_smul, Real.norm_of_nonneg hdt.le]
    refine mul_le_mul_of_nonneg_left ((norm_add_le _ _).trans ?_) hdt.le
    rw [norm_smul, norm_smul, Real.norm_eq_abs, Real.norm_eq_abs]
    have q3 := mul_le_mul_of_nonneg_left hr2 (abs_nonneg a)
    have q4 := mul_le_mul_of_nonneg_left hr3 (abs_nonneg b)
    have q5 : 0 ≤ B * dt := by positivity
    nlinarith
  have hl : ∀ a b : ℝ, |a| + |b| ≤ 60 → ‖dt • (a • r2 + b • r3)‖ ≤ dt * (60 * B) := by
    intro a b hab
    refine (hl2 a b hab).trans (mul_le_mul_of_nonneg_left ?_ hdt.le)
    have : 0 ≤ 60 * B := by positivity
    nlinarith
  set bs : List (Vec n) := [0, 0, 0, dt • ((16 : ℝ) • r2 - (2 : ℝ) • r3), dt • ((-48 : ℝ) • r2 + (12 : ℝ) • r3)] with hbs
  obtain ⟨w, h4, he4⟩ := hK2 _ _ hj.mat hR bs (by simp [hbs]) (by simp [hbs]) (dt * (60 * B))
    (by
      intro b hb
      simp only [hbs, List.mem_cons, List.not_mem_nil, or_false] at hb
      rcases hb with rfl | rfl | rfl | rfl | rfl
      · rw [norm_zero]; positivity
      · rw [norm_zero]; positivity
      · rw [norm_zero]; positivity
      · have := hl 16 (-2) (by norm_num)
        rwa [neg_smul, ← sub_eq_add_neg] at this
      · exact hl (-48) 12 (by norm_num))
    (hl2 (-48) 12 (by norm_num))
  set W := ∑ j ∈ Finset.range bs.length, phiM j (dt • J) *ᵥ bs.getD j 0 with hW
  have he4' : ‖dt⁻¹ • (w - W)‖ ≤ κ * (60 * B) := by
    rw [norm_smul, Real.norm_of_nonneg (by positivity), inv_mul_le_iff₀ hdt]
    linarith
  refine ⟨![d0, dt⁻¹ • (w - W), d2], norm_three_le (by linarith) he4' (by linarith), ?_⟩
  have er3 : remf sys s.base (t + 1 * dt) (rosEuler J y (sys.frhs none t y) η dt 1 + dt • d0) (sys.frhs none t y)
      (sys.fjac (some kw) t y).toLinOp η = .ok r3 := by
    rw [remf_closed sys hs _ _ _ _ _ hj.mat, hrd3]
    simp only [remE, stageE, Matrix.cons_val_zero, add_sub_cancel_left]
    rfl
  have er2 : remf sys s.base (t + 1 / 2 * dt) (rosEuler J y (sys.frhs none t y) η dt (1 / 2) + dt • d2) (sys.frhs none t y)
      (sys.fjac (some kw) t y).toLinOp η = .ok r2 := by
    rw [remf_closed sys hs _ _ _ _ _ hj.mat, hrd2]
    simp only [remE, stageE, add_sub_cancel_left]
    rfl
  unfold stepPexprb4 fUn2 fUn3 pexprb4Final
  rw [hs.yNew, hs.time]
  simp only [Bind.bind, Except.bind, pure, Except.pure, hj.rhs, h2, h1, h3, h2', h1', h3', er3, er2]
  rw [← hbs, h4]
  simp only
  congr 2
  have es : ∀ x z, stageE (sys.frhs none) 1 0 (dt, t, (y, (η, ![d0, x, z]))) = rosEuler J y (sys.frhs none t y) η dt 1 + dt • d0 :=
    fun x z => rfl
  have e4 : remE (sys.frhs none) 1 0 (dt, t, (y, (η, ![d0, dt⁻¹ • (w - W), d2]))) = r3 := rfl
  have e5 : remE (sys.frhs none) (1 / 2) 2 (dt, t, (y, (η, ![d0, dt⁻¹ • (w - W), d2]))) = r2 := rfl
  have eW : W = phiM 3 (dt • J) *ᵥ (dt • ((16 : ℝ) • r2 - (2 : ℝ) • r3)) + phiM 4 (dt • J) *ᵥ (dt • ((-48 : ℝ) • r2 + (12 : ℝ) • r3)) := by
    rw [hW]; simp [hbs, Finset.sum_range_succ]
  simp only [mapE4, es, e4, e5, Matrix.cons_val_one, Matrix.cons_val_zero, ← hJ]
  rw [← eW, smul_smul, mul_inv_cancel₀ hdt.ne', one_smul]
  abel

end step

theorem rb_step_approx {K : Kernels n} (hasRust : Bool) (sys : OdeSys n P) (hj : ExactJacs sys) (s : ExpRB n) (t : ℝ) (y : Vec n)
    (hs : At s.base t y) (kw : Option P) (dt R κ B : ℝ) (p : ℕ) (m : String) (hsm : s.base.method = m) (hm : (m, p) ∈ rbOrders)
    (hrust : m = "exprb2_pfd_rs" → hasRust = true) (hK : ApproxFor m K dt R κ)
    (hdt : 0 < dt) (hdt1 : dt ≤ 1) (hκ : 0 ≤ κ) (hR : ‖jacM (sys.frhs none) (t, y)‖ ≤ R)
    (hF : ‖sys.frhs none t y‖ ≤ B) (hD : ‖dtM (sys.frhs none) (t, y)‖ ≤ B)
    (hrem : ∀ d : Fin 3 → Vec n, ‖d‖ ≤ κ * (2 * B) →
      ‖remE (sys.frhs none) 1 0 (dt, t, (y, (rbEff m s.tolFdt (dtM (sys.frhs none) (t, y)), d)))‖ ≤ B * dt ∧
      ‖remE (sys.frhs none) (1 / 2) 2 (dt, t, (y, (rbEff m s.tolFdt (dtM (sys.frhs none) (t, y)), d)))‖ ≤ B * dt) :
    ∃ d, ‖d‖ ≤ κ * (60 * B) ∧ ExpRB.step hasRust K sys s dt kw = .ok (StepResult.mk (t + dt) dt
      (rbMapE m (sys.frhs none) (dt, t, (y, (rbEff m s.tolFdt (dtM (sys.frhs none) (t, y)), d)))) (-1)) := by
  obtain ⟨h1, h2⟩ := hj.get (some (kw.getD ∅)) t y
  obtain ⟨h1', h2'⟩ := hj.get none t y
  unfold ExpRB.step
  simp only [hsm]
  simp only [rbOrders, List.mem_cons, List.not_mem_nil, or_false, Prod.mk.injEq] at hm
  obtain ⟨k1, k2, k3, k4, k5⟩ := hK
  rcases hm with ⟨rfl, -⟩ | ⟨rfl, -⟩ | ⟨rfl, -⟩ | ⟨rfl, -⟩ | ⟨rfl, -⟩ | ⟨rfl, -⟩ | ⟨rfl, -⟩ <;>
    simp only [String.reduceEq, if_true, if_false, false_and, true_and, rbMapE, rbEff, alwaysCorrected, List.mem_cons,
      List.not_mem_nil, or_false, or_true, false_or, true_or] at k1 k2 k3 k4 k5 hrem ⊢
  · exact exprb2_approx hdt hdt1 hκ hs hR hF hD (k1 trivial) h1 h2
  · exact epi2_approx hdt hdt1 hκ hs hR hF hD (k2 trivial) h1 h2
  · exact dense_approx hdt hdt1 hκ hs hR hF hD (k3 trivial) h1' h2'
  · exact pfd_approx hdt hdt1 hκ hs hR hF hD (k4 trivial) h1 h2
  · simp only [hrust rfl, if_true]
    exact pfdRs_approx hdt hdt1 hκ hs hR hF hD (k5 trivial) h1' h2'
  · exact exprb3_approx hdt hdt1 hκ hs hR hF hD (k1 trivial) h1 h2 fun d hd => (hrem d hd).1
  · exact pexprb4_approx hdt hdt1 hκ hs hR hF hD (k1 trivial) (k2 trivial) h1 h2 hrem

end
end Ormatex.Props
