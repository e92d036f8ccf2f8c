import Verif.Props.ApproxRB

/-!
C103, splitting methods with approximate kernels: one step is a smooth function of the step size, the time, the state and the
(scaled) kernel errors.
-/

namespace Ormatex.Props
open Filter Asymptotics Topology Matrix Ormatex.Spec
open scoped Classical
open scoped Matrix.Norms.Operator

section
variable {n : ℕ}

/-- the argument of the perturbed maps: step size, time, state and scaled errors -/
abbrev ArgS (n : ℕ) := ℝ × ℝ × (Vec n × (Fin 3 → Vec n))

/-- first stage with error `h d_0` -/
noncomputable def stageS (f : ℝ → Vec n → Vec n) (L : Mat n) (c : ℝ) (q : ArgS n) : Vec n :=
  q.2.2.1 + (c * q.1) • (phiM 1 ((c * q.1) • L) *ᵥ f q.2.1 q.2.2.1) + q.1 • q.2.2.2 0

/-- the remainder at a stage `z` -/
noncomputable def remS (f : ℝ → Vec n → Vec n) (L : Mat n) (c : ℝ) (z : ArgS n → Vec n) (q : ArgS n) : Vec n :=
  f (q.2.1 + c * q.1) (z q) - f q.2.1 q.2.2.1 - L *ᵥ (z q - q.2.2.1)

noncomputable def mapS2 (f : ℝ → Vec n → Vec n) (L : Mat n) (c : ℝ) (q : ArgS n) : Vec n :=
  q.2.2.1 + q.1 • (phiM 1 (q.1 • L) *ᵥ f q.2.1 q.2.2.1) + (q.1 / c) • (phiM 2 (q.1 • L) *ᵥ remS f L c (stageS f L c) q)
    + q.1 • q.2.2.2 1

/-- second stage of the third-order method -/
noncomputable def stageS3 (f : ℝ → Vec n → Vec n) (L : Mat n) (q : ArgS n) : Vec n :=
  q.2.2.1 + (2 / 3 * q.1) • (phiM 1 ((2 / 3 * q.1) • L) *ᵥ f q.2.1 q.2.2.1)
    + (2 / 3 * q.1) • (phiM 2 ((2 / 3 * q.1) • L) *ᵥ remS f L (2 / 3) (stageS f L (2 / 3)) q) + q.1 • q.2.2.2 1

noncomputable def mapS3 (f : ℝ → Vec n → Vec n) (L : Mat n) (q : ArgS n) : Vec n :=
  q.2.2.1 + q.1 • (phiM 1 (q.1 • L) *ᵥ f q.2.1 q.2.2.1) + (3 / 2 * q.1) • (phiM 2 (q.1 • L) *ᵥ remS f L (2 / 3) (stageS3 f L) q)
    + q.1 • q.2.2.2 2

/-- the perturbed step map of a splitting method -/
noncomputable def splitMapE (m : String) (f : ℝ → Vec n → Vec n) (L : Mat n) : ArgS n → Vec n :=
  if m = "exp1" ∨ m = "exp1_dense" then stageS f L 1
  else if m = "exp2" then mapS2 f L 1
  else if m = "exp2_dense" then mapS2 f L (2 / 3)
  else mapS3 f L

theorem splitMapE_zero_err (m : String) (f : ℝ → Vec n → Vec n) (L : Mat n) (h t : ℝ) (y : Vec n) :
    splitMapE m f L (h, t, (y, 0)) = splitMap m f L h t y := by
  unfold splitMapE splitMap
  split_ifs <;> simp [stageS, mapS2, mapS3, stageS3, remS, exp2Update, exp3Update]

variable {f : ℝ → Vec n → Vec n} {L : Mat n} {t : ℝ}

theorem stageS_zero (c : ℝ) (x : Vec n × (Fin 3 → Vec n)) : stageS f L c (0, t, x) = x.1 := by simp [stageS]
theorem stageS3_zero (x : Vec n × (Fin 3 → Vec n)) : stageS3 f L (0, t, x) = x.1 := by simp [stageS3]
theorem remS_zero (c : ℝ) {z : ArgS n → Vec n} (hz : ∀ t x, z (0, t, x) = x.1) (x : Vec n × (Fin 3 → Vec n)) :
    remS f L c z (0, t, x) = 0 := by simp [remS, hz]
theorem splitMapE_zero (m : String) (x : Vec n × (Fin 3 → Vec n)) : splitMapE m f L (0, t, x) = x.1 := by
  unfold splitMapE; split_ifs <;> simp [mapS2, mapS3, stageS_zero]

section smooth
variable {m : ℕ} {y : Vec n} (hf : ContDiffAt ℝ m (fun p : ℝ × Vec n => f p.1 p.2) (t, y)) (d : Fin 3 → Vec n)
include hf

theorem smoothFS : ContDiffAt ℝ m (fun q : ArgS n => f q.2.1 q.2.2.1) (0, t, (y, d)) :=
  comp_contDiffAt hf (by fun_prop) (by fun_prop) rfl rfl

theorem stageS_smooth (c : ℝ) : ContDiffAt ℝ m (stageS f L c) (0, t, (y, d)) := by
  have hh : ContDiffAt ℝ m (fun q : ArgS n => q.1) (0, t, (y, d)) := by fun_prop
  have hc : ContDiffAt ℝ m (fun q : ArgS n => c * q.1) (0, t, (y, d)) := by fun_prop
  have hy : ContDiffAt ℝ m (fun q : ArgS n => q.2.2.1) (0, t, (y, d)) := by fun_prop
  have hd : ContDiffAt ℝ m (fun q : ArgS n => q.2.2.2) (0, t, (y, d)) := by fun_prop
  exact (hy.add (hc.smul (phiVec_contDiffAt 1 (contDiffAt_const (c := L)) hc (smoothFS hf d)))).add (hh.smul (proj_smooth hd 0))

theorem remS_smooth (c : ℝ) {z : ArgS n → Vec n} (h2 : ContDiffAt ℝ m z (0, t, (y, d))) (hz : ∀ t x, z (0, t, x) = x.1) :
    ContDiffAt ℝ m (remS f L c z) (0, t, (y, d)) := by
  have hy : ContDiffAt ℝ m (fun q : ArgS n => q.2.2.1) (0, t, (y, d)) := by fun_prop
  have h3 := comp_contDiffAt (τ := fun q : ArgS n => q.2.1 + c * q.1) hf (by fun_prop) h2 (by simp) (by simp [hz])
  exact (h3.sub (smoothFS hf d)).sub (mulVec_contDiffAt (contDiffAt_const (c := L)) (h2.sub hy))

theorem stageS3_smooth : ContDiffAt ℝ m (stageS3 f L) (0, t, (y, d)) := by
  have hh : ContDiffAt ℝ m (fun q : ArgS n => q.1) (0, t, (y, d)) := by fun_prop
  have hc : ContDiffAt ℝ m (fun q : ArgS n => 2 / 3 * q.1) (0, t, (y, d)) := by fun_prop
  have hy : ContDiffAt ℝ m (fun q : ArgS n => q.2.2.1) (0, t, (y, d)) := by fun_prop
  have hd : ContDiffAt ℝ m (fun q : ArgS n => q.2.2.2) (0, t, (y, d)) := by fun_prop
  have hr := remS_smooth hf d (L := L) (2 / 3) (stageS_smooth (L := L) hf d (2 / 3)) (fun t x => stageS_zero _ _)
  exact ((hy.add (hc.smul (phiVec_contDiffAt 1 (contDiffAt_const (c := L)) hc (smoothFS hf d)))).add
    (hc.smul (phiVec_contDiffAt 2 (contDiffAt_const (c := L)) hc hr))).add (hh.smul (proj_smooth hd 1))

theorem splitMapE_smooth (s : String) : ContDiffAt ℝ m (splitMapE s f L) (0, t, (y, d)) := by
  have hh : ContDiffAt ℝ m (fun q : ArgS n => q.1) (0, t, (y, d)) := by fun_prop
  have hy : ContDiffAt ℝ m (fun q : ArgS n => q.2.2.1) (0, t, (y, d)) := by fun_prop
  have hd : ContDiffAt ℝ m (fun q : ArgS n => q.2.2.2) (0, t, (y, d)) := by fun_prop
  have h1 := hy.add (hh.smul (phiVec_contDiffAt 1 (contDiffAt_const (c := L)) hh (smoothFS hf d)))
  have h2 : ∀ c, ContDiffAt ℝ m (mapS2 f L c) (0, t, (y, d)) := fun c => by
    have hc : ContDiffAt ℝ m (fun q : ArgS n => q.1 / c) (0, t, (y, d)) := by fun_prop
    exact (h1.add (hc.smul (phiVec_contDiffAt 2 (contDiffAt_const (c := L)) hh
      (remS_smooth hf d c (stageS_smooth hf d c) (fun t x => stageS_zero _ _))))).add (hh.smul (proj_smooth hd 1))
  unfold splitMapE
  split_ifs
  · exact stageS_smooth hf d 1
  · exact h2 1
  · exact h2 (2 / 3)
  · have hc : ContDiffAt ℝ m (fun q : ArgS n => 3 / 2 * q.1) (0, t, (y, d)) := by fun_prop
    exact (h1.add (hc.smul (phiVec_contDiffAt 2 (contDiffAt_const (c := L)) hh
      (remS_smooth hf d (2 / 3) (stageS3_smooth hf d) (fun t x => stageS3_zero _))))).add (hh.smul (proj_smooth hd 2))

end smooth

/-! ### assembling a step from approximate products -/

section asm
set_option linter.unusedSectionVars false
variable {y : Vec n} {dt κ B : ℝ} (hdt : 0 < dt) (hκ : 0 ≤ κ) (hF : ‖f t y‖ ≤ B)
include hdt hκ hF

theorem asm1 {w : Vec n} (h1 : ‖w - phiM 1 (dt • L) *ᵥ f t y‖ ≤ κ * ‖f t y‖) :
    ∃ d, ‖d‖ ≤ κ * (4 * B) ∧ y + dt • w = stageS f L 1 (dt, t, (y, d)) := by
  have hB : 0 ≤ B := (norm_nonneg _).trans hF
  have := mul_le_mul_of_nonneg_left hF hκ
  have h0 : 0 ≤ κ * B := mul_nonneg hκ hB
  refine ⟨![w - phiM 1 (dt • L) *ᵥ f t y, 0, 0], norm_three_le (by linarith) (by rw [norm_zero]; linarith) (by rw [norm_zero]; linarith), ?_⟩
  simp only [stageS, one_mul, Matrix.cons_val_zero]
  module

theorem asm2 {c : ℝ} (hc : 0 < c) (hc1 : c ≤ 1) (hc2 : 1 / c ≤ 3 / 2) {w1 w2 w3 : Vec n}
    (h1 : ‖w1 - phiM 1 ((c * dt) • L) *ᵥ f t y‖ ≤ κ * ‖f t y‖) (h2 : ‖w2 - phiM 1 (dt • L) *ᵥ f t y‖ ≤ κ * ‖f t y‖)
    (h3 : dt * ‖w3 - phiM 2 (dt • L) *ᵥ (f (t + c * dt) (y + (c * dt) • w1) - f t y - L *ᵥ (y + (c * dt) • w1 - y))‖
      ≤ κ * ‖f (t + c * dt) (y + (c * dt) • w1) - f t y - L *ᵥ (y + (c * dt) • w1 - y)‖)
    (hrem : ∀ d, ‖d‖ ≤ κ * (4 * B) → ‖remS f L c (stageS f L c) (dt, t, (y, d))‖ ≤ B * dt) :
    ∃ d, ‖d‖ ≤ κ * (4 * B) ∧ y + dt • w2 + (dt / c) • w3 = mapS2 f L c (dt, t, (y, d)) := by
  have hB : 0 ≤ B := (norm_nonneg _).trans hF
  have hFκ := mul_le_mul_of_nonneg_left hF hκ
  have h0 : 0 ≤ κ * B := mul_nonneg hκ hB
  have hz : ‖(0 : Vec n)‖ ≤ κ * (4 * B) := by rw [norm_zero]; linarith
  set d0 := c • (w1 - phiM 1 ((c * dt) • L) *ᵥ f t y) with hd0
  have hd0n : ‖d0‖ ≤ κ * (4 * B) := by
    rw [hd0, norm_smul, Real.norm_of_nonneg hc.le]
    have := mul_le_mul_of_nonneg_right hc1 (norm_nonneg (w1 - phiM 1 ((c * dt) • L) *ᵥ f t y))
    linarith
  have hst : ∀ d : Fin 3 → Vec n, d 0 = d0 → stageS f L c (dt, t, (y, d)) = y + (c * dt) • w1 := by
    intro d hd
    simp only [stageS, hd, hd0]
    module
  have hre : ∀ d : Fin 3 → Vec n, d 0 = d0 → remS f L c (stageS f L c) (dt, t, (y, d))
      = f (t + c * dt) (y + (c * dt) • w1) - f t y - L *ᵥ (y + (c * dt) • w1 - y) := by
    intro d hd
    simp only [remS, hst d hd]
  set r2 := f (t + c * dt) (y + (c * dt) • w1) - f t y - L *ᵥ (y + (c * dt) • w1 - y) with hr2
  have hr2n : ‖r2‖ ≤ B * dt := by
    rw [← hre ![d0, 0, 0] rfl]
    exact hrem _ (norm_three_le hd0n hz hz)
  have hw3 : ‖w3 - phiM 2 (dt • L) *ᵥ r2‖ ≤ κ * B := by
    have := h3.trans (mul_le_mul_of_nonneg_left hr2n hκ)
    rw [← mul_assoc, mul_comm dt] at this
    exact le_of_mul_le_mul_right this hdt
  set d1 := (w2 - phiM 1 (dt • L) *ᵥ f t y) + (1 / c) • (w3 - phiM 2 (dt • L) *ᵥ r2) with hd1
  have hd1n : ‖d1‖ ≤ κ * (4 * B) := by
    refine (norm_add_le _ _).trans ?_
    rw [norm_smul, Real.norm_of_nonneg (by positivity)]
    have := mul_le_mul hc2 hw3 (norm_nonneg _) (by norm_num)
    linarith
  refine ⟨![d0, d1, 0], norm_three_le hd0n hd1n hz, ?_⟩
  have hfin : ∀ d : Fin 3 → Vec n, d 0 = d0 → d 1 = d1 → y + dt • w2 + (dt / c) • w3 = mapS2 f L c (dt, t, (y, d)) := by
    intro d e0 e1
    simp only [mapS2, hre d e0, e1, hd1]
    rw [show dt / c = dt * (1 / c) by ring]
    module
  exact hfin _ rfl rfl

theorem asm3 {w1 w2 w3 w4 w5 z r2 r3 : Vec n}
    (h1 : ‖w1 - phiM 1 ((2 / 3 * dt) • L) *ᵥ f t y‖ ≤ κ * ‖f t y‖) (h2 : ‖w2 - phiM 1 ((2 / 3 * dt) • L) *ᵥ f t y‖ ≤ κ * ‖f t y‖)
    (hr2 : r2 = f (t + 2 / 3 * dt) (y + (2 / 3 * dt) • w1) - f t y - L *ᵥ (y + (2 / 3 * dt) • w1 - y))
    (h3 : dt * ‖w3 - phiM 2 ((2 / 3 * dt) • L) *ᵥ r2‖ ≤ κ * ‖r2‖)
    (hzz : z = y + (2 / 3 * dt) • w2 + (2 / 3 * dt) • w3)
    (hr3 : r3 = f (t + 2 / 3 * dt) z - f t y - L *ᵥ (z - y))
    (h4 : ‖w4 - phiM 1 (dt • L) *ᵥ f t y‖ ≤ κ * ‖f t y‖)
    (h5 : dt * ‖w5 - phiM 2 (dt • L) *ᵥ r3‖ ≤ κ * ‖r3‖)
    (hrem : ∀ d, ‖d‖ ≤ κ * (4 * B) → ‖remS f L (2 / 3) (stageS f L (2 / 3)) (dt, t, (y, d))‖ ≤ B * dt)
    (hrem3 : ∀ d, ‖d‖ ≤ κ * (4 * B) → ‖remS f L (2 / 3) (stageS3 f L) (dt, t, (y, d))‖ ≤ B * dt) :
    ∃ d, ‖d‖ ≤ κ * (4 * B) ∧ y + dt • w4 + (3 / 2 * dt) • w5 = mapS3 f L (dt, t, (y, d)) := by
  have hB : 0 ≤ B := (norm_nonneg _).trans hF
  have hFκ := mul_le_mul_of_nonneg_left hF hκ
  have h0 : 0 ≤ κ * B := mul_nonneg hκ hB
  have hz : ‖(0 : Vec n)‖ ≤ κ * (4 * B) := by rw [norm_zero]; linarith
  have hdiv : ∀ {a b : ℝ}, dt * a ≤ κ * b → b ≤ B * dt → a ≤ κ * B := by
    intro a b ha hb
    have := ha.trans (mul_le_mul_of_nonneg_left hb hκ)
    rw [← mul_assoc, mul_comm dt] at this
    exact le_of_mul_le_mul_right this hdt
  set d0 := (2 / 3 : ℝ) • (w1 - phiM 1 ((2 / 3 * dt) • L) *ᵥ f t y) with hd0
  have hd0n : ‖d0‖ ≤ κ * (4 * B) := by
    rw [hd0, norm_smul, Real.norm_of_nonneg (by norm_num)]
    linarith
  have hst : ∀ d : Fin 3 → Vec n, d 0 = d0 → stageS f L (2 / 3) (dt, t, (y, d)) = y + (2 / 3 * dt) • w1 := by
    intro d hd
    simp only [stageS, hd, hd0]
    module
  have hre : ∀ d : Fin 3 → Vec n, d 0 = d0 → remS f L (2 / 3) (stageS f L (2 / 3)) (dt, t, (y, d)) = r2 := by
    intro d hd
    simp only [remS, hst d hd, hr2]
  have hr2n : ‖r2‖ ≤ B * dt := by
    rw [← hre ![d0, 0, 0] rfl]
    exact hrem _ (norm_three_le hd0n hz hz)
  have hw3 := hdiv h3 hr2n
  set d1 := (2 / 3 : ℝ) • (w2 - phiM 1 ((2 / 3 * dt) • L) *ᵥ f t y) + (2 / 3 : ℝ) • (w3 - phiM 2 ((2 / 3 * dt) • L) *ᵥ r2) with hd1
  have hd1n : ‖d1‖ ≤ κ * (4 * B) := by
    refine (norm_add_le _ _).trans ?_
    rw [norm_smul, norm_smul, Real.norm_of_nonneg (by norm_num)]
    linarith
  have hst3 : ∀ d : Fin 3 → Vec n, d 0 = d0 → d 1 = d1 → stageS3 f L (dt, t, (y, d)) = z := by
    intro d e0 e1
    simp only [stageS3, hre d e0, e1, hd1, hzz]
    module
  have hre3 : ∀ d : Fin 3 → Vec n, d 0 = d0 → d 1 = d1 → remS f L (2 / 3) (stageS3 f L) (dt, t, (y, d)) = r3 := by
    intro d e0 e1
    simp only [remS, hst3 d e0 e1, hr3]
  have hr3n : ‖r3‖ ≤ B * dt := by
    rw [← hre3 ![d0, d1, 0] rfl rfl]
    exact hrem3 _ (norm_three_le hd0n hd1n hz)
  have hw5 := hdiv h5 hr3n
  set d2 := (w4 - phiM 1 (dt • L) *ᵥ f t y) + (3 / 2 : ℝ) • (w5 - phiM 2 (dt • L) *ᵥ r3) with hd2
  have hd2n : ‖d2‖ ≤ κ * (4 * B) := by
    refine (norm_add_le _ _).trans ?_
    rw [norm_smul, Real.norm_of_nonneg (by norm_num)]
    linarith
  refine ⟨![d0, d1, d2], norm_three_le hd0n hd1n hd2n, ?_⟩
  have hfin : ∀ d : Fin 3 → Vec n, d 0 = d0 → d 1 = d1 → d 2 = d2 → y + dt • w4 + (3 / 2 * dt) • w5 = mapS3 f L (dt, t, (y, d)) := by
    intro d e0 e1 e2
    simp only [mapS3, hre3 d e0 e1, e2, hd2]
    module
  exact hfin _ rfl rfl rfl

end asm

/-! ### the steps -/

section steps
variable {P : Type} [EmptyCollection P]
set_option linter.unusedSectionVars false

theorem linop_scaled {K : Kernels n} {dt R κ : ℝ} {kmax : ℕ} (hK : ApproxLinop K dt R κ kmax) {A : LinOp n} {M : Mat n}
    (hA : IsMatrix A M) (hM : ‖M‖ ≤ R) (c : ℝ) (hc : 0 < c) (hc1 : c ≤ 1) (a : ℝ) (ha : 0 < a) (v : Vec n) (k : ℕ) (h1 : 1 ≤ k)
    (hk : k ≤ kmax) :
    ∃ w, K.phiLinop A (c * dt) (a • v) k = .ok (a • w) ∧ stepWeight dt k * ‖w - phiM k ((c * dt) • M) *ᵥ v‖ ≤ κ * ‖v‖ := by
  obtain ⟨w, h, he⟩ := hK A M hA hM c hc hc1 (a • v) k h1 hk
  refine ⟨a⁻¹ • w, by rw [h, smul_smul, mul_inv_cancel₀ ha.ne', one_smul], ?_⟩
  have e : w - phiM k ((c * dt) • M) *ᵥ (a • v) = a • (a⁻¹ • w - phiM k ((c * dt) • M) *ᵥ v) := by
    rw [smul_sub, smul_smul, mul_inv_cancel₀ ha.ne', one_smul, Matrix.mulVec_smul]
  rw [e, norm_smul, norm_smul, Real.norm_of_nonneg ha.le] at he
  have : a * (stepWeight dt k * ‖a⁻¹ • w - phiM k ((c * dt) • M) *ᵥ v‖) ≤ a * (κ * ‖v‖) := by linarith
  exact le_of_mul_le_mul_left this ha

theorem dense_vec {D M : Mat n} {wt κ : ℝ} (hw : 0 ≤ wt) (h : wt * ‖D - M‖ ≤ κ) (v : Vec n) : wt * ‖D *ᵥ v - M *ᵥ v‖ ≤ κ * ‖v‖ := by
  rw [← Matrix.sub_mulVec]
  calc wt * ‖(D - M) *ᵥ v‖ ≤ wt * (‖D - M‖ * ‖v‖) := mul_le_mul_of_nonneg_left (Matrix.linfty_opNorm_mulVec _ _) hw
    _ = wt * ‖D - M‖ * ‖v‖ := by ring
    _ ≤ _ := mul_le_mul_of_nonneg_right h (norm_nonneg v)

theorem sw1 (dt : ℝ) : stepWeight dt 1 = 1 := by simp [stepWeight]
theorem sw2 (dt : ℝ) : stepWeight dt 2 = dt := by simp [stepWeight]

variable {K : Kernels n} {sys : OdeSys n P} {s : ExpSplit n} {y : Vec n} {dt R κ B : ℝ}
  (hdt : 0 < dt) (hκ : 0 ≤ κ) (hs : At s.base t y) (hR : ‖L‖ ≤ R) (hF : ‖sys.frhs none t y‖ ≤ B)
include hdt hκ hs hR hF

theorem exp1_approx (hK : ApproxLinop K dt R κ 2) (hL : IsMatrix (sys.fl t y) L) :
    ∃ d, ‖d‖ ≤ κ * (4 * B) ∧ stepExp1 K sys s dt = .ok (StepResult.mk (t + dt) dt (stageS (sys.frhs none) L 1 (dt, t, (y, d))) (-1)) := by
  obtain ⟨w, h1, h2⟩ := linop_scaled hK hL hR 1 one_pos le_rfl dt hdt (sys.frhs none t y) 1 le_rfl (by norm_num)
  rw [one_mul] at h1 h2
  rw [sw1, one_mul] at h2
  obtain ⟨d, hd, e⟩ := asm1 hdt hκ hF h2
  refine ⟨d, hd, ?_⟩
  unfold stepExp1
  rw [hs.yNew, hs.time]
  simp only [Bind.bind, Except.bind, Pure.pure, Except.pure, h1, e]

theorem exp2_approx (hK : ApproxLinop K dt R κ 2) (hL : IsMatrix (sys.fl t y) L)
    (hrem : ∀ d, ‖d‖ ≤ κ * (4 * B) → ‖remS (sys.frhs none) L 1 (stageS (sys.frhs none) L 1) (dt, t, (y, d))‖ ≤ B * dt) :
    ∃ d, ‖d‖ ≤ κ * (4 * B) ∧ stepExp2 K sys s dt = .ok (StepResult.mk (t + dt) dt (mapS2 (sys.frhs none) L 1 (dt, t, (y, d))) (-1)) := by
  obtain ⟨w, h1, h2⟩ := linop_scaled hK hL hR 1 one_pos le_rfl dt hdt (sys.frhs none t y) 1 le_rfl (by norm_num)
  rw [sw1, one_mul (‖_‖)] at h2
  obtain ⟨w3, h3, h4⟩ := linop_scaled hK hL hR 1 one_pos le_rfl (dt / 1) (by positivity)
    (sys.frhs none (t + 1 * dt) (y + (1 * dt) • w) - sys.frhs none t y - L *ᵥ (y + (1 * dt) • w - y)) 2 (by norm_num) (by norm_num)
  rw [sw2] at h4
  simp only [one_mul] at h1 h2 h3 h4
  obtain ⟨d, hd, e⟩ := asm2 hdt hκ hF (L := L) (c := 1) one_pos le_rfl (by norm_num) (w1 := w) (w2 := w) (w3 := w3) (by simpa only [one_mul] using h2) h2
    (by simpa only [one_mul] using h4) hrem
  refine ⟨d, hd, ?_⟩
  unfold stepExp2
  rw [hs.yNew, hs.time]
  simp only [Bind.bind, Except.bind, Pure.pure, Except.pure, one_mul, h1, remfSplit_closed sys hs _ _ _ _ L hL]
  rw [h3]
  simp only [e]

theorem exp3_approx (hK : ApproxLinop K dt R κ 2) (hL : IsMatrix (sys.fl t y) L)
    (hrem : ∀ d, ‖d‖ ≤ κ * (4 * B) → ‖remS (sys.frhs none) L (2 / 3) (stageS (sys.frhs none) L (2 / 3)) (dt, t, (y, d))‖ ≤ B * dt)
    (hrem3 : ∀ d, ‖d‖ ≤ κ * (4 * B) → ‖remS (sys.frhs none) L (2 / 3) (stageS3 (sys.frhs none) L) (dt, t, (y, d))‖ ≤ B * dt) :
    ∃ d, ‖d‖ ≤ κ * (4 * B) ∧ stepExp3 K sys s dt = .ok (StepResult.mk (t + dt) dt (mapS3 (sys.frhs none) L (dt, t, (y, d))) (-1)) := by
  have e1 : dt * (2 / 3) = 2 / 3 * dt := by ring
  have e2 : dt * (4 / 9 / (2 / 3)) = 2 / 3 * dt := by ring
  have e3 : dt * (3 / 2) = 3 / 2 * dt := by ring
  obtain ⟨w1, h1, h1'⟩ := linop_scaled hK hL hR (2 / 3) (by norm_num) (by norm_num) (2 / 3 * dt) (by positivity) (sys.frhs none t y) 1 le_rfl (by norm_num)
  set r2 := sys.frhs none (t + 2 / 3 * dt) (y + (2 / 3 * dt) • w1) - sys.frhs none t y - L *ᵥ (y + (2 / 3 * dt) • w1 - y) with hr2
  obtain ⟨w3, h3, h3'⟩ := linop_scaled hK hL hR (2 / 3) (by norm_num) (by norm_num) (2 / 3 * dt) (by positivity) r2 2 (by norm_num) (by norm_num)
  set z := y + (2 / 3 * dt) • w1 + (2 / 3 * dt) • w3 with hz
  set r3 := sys.frhs none (t + 2 / 3 * dt) z - sys.frhs none t y - L *ᵥ (z - y) with hr3
  obtain ⟨w4, h4, h4'⟩ := linop_scaled hK hL hR 1 one_pos le_rfl dt hdt (sys.frhs none t y) 1 le_rfl (by norm_num)
  obtain ⟨w5, h5, h5'⟩ := linop_scaled hK hL hR 1 one_pos le_rfl (3 / 2 * dt) (by positivity) r3 2 (by norm_num) (by norm_num)
  rw [one_mul] at h4 h4' h5 h5'
  rw [sw1, one_mul (‖_‖)] at h1' h4'
  rw [sw2] at h3' h5'
  obtain ⟨d, hd, e⟩ := asm3 hdt hκ hF (L := L) (w1 := w1) (w2 := w1) (w3 := w3) (w4 := w4) (w5 := w5) (z := z) (r2 := r2) (r3 := r3) h1' h1' hr2 h3' hz hr3
    h4' h5' hrem hrem3
  refine ⟨d, hd, ?_⟩
  unfold stepExp3
  rw [hs.yNew, hs.time]
  simp only [Bind.bind, Except.bind, Pure.pure, Except.pure, e1, e2, e3, h1, h4, remfSplit_closed sys hs _ _ _ _ L hL]
  rw [← hr2, h3]
  simp only
  rw [← hz, ← hr3, h5]
  simp only [e]

/-- the dictionary of a dense method, with approximate kernels -/
theorem fill_approx (hK : ApproxSq K dt R κ) (m : String) :
    ∃ (d : PhiDict n) (A1 A2 C1 C2 : Mat n), fillPhiLs K dt L (cksOf m) (fun _ => none) = .ok d ∧
      ‖A1 - phiM 1 (dt • L)‖ ≤ κ ∧ dt * ‖A2 - phiM 2 (dt • L)‖ ≤ κ ∧ ‖C1 - phiM 1 ((2 / 3 * dt) • L)‖ ≤ κ ∧
      dt * ‖C2 - phiM 2 ((2 / 3 * dt) • L)‖ ≤ κ ∧ d (1, 1) = some A1 ∧
      (m ≠ "exp1_dense" → d (1, 2) = some A2 ∧ d (2 / 3, 1) = some C1) ∧
      (m ≠ "exp1_dense" → m ≠ "exp2_dense" → d (2 / 3, 2) = some C2) := by
  have hne : (2 / 3 : ℝ) ≠ 1 := by norm_num
  have e : dt * (2 / 3) = 2 / 3 * dt := mul_comm _ _
  obtain ⟨L1, p1, q1, r1⟩ := hK L hR 1 one_pos le_rfl 1 (by norm_num)
  obtain ⟨L2, p2, q2, r2⟩ := hK L hR 1 one_pos le_rfl 2 le_rfl
  obtain ⟨M1, p3, q3, r3⟩ := hK L hR (2 / 3) (by norm_num) (by norm_num) 1 (by norm_num)
  obtain ⟨M2, p4, q4, r4⟩ := hK L hR (2 / 3) (by norm_num) (by norm_num) 2 le_rfl
  rw [one_mul] at p1 p2
  simp only [one_mul] at r1 r2
  have a1 := r1 1 le_rfl le_rfl
  have a2 := r2 1 le_rfl (by norm_num)
  have a3 := r2 2 (by norm_num) le_rfl
  have a4 := r3 1 le_rfl le_rfl
  have a5 := r4 1 le_rfl (by norm_num)
  have a6 := r4 2 (by norm_num) le_rfl
  rw [sw1, one_mul] at a1 a2 a4 a5
  rw [sw2] at a3 a6
  have g1 : ∀ (l : List (Mat n)) (j : ℕ), j < l.length → pyGet l j = .ok (l.getD j 0) := by
    intro l j hj
    unfold pyGet
    rw [List.getD_eq_getElem?_getD, List.getElem?_eq_getElem hj]
    rfl
  have x1 := g1 L1 1 (by omega)
  have x2 := g1 L2 1 (by omega)
  have x3 := g1 L2 2 (by omega)
  have x4 := g1 M1 1 (by omega)
  have x5 := g1 M2 1 (by omega)
  have x6 := g1 M2 2 (by omega)
  have y1 : max 0 1 = 1 := rfl
  have y2 : max 1 2 = 2 := rfl
  have y3 : dt * 1 = dt := mul_one dt
  unfold cksOf
  split
  · rename_i hm
    refine ⟨_, L1.getD 1 0, L2.getD 2 0, M1.getD 1 0, M2.getD 2 0, by
      simp only [fillPhiLs, listMax, List.foldl, y1, y3, p1, Bind.bind, Except.bind, Pure.pure, Except.pure, List.foldlM, x1]
      rfl, a1, a3, a4, a6, ?_, ?_, ?_⟩
    · simp
    · intro h; exact absurd hm h
    · intro h; exact absurd hm h
  · split
    · rename_i hm
      refine ⟨_, L2.getD 1 0, L2.getD 2 0, M1.getD 1 0, M2.getD 2 0, by
        simp only [fillPhiLs, listMax, List.foldl, y1, y2, y3, e, p2, p3, Bind.bind, Except.bind, Pure.pure, Except.pure, List.foldlM, x2, x3, x4]
        rfl, a2, a3, a4, a6, ?_, ?_, ?_⟩
      · simp
      · intro _; simp [hne]
      · intro _ h; exact absurd hm h
    · refine ⟨_, L2.getD 1 0, L2.getD 2 0, M2.getD 1 0, M2.getD 2 0, by
        simp only [fillPhiLs, listMax, List.foldl, y1, y2, y3, e, p2, p3, p4, Bind.bind, Except.bind, Pure.pure, Except.pure, List.foldlM, x2, x3, x4, x5, x6]
        rfl, a2, a3, a5, a6, ?_, ?_, ?_⟩
      · simp
      · intro _; simp [hne]
      · intro _ _; simp [hne]

theorem update_approx (hK : ApproxSq K dt R κ) (lop : LinOp n) (hl : ∀ t y, sys.fl t y = lop) (hd : lop.dense = .ok L)
    (hco : Coherent K lop s) :
    ∃ (s' : ExpSplit n) (d : PhiDict n) (A1 A2 C1 C2 : Mat n), updateDensePhiLs K sys s dt (cksOf s.base.method) = .ok s' ∧ s'.base = s.base ∧
      s'.cachedSysLop = some lop ∧ s'.cachedPhiLs = some d ∧
      ‖A1 - phiM 1 (dt • L)‖ ≤ κ ∧ dt * ‖A2 - phiM 2 (dt • L)‖ ≤ κ ∧ ‖C1 - phiM 1 ((2 / 3 * dt) • L)‖ ≤ κ ∧
      dt * ‖C2 - phiM 2 ((2 / 3 * dt) • L)‖ ≤ κ ∧ d (1, 1) = some A1 ∧
      (s.base.method ≠ "exp1_dense" → d (1, 2) = some A2 ∧ d (2 / 3, 1) = some C1) ∧
      (s.base.method ≠ "exp1_dense" → s.base.method ≠ "exp2_dense" → d (2 / 3, 2) = some C2) := by
  rw [update_cold K sys lop hl s hco dt y hs.yNew]
  obtain ⟨d, A1, A2, C1, C2, h1, h2⟩ := fill_approx hdt hκ hs hR hF hK s.base.method
  have hcold : ¬ cacheHit (cold s).cachedDt dt := id
  refine ⟨ExpSplit.mk s.base (some dt) (some lop) (some d), d, A1, A2, C1, C2, ?_, rfl, rfl, rfl, h2⟩
  unfold updateDensePhiLs
  rw [if_neg hcold]
  simp only [cold, hs.yNew, hl, hd, h1, Bind.bind, Except.bind, Pure.pure, Except.pure]

theorem exp1Dense_approx (hK : ApproxSq K dt R κ) (lop : LinOp n) (hl : ∀ t y, sys.fl t y = lop) (hd : lop.dense = .ok L)
    (hco : Coherent K lop s) (hm : s.base.method = "exp1_dense") :
    ∃ d s', ‖d‖ ≤ κ * (4 * B) ∧ s'.base = s.base ∧
      stepExp1Dense K sys s dt = .ok (StepResult.mk (t + dt) dt (stageS (sys.frhs none) L 1 (dt, t, (y, d))) (-1), s') := by
  obtain ⟨s', dd, A1, A2, C1, C2, hu, hbs, hlop, hd', b1, b2, b3, b4, k1, _, _⟩ := update_approx hdt hκ hs hR hF hK lop hl hd hco
  have hu' : updateDensePhiLs K sys s dt [(1, [1])] = .ok s' := by simpa [cksOf, hm] using hu
  have h1 := dense_vec zero_le_one (by rwa [one_mul]) (v := sys.frhs none t y) (D := A1) (M := phiM 1 (dt • L)) (κ := κ)
  rw [one_mul] at h1
  obtain ⟨d, hdn, e⟩ := asm1 hdt hκ hF h1
  refine ⟨d, s', hdn, hbs, ?_⟩
  unfold stepExp1Dense
  rw [hs.yNew, hs.time]
  simp only [hu', hd', optGet, dictGet, k1, Bind.bind, Except.bind, Pure.pure, Except.pure, Matrix.smul_mulVec, e]

theorem exp2Dense_approx (hK : ApproxSq K dt R κ) (lop : LinOp n) (hl : ∀ t y, sys.fl t y = lop) (hd : lop.dense = .ok L)
    (hL : IsMatrix lop L) (hco : Coherent K lop s) (hm : s.base.method = "exp2_dense")
    (hrem : ∀ d, ‖d‖ ≤ κ * (4 * B) → ‖remS (sys.frhs none) L (2 / 3) (stageS (sys.frhs none) L (2 / 3)) (dt, t, (y, d))‖ ≤ B * dt) :
    ∃ d s', ‖d‖ ≤ κ * (4 * B) ∧ s'.base = s.base ∧
      stepExp2Dense K sys s dt = .ok (StepResult.mk (t + dt) dt (mapS2 (sys.frhs none) L (2 / 3) (dt, t, (y, d))) (-1), s') := by
  obtain ⟨s', dd, A1, A2, C1, C2, hu, hbs, hlop, hd', b1, b2, b3, b4, k1, k2, _⟩ := update_approx hdt hκ hs hR hF hK lop hl hd hco
  obtain ⟨k2, k3⟩ := k2 (by rw [hm]; decide)
  have hu' : updateDensePhiLs K sys s dt [((2 : ℝ) / 3, [1]), (1, [1, 2])] = .ok s' := by simpa [cksOf, hm] using hu
  have h1 := dense_vec zero_le_one (by rwa [one_mul]) (v := sys.frhs none t y) (D := A1) (M := phiM 1 (dt • L)) (κ := κ)
  have h2 := dense_vec zero_le_one (by rwa [one_mul]) (v := sys.frhs none t y) (D := C1) (M := phiM 1 ((2 / 3 * dt) • L)) (κ := κ)
  rw [one_mul] at h1 h2
  obtain ⟨d, hdn, e⟩ := asm2 hdt hκ hF (L := L) (c := 2 / 3) (by norm_num) (by norm_num) (by norm_num) h2 h1
    (dense_vec hdt.le b2 _) hrem
  refine ⟨d, s', hdn, hbs, ?_⟩
  unfold stepExp2Dense
  rw [hs.yNew, hs.time]
  simp only [hu', hd', hlop, optGet, dictGet, k1, k2, k3, Bind.bind, Except.bind, Pure.pure, Except.pure, Matrix.smul_mulVec,
    LinOp.call, hL _]
  rw [← e, smul_add, smul_smul, ← add_assoc, show dt * (1 / (2 / 3)) = dt / (2 / 3) by ring]

theorem exp3Dense_approx (hK : ApproxSq K dt R κ) (lop : LinOp n) (hl : ∀ t y, sys.fl t y = lop) (hd : lop.dense = .ok L)
    (hL : IsMatrix lop L) (hco : Coherent K lop s) (hm : s.base.method = "exp3_dense")
    (hrem : ∀ d, ‖d‖ ≤ κ * (4 * B) → ‖remS (sys.frhs none) L (2 / 3) (stageS (sys.frhs none) L (2 / 3)) (dt, t, (y, d))‖ ≤ B * dt)
    (hrem3 : ∀ d, ‖d‖ ≤ κ * (4 * B) → ‖remS (sys.frhs none) L (2 / 3) (stageS3 (sys.frhs none) L) (dt, t, (y, d))‖ ≤ B * dt) :
    ∃ d s', ‖d‖ ≤ κ * (4 * B) ∧ s'.base = s.base ∧
      stepExp3Dense K sys s dt = .ok (StepResult.mk (t + dt) dt (mapS3 (sys.frhs none) L (dt, t, (y, d))) (-1), s') := by
  obtain ⟨s', dd, A1, A2, C1, C2, hu, hbs, hlop, hd', b1, b2, b3, b4, k1, k2, k4⟩ := update_approx hdt hκ hs hR hF hK lop hl hd hco
  obtain ⟨k2, k3⟩ := k2 (by rw [hm]; decide)
  have k4 := k4 (by rw [hm]; decide) (by rw [hm]; decide)
  have hu' : updateDensePhiLs K sys s dt [((2 : ℝ) / 3, [1]), ((2 : ℝ) / 3, [1, 2]), (1, [1, 2])] = .ok s' := by
    simpa [cksOf, hm] using hu
  have h1 := dense_vec zero_le_one (by rwa [one_mul]) (v := sys.frhs none t y) (D := A1) (M := phiM 1 (dt • L)) (κ := κ)
  have h2 := dense_vec zero_le_one (by rwa [one_mul]) (v := sys.frhs none t y) (D := C1) (M := phiM 1 ((2 / 3 * dt) • L)) (κ := κ)
  rw [one_mul] at h1 h2
  obtain ⟨d, hdn, e⟩ := asm3 hdt hκ hF (L := L) h2 h2 rfl (dense_vec hdt.le b4 _) rfl rfl h1 (dense_vec hdt.le b2 _) hrem hrem3
  refine ⟨d, s', hdn, hbs, ?_⟩
  unfold stepExp3Dense
  rw [hs.yNew, hs.time]
  simp only [hu', hd', hlop, optGet, dictGet, k1, k2, k3, k4, Bind.bind, Except.bind, Pure.pure, Except.pure, Matrix.smul_mulVec,
    LinOp.call, hL _]
  have e1 : (2 / 3 / (2 / 3) : ℝ) = 1 := by norm_num
  rw [← e]
  simp only [smul_add, smul_smul, ← add_assoc, e1, mul_one, show dt * (3 / 2) = 3 / 2 * dt by ring]

end steps

end
end Ormatex.Props
