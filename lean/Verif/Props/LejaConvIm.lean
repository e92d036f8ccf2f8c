import Verif.Props.LejaConvTotal

/-!
C116 for the conjugate-pair methods `epi2_leja_im` and `epi3_leja_im`, with real nodes (`leja_c` not given).
-/

namespace Ormatex.Props
open Ormatex Ormatex.Spec Matrix
open scoped Classical
open scoped Matrix.Norms.Operator

variable {n : ℕ}

/-- at real nodes the complex divided differences of the exponential are the real ones -/
theorem coeffs_ofReal (m : ℕ) (x : ℕ → ℝ) (shift scale : ℝ) (j : ℕ) :
    lejaCoeffsExp (K := ℂ) (fun _ => NormedSpace.exp) m (fun i => (x i : ℂ)) shift scale 1 j
      = ((lejaCoeffsExp (fun _ => NormedSpace.exp) m x shift scale 1 j : ℝ) : ℂ) := by
  unfold lejaCoeffsExp
  rw [one_smul, one_smul]
  have e : xiShift (K := ℂ) m (fun i => (x i : ℂ)) shift scale = toC (xiShift m x shift scale) := by
    ext a b
    simp only [xiShift, toC, bidiag, Matrix.add_apply, Matrix.smul_apply, Matrix.map_apply, Matrix.of_apply, smul_eq_mul, Matrix.one_apply]
    split_ifs <;> simp
  rw [e]
  show firstCol (NormedSpace.exp (toC (xiShift m x shift scale))) j = ((firstCol (NormedSpace.exp (xiShift m x shift scale)) j : ℝ) : ℂ)
  rw [← exp_toC]
  unfold firstCol
  split_ifs
  · rfl
  · simp

/-- **Specification.** The options of the conjugate-pair methods ask for accurate evaluations at real nodes: as `LejaAccurate`, for the
complex coefficient routine, `leja_c` not given, the interval end not positive, and at most `10^12` padded zeros. -/
structure LejaAccurateIm (o : LejaOpts) (A θ ρ : ℝ) : Prop where
  tol_pos : 0 < o.tol
  tol_le : o.tol ≤ 1
  theta_nonneg : 0 ≤ θ
  theta_le : θ ≤ 1 / 2
  real : o.lejaC = none
  zeros : o.nZeros ≤ 10 ^ 12
  coeffs : ∀ (N : ℕ) (x : ℕ → ℂ) (shift scale : ℝ), (∀ i < N, ‖(shift : ℂ) + (scale : ℂ) * x i‖ ≤ ρ) → ∀ j < N,
    ‖o.ddIm N x shift scale j - lejaCoeffsExp (fun _ => NormedSpace.exp) N x shift scale 1 j‖
      ≤ θ * ‖lejaCoeffsExp (K := ℂ) (fun _ => NormedSpace.exp) N x shift scale 1 j‖
  interval : match o.lejaA with
    | none => 1 ≤ o.maxPowerIter ∧ |o.maxReEigScale| ≤ A
    | some a => -A ≤ a ∧ a ≤ 0

theorem LejaAccurateIm.nonneg {o : LejaOpts} {A θ ρ : ℝ} (ho : LejaAccurateIm o A θ ρ) : 0 ≤ A := by
  have := ho.interval
  split at this
  · exact (abs_nonneg _).trans this.2
  · linarith [this.1, this.2]

/-- the padded zeros -/
theorem pad_real (p : ℕ) (z : ℕ → ℝ) (hp : p ≤ 10 ^ 12) (M : ℕ) (hz : ∀ i < M, |z i| ≤ 2) :
    ∃ x : ℕ → ℝ, (if p > 0 then lejaSeqPadZeros (K := ℂ) p (fun i => (z i : ℂ)) else fun i => (z i : ℂ)) = (fun i => (x i : ℂ)) ∧
      ∀ i < p + M, |x i| ≤ 2 := by
  by_cases h0 : p > 0
  · refine ⟨lejaSeqPadZeros p z, ?_, ?_⟩
    · rw [if_pos h0]
      funext i
      unfold lejaSeqPadZeros
      split_ifs <;> push_cast <;> rfl
    · intro i hi
      unfold lejaSeqPadZeros
      split_ifs with h1 h2
      · rw [abs_of_pos] <;> norm_num
      · have hp1 : (0 : ℝ) < (p : ℝ) - 1 := by
          have : (1 : ℝ) < p := by exact_mod_cast (by omega : 1 < p)
          linarith
        have e : (1e-12 : ℝ) + (i : ℝ) * (1e-12 * (p : ℝ) - 1e-12) / ((p : ℝ) - 1) = 1e-12 * (1 + i) := by
          field_simp
        rw [e, abs_of_pos (by positivity)]
        have h3 : (i : ℝ) ≤ 10 ^ 12 := by
          have : i ≤ 10 ^ 12 := by omega
          calc (i : ℝ) ≤ ((10 ^ 12 : ℕ) : ℝ) := by exact_mod_cast this
            _ = 10 ^ 12 := by norm_num
        have h4 : (1e-12 : ℝ) * (1 + i) ≤ 1e-12 * (1 + 10 ^ 12) := mul_le_mul_of_nonneg_left (by linarith) (by norm_num)
        refine h4.trans (by norm_num)
      · exact hz _ (by omega)
  · refine ⟨z, by rw [if_neg h0], fun i hi => hz i (by omega)⟩

/-- the evaluation of a conjugate-pair step with real nodes is the real evaluation at the same nodes -/
theorem pair_real (o : LejaOpts) {A θ ρ : ℝ} (ho : LejaAccurateIm o A θ ρ) (bk : Option (Vec (n + 2))) (Z : Mat (n + 2)) {dt : ℝ}
    (hdt0 : 0 ≤ dt) (hdt1 : dt ≤ 1) {q : LejaSeq} (h : StepNodes o bk Z dt q)
    (hρ : A * (1 + Real.sqrt (n + 2 : ℕ) * ‖Z‖) ≤ ρ) :
    2 ≤ o.nLeja ∧ 0 < q.scale ∧ |q.shift| + 2 * |q.scale| ≤ A * (1 + Real.sqrt (n + 2 : ℕ) * ‖Z‖) ∧
    (∀ a, o.lejaA = some a → |q.shift| + 2 * |q.scale| ≤ dt * |a|) ∧
    ∃ x c : ℕ → ℝ, (∀ i < o.nZeros + o.nLeja, |x i| ≤ 2) ∧
      (∀ j < o.nZeros + o.nLeja, |c j - lejaCoeffsExp (fun _ => NormedSpace.exp) (o.nZeros + o.nLeja) x q.shift q.scale 1 j|
        ≤ θ * lejaCoeffsExp (fun _ => NormedSpace.exp) (o.nZeros + o.nLeja) x q.shift q.scale 1 j) ∧
      ∀ d w, pairEval o q Z d w = realLejaExpmv (matrixLinOp Z) d w q.shift q.scale (o.nZeros + o.nLeja) x c o.tol 1e10 := by
  obtain ⟨a, hgen, ha⟩ := h
  rw [ho.real] at hgen
  have hq : 0 ≤ Real.sqrt (n + 2 : ℕ) * ‖Z‖ := by positivity
  have hA := ho.nonneg
  have hint := ho.interval
  have hab : a ≤ 0 ∧ |a| ≤ A * (1 + Real.sqrt (n + 2 : ℕ) * ‖Z‖) ∧ ∀ a', o.lejaA = some a' → |a| ≤ dt * |a'| := by
    cases hla : o.lejaA with
    | none =>
      rw [hla] at ha hint
      simp only at ha
      obtain ⟨-, -, h5⟩ := shiftScale_bound (matrixLinOp Z) Z (fun _ => rfl) o.maxPowerIter hint.1 bk (o.bRand (n + 2)) o.maxReEigScale
      refine ⟨by rw [ha]; exact neg_nonpos.2 (abs_nonneg _), ?_, fun _ h => by cases h⟩
      rw [ha, abs_neg, abs_abs]
      have h6 := mul_le_mul_of_nonneg_right hint.2 hq
      linarith
    | some a' =>
      rw [hla] at ha hint
      simp only at ha
      obtain ⟨h1, h2⟩ := hint
      have h3 : |a'| ≤ A := abs_le.2 ⟨h1, h2.trans hA⟩
      refine ⟨by rw [ha]; exact mul_nonpos_of_nonpos_of_nonneg h2 hdt0, ?_, fun _ h => ?_⟩
      · rw [ha, abs_mul, abs_of_nonneg hdt0]
        have h4 := mul_le_of_le_one_right (abs_nonneg a') hdt1
        have := mul_nonneg hA hq
        linarith
      · cases h
        rw [ha, abs_mul, abs_of_nonneg hdt0, mul_comm]
  obtain ⟨ha0, haA, haa⟩ := hab
  unfold genLejaConjugate at hgen
  simp only at hgen
  have hs : ((0 - a) / 2 + 0) / 2 = -a / 4 := by ring
  rw [hs] at hgen
  split at hgen
  · cases hgen
  rename_i hsc
  have hsc0 : 0 < -a / 4 := lt_of_le_of_ne (by linarith) (Ne.symm hsc)
  have hh1 : (0 - a) / 2 / (-a / 4) = 2 := by
    have : a ≠ 0 := by intro h; rw [h] at hsc0; simp at hsc0
    field_simp
    ring
  rw [hh1, zero_div] at hgen
  rw [if_neg (by norm_num), if_pos (by norm_num)] at hgen
  split at hgen
  · cases hgen
  rename_i hn2
  cases hgen
  have habs : |a| = -a := abs_of_nonpos ha0
  have hsum : |(a + 0) / 2| + 2 * |-a / 4| = |a| := by
    rw [abs_of_pos hsc0, add_zero, abs_div, habs, abs_of_pos (by norm_num : (0 : ℝ) < 2)]
    ring
  refine ⟨by omega, hsc0, by rw [hsum]; exact haA, fun a' h => by rw [hsum]; exact haa a' h, ?_⟩
  set z : ℕ → ℝ := fun i => 2 * (if i < 2 then (genLejaCircle (2 * (o.nLeja - 1)) true i).re
    else (genLejaCircle (2 * (o.nLeja - 1)) true (2 + 2 * (i - 2))).re) with hz
  have hzb : ∀ i < o.nLeja, |z i| ≤ 2 := by
    intro i hi
    have key : ∀ k < 2 * (o.nLeja - 1), |(genLejaCircle (2 * (o.nLeja - 1)) true k).re| ≤ 1 := by
      intro k hk
      rw [circC_eq _ _ hk]
      exact (Complex.abs_re_le_norm _).trans (circC_norm k).le
    rw [hz]
    simp only
    rw [abs_mul, abs_of_pos (by norm_num : (0 : ℝ) < 2)]
    split_ifs
    · have := key i (by omega); linarith
    · have := key (2 + 2 * (i - 2)) (by omega); linarith
  obtain ⟨x, hx, hxb⟩ := pad_real o.nZeros z ho.zeros o.nLeja hzb
  set N := o.nZeros + o.nLeja with hN
  have hnode : ∀ i < N, |(a + 0) / 2 + -a / 4 * x i| ≤ |a| := by
    intro i hi
    refine (abs_add_le _ _).trans (le_trans ?_ hsum.le)
    rw [abs_mul]
    have := mul_le_mul_of_nonneg_left (hxb i hi) (abs_nonneg (-a / 4))
    linarith
  refine ⟨x, fun j => (o.ddIm N (fun i => (x i : ℂ)) ((a + 0) / 2) (-a / 4) j).re, hxb, ?_, ?_⟩
  · intro j hj
    have h1 := ho.coeffs N (fun i => (x i : ℂ)) ((a + 0) / 2) (-a / 4) (fun i hi => by
      have h2 := hnode i hi
      have e : (((a + 0) / 2 : ℝ) : ℂ) + ((-a / 4 : ℝ) : ℂ) * (x i : ℂ) = (((a + 0) / 2 + -a / 4 * x i : ℝ) : ℂ) := by push_cast; rfl
      rw [e, Complex.norm_real]
      exact h2.trans (haA.trans hρ)) j hj
    rw [coeffs_ofReal] at h1
    set E := lejaCoeffsExp (fun _ => NormedSpace.exp) N x ((a + 0) / 2) (-a / 4) 1 j with hE
    have hE0 : 0 ≤ E := by
      have hlow := coeff_lower N x ((a + 0) / 2) (-a / 4) (-|a|) hsc0.le (fun i hi => (abs_le.1 (hnode i hi)).1) j hj
      exact le_trans (by positivity) hlow
    rw [Complex.norm_real, Real.norm_of_nonneg hE0] at h1
    refine le_trans ?_ h1
    have := Complex.abs_re_le_norm (o.ddIm N (fun i => (x i : ℂ)) ((a + 0) / 2) (-a / 4) j - (E : ℂ))
    rwa [Complex.sub_re, Complex.ofReal_re] at this
  · intro d w
    unfold pairEval complexConjLejaExpmv
    simp only
    have e : (if o.nZeros > 0 then lejaSeqPadZeros (K := ℂ) o.nZeros (fun i => ((2 * (if i < 2 then (genLejaCircle (2 * (o.nLeja - 1)) true i).re
        else (genLejaCircle (2 * (o.nLeja - 1)) true (2 + 2 * (i - 2))).re) : ℝ) : ℂ)) else fun i => ((2 * (if i < 2 then (genLejaCircle (2 * (o.nLeja - 1)) true i).re
        else (genLejaCircle (2 * (o.nLeja - 1)) true (2 + 2 * (i - 2))).re) : ℝ) : ℂ)) = (fun i => (x i : ℂ)) := hx
    rw [e]
    simp only [if_true, Complex.ofReal_re]
    rfl

end Ormatex.Props
