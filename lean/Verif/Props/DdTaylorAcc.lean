import Verif.Props.DdTaylor
import Verif.Props.PhiAcc
import Verif.Props.DdSeries
import Mathlib.Analysis.Complex.ExponentialBounds

/-!
C45, accuracy of `dd_exp_taylor` as computed (Taylor kernel of any degree).
-/

namespace Ormatex.Props
open Matrix Ormatex.Spec

section banach
set_option linter.unusedSectionVars false
variable {𝔸 : Type*} [NormedRing 𝔸] [NormedAlgebra ℝ 𝔸] [CompleteSpace 𝔸] [NormOneClass 𝔸]

/-- Taylor polynomial of degree `p`, raised to a power. -/
theorem taylor_pow_error (x : 𝔸) (r : ℝ) (hx : ‖x‖ ≤ r) (p n : ℕ) :
    ‖NormedSpace.exp x ^ n - (∑ i ∈ Finset.range (p + 1), ((Nat.factorial i : ℝ)⁻¹) • x ^ i) ^ n‖
      ≤ n * (r ^ (p + 1) / (Nat.factorial (p + 1) : ℝ)) * Real.exp (n * r) := by
  have hr : 0 ≤ r := le_trans (norm_nonneg _) hx
  have h1 : ‖NormedSpace.exp x - ∑ i ∈ Finset.range (p + 1), ((Nat.factorial i : ℝ)⁻¹) • x ^ i‖
      ≤ r ^ (p + 1) / (Nat.factorial (p + 1) : ℝ) * Real.exp r := by
    have h := phi_hasSum 0 x
    rw [phi_zero] at h
    have h5 := (hasSum_nat_add_iff' (p + 1)).mpr h
    simp only [add_zero] at h5
    have ht := exp_tail r hr (p + 1)
    refine (h5.norm_le_of_bounded ht.1.hasSum fun i => ?_).trans ht.2
    refine (norm_term_le x (i + (p + 1))).trans ?_
    gcongr
  have h2 : ‖∑ i ∈ Finset.range (p + 1), ((Nat.factorial i : ℝ)⁻¹) • x ^ i‖ ≤ Real.exp r := by
    refine le_trans (norm_sum_le _ _) (le_trans (Finset.sum_le_sum fun i _ => norm_term_le x i) ?_)
    exact (Real.sum_le_exp_of_nonneg (norm_nonneg _) (p + 1)).trans (Real.exp_le_exp.2 hx)
  have h := pow_sub_pow_le (NormedSpace.exp x) _ (Real.exp r) (r ^ (p + 1) / (Nat.factorial (p + 1) : ℝ)) (Real.exp_pos _).le
    (by positivity) (le_trans (exp_norm_le x) (Real.exp_le_exp.mpr hx)) h2 h1 n
  rwa [← Real.exp_nat_mul] at h

end banach

section
variable {K : Type*} [RCLike K]

attribute [local instance] Matrix.linftyOpNormedRing Matrix.linftyOpNormedAlgebra in
/-- **C45, accuracy.**  The coefficients that `dd_exp_taylor` returns with Taylor degree `p` (20 by default) differ from the exact
divided differences by at most `|e^{h mu}| N (2|h|)^{p+1}/(p+1)! e^{2|h|N}`, where `mu` is the centring and `N = 2^s` with `s` the
number of squarings; nodes, scale and centring are arbitrary. -/
theorem C45_accuracy (m : ℕ) (x : ℕ → K) (shift scale h : K) (p : ℕ) (muScale : K) (i : ℕ) (hi : i < m) :
    ‖ddExpTaylor m x shift scale h p muScale i - lejaCoeffsExp (fun _ => NormedSpace.exp) m x shift scale h i‖
      ≤ ‖NormedSpace.exp (h * ddMu m x shift scale h muScale)‖
        * (((2 ^ (ddScaled m x shift scale h muScale).2 : ℕ) : ℝ) * ((2 * ‖h‖) ^ (p + 1) / (Nat.factorial (p + 1) : ℝ))
          * Real.exp (((2 ^ (ddScaled m x shift scale h muScale).2 : ℕ) : ℝ) * (2 * ‖h‖))) := by
  have hne : Nonempty (Fin m) := ⟨⟨i, hi⟩⟩
  have : NormOneClass (Matrix (Fin m) (Fin m) K) := inferInstanceAs (NormOneClass (Matrix (Fin m) (Fin m) K))
  rw [C45_computed, ← C45_bookkeeping m x shift scale h muScale i]
  unfold ddExpWith
  simp only
  rw [sqIter_pow, ← mul_sub, norm_mul]
  refine mul_le_mul_of_nonneg_left ?_ (norm_nonneg _)
  set A := (ddScaled m x shift scale h muScale).1 with hA
  set n := 2 ^ (ddScaled m x shift scale h muScale).2
  have hnorm : ‖A‖ ≤ 2 * ‖h‖ := by
    rw [Matrix.linfty_opNorm_def]
    have hsum : ∀ a : Fin m, ∑ b, ‖A a b‖ ≤ 2 * ‖h‖ := by
      intro a
      have hent : ∀ b, ‖A a b‖ ≤ (if b = a then ‖h‖ else 0) + if (a : ℕ) = b + 1 then ‖h‖ else 0 := by
        intro b
        have hb := C45_scaled_small m x shift scale h muScale a b
        rw [← hA] at hb
        by_cases h1 : b = a
        · rw [if_pos h1]
          have : (0 : ℝ) ≤ if (a : ℕ) = b + 1 then ‖h‖ else 0 := by split_ifs <;> simp
          linarith
        · by_cases h2 : (a : ℕ) = b + 1
          · rw [if_neg h1, if_pos h2, zero_add]; exact hb
          · rw [if_neg h1, if_neg h2, add_zero]
            have h1' : ¬ a = b := fun h => h1 h.symm
            have : A a b = 0 := by
              rw [hA]
              unfold ddScaled xiShift bidiag
              simp [h1', h2]
            rw [this, norm_zero]
      refine (Finset.sum_le_sum fun b _ => hent b).trans ?_
      rw [Finset.sum_add_distrib, Finset.sum_ite_eq' _ a]
      simp only [Finset.mem_univ, if_true]
      have h2 : ∑ b : Fin m, (if (a : ℕ) = b + 1 then ‖h‖ else 0) ≤ ‖h‖ := by
        by_cases ha : (a : ℕ) = 0
        · rw [Finset.sum_eq_zero]
          · exact norm_nonneg _
          · intro b _
            rw [if_neg (by omega)]
        · rw [Finset.sum_eq_single (⟨a - 1, by have := a.2; omega⟩ : Fin m)]
          · split_ifs
            · exact le_rfl
            · exact norm_nonneg _
          · intro b _ hb
            rw [if_neg]
            intro h'
            apply hb
            ext
            show (b : ℕ) = a - 1
            omega
          · simp
      linarith
    have : (Finset.univ.sup fun a : Fin m => ∑ b, ‖A a b‖₊) ≤ (⟨2 * ‖h‖, by positivity⟩ : NNReal) := by
      refine Finset.sup_le fun a _ => ?_
      have h1 : ((∑ b, ‖A a b‖₊ : NNReal) : ℝ) ≤ ((⟨2 * ‖h‖, by positivity⟩ : NNReal) : ℝ) := by
        push_cast
        exact hsum a
      exact h1
    exact_mod_cast this
  have hkey := taylor_pow_error A (2 * ‖h‖) hnorm p n
  have hcast : (∑ j ∈ Finset.range (p + 1), ((Nat.factorial j : K)⁻¹) • A ^ j)
      = ∑ j ∈ Finset.range (p + 1), ((Nat.factorial j : ℝ)⁻¹) • A ^ j := by
    refine Finset.sum_congr rfl fun j _ => ?_
    ext a b
    rw [Matrix.smul_apply, Matrix.smul_apply, smul_eq_mul, RCLike.real_smul_eq_coe_mul]
    push_cast
    rfl
  unfold firstCol
  rw [dif_pos hi, dif_pos hi, hcast, norm_sub_rev, ← Matrix.sub_apply]
  exact (norm_entry_le _ _ _).trans hkey

end

/-- One node 1, shift 0, scale 1, `h = 1`: no centring is left, two factors, error at most `1e-10`. -/
example : |ddExpTaylor 2 (fun i => if i = 0 then (1 : ℝ) else -1) 0 1 1 20 1 1
    - lejaCoeffsExp (fun _ => NormedSpace.exp) 2 (fun i => if i = 0 then (1 : ℝ) else -1) 0 1 1 1| ≤ 1e-11 := by
  have h := C45_accuracy 2 (fun i => if i = 0 then (1 : ℝ) else -1) 0 1 1 20 1 1 (by norm_num)
  rw [Real.norm_eq_abs] at h
  refine h.trans ?_
  have hmu : ddMu 2 (fun i => if i = 0 then (1 : ℝ) else -1) 0 1 1 1 = 0 := by
    simp [ddMu, Finset.sum_range_succ]
  have hs : (ddScaled 2 (fun i => if i = 0 then (1 : ℝ) else -1) 0 1 1 1).2 = 1 := by
    unfold ddScaled
    simp only [hmu]
    have hm : maxAbs (xiShift 2 (fun i => if i = 0 then (1 : ℝ) else -1) 0 1 - (0 : ℝ) • (1 : Matrix (Fin 2) (Fin 2) ℝ)) = 1 := by
      unfold maxAbs
      refine le_antisymm (ciSup_le fun q => ?_) ?_
      · rcases q with ⟨a, b⟩
        fin_cases a <;> fin_cases b <;> norm_num [xiShift, bidiag]
      · refine le_trans ?_ (le_ciSup (Set.finite_range _).bddAbove ((0 : Fin 2), (0 : Fin 2)))
        norm_num [xiShift, bidiag]
    rw [hm]
    simp [numSquarings]
  rw [hmu, hs, mul_zero, NormedSpace.exp_zero, norm_one, one_mul]
  have he4 : Real.exp (((2 ^ 1 : ℕ) : ℝ) * (2 * 1)) ≤ 55 := by
    have h1 : Real.exp 1 < 2.7182818286 := Real.exp_one_lt_d9
    have : Real.exp (((2 ^ 1 : ℕ) : ℝ) * (2 * 1)) = Real.exp 1 ^ 4 := by rw [← Real.exp_nat_mul]; norm_num
    rw [this]
    calc Real.exp 1 ^ 4 ≤ 2.7182818286 ^ 4 := by gcongr
      _ ≤ 55 := by norm_num
  calc _ ≤ ((2 ^ 1 : ℕ) : ℝ) * ((2 * 1) ^ (20 + 1) / (Nat.factorial (20 + 1) : ℝ)) * 55 := by gcongr
    _ ≤ _ := by norm_num [Nat.factorial]

end Ormatex.Props
