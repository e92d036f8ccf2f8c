import Verif.Props.LejaTol
import Verif.Props.ApproxKrylov

/-!
C116: what a converged Newton (Leja) evaluation is worth for an operator of bounded norm, and with it the accuracy of the steps of
the Leja integrator without any assumption on the individual evaluations.
-/

namespace Ormatex.Props
open Ormatex Ormatex.Spec Matrix
open scoped Classical
open scoped Matrix.Norms.Operator

variable {n : ℕ}

/-- with `scale = 0` only the zero vector "converges" -/
theorem conv_scale_zero (A : LinOp n) (dt : ℝ) (u : Vec n) (shift : ℝ) (nLeja : ℕ) (x c : ℕ → ℝ) (tol abortTol : ℝ)
    (h : (realLejaExpmv A dt u shift 0 nLeja x c tol abortTol).conv) :
    u = 0 ∧ (realLejaExpmv A dt u shift 0 nLeja x c tol abortTol).pm = 0 := by
  have key := lejaLoop_invariant (cond := lejaCond nLeja abortTol (norm2 u))
    (body := realLejaBody A dt (norm2 u) 0 tol (fun i => shift + 0 * x i) c)
    (fun s => s.conv → u = 0 ∧ s.pm = 0) (fun s _ _ hc => absurd rfl hc.1) nLeja
    { i := 1, vm := u, pm := c 0 • u, err := 2 * norm2 u, conv := norm2 u = 0 }
    (fun hc => by
      have hu : u = 0 := by
        by_contra hne
        exact (norm2_pos hne).ne' hc
      exact ⟨hu, by simp [hu]⟩)
  exact key h

/-- the constant in the accuracy of a converged evaluation of a matrix and nodes of modulus at most `R` -/
noncomputable def evalConst (n : ℕ) (R : ℝ) : ℝ := 2 * R * Real.exp (2 * R) * Real.sqrt n + Real.exp (3 * R)

theorem evalConst_pos (n : ℕ) {R : ℝ} (hR : 0 ≤ R) : 0 < evalConst n R := by
  unfold evalConst; positivity

/-- **C116, one evaluation.**  Let the matrix `dt A` and all nodes have norm at most `R`, and let the coefficients be the divided
differences of the exponential up to a relative error `θ ≤ 1/2`.  If `real_leja_expmv` reports convergence, its value differs from
`exp(dt A) u` by at most `evalConst n R * (tol + θ) * |u|`. -/
theorem converged_error (A : LinOp n) (M : Mat n) (hA : IsMatrix A M) (dt : ℝ) (u : Vec n) (shift scale : ℝ) (hs0 : 0 ≤ scale)
    (R : ℝ) (hM : ‖dt • M‖ ≤ R) (nLeja : ℕ) (hn : 2 ≤ nLeja) (x c : ℕ → ℝ) (hx : ∀ i < nLeja, |shift + scale * x i| ≤ R)
    (θ : ℝ) (hθ : 0 ≤ θ) (hθ2 : θ ≤ 1 / 2)
    (hc : ∀ j < nLeja, |c j - lejaCoeffsExp (fun _ => NormedSpace.exp) nLeja x shift scale 1 j|
      ≤ θ * lejaCoeffsExp (fun _ => NormedSpace.exp) nLeja x shift scale 1 j)
    (tol abortTol : ℝ) (ht : 0 < tol) (ht2 : tol ≤ 2) :
    let r := realLejaExpmv A dt u shift scale nLeja x c tol abortTol
    r.conv → ‖r.pm - NormedSpace.exp (dt • M) *ᵥ u‖ ≤ evalConst n R * (tol + θ) * ‖u‖ := by
  intro r hconv
  have hR : 0 ≤ R := (norm_nonneg _).trans hM
  have hK := evalConst_pos n hR
  rcases hs0.eq_or_lt with rfl | hs
  · obtain ⟨h1, h2⟩ := conv_scale_zero A dt u shift nLeja x c tol abortTol hconv
    have h2' : r.pm = 0 := h2
    rw [h2', h1, Matrix.mulVec_zero, sub_zero, norm_zero]; simp
  by_cases hu : u = 0
  · obtain ⟨h1, -, -, -⟩ := C46_newton A M hA dt u shift scale hs.ne' nLeja x c tol abortTol
    rw [newtonPoly_mulVec] at h1
    have e0 : ∀ j, newtonVec x (scaledMat M dt shift scale) u j = 0 := by
      intro j
      rw [hu]
      exact Matrix.mulVec_zero _
    have h1' : r.pm = 0 := by
      rw [show r.pm = _ from h1, Finset.sum_eq_zero fun j _ => by rw [e0, smul_zero]]
    rw [h1', hu, Matrix.mulVec_zero, sub_zero, norm_zero]; simp
  set E := lejaCoeffsExp (fun _ => NormedSpace.exp) nLeja x shift scale (1 : ℝ) with hE
  set V := newtonVec x (scaledMat M dt shift scale) u with hV
  obtain ⟨h1, -, h3, -⟩ := C46_newton A M hA dt u shift scale hs.ne' nLeja x c tol abortTol
  rw [newtonPoly_mulVec] at h1
  have h1' : r.pm = ∑ j ∈ Finset.range r.i, c j • V j := h1
  obtain ⟨hi2, hlast⟩ := last_term A M hA dt u hu shift scale hs.ne' nLeja x c tol abortTol ht ht2 hconv
  have hiL : r.i ≤ nLeja := h3.trans (by omega)
  change 2 ≤ r.i at hi2
  change |c (r.i - 1)| * norm2 (V (r.i - 1)) < tol * norm2 u at hlast
  obtain ⟨m, hm⟩ : ∃ m, r.i = m + 1 := ⟨r.i - 1, by omega⟩
  rw [hm] at h1' hlast hiL hi2
  rw [Nat.add_sub_cancel] at hlast
  have hback := scaledMat_back M dt shift scale hs.ne'
  have hnode : ∀ j < nLeja, ‖dt • M - (shift + scale * x j) • (1 : Mat n)‖ ≤ 2 * R := by
    intro j hj
    refine (norm_sub_le _ _).trans ?_
    have h4 : ‖(shift + scale * x j) • (1 : Mat n)‖ ≤ R := by
      rw [norm_smul, Real.norm_eq_abs]
      rcases isEmpty_or_nonempty (Fin n) with he | he
      · rw [Subsingleton.elim (1 : Mat n) 0, norm_zero, mul_zero]; exact hR
      · rw [norm_one, mul_one]; exact hx j hj
    linarith
  -- growth of the Newton vectors
  have hgrow : ∀ j ≤ nLeja, scale ^ j * ‖V j‖ ≤ (2 * R) ^ j * ‖u‖ := by
    intro j hj
    have h4 := newtonVec_norm x shift scale hs.ne' (scaledMat M dt shift scale) u j
    rw [← hback, Real.norm_of_nonneg hs.le] at h4
    refine h4.trans (mul_le_mul_of_nonneg_right ?_ (norm_nonneg _))
    calc _ ≤ ∏ _l ∈ Finset.range j, (2 * R) :=
          Finset.prod_le_prod (fun _ _ => norm_nonneg _) fun l hl => hnode l (by have := Finset.mem_range.1 hl; omega)
      _ = _ := by rw [Finset.prod_const, Finset.card_range]
  -- the coefficients
  have hElow : ∀ j < nLeja, Real.exp (-R) * (scale ^ j / (Nat.factorial j : ℝ)) ≤ E j := fun j hj =>
    coeff_lower nLeja x shift scale (-R) hs.le (fun i hi => (abs_le.1 (hx i hi)).1) j hj
  have hEup : ∀ j < nLeja, E j ≤ Real.exp R * (scale ^ j / (Nat.factorial j : ℝ)) := by
    intro j hj
    have h4 := exactTable_le 0 nLeja x shift scale 1 R (fun i hi => by rw [Real.norm_eq_abs]; exact hx i hi) ⟨j, hj⟩ ⟨0, by omega⟩ (by simp)
    have e : E j = exactTable 0 nLeja x shift scale 1 ⟨j, hj⟩ ⟨0, by omega⟩ := by
      rw [hE, ← exactDd_zero]
      unfold exactDd firstCol
      rw [dif_pos hj]
    rw [e]
    refine (le_abs_self _).trans ((Real.norm_eq_abs _).symm.le.trans (h4.trans (le_of_eq ?_)))
    simp only [Nat.sub_zero, one_mul, norm_one, Real.norm_of_nonneg hs.le]
  have hE0 : ∀ j < nLeja, 0 ≤ E j := fun j hj => le_trans (by positivity) (hElow j hj)
  -- the remainder of the exact interpolation
  have hrem := newton_remainder0 x shift scale (scaledMat M dt shift scale) u m R (by rw [← hback]; exact hM)
    (fun i hi => by rw [Real.norm_eq_abs]; exact hx i (by omega))
  rw [← hback, Real.norm_of_nonneg hs.le] at hrem
  have hpre : ∀ j ∈ Finset.range (m + 1), exactDd 0 (m + 1) x shift scale 1 j • V j = E j • V j := by
    intro j hj
    rw [exactDd_zero, hE, C44_prefix nLeja x shift scale 1 (m + 1) j hiL (Finset.mem_range.1 hj)]
  rw [Finset.sum_congr rfl hpre] at hrem
  change ‖_‖ ≤ scale ^ (m + 1) * (Real.exp R / (Nat.factorial (m + 1) : ℝ)) * ‖V (m + 1)‖ at hrem
  have hstep : scale * ‖V (m + 1)‖ ≤ 2 * R * ‖V m‖ := by
    have e : scale • V (m + 1) = (dt • M - (shift + scale * x m) • (1 : Mat n)) *ᵥ V m := by
      rw [hV, newtonVec_succ, hback, Matrix.sub_mulVec, Matrix.add_mulVec, Matrix.smul_mulVec, Matrix.smul_mulVec, Matrix.smul_mulVec,
        Matrix.one_mulVec]
      module
    calc scale * ‖V (m + 1)‖ = ‖scale • V (m + 1)‖ := by rw [norm_smul, Real.norm_of_nonneg hs.le]
      _ ≤ _ := by rw [e]; exact Matrix.linfty_opNorm_mulVec _ _
      _ ≤ _ := mul_le_mul_of_nonneg_right (hnode m (by omega)) (norm_nonneg _)
  have hcm : Real.exp (-R) * (scale ^ m / (Nat.factorial m : ℝ)) ≤ 2 * |c m| := by
    have h4 := abs_le.1 (hc m (by omega))
    have h5 := hElow m (by omega)
    have h6 := le_abs_self (c m)
    have h7 := hE0 m (by omega)
    have h8 : θ * E m ≤ 1 / 2 * E m := mul_le_mul_of_nonneg_right hθ2 h7
    linarith [h4.1]
  have hb1 : ‖NormedSpace.exp (dt • M) *ᵥ u - ∑ j ∈ Finset.range (m + 1), E j • V j‖
      ≤ 2 * R * Real.exp (2 * R) * Real.sqrt n * tol * ‖u‖ := by
    refine hrem.trans ?_
    have hf : (Nat.factorial (m + 1) : ℝ) = (m + 1 : ℝ) * (Nat.factorial m : ℝ) := by
      rw [Nat.factorial_succ]; push_cast; ring
    have hfm : (0 : ℝ) < Nat.factorial m := by positivity
    have hm1 : (1 : ℝ) ≤ m := by exact_mod_cast (by omega : 1 ≤ m)
    have e1 : scale ^ (m + 1) * (Real.exp R / (Nat.factorial (m + 1) : ℝ)) * ‖V (m + 1)‖
        = Real.exp R / (m + 1) * (scale ^ m / (Nat.factorial m : ℝ)) * (scale * ‖V (m + 1)‖) := by
      rw [hf, pow_succ]; field_simp
    rw [e1]
    have e2 : Real.exp (2 * R) = Real.exp R * Real.exp R := by rw [← Real.exp_add]; congr 1; ring
    have e3 : Real.exp R * Real.exp (-R) = 1 := by rw [← Real.exp_add]; simp
    have hq : scale ^ m / (Nat.factorial m : ℝ) ≤ Real.exp R * (2 * |c m|) := by
      have h4 := mul_le_mul_of_nonneg_left hcm (Real.exp_pos R).le
      rw [← mul_assoc, e3, one_mul] at h4
      exact h4
    have hv : |c m| * ‖V m‖ ≤ tol * (Real.sqrt n * ‖u‖) := by
      have h4 : |c m| * ‖V m‖ ≤ |c m| * norm2 (V m) := mul_le_mul_of_nonneg_left (norm_le_norm2 _) (abs_nonneg _)
      have h5 := mul_le_mul_of_nonneg_left (norm2_le_norm u) ht.le
      linarith
    calc _ ≤ Real.exp R / (m + 1) * (Real.exp R * (2 * |c m|)) * (2 * R * ‖V m‖) := by
          refine mul_le_mul (mul_le_mul_of_nonneg_left hq (by positivity)) hstep (by positivity) (by positivity)
      _ = 2 / (m + 1) * (2 * R * Real.exp (2 * R)) * (|c m| * ‖V m‖) := by rw [e2]; ring
      _ ≤ 1 * (2 * R * Real.exp (2 * R)) * (tol * (Real.sqrt n * ‖u‖)) := by
          refine mul_le_mul (mul_le_mul_of_nonneg_right ?_ (by positivity)) hv (by positivity) (by positivity)
          rw [div_le_one (by linarith)]; linarith
      _ = _ := by ring
  -- the effect of the coefficient errors
  have hb2 : ‖∑ j ∈ Finset.range (m + 1), (c j - E j) • V j‖ ≤ Real.exp (3 * R) * θ * ‖u‖ := by
    refine (norm_sum_le _ _).trans ?_
    have hterm : ∀ j ∈ Finset.range (m + 1), ‖(c j - E j) • V j‖
        ≤ θ * Real.exp R * ‖u‖ * ((2 * R) ^ j / (Nat.factorial j : ℝ)) := by
      intro j hj
      have hj' : j < nLeja := by have := Finset.mem_range.1 hj; omega
      rw [norm_smul, Real.norm_eq_abs]
      have h4 : |c j - E j| ≤ θ * (Real.exp R * (scale ^ j / (Nat.factorial j : ℝ))) :=
        (hc j hj').trans (mul_le_mul_of_nonneg_left (hEup j hj') hθ)
      calc _ ≤ θ * (Real.exp R * (scale ^ j / (Nat.factorial j : ℝ))) * ‖V j‖ := mul_le_mul_of_nonneg_right h4 (norm_nonneg _)
        _ = θ * Real.exp R / (Nat.factorial j : ℝ) * (scale ^ j * ‖V j‖) := by ring
        _ ≤ θ * Real.exp R / (Nat.factorial j : ℝ) * ((2 * R) ^ j * ‖u‖) :=
            mul_le_mul_of_nonneg_left (hgrow j hj'.le) (by positivity)
        _ = _ := by ring
    refine (Finset.sum_le_sum hterm).trans ?_
    rw [← Finset.mul_sum]
    have h5 : ∑ j ∈ Finset.range (m + 1), (2 * R) ^ j / (Nat.factorial j : ℝ) ≤ Real.exp (2 * R) :=
      Real.sum_le_exp_of_nonneg (by positivity) (m + 1)
    have e2 : Real.exp (3 * R) = Real.exp R * Real.exp (2 * R) := by rw [← Real.exp_add]; congr 1; ring
    calc _ ≤ θ * Real.exp R * ‖u‖ * Real.exp (2 * R) := mul_le_mul_of_nonneg_left h5 (by positivity)
      _ = _ := by rw [e2]; ring
  have e : r.pm - NormedSpace.exp (dt • M) *ᵥ u
      = ∑ j ∈ Finset.range (m + 1), (c j - E j) • V j
        - (NormedSpace.exp (dt • M) *ᵥ u - ∑ j ∈ Finset.range (m + 1), E j • V j) := by
    rw [h1']
    simp only [sub_smul, Finset.sum_sub_distrib]
    abel
  rw [e]
  refine (norm_sub_le _ _).trans ?_
  have hexp3 : 0 ≤ Real.exp (3 * R) * tol * ‖u‖ := by positivity
  have hexp4 : 0 ≤ 2 * R * Real.exp (2 * R) * Real.sqrt n * θ * ‖u‖ := by positivity
  calc _ ≤ Real.exp (3 * R) * θ * ‖u‖ + 2 * R * Real.exp (2 * R) * Real.sqrt n * tol * ‖u‖ := add_le_add hb2 hb1
    _ ≤ Real.exp (3 * R) * θ * ‖u‖ + 2 * R * Real.exp (2 * R) * Real.sqrt n * tol * ‖u‖
        + (Real.exp (3 * R) * tol * ‖u‖ + 2 * R * Real.exp (2 * R) * Real.sqrt n * θ * ‖u‖) := by linarith
    _ = evalConst n R * (tol + θ) * ‖u‖ := by unfold evalConst; ring

end Ormatex.Props
