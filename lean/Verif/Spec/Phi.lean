import Verif.Py
import Mathlib.Analysis.Normed.Algebra.MatrixExponential
import Mathlib.Analysis.Calculus.SmoothSeries
import Mathlib.Analysis.Calculus.Deriv.Pow
import Mathlib.Analysis.Calculus.Deriv.Mul
import Mathlib.Analysis.Calculus.Deriv.Prod
import Mathlib.Analysis.Calculus.Deriv.Shift
import Mathlib.Analysis.Calculus.MeanValue
import Mathlib.Analysis.SpecialFunctions.Exponential

/-!
Specification of the phi functions and of the exact flow of linear systems (independent of the code).

`phi k A = ∑_j A^j / (j+k)!`.
-/

namespace Ormatex.Spec
open Matrix

/-- **Specification.** The phi functions as power series: `phi k A = ∑ j, A^j / (j+k)!`. -/
noncomputable def phi {𝔸 : Type*} [Ring 𝔸] [Algebra ℝ 𝔸] [TopologicalSpace 𝔸] (k : ℕ) (A : 𝔸) : 𝔸 :=
  ∑' j : ℕ, ((Nat.factorial (j + k) : ℝ)⁻¹) • A ^ j

/-- **Specification.** `phi` on real square matrices (with the entrywise topology). -/
noncomputable def phiM {n : ℕ} (k : ℕ) (A : Mat n) : Mat n :=
  ∑' j : ℕ, ((Nat.factorial (j + k) : ℝ)⁻¹) • A ^ j

section banach
variable {𝔸 : Type*} [NormedRing 𝔸] [NormedAlgebra ℝ 𝔸] [CompleteSpace 𝔸]
set_option linter.unusedSectionVars false

theorem phi_norm_summable (k : ℕ) (A : 𝔸) :
    Summable (fun j : ℕ => ‖((Nat.factorial (j + k) : ℝ)⁻¹) • A ^ j‖) := by
  have h := NormedSpace.norm_expSeries_summable' (𝕂 := ℝ) A
  refine Summable.of_nonneg_of_le (fun j => norm_nonneg _) (fun j => ?_) h
  rw [norm_smul, norm_smul]
  refine mul_le_mul_of_nonneg_right ?_ (norm_nonneg _)
  rw [norm_inv, norm_inv, Real.norm_natCast, Real.norm_natCast]
  refine inv_anti₀ (by exact_mod_cast Nat.factorial_pos j) ?_
  exact_mod_cast Nat.factorial_le (Nat.le_add_right j k)

theorem phi_summable (k : ℕ) (A : 𝔸) :
    Summable (fun j : ℕ => ((Nat.factorial (j + k) : ℝ)⁻¹) • A ^ j) :=
  (phi_norm_summable k A).of_norm

theorem phi_hasSum (k : ℕ) (A : 𝔸) :
    HasSum (fun j : ℕ => ((Nat.factorial (j + k) : ℝ)⁻¹) • A ^ j) (phi k A) :=
  (phi_summable k A).hasSum

/-- `phi 0 = exp` -/
theorem phi_zero (A : 𝔸) : phi 0 A = NormedSpace.exp A := by
  rw [NormedSpace.exp_eq_tsum ℝ]
  rfl

/-- `phi k 0 = 1/k!` -/
theorem phi_at_zero (k : ℕ) : phi k (0 : 𝔸) = ((Nat.factorial k : ℝ)⁻¹) • 1 := by
  unfold phi
  rw [tsum_eq_single 0]
  · simp
  · intro j hj
    simp [hj]

/-- `A phi_{k+1}(A) = phi_k(A) - 1/k!` -/
theorem phi_recurrence (k : ℕ) (A : 𝔸) :
    A * phi (k + 1) A = phi k A - ((Nat.factorial k : ℝ)⁻¹) • 1 := by
  have h1 := (phi_hasSum (k + 1) A).mul_left A
  have h2 := (hasSum_nat_add_iff' 1).mpr (phi_hasSum k A)
  simp only [Finset.range_one, Finset.sum_singleton, pow_zero, zero_add] at h2
  have e : (fun j : ℕ => A * ((Nat.factorial (j + (k + 1)) : ℝ)⁻¹ • A ^ j))
      = fun j => (Nat.factorial (j + 1 + k) : ℝ)⁻¹ • A ^ (j + 1) := by
    funext j
    rw [mul_smul_comm, ← pow_succ', show j + (k + 1) = j + 1 + k by omega]
  rw [e] at h1
  exact h1.unique h2

theorem phi_recurrence' (k : ℕ) (A : 𝔸) :
    phi (k + 1) A * A = phi k A - ((Nat.factorial k : ℝ)⁻¹) • 1 := by
  have h1 := (phi_hasSum (k + 1) A).mul_right A
  have h2 := (hasSum_nat_add_iff' 1).mpr (phi_hasSum k A)
  simp only [Finset.range_one, Finset.sum_singleton, pow_zero, zero_add] at h2
  have e : (fun j : ℕ => ((Nat.factorial (j + (k + 1)) : ℝ)⁻¹ • A ^ j) * A)
      = fun j => (Nat.factorial (j + 1 + k) : ℝ)⁻¹ • A ^ (j + 1) := by
    funext j
    rw [smul_mul_assoc, ← pow_succ, show j + (k + 1) = j + 1 + k by omega]
  rw [e] at h1
  exact h1.unique h2

theorem phi_commute (k : ℕ) (A B : 𝔸) (h : Commute B A) : Commute B (phi k A) := by
  have h1 := (phi_hasSum k A).mul_left B
  have h2 := (phi_hasSum k A).mul_right B
  have e : (fun j : ℕ => B * ((Nat.factorial (j + k) : ℝ)⁻¹ • A ^ j))
      = fun j => ((Nat.factorial (j + k) : ℝ)⁻¹ • A ^ j) * B := by
    funext j
    rw [mul_smul_comm, smul_mul_assoc, (h.pow_right j).eq]
  rw [e] at h1
  exact h1.unique h2

/-- `d/ds [s^{k+1} phi_{k+1}(sA)] = s^k phi_k(sA)` -/
theorem hasDerivAt_phi_succ (k : ℕ) (A : 𝔸) (s : ℝ) :
    HasDerivAt (fun s : ℝ => s ^ (k + 1) • phi (k + 1) (s • A)) (s ^ k • phi k (s • A)) s := by
  set R : ℝ := |s| + 1 with hR
  have hRpos : 0 < R := by positivity
  have key : ∀ (k : ℕ) (s : ℝ), s ^ k • phi k (s • A)
      = ∑' j : ℕ, (s ^ (j + k) * (Nat.factorial (j + k) : ℝ)⁻¹) • A ^ j := by
    intro k s
    unfold phi
    rw [← (phi_summable k (s • A)).tsum_const_smul]
    refine tsum_congr fun j => ?_
    rw [smul_pow, smul_smul, smul_smul]
    congr 1
    ring
  simp only [key]
  refine hasDerivAt_tsum_of_isPreconnected
    (g := fun (j : ℕ) (s : ℝ) => (s ^ (j + (k + 1)) * (Nat.factorial (j + (k + 1)) : ℝ)⁻¹) • A ^ j)
    (g' := fun (j : ℕ) (s : ℝ) => (s ^ (j + k) * (Nat.factorial (j + k) : ℝ)⁻¹) • A ^ j)
    (u := fun j => R ^ k * ‖((Nat.factorial (j + k) : ℝ)⁻¹) • (R • A) ^ j‖)
    (t := Metric.ball (0 : ℝ) R) (y₀ := (0 : ℝ)) ?_ Metric.isOpen_ball (convex_ball _ _).isPreconnected ?_ ?_ ?_ ?_ ?_
  · exact (phi_norm_summable k (R • A)).mul_left _
  · intro j y _
    refine HasDerivAt.smul_const ?_ _
    have h := (hasDerivAt_pow (j + (k + 1)) y).mul_const ((Nat.factorial (j + (k + 1)) : ℝ)⁻¹)
    convert h using 1
    have : j + (k + 1) = j + k + 1 := by omega
    rw [this, Nat.factorial_succ]
    push_cast
    have h0 : ((Nat.factorial (j + k) : ℕ) : ℝ) ≠ 0 := by exact_mod_cast Nat.factorial_ne_zero _
    have h1 : ((j : ℝ) + k + 1) ≠ 0 := by positivity
    field_simp
  · intro j y hy
    rw [smul_pow, norm_smul, norm_smul, norm_smul, norm_mul, norm_pow y, norm_pow R]
    have hy' : ‖y‖ ≤ R := by
      have := Metric.mem_ball.mp hy
      rw [dist_zero_right] at this
      exact this.le
    rw [Real.norm_of_nonneg hRpos.le]
    have : ‖y‖ ^ (j + k) ≤ R ^ (j + k) := pow_le_pow_left₀ (norm_nonneg _) hy' _
    calc ‖y‖ ^ (j + k) * ‖((Nat.factorial (j + k) : ℝ)⁻¹)‖ * ‖A ^ j‖
        ≤ R ^ (j + k) * ‖((Nat.factorial (j + k) : ℝ)⁻¹)‖ * ‖A ^ j‖ := by gcongr
      _ = _ := by rw [pow_add]; ring
  · simpa using hRpos
  · refine summable_of_ne_finset_zero (s := ∅) fun j _ => ?_
    simp
  · rw [Metric.mem_ball, dist_zero_right, Real.norm_eq_abs]
    linarith

theorem hasDerivAt_phi_zero (A : 𝔸) (s : ℝ) :
    HasDerivAt (fun s : ℝ => phi 0 (s • A)) (A * phi 0 (s • A)) s := by
  simp only [phi_zero]
  exact hasDerivAt_exp_smul_const' A s

end banach

section flow
open scoped Matrix.Norms.Operator
variable {n : ℕ}

theorem phiM_eq (k : ℕ) (A : Mat n) : phiM k A = phi k A := rfl

theorem phiM_zero (A : Mat n) : phiM 0 A = NormedSpace.exp A := phi_zero A

theorem phiM_at_zero (k : ℕ) : phiM k (0 : Mat n) = ((Nat.factorial k : ℝ)⁻¹) • 1 := phi_at_zero k

theorem phiM_hasSum (k : ℕ) (A : Mat n) :
    HasSum (fun j : ℕ => ((Nat.factorial (j + k) : ℝ)⁻¹) • A ^ j) (phiM k A) := phi_hasSum k A

theorem phiM_recurrence (k : ℕ) (A : Mat n) :
    A * phiM (k + 1) A = phiM k A - ((Nat.factorial k : ℝ)⁻¹) • 1 := phi_recurrence k A

theorem phiM_recurrence' (k : ℕ) (A : Mat n) :
    phiM (k + 1) A * A = phiM k A - ((Nat.factorial k : ℝ)⁻¹) • 1 := phi_recurrence' k A

theorem phiM_commute (k : ℕ) (A B : Mat n) (h : B * A = A * B) : B * phiM k A = phiM k A * B :=
  phi_commute k A B h

theorem hasDerivAt_phiM_succ (k : ℕ) (A : Mat n) (s : ℝ) :
    HasDerivAt (fun s : ℝ => s ^ (k + 1) • phiM (k + 1) (s • A)) (s ^ k • phiM k (s • A)) s :=
  hasDerivAt_phi_succ k A s

theorem hasDerivAt_phiM_zero (A : Mat n) (s : ℝ) :
    HasDerivAt (fun s : ℝ => phiM 0 (s • A)) (A * phiM 0 (s • A)) s := hasDerivAt_phi_zero A s

theorem hasDerivAt_mulVec {M : ℝ → Mat n} {M' : Mat n} {w : ℝ → Vec n} {w' : Vec n} {s : ℝ}
    (hM : HasDerivAt M M' s) (hw : HasDerivAt w w' s) :
    HasDerivAt (fun s => M s *ᵥ w s) (M' *ᵥ w s + M s *ᵥ w') s := by
  have hMe : ∀ i j, HasDerivAt (fun s => M s i j) (M' i j) s := by
    intro i j
    let L : Mat n →ₗ[ℝ] ℝ := Matrix.entryLinearMap ℝ ℝ i j
    exact (LinearMap.toContinuousLinearMap L).hasFDerivAt.comp_hasDerivAt s hM
  have hwe := hasDerivAt_pi.mp hw
  rw [hasDerivAt_pi]
  intro i
  have := HasDerivAt.sum (u := Finset.univ) (A := fun j s => M s i j * w s j)
    (A' := fun j => M' i j * w s j + M s i j * w' j) (x := s)
    (fun j _ => (hMe i j).mul (hwe j))
  simp only [Finset.sum_add_distrib] at this
  have e : (fun s => (M s *ᵥ w s) i) = ∑ j, fun s => M s i j * w s j := by
    funext s
    simp [Matrix.mulVec, dotProduct]
  rw [e]
  exact this

theorem hasDerivAt_mulVec_const {M : ℝ → Mat n} {M' : Mat n} {s : ℝ}
    (hM : HasDerivAt M M' s) (v : Vec n) : HasDerivAt (fun s => M s *ᵥ v) (M' *ᵥ v) s := by
  simpa using hasDerivAt_mulVec hM (hasDerivAt_const s v)

theorem hasDerivAt_const_mulVec (A : Mat n) {w : ℝ → Vec n} {w' : Vec n} {s : ℝ}
    (hw : HasDerivAt w w' s) : HasDerivAt (fun s => A *ᵥ w s) (A *ᵥ w') s := by
  simpa using hasDerivAt_mulVec (hasDerivAt_const s A) hw

/-- Uniqueness for homogeneous linear systems. -/
theorem linear_ode_zero (A : Mat n) (g : ℝ → Vec n) (hg : ∀ s, HasDerivAt g (A *ᵥ g s) s) (h0 : g 0 = 0) (s : ℝ) :
    g s = 0 := by
  set E : ℝ → Mat n := fun s => NormedSpace.exp (s • (-A)) with hE
  have hd : ∀ s, HasDerivAt (fun s => E s *ᵥ g s) 0 s := by
    intro s
    have h := hasDerivAt_mulVec (hasDerivAt_exp_smul_const (-A) s) (hg s)
    rw [Matrix.mulVec_mulVec, mul_neg, Matrix.neg_mulVec, neg_add_cancel] at h
    exact h
  have hc : E s *ᵥ g s = E 0 *ᵥ g 0 :=
    is_const_of_deriv_eq_zero (fun s => (hd s).differentiableAt) (fun s => (hd s).deriv) s 0
  rw [h0, Matrix.mulVec_zero] at hc
  have hinv : NormedSpace.exp (s • A) * E s = 1 := by
    have hcomm : Commute (s • A) (s • (-A)) := by simp [Commute, SemiconjBy]
    have := NormedSpace.exp_add_of_commute hcomm
    rw [smul_neg, add_neg_cancel, NormedSpace.exp_zero] at this
    rw [hE]
    simp only [smul_neg]
    exact this.symm
  calc g s = (1 : Mat n) *ᵥ g s := (Matrix.one_mulVec _).symm
    _ = NormedSpace.exp (s • A) *ᵥ (E s *ᵥ g s) := by rw [← hinv, Matrix.mulVec_mulVec]
    _ = 0 := by rw [hc, Matrix.mulVec_zero]

/-- **Variation of constants for a polynomial inhomogeneity.**  If `y' = A y + ∑_k (s-t)^k/k! b_k`, then
`y(t+dt) = e^{dt A} y(t) + ∑_k dt^{k+1} phi_{k+1}(dt A) b_k`. -/
theorem forced_solution (A : Mat n) (m : ℕ) (b : ℕ → Vec n) (t : ℝ) (y : ℝ → Vec n)
    (hy : ∀ s, HasDerivAt y (A *ᵥ y s + ∑ k ∈ Finset.range m, ((s - t) ^ k / (Nat.factorial k : ℝ)) • b k) s)
    (dt : ℝ) :
    y (t + dt) = phiM 0 (dt • A) *ᵥ y t
      + ∑ k ∈ Finset.range m, (dt ^ (k + 1)) • (phiM (k + 1) (dt • A) *ᵥ b k) := by
  set g : ℝ → Vec n := fun s => y (t + s) - (phiM 0 (s • A) *ᵥ y t
      + ∑ k ∈ Finset.range m, ((s ^ (k + 1)) • phiM (k + 1) (s • A)) *ᵥ b k) with hg
  have hd : ∀ s, HasDerivAt g (A *ᵥ g s) s := by
    intro s
    have h1 : HasDerivAt (fun s => y (t + s)) _ s := HasDerivAt.comp_const_add t s (hy (t + s))
    have h2 := hasDerivAt_mulVec_const (hasDerivAt_phiM_zero A s) (y t)
    have h3 := HasDerivAt.sum (u := Finset.range m)
      (A := fun k s => ((s ^ (k + 1)) • phiM (k + 1) (s • A)) *ᵥ b k)
      (A' := fun k => (s ^ k • phiM k (s • A)) *ᵥ b k) (x := s)
      (fun k _ => hasDerivAt_mulVec_const (hasDerivAt_phiM_succ k A s) (b k))
    have h := h1.sub (h2.add h3)
    have e2 : g = ((fun s => y (t + s)) - ((fun s => phiM 0 (s • A) *ᵥ y t)
        + ∑ k ∈ Finset.range m, fun s => ((s ^ (k + 1)) • phiM (k + 1) (s • A)) *ᵥ b k)) := by
      funext s
      simp [hg, Finset.sum_apply]
    have e4 : A *ᵥ g s = A *ᵥ y (t + s) + ∑ k ∈ Finset.range m, ((t + s - t) ^ k / (Nat.factorial k : ℝ)) • b k
        - ((A * phiM 0 (s • A)) *ᵥ y t + ∑ k ∈ Finset.range m, (s ^ k • phiM k (s • A)) *ᵥ b k) := by
     rw [hg]
     simp only [Matrix.mulVec_sub, Matrix.mulVec_add, Matrix.mulVec_sum, Matrix.mulVec_mulVec, add_sub_cancel_left]
     have e3 : ∀ k, (A * s ^ (k + 1) • phiM (k + 1) (s • A)) *ᵥ b k
        = (s ^ k • phiM k (s • A)) *ᵥ b k - (s ^ k / (Nat.factorial k : ℝ)) • b k := by
      intro k
      have := phiM_recurrence k (s • A)
      have e : A * s ^ (k + 1) • phiM (k + 1) (s • A) = s ^ k • ((s • A) * phiM (k + 1) (s • A)) := by
        rw [mul_smul_comm, smul_mul_assoc, smul_smul, pow_succ]
      rw [e, this, smul_sub, Matrix.sub_mulVec, smul_smul, Matrix.smul_mulVec _ 1, Matrix.one_mulVec, div_eq_mul_inv]
     simp only [e3, Finset.sum_sub_distrib]
     abel
    rw [e4, e2]
    exact h
  have h0 : g 0 = 0 := by
    simp [hg, phiM_at_zero]
  have := linear_ode_zero A g hd h0 dt
  simp only [hg, sub_eq_zero] at this
  rw [this]
  congr 1
  exact Finset.sum_congr rfl fun k _ => by rw [Matrix.smul_mulVec]

end flow

end Ormatex.Spec
