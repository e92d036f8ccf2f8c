import Verif.Props.RsImplicit
import Verif.Props.RobustRun
import Verif.Props.KrylovCode

/-!
C121: Newton's method of the Rust crate on nonlinear residuals, in spite of its one-sided stopping test, with inexact Jacobians and
inexact linear solves.
-/

namespace Ormatex.Props
open Filter Asymptotics Topology Matrix Ormatex.Spec Ormatex.Rs
open scoped Classical NNReal
open scoped Matrix.Norms.Operator

section
variable {n : ℕ}

/-- **Specification.** The linear solver meets the relative residual `η` on every nonsingular system given by a matrix, whatever guess,
iteration limit and tolerance it is handed. -/
def GmresTo (η : ℝ) (gmres : Gmres n) : Prop :=
  ∀ (op : LinOp n) (M : Mat n), IsMatrix op M → IsUnit M.det → ∀ b g it tol,
    ∃ a, gmres op b g it tol = .ok a ∧ ‖M *ᵥ a - b‖ ≤ η * ‖b‖

theorem gmresTo_exact {gmres : Gmres n} (h : ExactGmres gmres) {η : ℝ} (hη : 0 ≤ η) : GmresTo η gmres := by
  intro op M hM hu b g it tol
  refine ⟨_, h op M hM hu b g it tol, ?_⟩
  rw [mulVec_mulVec, mul_nonsing_inv _ hu, one_mulVec, sub_self, norm_zero]
  positivity

/-- a linear solver that is not exact: it solves a system with a right-hand side that is off by a factor -/
theorem gmresTo_scaled (η : ℝ) (hη : 0 ≤ η) :
    GmresTo η (fun op b _ _ _ => .ok ((opMatrix op)⁻¹ *ᵥ ((1 + η) • b)) : Gmres n) := by
  intro op M hM hu b g it tol
  refine ⟨_, rfl, ?_⟩
  rw [opMatrix_eq hM, mulVec_mulVec, mul_nonsing_inv _ hu, one_mulVec, add_smul, one_smul, add_sub_cancel_left, norm_smul,
    Real.norm_of_nonneg hη]

/-- lower bound for a small perturbation of the identity -/
theorem one_sub_lower {J : Mat n} (hJ : ‖J‖ ≤ 1 / 2) (v : Vec n) : ‖v‖ ≤ 2 * ‖(1 - J) *ᵥ v‖ := by
  have h1 := Matrix.linfty_opNorm_mulVec J v
  have h2 : v = (1 - J) *ᵥ v + J *ᵥ v := by rw [sub_mulVec, one_mulVec]; abel
  have h3 := norm_add_le ((1 - J) *ᵥ v) (J *ᵥ v)
  rw [← h2] at h3
  have h4 : ‖J‖ * ‖v‖ ≤ 1 / 2 * ‖v‖ := mul_le_mul_of_nonneg_right hJ (norm_nonneg _)
  linarith

theorem one_sub_unit {J : Mat n} (hJ : ‖J‖ ≤ 1 / 2) : IsUnit (1 - J).det := by
  rw [isUnit_iff_ne_zero]
  intro h0
  obtain ⟨v, hv, hv0⟩ := Matrix.exists_mulVec_eq_zero_iff.2 h0
  have := one_sub_lower hJ v
  rw [hv0, norm_zero, mul_zero] at this
  exact hv (norm_le_zero_iff.1 this)

theorem norm2_le_norm (v : Vec n) : norm2 v ≤ Real.sqrt n * ‖v‖ :=
  norm2_le_of_entries v ‖v‖ (norm_nonneg _) (fun i => by simpa using norm_le_pi_norm v i)

/-- **C121, Newton's method.**  Let the residual function be `G`, let the operators handed to the linear solver act as `1 - J z` with
`‖J z‖ ≤ 1/2`, and let `G` differ from its linearisation with `1 - J z` by at most `q ‖z - z'‖`, all within `8 ‖G x‖` of the starting
value `x`.  If the linear solver meets the relative residual `η` and `η + 4 q ≤ 1/2`, and the iteration limit is not too small, the
iteration returns a value with residual at most `(η + 4 q) ‖G x‖`, at a distance of at most `8 ‖G x‖` from `x`: the stopping test of
the code may end the iteration early (`C72_false`), but not before the first correction. -/
theorem C121_newton (gmres : Gmres n) {η q : ℝ} (hη : 0 ≤ η) (hq : 0 ≤ q) (hθ : η + 4 * q ≤ 1 / 2) (hg : GmresTo η gmres) (t : ℝ)
    (frhs : ℝ → Vec n → Vec n) (jac : ℝ → Vec n → LinOp n) (J : Vec n → Mat n) (tol tolLin : ℝ) (itersLin : ℕ) (it : ℕ) :
    ∀ (x a : Vec n),
    (∀ z, ‖z - x‖ ≤ 8 * ‖frhs t x‖ → ‖J z‖ ≤ 1 / 2 ∧ IsMatrix (jac t z) (1 - J z)) →
    (∀ z z', ‖z - x‖ ≤ 8 * ‖frhs t x‖ → ‖z' - x‖ ≤ 8 * ‖frhs t x‖ →
      ‖frhs t z - frhs t z' - (1 - J z) *ᵥ (z - z')‖ ≤ q * ‖z - z'‖) →
    Real.sqrt n * (4 * ‖frhs t x‖) < tol * 2 ^ it →
    ∃ z, newtonLoop gmres t frhs jac tol tolLin itersLin (it + 1) x a = .ok z ∧
      ‖frhs t z‖ ≤ (η + 4 * q) * ‖frhs t x‖ ∧ ‖z - x‖ ≤ 8 * ‖frhs t x‖ := by
  induction it with
  | zero =>
    intro x a h1 h2 h3
    have hx : ‖x - x‖ ≤ 8 * ‖frhs t x‖ := by rw [sub_self, norm_zero]; positivity
    obtain ⟨hJ, hm⟩ := h1 x hx
    obtain ⟨d, hd, hr⟩ := hg _ _ hm (one_sub_unit hJ) (frhs t x) a itersLin tolLin
    have e1 : ‖d‖ ≤ 4 * ‖frhs t x‖ := by
      have := one_sub_lower hJ d
      have e := norm_sub_norm_le ((1 - J x) *ᵥ d) (frhs t x)
      have : η * ‖frhs t x‖ ≤ 1 / 2 * ‖frhs t x‖ := mul_le_mul_of_nonneg_right (by linarith) (norm_nonneg _)
      linarith [norm_nonneg (frhs t x)]
    have e2 : ‖x - d - x‖ ≤ 8 * ‖frhs t x‖ := by
      rw [sub_sub_cancel_left, norm_neg]; linarith [norm_nonneg (frhs t x)]
    have e3 : ‖frhs t (x - d)‖ ≤ (η + 4 * q) * ‖frhs t x‖ := by
      have h4 := h2 x (x - d) hx e2
      rw [sub_sub_cancel] at h4
      have e : frhs t (x - d) = -(frhs t x - frhs t (x - d) - (1 - J x) *ᵥ d) - ((1 - J x) *ᵥ d - frhs t x) := by abel
      rw [e]
      refine (norm_sub_le _ _).trans ?_
      rw [norm_neg]
      have := mul_le_mul_of_nonneg_left e1 hq
      linarith
    refine ⟨x - d, ?_, e3, e2⟩
    rw [newtonLoop]
    simp only [hd, Bind.bind, Except.bind]
    rw [if_pos]
    · rfl
    · have n1 := norm2_add_le (x - d) d
      rw [sub_add_cancel] at n1
      have n2 := norm2_le_norm d
      have n3 := mul_le_mul_of_nonneg_left e1 (Real.sqrt_nonneg n)
      rw [pow_zero, mul_one] at h3
      linarith
  | succ it ih =>
    intro x a h1 h2 h3
    have hx : ‖x - x‖ ≤ 8 * ‖frhs t x‖ := by rw [sub_self, norm_zero]; positivity
    obtain ⟨hJ, hm⟩ := h1 x hx
    obtain ⟨d, hd, hr⟩ := hg _ _ hm (one_sub_unit hJ) (frhs t x) a itersLin tolLin
    have e1 : ‖d‖ ≤ 4 * ‖frhs t x‖ := by
      have := one_sub_lower hJ d
      have e := norm_sub_norm_le ((1 - J x) *ᵥ d) (frhs t x)
      have : η * ‖frhs t x‖ ≤ 1 / 2 * ‖frhs t x‖ := mul_le_mul_of_nonneg_right (by linarith) (norm_nonneg _)
      linarith [norm_nonneg (frhs t x)]
    have e2' : ‖x - d - x‖ ≤ 4 * ‖frhs t x‖ := by
      rw [sub_sub_cancel_left, norm_neg]; exact e1
    have e2 : ‖x - d - x‖ ≤ 8 * ‖frhs t x‖ := by linarith [norm_nonneg (frhs t x)]
    have e3 : ‖frhs t (x - d)‖ ≤ (η + 4 * q) * ‖frhs t x‖ := by
      have h4 := h2 x (x - d) hx e2
      rw [sub_sub_cancel] at h4
      have e : frhs t (x - d) = -(frhs t x - frhs t (x - d) - (1 - J x) *ᵥ d) - ((1 - J x) *ᵥ d - frhs t x) := by abel
      rw [e]
      refine (norm_sub_le _ _).trans ?_
      rw [norm_neg]
      have := mul_le_mul_of_nonneg_left e1 hq
      linarith
    have e4 : ‖frhs t (x - d)‖ ≤ 1 / 2 * ‖frhs t x‖ := e3.trans (mul_le_mul_of_nonneg_right hθ (norm_nonneg _))
    rw [newtonLoop]
    simp only [hd, Bind.bind, Except.bind]
    by_cases hc : norm2 x - norm2 (x - d) < tol
    · exact ⟨x - d, by rw [if_pos hc]; rfl, e3, e2⟩
    · rw [if_neg hc]
      have hsub : ∀ z, ‖z - (x - d)‖ ≤ 8 * ‖frhs t (x - d)‖ → ‖z - x‖ ≤ 8 * ‖frhs t x‖ := by
        intro z hz
        have := norm_add_le (z - (x - d)) (x - d - x)
        rw [sub_add_sub_cancel] at this
        linarith
      obtain ⟨z, g1, g2, g3⟩ := ih (x - d) d (fun z hz => h1 z (hsub z hz)) (fun z z' hz hz' => h2 z z' (hsub z hz) (hsub z' hz'))
        (by
          have n3 := mul_le_mul_of_nonneg_left e4 (Real.sqrt_nonneg n)
          rw [pow_succ] at h3
          linarith)
      refine ⟨z, g1, g2.trans ?_, hsub z g3⟩
      exact mul_le_mul_of_nonneg_left (by linarith [norm_nonneg (frhs t x)]) (by positivity)

end
end Ormatex.Props
