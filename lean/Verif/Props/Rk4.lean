import Verif.Props.Steps

/-!
C39: the classical Runge-Kutta step on linear systems and on pure quadrature problems.
-/

namespace Ormatex.Props
open Matrix Ormatex.Spec

section
variable {n : ℕ} {P : Type}

/-- **C39, stability polynomial.** One rk4 step on `y' = A y` returns `sum_{i<=4} (dt A)^i/i!` applied to the state. -/
theorem C39_stability (sys : OdeSys n P) (A : Mat n) (hf : ∀ t y, sys.frhs none t y = A *ᵥ y) (s : Base (Vec n))
    (hm : s.method = "rk4") {t : ℝ} {y : Vec n} (hs : At s t y) (dt : ℝ) :
    ∃ r, RK.step sys s dt none = .ok r ∧ r.t = t + dt ∧
      r.y = (∑ i ∈ Finset.range 5, ((Nat.factorial i : ℝ)⁻¹) • (dt • A) ^ i) *ᵥ y := by
  refine ⟨StepResult.mk (t + dt) dt (rk4Kernel (sys.frhs none) t y dt) (-1), ?_, rfl, ?_⟩
  · unfold RK.step stepRk4
    simp only [hm, if_true, hs.yNew, hs.time, bind, Except.bind, pure, Except.pure]
  · show rk4Kernel (sys.frhs none) t y dt = _
    have h2 : (dt • A) ^ 2 = dt ^ 2 • (A * A) := by rw [smul_pow, sq A]
    have h3 : (dt • A) ^ 3 = dt ^ 3 • (A * (A * A)) := by rw [smul_pow, pow_succ' A 2, sq A]
    have h4 : (dt • A) ^ 4 = dt ^ 4 • (A * (A * (A * A))) := by rw [smul_pow, pow_succ' A 3, pow_succ' A 2, sq A]
    simp only [Finset.sum_range_succ, Finset.sum_range_zero, h2, h3, h4, pow_zero, pow_one, zero_add, rk4Kernel, hf,
      Matrix.add_mulVec, Matrix.smul_mulVec, Matrix.mulVec_add, Matrix.mulVec_smul, Matrix.one_mulVec,
      ← Matrix.mulVec_mulVec]
    simp only [Nat.factorial, smul_add, smul_smul]
    funext i
    simp only [Pi.add_apply, Pi.smul_apply, smul_eq_mul]
    push_cast
    ring

/-- **C39, quadrature.** For a right-hand side that depends on time only, cubically, the step is exact: `Y` any
antiderivative. -/
theorem C39_quadrature (sys : OdeSys n P) (a b c d : Vec n)
    (hf : ∀ t y, sys.frhs none t y = a + t • b + t ^ 2 • c + t ^ 3 • d) (Y : ℝ → Vec n)
    (hY : ∀ s, HasDerivAt Y (a + s • b + s ^ 2 • c + s ^ 3 • d) s) (s : Base (Vec n))
    (hm : s.method = "rk4") {t : ℝ} (hs : At s t (Y t)) (dt : ℝ) :
    ∃ r, RK.step sys s dt none = .ok r ∧ r.t = t + dt ∧ r.y = Y (t + dt) := by
  refine ⟨StepResult.mk (t + dt) dt (rk4Kernel (sys.frhs none) t (Y t) dt) (-1), ?_, rfl, ?_⟩
  · unfold RK.step stepRk4
    simp only [hm, if_true, hs.yNew, hs.time, bind, Except.bind, pure, Except.pure]
  · show rk4Kernel (sys.frhs none) t (Y t) dt = _
    have hq : ∀ u : ℝ, HasDerivAt (fun s : ℝ => Y s - (s • a + (s ^ 2 / 2) • b + (s ^ 3 / 3) • c + (s ^ 4 / 4) • d)) 0 u := by
      intro u
      have h1 : HasDerivAt (fun s : ℝ => s • a + (s ^ 2 / 2) • b + (s ^ 3 / 3) • c + (s ^ 4 / 4) • d)
          (a + u • b + u ^ 2 • c + u ^ 3 • d) u := by
        have e1 := (hasDerivAt_id u).smul_const a
        have e2 := (((hasDerivAt_id u).pow 2).div_const 2).smul_const b
        have e3 := (((hasDerivAt_id u).pow 3).div_const 3).smul_const c
        have e4 := (((hasDerivAt_id u).pow 4).div_const 4).smul_const d
        refine (((e1.add e2).add e3).add e4).congr_deriv ?_
        funext i
        simp
      exact ((hY u).sub h1).congr_deriv (sub_self _)
    have hc := is_const_of_deriv_eq_zero (fun u => (hq u).differentiableAt) (fun u => (hq u).deriv) (t + dt) t
    simp only [rk4Kernel, hf]
    funext i
    have hi := congrFun hc i
    simp only [Pi.sub_apply, Pi.add_apply, Pi.smul_apply, smul_eq_mul] at hi ⊢
    linear_combination -hi

/-- The hypotheses are met by a newly built integrator. -/
example : ∃ s : Base (Vec 2), RK.new 1 ![1, 2] "rk4" = .ok s ∧ s.method = "rk4" ∧ At s 1 ![1, 2] :=
  ⟨_, rfl, rfl, ⟨rfl, rfl, rfl⟩⟩

end
end Ormatex.Props
