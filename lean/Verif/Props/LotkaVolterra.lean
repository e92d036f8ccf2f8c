import Verif.Props.OrderBase
import Verif.Model.Progression
import Mathlib.Analysis.Calculus.LineDeriv.Basic

/-!
C63: the hand-written Jacobians of the Lotka-Volterra systems.
-/

namespace Ormatex.Props
open Matrix Ormatex.Spec

noncomputable section
variable {P : Type} [EmptyCollection P]
set_option linter.unusedSectionVars false

/-- **C63, hunting rate.** `f_pred_hunt_dt` is the derivative of `f_pred_hunt`. -/
theorem C63_hunt (t : ℝ) : HasDerivAt predHunt (predHuntDt t) t := by
  have h1 : HasDerivAt (fun t : ℝ => t * (2 / 10)) (2 / 10) t := by
    simpa using (hasDerivAt_id t).mul_const (2 / 10 : ℝ)
  have h := ((h1.sin).add_const 1).const_mul (4 / 10 : ℝ)
  refine h.congr_deriv ?_
  unfold predHuntDt
  ring

/-- derivative of a function of `(t, x)` from its derivative along lines, component by component -/
theorem fderiv_of_lines (f : ℝ → Vec 2 → Vec 2) (t : ℝ) (x : Vec 2)
    (hd : ∀ i, DifferentiableAt ℝ (fun p : ℝ × Vec 2 => f p.1 p.2 i) (t, x)) (τ : ℝ) (v r : Vec 2)
    (h : ∀ i, HasDerivAt (fun s : ℝ => f (t + s * τ) (fun j => x j + s * v j) i) (r i) 0) :
    fderiv ℝ (fun p : ℝ × Vec 2 => f p.1 p.2) (t, x) (τ, v) = r := by
  have hl := (differentiableAt_pi.2 hd).hasFDerivAt.hasLineDerivAt (τ, v)
  funext i
  have := hasDerivAt_pi.1 hl i
  exact this.unique (h i)

/-- **C63, autonomous system.** The Jacobian, its dense form, the time derivative and the cached value handed out by
`LotkaVolterra` are those of its right-hand side, for all parameters, states and times. -/
theorem C63_autonomous (al be de ga eps t : ℝ) (x : Vec 2) (kw : Option P) :
    ExactJac ((lotkaVolterra (P := P) al be de ga eps).fjac kw t x) ((lotkaVolterra (P := P) al be de ga eps).frhs kw) t x
      (lvJac al be de ga x) := by
  refine ⟨?_, fun _ => rfl, rfl, rfl⟩
  intro τ v
  refine fderiv_of_lines (fun _ x => lvRhs al be de ga x) t x ?_ τ v _ ?_
  · intro i
    fin_cases i <;> simp [lvRhs] <;> fun_prop
  · have hc : ∀ j, HasDerivAt (fun s : ℝ => x j + s * v j) (v j) 0 := fun j => by
      simpa using ((hasDerivAt_id (0 : ℝ)).mul_const (v j)).const_add (x j)
    intro i
    fin_cases i
    · refine (((hc 0).const_mul al).sub (((hc 0).const_mul be).mul (hc 1))).congr_deriv ?_
      simp [lotkaVolterra, customJac, lvJac, dotProduct, Fin.sum_univ_two]
      ring
    · refine ((((hc 0).const_mul de).mul (hc 1)).sub ((hc 1).const_mul ga)).congr_deriv ?_
      simp [lotkaVolterra, customJac, lvJac, dotProduct, Fin.sum_univ_two]
      ring

/-- **C63, nonautonomous system.** The same with the time-dependent hunting rate: the supplied time derivative is the partial
derivative of the right-hand side in `t`. -/
theorem C63_nonautonomous (al be de ga eps t : ℝ) (x : Vec 2) (kw : Option P) :
    ExactJac ((lotkaVolterraNonauto (P := P) al be de ga eps).fjac kw t x) ((lotkaVolterraNonauto (P := P) al be de ga eps).frhs kw)
      t x (lvnJac al be de ga t x) := by
  refine ⟨?_, fun _ => rfl, rfl, rfl⟩
  intro τ v
  refine fderiv_of_lines (fun t x => lvnRhs al be de ga t x) t x ?_ τ v _ ?_
  · intro i
    fin_cases i <;> simp [lvnRhs, predHunt] <;> fun_prop
  · have hc : ∀ j, HasDerivAt (fun s : ℝ => x j + s * v j) (v j) 0 := fun j => by
      simpa using ((hasDerivAt_id (0 : ℝ)).mul_const (v j)).const_add (x j)
    have ht : HasDerivAt (fun s : ℝ => t + s * τ) τ 0 := by
      simpa using ((hasDerivAt_id (0 : ℝ)).mul_const τ).const_add t
    have hh : HasDerivAt (fun s : ℝ => predHunt (t + s * τ)) (predHuntDt t * τ) 0 := by
      have h1 : HasDerivAt predHunt (predHuntDt t) (t + 0 * τ) := by
        rw [zero_mul, add_zero]; exact C63_hunt t
      exact HasDerivAt.comp (h₂ := predHunt) (0 : ℝ) h1 ht
    intro i
    fin_cases i
    · refine (((hc 0).const_mul al).sub (((hc 0).const_mul be).mul (hc 1))).congr_deriv ?_
      simp [lotkaVolterraNonauto, customJac, lvnJac, dotProduct, Fin.sum_univ_two]
      ring
    · refine (((((hc 0).const_mul de).mul (hc 1)).sub ((hc 1).const_mul ga)).sub (hh.mul (hc 1))).congr_deriv ?_
      simp [lotkaVolterraNonauto, customJac, lvnJac, dotProduct, Fin.sum_univ_two]
      ring

/-- The time derivative is not negligible: at `t = 0`, with predators present, it is `-0.08 x_1`, so dropping it would change the
operator handed to the integrators. -/
example : ((lotkaVolterraNonauto (P := List ℕ) 1 1 1 1 1).fjac none 0 ![1, 2]).fdt 1 = -(16 / 100) := by
  simp [lotkaVolterraNonauto, customJac, predHuntDt]
  norm_num

end
end Ormatex.Props
