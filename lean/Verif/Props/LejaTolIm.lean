import Verif.Props.LejaTol
import Mathlib.Analysis.SpecialFunctions.Trigonometric.Bounds
import Mathlib.Analysis.Real.Pi.Bounds

/-!
C98 for `complex_conj_leja_expmv`: the flag may be set because the *first half* of a conjugate pair contributes nothing.
-/

namespace Ormatex.Props
open Ormatex Ormatex.Spec Matrix
open scoped Classical

/-- the nodes `iπ, -iπ, π` (and anything after them) -/
def PairNodes (x : ℕ → ℂ) : Prop :=
  x 0 = Real.pi * Complex.I ∧ x 1 = -(Real.pi * Complex.I) ∧ x 2 = Real.pi

/-- the Newton interpolation conditions of the exponential at the first three nodes -/
def InterpolatesExp (x c : ℕ → ℂ) : Prop :=
  c 0 = Complex.exp (x 0) ∧ c 0 + c 1 * (x 1 - x 0) = Complex.exp (x 1) ∧
    c 0 + c 1 * (x 2 - x 0) + c 2 * ((x 2 - x 0) * (x 2 - x 1)) = Complex.exp (x 2)

/-- **C98, refuted for conjugate pairs, even for a 1 by 1 operator inside the node box.**  Whatever the tolerance, with any number of
nodes starting at `iπ, -iπ, π` and any coefficients that interpolate the exponential there, `complex_conj_leja_expmv` applied to the zero
operator and `u = 1` reports convergence after the first pair with an error of more than 5 (`exp(0) 1 = 1`).  The estimate is a product
(geometric mean) of the norms of the terms, and the first term of a pair vanishes when the operator maps `u` to the real part of the
pair.  C98_symmetric_partial excludes this for real nodes. -/
theorem C98_complex_false (tol : ℝ) (ht : 0 < tol) (nL : ℕ) (hn : 3 ≤ nL) (x c : ℕ → ℂ) (hx : PairNodes x) (hc : InterpolatesExp x c) :
    let r := complexConjLejaExpmv (matrixLinOp (0 : Mat 1)) 1 (fun _ => 1) 0 1 nL x 0 c tol 1e10
    r.conv ∧ r.i = 3 ∧ 5 < norm2 (r.pm - NormedSpace.exp (0 : Mat 1) *ᵥ fun _ => 1) := by
  obtain ⟨x0, x1, x2⟩ := hx
  obtain ⟨e0, e1, e2⟩ := hc
  have hpi := Real.pi_pos
  have hpiC : (Real.pi : ℂ) ≠ 0 := by exact_mod_cast hpi.ne'
  have c0 : c 0 = -1 := by rw [e0, x0, Complex.exp_pi_mul_I]
  have c1 : c 1 = 0 := by
    rw [c0, x1, x0, Complex.exp_neg, Complex.exp_pi_mul_I] at e1
    have h : c 1 * (-(Real.pi * Complex.I) - Real.pi * Complex.I) = 0 := by
      have : (-1 : ℂ)⁻¹ = -1 := by norm_num
      rw [this] at e1
      linear_combination e1
    rcases mul_eq_zero.1 h with h | h
    · exact h
    · exfalso
      have h2 : (Real.pi : ℂ) * Complex.I = 0 := by linear_combination (-1 / 2 : ℂ) * h
      rcases mul_eq_zero.1 h2 with h3 | h3
      · exact hpiC h3
      · exact Complex.I_ne_zero h3
  have c2 : c 2 = ((Real.exp Real.pi + 1) / (2 * Real.pi ^ 2) : ℝ) := by
    rw [c0, c1, x2, x1, x0] at e2
    have h : c 2 * (2 * (Real.pi : ℂ) ^ 2) = Complex.exp Real.pi + 1 := by
      have hI := Complex.I_sq
      linear_combination e2 + c 2 * (Real.pi : ℂ) ^ 2 * hI
    push_cast
    rw [eq_div_iff (by exact mul_ne_zero two_ne_zero (pow_ne_zero 2 hpiC)), h]
  obtain ⟨k, rfl⟩ : ∃ k, nL = k + 1 + 1 + 1 := ⟨nL - 3, by omega⟩
  have hnu : norm2 (fun _ : Fin 1 => (1 : ℝ)) = 1 := by unfold norm2; simp [dotProduct]
  have hE : 14 < Real.exp Real.pi := by
    have h1 : (3 : ℝ) < Real.pi := Real.pi_gt_three
    have h2 : Real.exp 3 < Real.exp Real.pi := Real.exp_lt_exp.2 h1
    have h3 : Real.exp 3 = Real.exp 1 ^ 3 := by rw [← Real.exp_nat_mul]; norm_num
    have h4 : (2.7182818283 : ℝ) ^ 3 ≤ Real.exp 1 ^ 3 := pow_le_pow_left₀ (by norm_num) Real.exp_one_gt_d9.le 3
    have h5 : (14 : ℝ) < 2.7182818283 ^ 3 := by norm_num
    linarith
  intro r
  -- the state after the first pair
  set s0 : LejaState 1 := LejaState.mk 1 (fun _ => 1) ((c 0).re • fun _ => 1) (2 * norm2 (fun _ : Fin 1 => (1 : ℝ))) (norm2 (fun _ : Fin 1 => (1 : ℝ)) = 0) with hs0
  set body := complexPairBody (matrixLinOp (0 : Mat 1)) 1 (norm2 (fun _ : Fin 1 => (1 : ℝ))) 1 tol (fun i => ((0 : ℝ) : ℂ) + ((1 : ℝ) : ℂ) * x i) c with hbody
  have hr : r = lejaLoop (lejaCond (k + 1 + 1 + 1) 1e10 (norm2 (fun _ : Fin 1 => (1 : ℝ)))) body (k + 1 + 1 + 1) s0 := by
    show complexConjLejaExpmv _ _ _ _ _ _ _ _ _ _ _ = _
    unfold complexConjLejaExpmv
    rw [if_neg (by omega)]
    rfl
  have hcond0 : lejaCond (k + 1 + 1 + 1) 1e10 (norm2 (fun _ : Fin 1 => (1 : ℝ))) s0 := by
    refine ⟨by show 1 + 1 < k + 1 + 1 + 1; omega, ?_, ?_⟩
    · show 2 * norm2 (fun _ : Fin 1 => (1 : ℝ)) ≤ _
      rw [hnu]; norm_num
    · show ¬ norm2 (fun _ : Fin 1 => (1 : ℝ)) = 0
      rw [hnu]; norm_num
  have hx0 : ((0 : ℝ) : ℂ) + ((1 : ℝ) : ℂ) * x 0 = Real.pi * Complex.I := by rw [x0]; simp
  have hb : body s0 = LejaState.mk 3 (fun _ => Real.pi ^ 2) (fun _ => -1 + (c 2).re * Real.pi ^ 2) 0 ((1 : ℝ) ≠ 0 ∧ (0 : ℝ) < tol * norm2 (fun _ : Fin 1 => (1 : ℝ))) := by
    rw [hbody]
    unfold complexPairBody
    simp only [hs0, Nat.sub_self, hx0, c0]
    have hq : (fun j : Fin 1 => ((1 : ℝ) * (matrixLinOp (0 : Mat 1)).matvec (fun _ => 1) j - (↑Real.pi * Complex.I : ℂ).re * 1) / 1) = 0 := by
      funext j
      simp [matrixLinOp]
    rw [hq]
    have hn0 : norm2 (0 : Vec 1) = 0 := norm2_zero
    have hd : ∀ a b : ℝ, decayFun a (decayFun (|(c 1).re| * 0) b (1 / 2)) (1 / 2) = 0 := by
      intro a b
      unfold decayFun
      rw [mul_zero, Real.zero_rpow (by norm_num), zero_mul, Real.zero_rpow (by norm_num), mul_zero]
    rw [hn0, hd]
    congr 1
    · funext j
      simp [matrixLinOp]
    · funext j
      simp [matrixLinOp]
  have hfin : r = body s0 := by
    rw [hr, lejaLoop, if_pos hcond0, lejaLoop, if_neg]
    intro h
    refine h.2.2 ?_
    rw [hb]
    refine ⟨one_ne_zero, ?_⟩
    rw [hnu]
    linarith
  rw [hfin, hb]
  refine ⟨⟨one_ne_zero, by rw [hnu]; linarith⟩, rfl, ?_⟩
  have e : ((fun _ => -1 + (c 2).re * Real.pi ^ 2 : Vec 1) - NormedSpace.exp (0 : Mat 1) *ᵥ fun _ => 1) = fun _ => (Real.exp Real.pi + 1) / 2 - 2 := by
    rw [NormedSpace.exp_zero, Matrix.one_mulVec]
    funext j
    show -1 + (c 2).re * Real.pi ^ 2 - 1 = _
    rw [c2, Complex.ofReal_re]
    field_simp
    ring
  show 5 < norm2 ((fun _ => -1 + (c 2).re * Real.pi ^ 2 : Vec 1) - NormedSpace.exp (0 : Mat 1) *ᵥ fun _ => 1)
  rw [e]
  unfold norm2
  simp only [dotProduct, Finset.univ_unique, Finset.sum_singleton]
  rw [Real.sqrt_mul_self (by linarith)]
  linarith

/-- the nodes and coefficients of C98_complex_false exist -/
example : ∃ x c : ℕ → ℂ, PairNodes x ∧ InterpolatesExp x c := by
  refine ⟨fun i => if i = 0 then Real.pi * Complex.I else if i = 1 then -(Real.pi * Complex.I) else Real.pi,
    fun i => if i = 0 then -1 else if i = 1 then 0 else (Complex.exp Real.pi + 1) / (2 * (Real.pi : ℂ) ^ 2), ⟨rfl, rfl, rfl⟩, ?_, ?_, ?_⟩
  · show (-1 : ℂ) = Complex.exp (Real.pi * Complex.I)
    rw [Complex.exp_pi_mul_I]
  · show (-1 : ℂ) + 0 * _ = Complex.exp (-(Real.pi * Complex.I))
    rw [Complex.exp_neg, Complex.exp_pi_mul_I]; norm_num
  · show (-1 : ℂ) + 0 * _ + (Complex.exp Real.pi + 1) / (2 * (Real.pi : ℂ) ^ 2)
      * ((Real.pi - Real.pi * Complex.I) * (Real.pi - -(Real.pi * Complex.I))) = Complex.exp Real.pi
    have hpiC : (Real.pi : ℂ) ≠ 0 := by exact_mod_cast Real.pi_pos.ne'
    have e : ((Real.pi : ℂ) - Real.pi * Complex.I) * (Real.pi - -(Real.pi * Complex.I)) = 2 * (Real.pi : ℂ) ^ 2 := by
      linear_combination (-(Real.pi : ℂ) ^ 2) * Complex.I_sq
    rw [e, div_mul_cancel₀ _ (mul_ne_zero two_ne_zero (pow_ne_zero 2 hpiC))]
    ring

end Ormatex.Props
