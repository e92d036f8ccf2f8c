import Verif.Props.LejaConvTotal

/-!
The hypotheses of C116 are met: exact coefficients, a given interval, a tolerance `dt^3` and enough terms.
-/

namespace Ormatex.Props
open Ormatex Ormatex.Spec Matrix
open scoped Classical
open scoped Matrix.Norms.Operator

/-- Options with exact divided differences, the interval `[a, 0]`, `N` terms and the given tolerance. -/
noncomputable def exactOpts (tol a : ℝ) (N : ℕ) : LejaOpts :=
  LejaOpts.mk tol (some a) none true 2 10 1.1 N (fun i => 2 * Real.cos i)
    (fun m x sh sc => lejaCoeffsExp (fun _ => NormedSpace.exp) m x sh sc 1)
    (fun m x sh sc => lejaCoeffsExp (fun _ => NormedSpace.exp) m x sh sc 1) (fun _ _ => 1)

theorem exactOpts_accurate (tol a ρ : ℝ) (N : ℕ) (h0 : 0 < tol) (h1 : tol ≤ 1) (hN : 2 ≤ N) :
    LejaAccurate (exactOpts tol a N) |a| 0 ρ where
  tol_pos := h0
  tol_le := h1
  theta_nonneg := le_rfl
  theta_le := by norm_num
  terms := hN
  points i _ := by
    show |2 * Real.cos i| ≤ 2
    rw [abs_mul, abs_of_pos (by norm_num : (0 : ℝ) < 2)]
    have := Real.abs_cos_le_one i
    linarith
  coeffs shift scale _ j _ := by
    show |lejaCoeffsExp (fun _ => NormedSpace.exp) N _ shift scale 1 j - lejaCoeffsExp (fun _ => NormedSpace.exp) N _ shift scale 1 j| ≤ _
    rw [sub_self, abs_zero, zero_mul]
  interval := le_rfl

/-- `epi2_leja_re` has order 2 on `y0' = t, y1' = y1^2` with the tolerance `dt^3` and any number of terms above a bound for it. -/
example : ∃ C δ : ℝ, 0 ≤ C ∧ 0 < δ ∧ ∀ (dt : ℝ) (nsteps : ℕ) (s : ExpLeja 2), 0 < dt → dt ≤ δ → 0 + nsteps * dt ≤ 1 / 2 →
    ExpLeja.new 0 (demoY 0) "epi2_leja_re" = .ok s → ∃ N0, ∀ N ≥ N0,
    ∃ l, integrateOrmatex (lejaStepper (exactOpts (dt ^ 3) (-1) N) (OdeSys.ofFrhs demoF (fun _ _ => matrixLinOp 1))) s (demoY 0) 0 dt nsteps
        (none : Option (Unit → ℝ → Vec 2 → List ℕ × Unit)) (none : Option (Unit → ℝ → Vec 2 → Unit × Unit)) () = .ok l ∧
      RunAccurate l 0 dt nsteps demoY (C * dt ^ 2) := by
  obtain ⟨C, δ, ρ, hC, hδ, h⟩ := C116_complete_re (OdeSys.ofFrhs demoF (fun _ _ => matrixLinOp 1))
    (exactJacs_autodiff demoF (fun _ => rfl) _) demoY 0 (1 / 2) (fun t ht => demo_smooth_at _ t (by linarith [ht.2])) (-1) (by norm_num)
  refine ⟨2 * C, min δ 1, by positivity, by positivity, fun dt N s h1 h2 h3 h4 => ?_⟩
  have hd1 : dt ≤ 1 := h2.trans (min_le_right _ _)
  have hdδ : dt ≤ δ := h2.trans (min_le_left _ _)
  have h13 : dt ^ 3 ≤ 1 := pow_le_one₀ h1.le hd1
  have h30 : 0 < dt ^ 3 := by positivity
  obtain ⟨M, hM⟩ := pow_unbounded_of_one_lt (2000 / dt ^ 3) (one_lt_two)
  refine ⟨M + 2, fun N' hN' => ?_⟩
  have := h (exactOpts (dt ^ 3) (-1) N') 0 dt N s (exactOpts_accurate _ _ _ _ h30 h13 (by omega)) rfl
    (by
      show 2000 < dt ^ 3 * 2 ^ (N' - 2)
      rw [div_lt_iff₀ h30] at hM
      have h5 : (2 : ℝ) ^ M ≤ 2 ^ (N' - 2) := pow_le_pow_right₀ one_le_two (by omega)
      have h6 := mul_le_mul_of_nonneg_right h5 h30.le
      linarith)
    h1 hdδ
    (by
      show dt ^ 3 + 0 ≤ δ * dt
      have h5 : dt ^ 2 ≤ dt := pow_le_of_le_one h1.le hd1 (by norm_num)
      have h6 := mul_le_mul_of_nonneg_right (h5.trans hdδ) h1.le
      calc dt ^ 3 + 0 = dt ^ 2 * dt := by ring
        _ ≤ _ := h6)
    h3 h4 (none : Option (Unit → ℝ → Vec 2 → List ℕ × Unit)) (none : Option (Unit → ℝ → Vec 2 → Unit × Unit)) ()
  have e : C * (dt ^ 2 + ((exactOpts (dt ^ 3) (-1) N').tol + 0) / dt) = 2 * C * dt ^ 2 := by
    show C * (dt ^ 2 + (dt ^ 3 + 0) / dt) = _
    field_simp
    ring
  rw [e] at this
  exact this

end Ormatex.Props
