import Verif.Props.LejaConv
import Verif.Props.LejaEllipse

/-!
C116: a step of the Leja integrator that returns is within `H (tol + θ)` of the exact exponential Rosenbrock (or EPI3) value, with
a constant that depends on bounds of the problem and of the node interval only.
-/

namespace Ormatex.Props
open Ormatex Ormatex.Spec Matrix
open scoped Classical
open scoped Matrix.Norms.Operator

variable {n : ℕ}

/-! ### the power iteration -/

theorem abs_dot_le_norm2 (a b : Vec n) : |a ⬝ᵥ b| ≤ norm2 a * norm2 b := by
  have h1 : ∀ v : Vec n, norm2 v ^ 2 = ∑ i, v i ^ 2 := fun v => by
    unfold norm2
    rw [Real.sq_sqrt (dot_self_nonneg v)]
    simp only [dotProduct, pow_two]
  refine abs_le_of_sq_le_sq ?_ (mul_nonneg (norm2_nonneg a) (norm2_nonneg b))
  rw [mul_pow, h1, h1]
  exact Finset.sum_mul_sq_le_sq_mul_sq _ _ _

/-- a Rayleigh quotient is bounded by the norm -/
theorem rayleigh_le (M : Mat n) (b : Vec n) : |(b ⬝ᵥ (M *ᵥ b)) / (b ⬝ᵥ b)| ≤ Real.sqrt n * ‖M‖ := by
  have hK : 0 ≤ Real.sqrt n * ‖M‖ := by positivity
  rcases (dot_self_nonneg b).eq_or_lt with h | h
  · rw [← h, div_zero, abs_zero]; exact hK
  · rw [abs_div, abs_of_pos h, div_le_iff₀ h]
    have e : b ⬝ᵥ b = norm2 b * norm2 b := (Real.mul_self_sqrt (dot_self_nonneg b)).symm
    calc |b ⬝ᵥ (M *ᵥ b)| ≤ norm2 b * norm2 (M *ᵥ b) := abs_dot_le_norm2 _ _
      _ ≤ norm2 b * (Real.sqrt n * ‖M‖ * norm2 b) := mul_le_mul_of_nonneg_left (norm2_mulVec_le M b) (norm2_nonneg b)
      _ = _ := by rw [e]; ring

/-- with at least one iteration allowed the estimate is a Rayleigh quotient -/
theorem powerIter_bound (A : LinOp n) (M : Mat n) (hA : IsMatrix A M) (b0 : Vec n) (iter : ℕ) (hi : 1 ≤ iter) :
    |(powerIter A b0 iter powerTol).1| ≤ Real.sqrt n * ‖M‖ := by
  have key : ∀ (f : ℕ) (s : PowerState n), |s.eigNew| ≤ Real.sqrt n * ‖M‖ →
      |(powerLoop A iter powerTol f s).eigNew| ≤ Real.sqrt n * ‖M‖ := by
    intro f
    induction f with
    | zero => intro s hs; exact hs
    | succ f ih =>
      intro s hs
      unfold powerLoop
      split_ifs
      · refine ih _ ?_
        show |(s.b ⬝ᵥ A.matvec s.b) / (s.b ⬝ᵥ s.b)| ≤ _
        rw [hA]
        exact rayleigh_le M s.b
      · exact hs
  obtain ⟨k, rfl⟩ : ∃ k, iter = k + 1 := ⟨iter - 1, by omega⟩
  unfold powerIter
  simp only
  rw [powerLoop, if_pos ⟨by show |(1e20 : ℝ) - 1| > powerTol; unfold powerTol; rw [abs_of_pos (by norm_num)]; norm_num, by simp⟩]
  refine key k _ ?_
  show |(b0 ⬝ᵥ A.matvec b0) / (b0 ⬝ᵥ b0)| ≤ _
  rw [hA]
  exact rayleigh_le M b0

theorem shiftScale_bound (A : LinOp n) (M : Mat n) (hA : IsMatrix A M) (iter : ℕ) (hi : 1 ≤ iter) (bk : Option (Vec n)) (bRand : Vec n)
    (sf : ℝ) : let r := lejaShiftScale A iter bk bRand sf
    r.1 = r.2.2.1 / 2 ∧ r.2.1 = |r.2.2.1| / 4 ∧ |r.2.2.1| ≤ |sf| * (Real.sqrt n * ‖M‖) := by
  intro r
  refine ⟨?_, ?_, ?_⟩
  · show ((powerIter A (bk.getD bRand) iter powerTol).1 * sf - 0) / 2 = (powerIter A (bk.getD bRand) iter powerTol).1 * sf / 2
    rw [sub_zero]
  · show |0 - (powerIter A (bk.getD bRand) iter powerTol).1 * sf| / 4 = |(powerIter A (bk.getD bRand) iter powerTol).1 * sf| / 4
    rw [zero_sub, abs_neg]
  · show |(powerIter A (bk.getD bRand) iter powerTol).1 * sf| ≤ _
    rw [abs_mul, mul_comm]
    exact mul_le_mul_of_nonneg_left (powerIter_bound A M hA _ iter hi) (abs_nonneg _)

/-! ### the augmented matrix -/

theorem augSpec_norm (X : Mat n) (b1 b2 : Vec n) : ‖augSpec X b1 b2‖ ≤ 1 + ‖X‖ + ‖b1‖ + ‖b2‖ := by
  have h0 : 0 ≤ 1 + ‖X‖ + ‖b1‖ + ‖b2‖ := by positivity
  rw [← infNorm_eq_norm]
  unfold infNorm
  refine ciSup_le fun i => ?_
  rw [Fin.sum_univ_add]
  refine Fin.addCases (fun i => ?_) (fun i => ?_) i
  · have h1 : ∑ j : Fin n, |augSpec X b1 b2 (Fin.castAdd 2 i) (Fin.castAdd 2 j)| ≤ ‖X‖ := by
      rw [← infNorm_eq_norm]
      refine le_trans (le_of_eq ?_) (le_ciSup (f := fun i => ∑ j, |X i j|) (Set.finite_range _).bddAbove i)
      simp [augSpec]
    have h2 : ∑ j : Fin 2, |augSpec X b1 b2 (Fin.castAdd 2 i) (Fin.natAdd n j)| = |b2 i| + |b1 i| := by
      simp [augSpec]
    have h3 : |b1 i| ≤ ‖b1‖ := norm_le_pi_norm b1 i
    have h4 : |b2 i| ≤ ‖b2‖ := norm_le_pi_norm b2 i
    rw [h2]
    linarith
  · have h1 : ∑ j : Fin n, |augSpec X b1 b2 (Fin.natAdd n i) (Fin.castAdd 2 j)| = 0 := by
      simp [augSpec]
    have h2 : ∑ j : Fin 2, |augSpec X b1 b2 (Fin.natAdd n i) (Fin.natAdd n j)| ≤ 1 := by
      fin_cases i <;> simp [augSpec]
    rw [h1]
    have := norm_nonneg X
    have := norm_nonneg b1
    have := norm_nonneg b2
    linarith

/-! ### one step -/

/-- **Specification.** The options ask for accurate evaluations: a tolerance in `(0, 1]`, at least two terms, sample points in
`[-2, 2]`, coefficients that are the divided differences of the exponential at the nodes up to a relative error `θ ≤ 1/2` (for all
intervals in `[-ρ, ρ]`), and a node interval `[leja_a, 0]` with `|leja_a| ≤ A`, or one estimated by at least one power iteration and
widened by a factor at most `A`. -/
structure LejaAccurate (o : LejaOpts) (A θ ρ : ℝ) : Prop where
  tol_pos : 0 < o.tol
  tol_le : o.tol ≤ 1
  theta_nonneg : 0 ≤ θ
  theta_le : θ ≤ 1 / 2
  terms : 2 ≤ o.nLeja
  points : ∀ i < o.nLeja, |o.lejaX i| ≤ 2
  coeffs : ∀ shift scale : ℝ, |shift| + 2 * |scale| ≤ ρ → ∀ j < o.nLeja,
    |o.ddRe o.nLeja o.lejaX shift scale j - lejaCoeffsExp (fun _ => NormedSpace.exp) o.nLeja o.lejaX shift scale 1 j|
      ≤ θ * lejaCoeffsExp (fun _ => NormedSpace.exp) o.nLeja o.lejaX shift scale 1 j
  interval : match o.lejaA with
    | none => 1 ≤ o.maxPowerIter ∧ |o.maxReEigScale| ≤ A
    | some a => |a| ≤ A

/-- the interval of a step -/
theorem stepShift_bound (o : LejaOpts) {A θ ρ : ℝ} (ho : LejaAccurate o A θ ρ) (bk : Option (Vec (n + 2))) (Z : Mat (n + 2))
    {dt : ℝ} (hdt0 : 0 ≤ dt) (hdt1 : dt ≤ 1) {shift scale : ℝ} (h : StepShift o bk Z dt shift scale) :
    0 ≤ scale ∧ |shift| + 2 * |scale| ≤ A * (1 + Real.sqrt (n + 2 : ℕ) * ‖Z‖) := by
  have hq : 0 ≤ Real.sqrt (n + 2 : ℕ) * ‖Z‖ := by positivity
  have hint := ho.interval
  unfold StepShift at h
  cases ha : o.lejaA with
  | none =>
    rw [ha] at h hint
    obtain ⟨h1, h2⟩ := h
    obtain ⟨h3, h4, h5⟩ := shiftScale_bound (matrixLinOp Z) Z (fun _ => rfl) o.maxPowerIter hint.1 bk (o.bRand (n + 2)) o.maxReEigScale
    rw [h3] at h1
    rw [h4] at h2
    set e := (lejaShiftScale (matrixLinOp Z) o.maxPowerIter bk (o.bRand (n + 2)) o.maxReEigScale).2.2.1
    have h6 := mul_le_mul_of_nonneg_right hint.2 hq
    have hA : 0 ≤ A := (abs_nonneg _).trans hint.2
    refine ⟨by rw [h2]; positivity, ?_⟩
    rw [h1, h2, abs_div, abs_div, abs_abs, abs_of_pos (by norm_num : (0:ℝ) < 2), abs_of_pos (by norm_num : (0:ℝ) < 4)]
    linarith
  | some a =>
    rw [ha] at h hint
    obtain ⟨h1, h2⟩ := h
    have hA : 0 ≤ A := (abs_nonneg _).trans hint
    have h6 : dt * |a| ≤ A := (mul_le_of_le_one_left (abs_nonneg a) hdt1).trans hint
    refine ⟨by rw [h2]; positivity, ?_⟩
    have e1 : |dt * a| = dt * |a| := by rw [abs_mul, abs_of_nonneg hdt0]
    rw [h1, h2, abs_abs, abs_div, abs_div, e1, abs_of_pos (by norm_num : (0:ℝ) < 2), abs_of_pos (by norm_num : (0:ℝ) < 4)]
    have := mul_nonneg hA hq
    linarith

theorem pow_error_linear {K s : ℝ} (hK : 0 ≤ K) (hs : 0 ≤ s) (hs2 : s ≤ 2) (N : ℕ) :
    (1 + K * s) ^ N - 1 ≤ s * ((1 + 2 * K) ^ N - 1) := by
  induction N with
  | zero => simp
  | succ N ih =>
    have h1 : (1 + K * s) ^ N ≤ (1 + 2 * K) ^ N := by
      refine pow_le_pow_left₀ (by positivity) ?_ N
      have := mul_le_mul_of_nonneg_left hs2 hK
      linarith
    have h2 : K * s * (1 + K * s) ^ N ≤ K * s * (1 + 2 * K) ^ N := mul_le_mul_of_nonneg_left h1 (mul_nonneg hK hs)
    have h3 : 0 ≤ K * s * (1 + 2 * K) ^ N := by positivity
    rw [pow_succ, pow_succ]
    linarith

/-- the constant of a step whose augmented matrix and nodes have norm at most `R` -/
noncomputable def stepConst (n : ℕ) (R : ℝ) : ℝ := Real.exp R * ((1 + 2 * evalConst (n + 2) R) ^ 1001 - 1)

theorem stepConst_nonneg (n : ℕ) {R : ℝ} (hR : 0 ≤ R) : 0 ≤ stepConst n R := by
  unfold stepConst
  have := evalConst_pos (n + 2) hR
  generalize 1001 = N
  have h := one_le_pow₀ (n := N) (by linarith : 1 ≤ 1 + 2 * evalConst (n + 2) R)
  exact mul_nonneg (Real.exp_pos _).le (by linarith)

theorem exp_smul_bound (Z : Mat (n + 2)) {R : ℝ} (hZ : ‖Z‖ ≤ R) :
    ∀ d, 0 ≤ d → d ≤ 1 → ‖NormedSpace.exp (d • Z)‖ ≤ Real.exp (d * R) := by
  intro d hd0 _
  refine (exp_norm_le _).trans (Real.exp_le_exp.2 ?_)
  rw [norm_smul, Real.norm_of_nonneg hd0]
  exact mul_le_mul_of_nonneg_left hZ hd0

variable {P : Type} [EmptyCollection P]

/-- **C116, one step of `epi2_leja_re`.**  If the step returns and the Jacobian, the right-hand side and the time derivative are
bounded by `B`, the new state differs from the exponential Rosenbrock value by at most a constant times `tol + θ`: no assumption on
how many terms or substeps were used, and none on the evaluations. -/
theorem C116_step_re (o : LejaOpts) (sys : OdeSys n P) (s : ExpLeja n) {t : ℝ} {y : Vec n} (hb : At s.base t y)
    (hsub : 0 < s.substepSize) (hm : s.base.method = "epi2_leja_re") (dt : ℝ) (hdt0 : 0 ≤ dt) (hdt1 : dt ≤ 1) (kw : Option P)
    (J : Mat n) (hJ : IsMatrix (sys.fjac (some (kw.getD ∅)) t y).toLinOp J) (r : StepResult (Vec n)) (s' : ExpLeja n)
    (h : ExpLeja.step o sys s dt kw = .ok (r, s')) {B : ℝ} (hJB : ‖J‖ ≤ B)
    (hFB : ‖(sys.fjac (some (kw.getD ∅)) t y).frhsCached‖ ≤ B) (hcB : ‖(sys.fjac (some (kw.getD ∅)) t y).fdt‖ ≤ B) {A θ ρ : ℝ}
    (ho : LejaAccurate o A θ ρ) {R : ℝ} (hRρ : R ≤ ρ) (hR1 : 1 + 3 * B ≤ R) (hR2 : A * (1 + Real.sqrt (n + 2 : ℕ) * (1 + 3 * B)) ≤ R) :
    r.t = t + dt ∧
    ‖r.y - rosEuler J y (sys.fjac (some (kw.getD ∅)) t y).frhsCached (sys.fjac (some (kw.getD ∅)) t y).fdt dt 1‖
      ≤ stepConst n R * (o.tol + θ) := by
  have hB : 0 ≤ B := (norm_nonneg _).trans hJB
  have hR : 0 ≤ R := by linarith
  have hA : 0 ≤ A := by
    have := ho.interval
    split at this
    · exact (abs_nonneg _).trans this.2
    · exact (abs_nonneg _).trans this
  obtain ⟨ht, shift, scale, hsh, hmain⟩ := C97_re o sys s hb hsub hm dt kw J hJ r s' h
  refine ⟨ht, ?_⟩
  have hd2 : dt ^ 2 ≤ 1 := pow_le_one₀ hdt0 hdt1
  have hZ : ‖augSpec (dt • J) (dt • (sys.fjac (some (kw.getD ∅)) t y).frhsCached)
      (dt ^ 2 • (sys.fjac (some (kw.getD ∅)) t y).fdt)‖ ≤ 1 + 3 * B := by
    refine (augSpec_norm _ _ _).trans ?_
    rw [norm_smul, norm_smul, norm_smul, Real.norm_of_nonneg hdt0, Real.norm_of_nonneg (sq_nonneg dt)]
    have h1 := mul_le_of_le_one_left (norm_nonneg J) hdt1
    have h2 := mul_le_of_le_one_left (norm_nonneg (sys.fjac (some (kw.getD ∅)) t y).frhsCached) hdt1
    have h3 := mul_le_of_le_one_left (norm_nonneg (sys.fjac (some (kw.getD ∅)) t y).fdt) hd2
    linarith
  set Z := augSpec (dt • J) (dt • (sys.fjac (some (kw.getD ∅)) t y).frhsCached) (dt ^ 2 • (sys.fjac (some (kw.getD ∅)) t y).fdt)
  obtain ⟨hs0, hs1⟩ := stepShift_bound o ho s.bk Z hdt0 hdt1 hsh
  have hs2 : |shift| + 2 * |scale| ≤ R := by
    refine hs1.trans (le_trans ?_ hR2)
    refine mul_le_mul_of_nonneg_left ?_ hA
    have := mul_le_mul_of_nonneg_left hZ (Real.sqrt_nonneg (n + 2 : ℕ))
    linarith
  have hK := evalConst_pos (n + 2) hR
  have hs : 0 ≤ o.tol + θ := add_nonneg ho.tol_pos.le ho.theta_nonneg
  refine (hmain (evalConst (n + 2) R * (o.tol + θ)) R (mul_nonneg hK.le hs) hR (exp_smul_bound Z (hZ.trans hR1)) ?_).trans ?_
  · intro d w hd0 hd1 hconv
    refine converged_error (matrixLinOp Z) Z (fun _ => rfl) d w shift scale hs0 R ?_ o.nLeja ho.terms o.lejaX _ ?_ θ ho.theta_nonneg
      ho.theta_le (ho.coeffs shift scale (hs2.trans hRρ)) o.tol 1e10 ho.tol_pos (ho.tol_le.trans (by norm_num)) hconv
    · rw [norm_smul, Real.norm_of_nonneg hd0.le]
      exact (mul_le_of_le_one_left (norm_nonneg _) hd1).trans (hZ.trans hR1)
    · intro i hi
      refine (abs_add_le _ _).trans (le_trans ?_ hs2)
      rw [abs_mul]
      have := mul_le_mul_of_nonneg_left (ho.points i hi) (abs_nonneg scale)
      linarith
  · unfold stepConst
    have h1 := pow_error_linear hK.le hs (by linarith [ho.tol_le, ho.theta_le]) 1001
    generalize 1001 = N at h1 ⊢
    rw [mul_assoc]
    refine mul_le_mul_of_nonneg_left (h1.trans (le_of_eq (mul_comm _ _))) (Real.exp_pos _).le

end Ormatex.Props
