/-
C128: what the interval of `leja_shift_scale` guarantees about the spectrum.  `power_iter` stops when two successive estimates differ by at
most 0.05 (an absolute tolerance), so the interval may miss the spectrum altogether; what the reported number of iterations does
guarantee is stated below for symmetric negative semidefinite operators.
-/
import Verif.Props.LejaReorder
import Verif.Props.CramRun
import Verif.Props.LejaConvStep

namespace Ormatex.Props
open Matrix

variable {n : ℕ}

/-- the interval on which the Leja points of the call lie: the image of the reference interval `[-2, 2]` -/
def lejaInterval (r : ℝ × ℝ × ℝ × Vec n × ℕ) : Set ℝ := (fun x => r.1 + r.2.1 * x) '' Set.Icc (-2) 2

/-- `-rho` is the most negative eigenvalue of a symmetric negative semidefinite matrix, attained at the unit vector `v` -/
structure Extremal (M : Mat n) (rho : ℝ) (v : Vec n) : Prop where
  symm : Mᵀ = M
  nonpos : ∀ u : Vec n, u ⬝ᵥ (M *ᵥ u) ≤ 0
  lower : ∀ u : Vec n, -rho * (u ⬝ᵥ u) ≤ u ⬝ᵥ (M *ᵥ u)
  unit : v ⬝ᵥ v = 1
  eig : M *ᵥ v = -rho • v

theorem Extremal.rho_nonneg {M : Mat n} {rho : ℝ} {v : Vec n} (h : Extremal M rho v) : 0 ≤ rho := by
  have := h.nonpos v
  rw [h.eig, dotProduct_smul, h.unit, smul_eq_mul, mul_one] at this
  linarith

theorem pow_mulVec_dot {M : Mat n} (hM : Mᵀ = M) (j : ℕ) (u b : Vec n) : u ⬝ᵥ ((M ^ j) *ᵥ b) = ((M ^ j) *ᵥ u) ⬝ᵥ b := by
  rw [Matrix.dotProduct_mulVec, ← Matrix.mulVec_transpose, Matrix.transpose_pow, hM]

theorem eig_pow {M : Mat n} {v : Vec n} {lam : ℝ} (h : M *ᵥ v = lam • v) (j : ℕ) : (M ^ j) *ᵥ v = lam ^ j • v := by
  induction j with
  | zero => simp
  | succ j ih => rw [pow_succ', ← Matrix.mulVec_mulVec, ih, Matrix.mulVec_smul, h, smul_smul, pow_succ]

/-- the iterate keeps the component along the extremal eigenvector -/
theorem iterate_lower {M : Mat n} {rho : ℝ} {v : Vec n} (h : Extremal M rho v) (b0 : Vec n) (j : ℕ) :
    rho ^ (2 * j) * (v ⬝ᵥ b0) ^ 2 ≤ (M ^ j *ᵥ b0) ⬝ᵥ (M ^ j *ᵥ b0) := by
  have h1 := abs_dot_le_norm2 v (M ^ j *ᵥ b0)
  have hv : norm2 v = 1 := by unfold norm2; rw [h.unit, Real.sqrt_one]
  rw [hv, one_mul, pow_mulVec_dot h.symm, eig_pow h.eig, smul_dotProduct, smul_eq_mul] at h1
  have h2 : ((-rho) ^ j * (v ⬝ᵥ b0)) ^ 2 ≤ norm2 (M ^ j *ᵥ b0) ^ 2 := by
    rw [← sq_abs ((-rho) ^ j * (v ⬝ᵥ b0))]
    exact pow_le_pow_left₀ (abs_nonneg _) h1 2
  rw [sq (norm2 _), norm2_sq, mul_pow, ← pow_mul, mul_comm j 2, Even.neg_pow (even_two_mul j)] at h2
  exact h2

/-- the iterates in the coordinates of the eigenvectors -/
theorem iterate_diag (U : Mat n) (d : Fin n → ℝ) (hU : Uᵀ * U = 1) (b0 : Vec n) (j : ℕ) :
    (U * diagonal d * Uᵀ) ^ j *ᵥ b0 = U *ᵥ fun i => d i ^ j * (Uᵀ *ᵥ b0) i := by
  have hU' : U * Uᵀ = 1 := mul_eq_one_comm.mp hU
  induction j with
  | zero =>
    simp only [pow_zero, Matrix.one_mulVec, one_mul]
    rw [show (fun i => (Uᵀ *ᵥ b0) i) = Uᵀ *ᵥ b0 from rfl, Matrix.mulVec_mulVec, hU', Matrix.one_mulVec]
  | succ j ih =>
    rw [pow_succ', ← Matrix.mulVec_mulVec, ih, Matrix.mulVec_mulVec, Matrix.mul_assoc, hU, Matrix.mul_one, ← Matrix.mulVec_mulVec]
    congr 1
    funext i
    rw [Matrix.mulVec_diagonal]
    ring

theorem isometry_dot (U : Mat n) (hU : Uᵀ * U = 1) (x y : Vec n) : (U *ᵥ x) ⬝ᵥ (U *ᵥ y) = x ⬝ᵥ y := by
  rw [Matrix.dotProduct_mulVec, Matrix.vecMul_mulVec, hU, Matrix.vecMul_one]

/-- the two quadratic forms of the Rayleigh quotient in eigenvector coordinates -/
theorem rayleigh_sums {M : Mat n} {rho : ℝ} {v : Vec n} (h : Extremal M rho v) (b0 : Vec n) :
    ∃ (e c : Fin n → ℝ), (∀ i, 0 ≤ e i) ∧ b0 ⬝ᵥ b0 = ∑ i, c i ^ 2 ∧ ∀ j,
      (M ^ j *ᵥ b0) ⬝ᵥ (M ^ j *ᵥ b0) = ∑ i, e i ^ (2 * j) * c i ^ 2 ∧
      (M ^ j *ᵥ b0) ⬝ᵥ (M *ᵥ (M ^ j *ᵥ b0)) = -∑ i, e i ^ (2 * j + 1) * c i ^ 2 := by
  obtain ⟨U, d, hU, hS, hd⟩ := symm_nonpos M h.symm h.nonpos
  have key : ∀ j, (M ^ j *ᵥ b0) ⬝ᵥ (M ^ j *ᵥ b0) = ∑ i, (-d i) ^ (2 * j) * (Uᵀ *ᵥ b0) i ^ 2 ∧
      (M ^ j *ᵥ b0) ⬝ᵥ (M *ᵥ (M ^ j *ᵥ b0)) = -∑ i, (-d i) ^ (2 * j + 1) * (Uᵀ *ᵥ b0) i ^ 2 := by
    intro j
    constructor
    · rw [hS, iterate_diag U d hU, isometry_dot U hU]
      refine Finset.sum_congr rfl fun i _ => ?_
      rw [Even.neg_pow (even_two_mul j)]
      ring
    · rw [Matrix.mulVec_mulVec, ← pow_succ', hS, iterate_diag U d hU, iterate_diag U d hU, isometry_dot U hU, ← Finset.sum_neg_distrib]
      refine Finset.sum_congr rfl fun i _ => ?_
      rw [Odd.neg_pow (odd_two_mul_add_one j)]
      ring
  refine ⟨fun i => -d i, Uᵀ *ᵥ b0, fun i => by have := hd i; simp only; linarith, ?_, key⟩
  have := (key 0).1
  simpa using this

theorem power_pointwise {e a : ℝ} (he : 0 ≤ e) (ha : 0 ≤ a) (j : ℕ) : a * e ^ (2 * j) - a ^ (2 * j + 1) ≤ e ^ (2 * j + 1) := by
  rcases le_total a e with h | h
  · have h1 : 0 ≤ e ^ (2 * j) := pow_nonneg he _
    have h2 : 0 ≤ a ^ (2 * j + 1) := pow_nonneg ha _
    have : a * e ^ (2 * j) ≤ e * e ^ (2 * j) := mul_le_mul_of_nonneg_right h h1
    rw [pow_succ' e]
    linarith
  · have h1 : e ^ (2 * j) ≤ a ^ (2 * j) := pow_le_pow_left₀ he h _
    have h2 : 0 ≤ e ^ (2 * j + 1) := pow_nonneg he _
    have : a * e ^ (2 * j) ≤ a * a ^ (2 * j) := mul_le_mul_of_nonneg_left h1 ha
    rw [pow_succ' a]
    linarith

/-- the Rayleigh quotient of the iterate never leaves `[-rho, 0]` and approaches `-rho` without any spectral gap -/
theorem rayleigh_bounds {M : Mat n} {rho : ℝ} {v : Vec n} (h : Extremal M rho v) (hr : 0 < rho) {b0 : Vec n} (hb : v ⬝ᵥ b0 ≠ 0) (j : ℕ) :
    let w := M ^ j *ᵥ b0
    0 < w ⬝ᵥ w ∧ -rho ≤ (w ⬝ᵥ (M *ᵥ w)) / (w ⬝ᵥ w) ∧ (w ⬝ᵥ (M *ᵥ w)) / (w ⬝ᵥ w) ≤ 0 ∧
    ∀ θ : ℝ, 0 ≤ θ → θ * rho * (1 - θ ^ (2 * j) * ((b0 ⬝ᵥ b0) / (v ⬝ᵥ b0) ^ 2)) ≤ -((w ⬝ᵥ (M *ᵥ w)) / (w ⬝ᵥ w)) := by
  intro w
  have hlow := iterate_lower h b0 j
  have hγ : 0 < (v ⬝ᵥ b0) ^ 2 := by positivity
  have hw : 0 < w ⬝ᵥ w := lt_of_lt_of_le (by positivity) hlow
  refine ⟨hw, ?_, ?_, ?_⟩
  · rw [le_div_iff₀ hw]; exact h.lower w
  · exact div_nonpos_of_nonpos_of_nonneg (h.nonpos w) hw.le
  · intro θ hθ
    obtain ⟨e, c, he, hc, hsum⟩ := rayleigh_sums h b0
    obtain ⟨s1, s2⟩ := hsum j
    have ha : 0 ≤ θ * rho := by positivity
    have hS : θ * rho * (w ⬝ᵥ w) - (θ * rho) ^ (2 * j + 1) * (b0 ⬝ᵥ b0) ≤ -(w ⬝ᵥ (M *ᵥ w)) := by
      rw [s1, s2, hc, neg_neg, Finset.mul_sum, Finset.mul_sum, ← Finset.sum_sub_distrib]
      refine Finset.sum_le_sum fun i _ => ?_
      have := mul_le_mul_of_nonneg_right (power_pointwise (he i) ha j) (sq_nonneg (c i))
      calc _ = (θ * rho * e i ^ (2 * j) - (θ * rho) ^ (2 * j + 1)) * c i ^ 2 := by ring
        _ ≤ _ := this
    rw [← neg_div, le_div_iff₀ hw]
    refine le_trans ?_ hS
    have h0 : 0 ≤ b0 ⬝ᵥ b0 := dot_self_nonneg b0
    have h3 : (θ * rho) ^ (2 * j + 1) * (b0 ⬝ᵥ b0) =
        θ * rho * (θ ^ (2 * j) * ((b0 ⬝ᵥ b0) / (v ⬝ᵥ b0) ^ 2)) * (rho ^ (2 * j) * (v ⬝ᵥ b0) ^ 2) := by
      have hd : v ⬝ᵥ b0 ≠ 0 := hb
      rw [pow_succ', mul_pow]
      field_simp
    rw [h3]
    have h4 : 0 ≤ θ * rho * (θ ^ (2 * j) * ((b0 ⬝ᵥ b0) / (v ⬝ᵥ b0) ^ 2)) := by positivity
    have := mul_le_mul_of_nonneg_left hlow h4
    have e1 : θ * rho * (1 - θ ^ (2 * j) * ((b0 ⬝ᵥ b0) / (v ⬝ᵥ b0) ^ 2)) * (w ⬝ᵥ w) =
        θ * rho * (w ⬝ᵥ w) - θ * rho * (θ ^ (2 * j) * ((b0 ⬝ᵥ b0) / (v ⬝ᵥ b0) ^ 2)) * (w ⬝ᵥ w) := by ring
    rw [e1]
    linarith

theorem pow_ne_zero_of_extremal {M : Mat n} {rho : ℝ} {v : Vec n} (h : Extremal M rho v) (hr : 0 < rho) {b0 : Vec n} (hb : v ⬝ᵥ b0 ≠ 0)
    (j : ℕ) : M ^ j *ᵥ b0 ≠ 0 := by
  intro h0
  have := (rayleigh_bounds h hr hb j).1
  rw [h0] at this
  simp at this

/-- **C128, the interval never exceeds the spectrum.** On a symmetric negative semidefinite operator with extremal eigenvalue `-rho` the
estimate lies in `[-rho, 0]`: the Leja points lie between `-sf rho` and `0`. -/
theorem C128_inside (A : LinOp n) (M : Mat n) (hA : Spec.IsMatrix A M) {rho : ℝ} {v : Vec n} (h : Extremal M rho v) (hr : 0 < rho)
    (b0 : Vec n) (hb : v ⬝ᵥ b0 ≠ 0) (bRand : Vec n) (maxIter : ℕ) (hi : 1 ≤ maxIter) {sf : ℝ} (hsf : 0 ≤ sf) :
    lejaInterval (lejaShiftScale A maxIter (some b0) bRand sf) ⊆ Set.Icc (-(sf * rho)) 0 := by
  obtain ⟨k, -, -, -, h4, -⟩ := C53_power A M hA b0 maxIter hi powerTol (by unfold powerTol; norm_num)
    (pow_ne_zero_of_extremal h hr hb maxIter)
  obtain ⟨-, r1, r2, -⟩ := rayleigh_bounds h hr hb (k - 1)
  obtain ⟨i1, i2, -⟩ := C53_interval A maxIter (some b0) bRand sf
  rw [lejaInterval, i1, i2]
  simp only [Option.getD_some]
  simp only at h4
  rw [h4]
  intro x hx
  have m1 : -(sf * rho) ≤ (M ^ (k - 1) *ᵥ b0 ⬝ᵥ M *ᵥ (M ^ (k - 1) *ᵥ b0)) / (M ^ (k - 1) *ᵥ b0 ⬝ᵥ M ^ (k - 1) *ᵥ b0) * sf := by
    have := mul_le_mul_of_nonneg_right r1 hsf
    calc -(sf * rho) = -rho * sf := by ring
      _ ≤ _ := this
  have m2 := mul_nonpos_of_nonpos_of_nonneg r2 hsf
  rw [Set.uIcc_of_ge m2] at hx
  exact ⟨m1.trans hx.1, hx.2⟩

/-- **C128, covering (a posteriori, no spectral gap).** If the call reports `k` iterations and, for some `0 ≤ θ`, the safety factor satisfies
`sf θ (1 - θ^(2(k-1)) ‖b0‖²/(v·b0)²) ≥ 1`, then the interval of the Leja points contains the whole spectrum `[-rho, 0]`. -/
theorem C128_covers_partial (A : LinOp n) (M : Mat n) (hA : Spec.IsMatrix A M) {rho : ℝ} {v : Vec n} (h : Extremal M rho v) (hr : 0 < rho)
    (b0 : Vec n) (hb : v ⬝ᵥ b0 ≠ 0) (bRand : Vec n) (maxIter : ℕ) (hi : 1 ≤ maxIter) {sf θ : ℝ} (hsf : 0 ≤ sf) (hθ : 0 ≤ θ)
    (hcov : 1 ≤ sf * (θ * (1 - θ ^ (2 * ((lejaShiftScale A maxIter (some b0) bRand sf).2.2.2.2 - 1)) * ((b0 ⬝ᵥ b0) / (v ⬝ᵥ b0) ^ 2)))) :
    Set.Icc (-rho) 0 ⊆ lejaInterval (lejaShiftScale A maxIter (some b0) bRand sf) := by
  obtain ⟨k, hk, -, -, h4, -⟩ := C53_power A M hA b0 maxIter hi powerTol (by unfold powerTol; norm_num)
    (pow_ne_zero_of_extremal h hr hb maxIter)
  obtain ⟨-, r1, r2, r3⟩ := rayleigh_bounds h hr hb (k - 1)
  obtain ⟨i1, i2, i3⟩ := C53_interval A maxIter (some b0) bRand sf
  rw [i3] at hcov
  simp only [Option.getD_some] at hcov
  rw [hk] at hcov
  have r3 := r3 θ hθ
  rw [lejaInterval, i1, i2]
  simp only [Option.getD_some]
  simp only at h4
  rw [h4]
  intro x hx
  have m2 := mul_nonpos_of_nonpos_of_nonneg r2 hsf
  rw [Set.uIcc_of_ge m2]
  refine ⟨le_trans ?_ hx.1, hx.2⟩
  have m3 := mul_le_mul_of_nonneg_right r3 hsf
  have m4 := mul_le_mul_of_nonneg_left hcov hr.le
  have e : rho * (sf * (θ * (1 - θ ^ (2 * (k - 1)) * ((b0 ⬝ᵥ b0) / (v ⬝ᵥ b0) ^ 2)))) =
      θ * rho * (1 - θ ^ (2 * (k - 1)) * ((b0 ⬝ᵥ b0) / (v ⬝ᵥ b0) ^ 2)) * sf := by ring
  rw [e, mul_one] at m4
  linarith [m3.trans_eq (neg_mul _ sf)]

/-- **C128, the default safety factor covers only from an eigenvector.** With `scale_factor = 1` the interval reaches the extremal eigenvalue only
if the last iterate before the estimate is exactly an eigenvector for it. -/
theorem C128_default (A : LinOp n) (M : Mat n) (hA : Spec.IsMatrix A M) {rho : ℝ} {v : Vec n} (h : Extremal M rho v) (hr : 0 < rho)
    (b0 : Vec n) (hb : v ⬝ᵥ b0 ≠ 0) (bRand : Vec n) (maxIter : ℕ) (hi : 1 ≤ maxIter)
    (hin : -rho ∈ lejaInterval (lejaShiftScale A maxIter (some b0) bRand 1)) :
    M *ᵥ (M ^ ((lejaShiftScale A maxIter (some b0) bRand 1).2.2.2.2 - 1) *ᵥ b0) =
      -rho • (M ^ ((lejaShiftScale A maxIter (some b0) bRand 1).2.2.2.2 - 1) *ᵥ b0) := by
  obtain ⟨k, hk, -, -, h4, -⟩ := C53_power A M hA b0 maxIter hi powerTol (by unfold powerTol; norm_num)
    (pow_ne_zero_of_extremal h hr hb maxIter)
  obtain ⟨hw, r1, r2, -⟩ := rayleigh_bounds h hr hb (k - 1)
  obtain ⟨i1, i2, i3⟩ := C53_interval A maxIter (some b0) bRand 1
  rw [lejaInterval, i1, i2] at hin
  simp only [Option.getD_some, mul_one] at hin
  simp only at h4
  rw [h4, Set.uIcc_of_ge r2] at hin
  rw [i3]
  simp only [Option.getD_some]
  rw [hk]
  obtain ⟨w, hwd⟩ : ∃ w, w = M ^ (k - 1) *ᵥ b0 := ⟨_, rfl⟩
  rw [← hwd] at r1 r2 hin hw ⊢
  have heq : w ⬝ᵥ (M *ᵥ w) = -rho * (w ⬝ᵥ w) := by
    have := le_antisymm hin.1 r1
    rw [← this]
    field_simp
  -- `rho + M` is positive semidefinite and its form vanishes at `w`
  have hq : ∀ t : ℝ, 0 ≤ t ^ 2 * ((M *ᵥ w + rho • w) ⬝ᵥ (M *ᵥ (M *ᵥ w + rho • w) + rho • (M *ᵥ w + rho • w)))
      + 2 * t * ((M *ᵥ w + rho • w) ⬝ᵥ (M *ᵥ w + rho • w)) := by
    intro t
    obtain ⟨g, hg⟩ : ∃ g, g = M *ᵥ w + rho • w := ⟨_, rfl⟩
    rw [← hg]
    have h5 := h.lower (w + t • g)
    have hs : w ⬝ᵥ (M *ᵥ g) = g ⬝ᵥ (M *ᵥ w) := by
      rw [Matrix.dotProduct_mulVec, ← Matrix.mulVec_transpose, h.symm, dotProduct_comm]
    have hc : w ⬝ᵥ g = g ⬝ᵥ w := dotProduct_comm _ _
    have e1 : (w + t • g) ⬝ᵥ (M *ᵥ (w + t • g)) = w ⬝ᵥ (M *ᵥ w) + 2 * t * (g ⬝ᵥ (M *ᵥ w)) + t ^ 2 * (g ⬝ᵥ (M *ᵥ g)) := by
      rw [Matrix.mulVec_add, Matrix.mulVec_smul, add_dotProduct, dotProduct_add, dotProduct_add, smul_dotProduct, smul_dotProduct,
        dotProduct_smul, dotProduct_smul, hs]
      simp only [smul_eq_mul]
      ring
    have e2 : (w + t • g) ⬝ᵥ (w + t • g) = w ⬝ᵥ w + 2 * t * (g ⬝ᵥ w) + t ^ 2 * (g ⬝ᵥ g) := by
      rw [add_dotProduct, dotProduct_add, dotProduct_add, smul_dotProduct, smul_dotProduct, dotProduct_smul, dotProduct_smul, hc]
      simp only [smul_eq_mul]
      ring
    rw [e1, e2, heq] at h5
    have e3 : g ⬝ᵥ g = g ⬝ᵥ (M *ᵥ w) + rho * (g ⬝ᵥ w) := by
      conv_lhs => rw [show g ⬝ᵥ g = g ⬝ᵥ (M *ᵥ w + rho • w) by rw [← hg]]
      rw [dotProduct_add, dotProduct_smul, smul_eq_mul]
    have e4 : g ⬝ᵥ (M *ᵥ g + rho • g) = g ⬝ᵥ (M *ᵥ g) + rho * (g ⬝ᵥ g) := by
      rw [dotProduct_add, dotProduct_smul, smul_eq_mul]
    rw [e4]
    have e5 : 2 * t * (g ⬝ᵥ g) = 2 * t * (g ⬝ᵥ (M *ᵥ w)) + 2 * t * (rho * (g ⬝ᵥ w)) := by rw [e3]; ring
    rw [e5]
    linarith
  obtain ⟨g, hg⟩ : ∃ g, g = M *ᵥ w + rho • w := ⟨_, rfl⟩
  rw [← hg] at hq
  obtain ⟨a, ha⟩ : ∃ a, a = g ⬝ᵥ (M *ᵥ g + rho • g) := ⟨_, rfl⟩
  obtain ⟨q, hq0⟩ : ∃ q, q = g ⬝ᵥ g := ⟨_, rfl⟩
  rw [← ha, ← hq0] at hq
  have hqn : 0 ≤ q := hq0 ▸ dot_self_nonneg g
  have hz : q = 0 := by
    by_contra hne
    have hqp : 0 < q := lt_of_le_of_ne hqn (Ne.symm hne)
    rcases le_or_gt a 0 with h6 | h6
    · have := hq (-1); nlinarith
    · have := hq (-(q / a))
      have e : (-(q / a)) ^ 2 * a + 2 * (-(q / a)) * q = -(q ^ 2 / a) := by field_simp; ring
      rw [e] at this
      have : 0 < q ^ 2 / a := by positivity
      linarith
  have hg0 : g = 0 := dotProduct_self_eq_zero.1 (hq0 ▸ hz)
  rw [hg] at hg0
  rw [neg_smul]
  exact eq_neg_of_add_eq_zero_left hg0

/-! ### The interval may miss the spectrum -/

/-- the operator of the counterexample -/
def stiffPair (L : ℝ) : Mat 2 := diagonal ![-L, -1]

theorem stiffPair_extremal {L : ℝ} (hL : 1 ≤ L) : Extremal (stiffPair L) L ![1, 0] := by
  refine ⟨Matrix.diagonal_transpose _, fun u => ?_, fun u => ?_, ?_, ?_⟩
  · simp only [stiffPair, dotProduct, Matrix.mulVec_diagonal, Fin.sum_univ_two, Matrix.cons_val_zero, Matrix.cons_val_one]
    nlinarith [sq_nonneg (u 0), sq_nonneg (u 1)]
  · simp only [stiffPair, dotProduct, Matrix.mulVec_diagonal, Fin.sum_univ_two, Matrix.cons_val_zero, Matrix.cons_val_one]
    nlinarith [sq_nonneg (u 0), sq_nonneg (u 1)]
  · simp [dotProduct, Fin.sum_univ_two]
  · funext i
    fin_cases i <;> simp [stiffPair, Matrix.mulVec_diagonal]

theorem stiffPair_iterate (L ε : ℝ) (j : ℕ) : stiffPair L ^ j *ᵥ ![ε, 1] = ![(-L) ^ j * ε, (-1) ^ j] := by
  rw [stiffPair, Matrix.diagonal_pow]
  funext i
  fin_cases i <;> simp [Matrix.mulVec_diagonal]

theorem stiffPair_rayleigh {L : ℝ} (hL : 1 ≤ L) {u : Vec 2} (h1 : u 1 ≠ 0) (h : L * u 0 ^ 2 ≤ 1 / 50 * u 1 ^ 2) :
    -(51 / 50) ≤ (u ⬝ᵥ (stiffPair L *ᵥ u)) / (u ⬝ᵥ u) ∧ (u ⬝ᵥ (stiffPair L *ᵥ u)) / (u ⬝ᵥ u) ≤ -1 := by
  have hp : 0 < u 1 ^ 2 := by positivity
  have h0 : 0 ≤ u 0 ^ 2 := sq_nonneg _
  have h2 : 1 * u 0 ^ 2 ≤ L * u 0 ^ 2 := mul_le_mul_of_nonneg_right hL h0
  have e1 : u ⬝ᵥ u = u 0 ^ 2 + u 1 ^ 2 := by simp [dotProduct, Fin.sum_univ_two, sq]
  have e2 : u ⬝ᵥ (stiffPair L *ᵥ u) = -(L * u 0 ^ 2 + u 1 ^ 2) := by
    simp only [stiffPair, dotProduct, Matrix.mulVec_diagonal, Fin.sum_univ_two, Matrix.cons_val_zero, Matrix.cons_val_one]
    ring
  rw [e1, e2]
  have hd : 0 < u 0 ^ 2 + u 1 ^ 2 := by linarith
  constructor
  · rw [le_div_iff₀ hd]; linarith
  · rw [div_le_iff₀ hd]; linarith

/-- **C128 refuted.** Whatever the safety factor, the number of allowed iterations and `L`: on `diag(-L, -1)` started from `(eps, 1)` with small
`eps ≠ 0` the power iteration stops after two passes with the estimate of the wrong eigenvalue. -/
theorem C128_false (A : LinOp 2) {L : ℝ} (hL : 1 ≤ L) (hA : Spec.IsMatrix A (stiffPair L)) {ε : ℝ} (hε : ε ≠ 0) (hsmall : ε ^ 2 * L ^ 3 ≤ 1 / 50)
    (bRand : Vec 2) (maxIter : ℕ) (hi : 2 ≤ maxIter) {sf : ℝ} (hsf : 0 ≤ sf) (hmiss : sf * (51 / 50) < L) :
    (lejaShiftScale A maxIter (some ![ε, 1]) bRand sf).2.2.2.2 = 2 ∧
      -L ∉ lejaInterval (lejaShiftScale A maxIter (some ![ε, 1]) bRand sf) := by
  have hr1 : ∀ b : Vec 2, A.matvec b = stiffPair L *ᵥ b := hA
  have h0 : (0:ℝ) < L := by linarith
  have hε2 : 0 < ε ^ 2 := by positivity
  have hL3 : L ^ 1 ≤ L ^ 3 := pow_le_pow_right₀ hL (by norm_num)
  have hx1 : ε ^ 2 * L ≤ 1 / 50 := by
    have := mul_le_mul_of_nonneg_left hL3 hε2.le
    rw [pow_one] at this
    linarith
  obtain ⟨s0, hs0⟩ : ∃ s0 : PowerState 2, s0 = PowerState.mk 0 ![ε, 1] 1e20 1 := ⟨_, rfl⟩
  obtain ⟨s1, hs1⟩ : ∃ s1 : PowerState 2, s1 = powerBody A s0 := ⟨_, rfl⟩
  obtain ⟨s2, hs2⟩ : ∃ s2 : PowerState 2, s2 = powerBody A s1 := ⟨_, rfl⟩
  have b1 : s1.b = ![-(L * ε) / norm2 (stiffPair L *ᵥ ![ε, 1]), -1 / norm2 (stiffPair L *ᵥ ![ε, 1])] := by
    rw [hs1, hs0]
    simp only [powerBody, hr1]
    funext i
    fin_cases i <;> simp [stiffPair, Matrix.mulVec_diagonal]
  have hN : norm2 (stiffPair L *ᵥ ![ε, 1]) ≠ 0 := by
    intro h
    have := congrFun (norm2_eq_zero.1 h) 1
    simp [stiffPair, Matrix.mulVec_diagonal] at this
  obtain ⟨N, hNd⟩ : ∃ N, N = norm2 (stiffPair L *ᵥ ![ε, 1]) := ⟨_, rfl⟩
  rw [← hNd] at b1 hN
  have e1 : -(51 / 50) ≤ s1.eigNew ∧ s1.eigNew ≤ -1 := by
    have := stiffPair_rayleigh hL (u := ![ε, 1]) (by simp) (by simpa using (by linarith : L * ε ^ 2 ≤ 50⁻¹))
    rw [hs1, hs0]
    simp only [powerBody, hr1]
    exact this
  have e2 : -(51 / 50) ≤ s2.eigNew ∧ s2.eigNew ≤ -1 := by
    have hN2 : 0 < N ^ 2 := by positivity
    have := stiffPair_rayleigh hL (u := s1.b) (by rw [b1]; simp [hN]) (by
      rw [b1]
      simp only [Matrix.cons_val_zero, Matrix.cons_val_one, div_pow]
      rw [← mul_div_assoc, ← mul_div_assoc]
      refine div_le_div_of_nonneg_right ?_ hN2.le
      nlinarith)
    rw [hs2]
    simp only [powerBody, hr1]
    exact this
  have o2 : s2.eigOld = s1.eigNew := by rw [hs2]; rfl
  have i1 : s1.i = 1 := by rw [hs1, hs0]; rfl
  have i2 : s2.i = 2 := by rw [hs2]; show s1.i + 1 = 2; rw [i1]
  have o1 : s1.eigOld = 1e20 := by rw [hs1, hs0]; rfl
  have c0 : powerCond maxIter powerTol s0 := by
    refine ⟨?_, by rw [hs0]; simp only; omega⟩
    rw [hs0]; unfold powerTol; simp only
    rw [abs_of_pos (by norm_num)]; norm_num
  have c1 : powerCond maxIter powerTol s1 := by
    refine ⟨?_, by rw [i1]; omega⟩
    rw [o1, abs_sub_comm, gt_iff_lt]
    refine lt_of_lt_of_le ?_ (le_abs_self _)
    unfold powerTol
    have := e1.2
    norm_num at this ⊢
    linarith
  have c2 : ¬ powerCond maxIter powerTol s2 := by
    rintro ⟨h, -⟩
    rw [o2, gt_iff_lt, lt_abs] at h
    unfold powerTol at h
    norm_num at h
    rcases h with h | h <;> linarith [e1.1, e1.2, e2.1, e2.2]
  have hloop : powerLoop A maxIter powerTol maxIter s0 = s2 := by
    obtain ⟨m, hm⟩ : ∃ m, maxIter = m + 1 + 1 := ⟨maxIter - 2, by omega⟩
    have u1 : powerLoop A maxIter powerTol (m + 1 + 1) s0 = powerLoop A maxIter powerTol (m + 1) s1 := by
      rw [powerLoop, if_pos c0, hs1]
    have u2 : powerLoop A maxIter powerTol (m + 1) s1 = powerLoop A maxIter powerTol m s2 := by
      rw [powerLoop, if_pos c1, hs2]
    calc powerLoop A maxIter powerTol maxIter s0 = powerLoop A maxIter powerTol (m + 1 + 1) s0 := by rw [← hm]
      _ = s2 := by rw [u1, u2, powerLoop_zero _ _ _ _ _ c2]
  have hpow : powerIter A ![ε, 1] maxIter powerTol = (s2.eigNew, s2.b, s2.i) := by
    unfold powerIter
    simp only
    rw [← hs0, hloop]
  obtain ⟨j1, j2, j3⟩ := C53_interval A maxIter (some ![ε, 1]) bRand sf
  constructor
  · rw [j3]; simp only [Option.getD_some]; rw [hpow]; exact i2
  · rw [lejaInterval, j1, j2]
    simp only [Option.getD_some]
    rw [hpow]
    simp only
    intro hx
    have m2 : s2.eigNew * sf ≤ 0 := mul_nonpos_of_nonpos_of_nonneg (by linarith [e2.2]) hsf
    rw [Set.uIcc_of_ge m2] at hx
    have := mul_le_mul_of_nonneg_right e2.1 hsf
    linarith [hx.1]

/-- the hypotheses of `C128_covers_partial` are met: `diag(-4, -1)` started from `(1, 1)`, safety factor `4`; whatever number of iterations is reported
beyond the first -/
example (k : ℕ) (hk : 2 ≤ k) : (1:ℝ) ≤ 4 * ((1 / 2) * (1 - (1 / 2) ^ (2 * (k - 1)) * ((![1, 1] ⬝ᵥ ![1, 1] : ℝ) / ((![1, 0] : Vec 2) ⬝ᵥ ![1, 1]) ^ 2))) := by
  have h : ((1:ℝ) / 2) ^ (2 * (k - 1)) ≤ (1 / 2) ^ 2 := pow_le_pow_of_le_one (by norm_num) (by norm_num) (by omega)
  have e1 : (![1, 1] ⬝ᵥ ![1, 1] : ℝ) = 2 := by simp [dotProduct, Fin.sum_univ_two]; norm_num
  have e2 : ((![1, 0] : Vec 2) ⬝ᵥ ![1, 1]) = 1 := by simp [dotProduct, Fin.sum_univ_two]
  rw [e1, e2]
  norm_num at h ⊢
  linarith

/-- the hypotheses of `C128_false` are met for a stiffness of a million and a safety factor of a thousand -/
example : ((1e-10 : ℝ)) ^ 2 * (1e6) ^ 3 ≤ 1 / 50 ∧ (1000 : ℝ) * (51 / 50) < 1e6 := by norm_num

end Ormatex.Props
