import Verif.Props.LejaStep
import Verif.Props.LejaEst
import Verif.Props.KrylovErr
import Mathlib.Analysis.Matrix.Spectrum
import Mathlib.Analysis.Matrix.PosDef
import Mathlib.Analysis.SpecialFunctions.Exp

/-!
C98: the documented meaning of the tolerance of `real_leja_expmv`.
-/

namespace Ormatex.Props
open Ormatex Ormatex.Spec Matrix
open scoped Classical

/-- exact Newton coefficients on nodes of `[-4, 0]` are at most `e^4` -/
theorem coeff_le_exp4 (nL : ℕ) (x : ℕ → ℝ) (hx : ∀ i < nL, |x i| ≤ 2) (j : ℕ) (hj : j < nL) (hj1 : j ≤ 1) :
    |lejaCoeffsExp (fun _ => NormedSpace.exp) nL x (-2) 1 1 j| ≤ Real.exp 4 := by
  have hz : ∀ i < nL, ‖(-2 : ℝ) + 1 * x i‖ ≤ 4 := by
    intro i hi
    have := abs_le.1 (hx i hi)
    rw [Real.norm_eq_abs, abs_le]
    constructor <;> linarith
  have h := exactTable_le 0 nL x (-2) 1 1 4 hz ⟨j, hj⟩ ⟨0, by omega⟩ (by simp)
  have e : lejaCoeffsExp (fun _ => NormedSpace.exp) nL x (-2) 1 1 j = exactTable 0 nL x (-2) 1 1 ⟨j, hj⟩ ⟨0, by omega⟩ := by
    rw [← exactDd_zero]
    unfold exactDd firstCol
    rw [dif_pos hj]
  rw [e]
  refine h.trans ?_
  have : j = 0 ∨ j = 1 := by omega
  rcases this with rfl | rfl <;> simp

/-- **C98, refuted.** "`converged` means `|p - exp(dt A)u| < tol`" is false whatever the tolerance: for every `tol > 0`, every
admissible node list starting at the right end of `[-4, 0]`, exact coefficients and every `C` there are a diagonal matrix and a
vector for which `real_leja_expmv` reports convergence after two terms with an error of more than `C |u|`. -/
theorem C98_tolerance_false (tol : ℝ) (ht : 0 < tol) (nL : ℕ) (hn : 3 ≤ nL) (x : ℕ → ℝ) (hx : ∀ i < nL, |x i| ≤ 2) (hx0 : x 0 = 2) (C : ℝ) :
    ∃ (M : Mat 2) (u : Vec 2),
      let r := realLejaExpmv (matrixLinOp M) 1 u (-2) 1 nL x (lejaCoeffsExp (fun _ => NormedSpace.exp) nL x (-2) 1 1) tol 1e10
      r.conv ∧ C * norm2 u < norm2 (r.pm - NormedSpace.exp M *ᵥ u) := by
  set c := lejaCoeffsExp (fun _ => NormedSpace.exp) nL x (-2) 1 (1 : ℝ) with hc
  have hc0 : |c 0| ≤ Real.exp 4 := coeff_le_exp4 nL x hx 0 (by omega) (by norm_num)
  have hc1 : |c 1| ≤ Real.exp 4 := coeff_le_exp4 nL x hx 1 (by omega) (by norm_num)
  set E := Real.exp 4 with hE
  have hEpos : 0 < E := Real.exp_pos 4
  -- choose the second eigenvalue
  obtain ⟨l, hl1, hl⟩ : ∃ l : ℝ, max 1 (tol ^ 2) ≤ l ∧ (2 * |C| + 1) * (4 * E * l) / tol ^ 2 + E * (1 + l) < Real.exp l := by
    have h := Real.tendsto_exp_div_pow_atTop 2
    have h2 := (h.eventually_gt_atTop ((2 * |C| + 1) * (4 * E) / tol ^ 2 + 2 * E)).and (Filter.eventually_ge_atTop (max 1 (tol ^ 2)))
    obtain ⟨l, hl, hl1⟩ := h2.exists
    have h1 : 1 ≤ l := (le_max_left _ _).trans hl1
    refine ⟨l, hl1, ?_⟩
    rw [lt_div_iff₀ (by positivity)] at hl
    refine lt_of_le_of_lt ?_ hl
    have h3 : l ≤ l ^ 2 := by nlinarith
    have h4 : (2 * |C| + 1) * (4 * E * l) / tol ^ 2 = (2 * |C| + 1) * (4 * E) / tol ^ 2 * l := by ring
    have h5 : 0 ≤ (2 * |C| + 1) * (4 * E) / tol ^ 2 := by positivity
    rw [h4]
    nlinarith
  have hlp : 1 ≤ l := (le_max_left _ _).trans hl1
  have hlt : tol ^ 2 ≤ l := (le_max_right _ _).trans hl1
  set η := tol ^ 2 / (4 * E * l) with hη
  have hηpos : 0 < η := by positivity
  have hE1 : 1 ≤ E := Real.one_le_exp (by norm_num)
  have hη1 : η ≤ 1 := by
    rw [hη, div_le_one (by positivity)]
    nlinarith
  set M : Mat 2 := Matrix.diagonal ![0, l] with hM
  set u : Vec 2 := ![1, η] with hu
  have hnu : norm2 u = Real.sqrt (1 + η * η) := by
    unfold norm2; simp [hu, dotProduct, Fin.sum_univ_two]
  have hnu1 : 1 ≤ norm2 u := by
    rw [hnu]; exact Real.one_le_sqrt.2 (by nlinarith)
  have hnu2 : norm2 u ≤ 2 := by
    rw [hnu]; exact Real.sqrt_le_iff.2 ⟨by norm_num, by nlinarith⟩
  -- the first pass
  set B := realLejaBody (matrixLinOp M) 1 (norm2 u) 1 tol (fun i => -2 + 1 * x i) c with hB
  set s0 : LejaState 2 := { i := 1, vm := u, pm := c 0 • u, err := 2 * norm2 u, conv := norm2 u = 0 } with hs0
  have hvm : (B s0).vm = ![0, l * η] := by
    show (fun j => (1 * (M *ᵥ u) j - (-2 + 1 * x (1 - 1)) * u j) / 1) = _
    rw [show x (1 - 1) = 2 from hx0]
    funext j
    fin_cases j <;> simp [hM, hu, Matrix.mulVec_diagonal]
  have hpm : (B s0).pm = c 0 • u + c 1 • ![0, l * η] := by rw [← hvm]; rfl
  have hnv : norm2 ![0, l * η] = l * η := by
    unfold norm2
    simp [dotProduct, Fin.sum_univ_two]
    rw [Real.sqrt_mul_self (by positivity)]
  have herr : (B s0).err = Real.sqrt (|c 1| * (l * η) * (2 * norm2 u)) := by
    have : (B s0).err = decayFun (|c 1| * norm2 (B s0).vm) (2 * norm2 u) (1 / 2) := rfl
    rw [this, hvm, hnv, decay_sqrt _ _ (by positivity)]
  have hconv : (B s0).conv := by
    show (1 : ℝ) ≠ 0 ∧ (B s0).err < tol * norm2 u
    refine ⟨one_ne_zero, ?_⟩
    rw [herr]
    refine (Real.sqrt_lt' (by positivity)).2 ?_
    have h1 : |c 1| * (l * η) * (2 * norm2 u) ≤ E * (l * η) * (2 * norm2 u) := by gcongr
    have h2 : E * (l * η) * (2 * norm2 u) = tol ^ 2 / 2 * norm2 u := by
      rw [hη]; field_simp; ring
    rw [h2] at h1
    have ht2 : 0 < tol ^ 2 := by positivity
    nlinarith
  have hrun : realLejaExpmv (matrixLinOp M) 1 u (-2) 1 nL x c tol 1e10 = B s0 := by
    unfold realLejaExpmv
    obtain ⟨m, rfl⟩ : ∃ m, nL = m + 1 + 1 + 1 := ⟨nL - 3, by omega⟩
    simp only
    rw [lejaLoop, if_pos ⟨by simp, by simp only; nlinarith, by simp only; linarith⟩, lejaLoop,
      if_neg (fun h => h.2.2 hconv)]
  refine ⟨M, u, ?_⟩
  simp only
  rw [hrun]
  refine ⟨hconv, ?_⟩
  have hexp : NormedSpace.exp M *ᵥ u = ![1, Real.exp l * η] := by
    rw [hM, Matrix.exp_diagonal, hu]
    funext j
    fin_cases j <;> simp [Matrix.mulVec_diagonal, Pi.exp_def, Real.exp_eq_exp_ℝ]
  have hent : (B s0).pm 1 - (NormedSpace.exp M *ᵥ u) 1 = (c 0 + c 1 * l - Real.exp l) * η := by
    rw [hpm, hexp, hu]
    simp
    ring
  refine lt_of_lt_of_le ?_ (abs_le_norm2 _ 1)
  rw [Pi.sub_apply, hent, abs_mul, abs_of_pos hηpos]
  have h1 : Real.exp l - E * (1 + l) ≤ |c 0 + c 1 * l - Real.exp l| := by
    rw [abs_sub_comm]
    refine le_trans ?_ (le_abs_self _)
    have h2 := le_abs_self (c 0)
    have h3 : c 1 * l ≤ E * l := mul_le_mul_of_nonneg_right ((le_abs_self _).trans hc1) (by linarith)
    nlinarith
  have h2 : (2 * |C| + 1) * (4 * E * l) / tol ^ 2 < |c 0 + c 1 * l - Real.exp l| := by linarith
  have h3 : (2 * |C| + 1) * (4 * E * l) / tol ^ 2 * η = 2 * |C| + 1 := by
    rw [hη]; field_simp
  have h4 : 2 * |C| + 1 < |c 0 + c 1 * l - Real.exp l| * η := by
    rw [← h3]; exact mul_lt_mul_of_pos_right h2 hηpos
  have h5 : C * norm2 u ≤ |C| * 2 := mul_le_mul (le_abs_self C) hnu2 (by linarith) (abs_nonneg _)
  linarith

/-! ### what does hold: symmetric operators with spectrum in the interval of the nodes -/

variable {n : ℕ}

/-- when `real_leja_expmv` reports convergence the last summand added is shorter than `tol |u|` -/
theorem last_term (A : LinOp n) (M : Mat n) (hA : IsMatrix A M) (dt : ℝ) (u : Vec n) (hu : u ≠ 0) (shift scale : ℝ)
    (hs : scale ≠ 0) (nLeja : ℕ) (x c : ℕ → ℝ) (tol abortTol : ℝ) (ht : 0 < tol) (ht2 : tol ≤ 2)
    (hconv : (realLejaExpmv A dt u shift scale nLeja x c tol abortTol).conv) :
    2 ≤ (realLejaExpmv A dt u shift scale nLeja x c tol abortTol).i ∧
      |c ((realLejaExpmv A dt u shift scale nLeja x c tol abortTol).i - 1)|
        * norm2 (newtonVec x (scaledMat M dt shift scale) u ((realLejaExpmv A dt u shift scale nLeja x c tol abortTol).i - 1))
        < tol * norm2 u := by
  have hpos := norm2_pos hu
  have h := lejaLoop_invariant (cond := lejaCond nLeja abortTol (norm2 u))
    (body := realLejaBody A dt (norm2 u) scale tol (fun i => shift + scale * x i) c)
    (fun s => 1 ≤ s.i ∧ s.vm = newtonVec x (scaledMat M dt shift scale) u (s.i - 1) ∧ (¬ s.conv → tol * norm2 u ≤ s.err) ∧
      (s.conv → 2 ≤ s.i ∧ |c (s.i - 1)| * norm2 (newtonVec x (scaledMat M dt shift scale) u (s.i - 1)) < tol * norm2 u)) ?_ nLeja
    { i := 1, vm := u, pm := c 0 • u, err := 2 * norm2 u, conv := norm2 u = 0 } ?_
  · exact h.2.2.2 hconv
  · rintro s ⟨h1, h2, h3, h4⟩ hc
    have hvm : (realLejaBody A dt (norm2 u) scale tol (fun i => shift + scale * x i) c s).vm
        = newtonVec x (scaledMat M dt shift scale) u s.i := by
      show (fun j => (dt * A.matvec s.vm j - (shift + scale * x (s.i - 1)) * s.vm j) / scale) = _
      rw [scaled_step hA dt shift scale _ hs, h2, ← newtonVec_succ, Nat.sub_add_cancel h1]
    have he : (realLejaBody A dt (norm2 u) scale tol (fun i => shift + scale * x i) c s).err
        = Real.sqrt (|c s.i| * norm2 (newtonVec x (scaledMat M dt shift scale) u s.i) * s.err) := by
      rw [← hvm]
      exact decay_sqrt _ _ (mul_nonneg (abs_nonneg _) (norm2_nonneg _))
    have hprev := h3 hc.2.2
    refine ⟨by show 1 ≤ s.i + 1; omega, ?_, ?_, ?_⟩
    · rw [hvm]; rfl
    · intro hnc
      exact not_lt.1 fun hlt => hnc ⟨hs, hlt⟩
    · intro hcv
      refine ⟨by show 2 ≤ s.i + 1; omega, ?_⟩
      have hlt : (realLejaBody A dt (norm2 u) scale tol (fun i => shift + scale * x i) c s).err < tol * norm2 u := hcv.2
      rw [he] at hlt
      show |c s.i| * norm2 (newtonVec x (scaledMat M dt shift scale) u s.i) < tol * norm2 u
      by_contra hge
      rw [not_lt] at hge
      have hp : 0 < tol * norm2 u := by positivity
      have : tol * norm2 u ≤ Real.sqrt (|c s.i| * norm2 (newtonVec x (scaledMat M dt shift scale) u s.i) * s.err) := by
        refine Real.le_sqrt_of_sq_le ?_
        rw [pow_two]
        exact mul_le_mul hge hprev hp.le (hp.le.trans hge)
      linarith
  · refine ⟨le_rfl, (newtonVec_zero _ _ _).symm, fun _ => ?_, fun h => ?_⟩
    · simp only; nlinarith
    · exact absurd h hpos.ne'

theorem exactDd_shift (m : ℕ) (x : ℕ → ℝ) (shift scale mu : ℝ) (j : ℕ) :
    exactDd 0 m x shift scale 1 j = Real.exp mu * exactDd 0 m x (shift - mu) scale 1 j := by
  have hsplit : ∀ (Y : Mat m), NormedSpace.exp (shift • (1 : Mat m) + scale • Y)
      = Real.exp mu • NormedSpace.exp ((shift - mu) • (1 : Mat m) + scale • Y) := by
    intro Y
    have e : shift • (1 : Mat m) + scale • Y
        = algebraMap ℝ (Mat m) mu + ((shift - mu) • (1 : Mat m) + scale • Y) := by
      rw [Algebra.algebraMap_eq_smul_one]
      module
    have hc : Commute (algebraMap ℝ (Mat m) mu) ((shift - mu) • (1 : Mat m) + scale • Y) := Algebra.commutes mu _
    have := Matrix.exp_add_of_commute _ _ hc
    rw [e]
    refine this.trans ?_
    have e2 : NormedSpace.exp (algebraMap ℝ (Mat m) mu) = Real.exp mu • (1 : Mat m) := by
      rw [Algebra.algebraMap_eq_smul_one, smul_one_eq_diagonal, Matrix.exp_diagonal, smul_one_eq_diagonal]
      congr 1
      funext i
      rw [Pi.exp_def, Real.exp_eq_exp_ℝ]
    rw [e2, smul_mul_assoc, one_mul]
  rw [exactDd_zero, exactDd_zero]
  unfold lejaCoeffsExp firstCol xiShift
  split_ifs with h
  · rw [one_smul, one_smul]
    exact congrFun (congrFun (hsplit (bidiag m x)) _) _
  · simp

theorem bipow_nonneg (m : ℕ) (z : ℕ → ℝ) (scale : ℝ) (hs : 0 ≤ scale) (hz : ∀ i < m, 0 ≤ z i) :
    ∀ (q i j : ℕ), i < m → 0 ≤ bipow z scale q i j
  | 0, i, j, _ => by simp only [bipow]; split_ifs <;> norm_num
  | q + 1, 0, j, h => by
    rw [bipow_succ_zero]
    exact mul_nonneg (hz 0 h) (bipow_nonneg m z scale hs hz q 0 j h)
  | q + 1, i + 1, j, h => by
    rw [bipow_succ_succ]
    exact add_nonneg (mul_nonneg (hz _ h) (bipow_nonneg m z scale hs hz q (i + 1) j h))
      (mul_nonneg hs (bipow_nonneg m z scale hs hz q i j (by omega)))

/-- divided differences of the exponential at points of `[a, ∞)` are at least `e^a / j!` -/
theorem coeff_lower (nL : ℕ) (x : ℕ → ℝ) (shift scale a : ℝ) (hs : 0 ≤ scale) (hz : ∀ i < nL, a ≤ shift + scale * x i) (j : ℕ)
    (hj : j < nL) : Real.exp a * (scale ^ j / (Nat.factorial j : ℝ)) ≤ lejaCoeffsExp (fun _ => NormedSpace.exp) nL x shift scale 1 j := by
  rw [← exactDd_zero, exactDd_shift nL x shift scale a j]
  refine mul_le_mul_of_nonneg_left ?_ (Real.exp_pos _).le
  unfold exactDd firstCol
  rw [dif_pos hj]
  have h := exactTable_hasSum' 0 nL x (shift - a) scale 1 ⟨j, hj⟩ ⟨0, by omega⟩ (by simp)
  have hz' : ∀ i < nL, 0 ≤ (shift - a) + scale * x i := fun i hi => by have := hz i hi; linarith
  have hnn : ∀ p, 0 ≤ (Nat.factorial (p + (j - 0) + 0) : ℝ)⁻¹
        * (1 ^ (p + (j - 0)) * bipow (fun i => (shift - a) + scale * x i) scale (p + (j - 0)) j 0) := fun p =>
    mul_nonneg (by positivity) (mul_nonneg (by positivity) (bipow_nonneg nL _ scale hs hz' _ j 0 hj))
  have h2 := h.summable.le_tsum 0 (fun p _ => hnn p)
  rw [h.tsum_eq] at h2
  refine le_trans (le_of_eq ?_) h2
  have := bipow_first (fun i => (shift - a) + scale * x i) scale j 0
  simp only [zero_add] at this
  simp only [zero_add, add_zero, Nat.sub_zero, one_pow, one_mul]
  rw [this]
  rw [div_eq_inv_mul]

/-! #### diagonalisation -/

theorem newtonVec_diag (x : ℕ → ℝ) (z : Fin n → ℝ) (v : Vec n) (j : ℕ) :
    newtonVec x (Matrix.diagonal z) v j = fun k => (∏ l ∈ Finset.range j, (z k - x l)) * v k := by
  induction j with
  | zero => rw [newtonVec_zero]; simp
  | succ j ih =>
    rw [newtonVec_succ, ih]
    funext k
    rw [Finset.prod_range_succ, Pi.sub_apply, Pi.smul_apply, Matrix.mulVec_diagonal, smul_eq_mul]
    ring

theorem newtonVec_conj (x : ℕ → ℝ) (U D : Mat n) (hU : Uᵀ * U = 1) (v : Vec n) (j : ℕ) :
    newtonVec x (U * D * Uᵀ) v j = U *ᵥ newtonVec x D (Uᵀ *ᵥ v) j := by
  have hU' : U * Uᵀ = 1 := mul_eq_one_comm.mp hU
  induction j with
  | zero => rw [newtonVec_zero, newtonVec_zero, Matrix.mulVec_mulVec, hU', Matrix.one_mulVec]
  | succ j ih =>
    rw [newtonVec_succ, newtonVec_succ, ih, Matrix.mulVec_sub, Matrix.mulVec_smul, Matrix.mulVec_mulVec, Matrix.mulVec_mulVec,
      Matrix.mul_assoc, hU, Matrix.mul_one]

theorem norm2_le_of_abs_le {p : ℕ} (a b : Vec p) (c : ℝ) (hc : 0 ≤ c) (h : ∀ i, |a i| ≤ c * |b i|) : norm2 a ≤ c * norm2 b := by
  unfold norm2
  refine Real.sqrt_le_iff.2 ⟨by positivity, ?_⟩
  rw [mul_pow, Real.sq_sqrt (dot_self_nonneg b)]
  simp only [dotProduct]
  rw [Finset.mul_sum]
  refine Finset.sum_le_sum fun i _ => ?_
  have := mul_self_le_mul_self (abs_nonneg _) (h i)
  rw [abs_mul_abs_self] at this
  calc _ ≤ _ := this
    _ = c ^ 2 * (|b i| * |b i|) := by ring
    _ = _ := by rw [abs_mul_abs_self]

/-- a symmetric matrix is orthogonally diagonal, and bounds on its quadratic form bound the diagonal -/
theorem symm_diag (S : Mat n) (hS : Sᵀ = S) (a b : ℝ) (hab : ∀ v : Vec n, a * (v ⬝ᵥ v) ≤ v ⬝ᵥ (S *ᵥ v) ∧ v ⬝ᵥ (S *ᵥ v) ≤ b * (v ⬝ᵥ v)) :
    ∃ (U : Mat n) (d : Fin n → ℝ), Uᵀ * U = 1 ∧ S = U * Matrix.diagonal d * Uᵀ ∧ ∀ k, a ≤ d k ∧ d k ≤ b := by
  have hH : S.IsHermitian := by
    rw [Matrix.IsHermitian, Matrix.conjTranspose_eq_transpose_of_trivial]; exact hS
  obtain ⟨U, d, h1, h2⟩ : ∃ (U : Mat n) (d : Fin n → ℝ), Uᵀ * U = 1 ∧ S = U * Matrix.diagonal d * Uᵀ := by
    refine ⟨hH.eigenvectorUnitary, hH.eigenvalues, ?_, ?_⟩
    · have := Unitary.coe_star_mul_self hH.eigenvectorUnitary
      rwa [Matrix.star_eq_conjTranspose, Matrix.conjTranspose_eq_transpose_of_trivial] at this
    · have := hH.spectral_theorem
      rw [Unitary.conjStarAlgAut_apply] at this
      rw [Matrix.star_eq_conjTranspose, Matrix.conjTranspose_eq_transpose_of_trivial] at this
      exact this
  refine ⟨U, d, h1, h2, fun k => ?_⟩
  have h3 := hab (U *ᵥ Pi.single k 1)
  have e1 : (U *ᵥ Pi.single k 1) ⬝ᵥ (U *ᵥ Pi.single k 1) = 1 := by
    rw [Matrix.dotProduct_mulVec, Matrix.vecMul_mulVec, ← Matrix.dotProduct_mulVec, h1]
    simp
  have e2 : (U *ᵥ Pi.single k 1) ⬝ᵥ (S *ᵥ (U *ᵥ Pi.single k 1)) = d k := by
    rw [Matrix.mulVec_mulVec, h2, Matrix.mul_assoc, Matrix.mul_assoc, h1, Matrix.mul_one, ← Matrix.mulVec_mulVec,
      Matrix.dotProduct_mulVec, Matrix.vecMul_mulVec, ← Matrix.dotProduct_mulVec, h1]
    simp [Matrix.diagonal_mulVec_single]
  rw [e1, e2, mul_one, mul_one] at h3
  exact h3

open scoped Matrix.Norms.Operator in
/-- error of the Newton sum at one diagonal entry -/
theorem diag_error (x : ℕ → ℝ) (shift scale a b : ℝ) (hs : 0 < scale) (nL m : ℕ) (hm : m + 1 ≤ nL)
    (hx : ∀ i < nL, a ≤ shift + scale * x i ∧ shift + scale * x i ≤ b) (z : Fin n → ℝ)
    (hz : ∀ k, a ≤ shift + scale * z k ∧ shift + scale * z k ≤ b) (v : Vec n) (k : Fin n) :
    |(∑ j ∈ Finset.range (m + 1), lejaCoeffsExp (fun _ => NormedSpace.exp) nL x shift scale 1 j • newtonVec x (Matrix.diagonal z) v j) k
        - (NormedSpace.exp (shift • (1 : Mat n) + scale • Matrix.diagonal z) *ᵥ v) k|
      ≤ Real.exp b * (scale ^ (m + 1) / (Nat.factorial (m + 1) : ℝ)) * |newtonVec x (Matrix.diagonal z) v (m + 1) k| := by
  have hD : ∀ s : ℝ, s • (1 : Mat n) + scale • Matrix.diagonal z = Matrix.diagonal fun k => s + scale * z k := by
    intro s
    rw [← Matrix.diagonal_one, ← Matrix.diagonal_smul, ← Matrix.diagonal_smul, Matrix.diagonal_add]
    congr 1; funext k; simp
  have hA : ‖(shift - a) • (1 : Mat n) + scale • Matrix.diagonal z‖ ≤ b - a := by
    rw [hD, Matrix.linfty_opNorm_diagonal, pi_norm_le_iff_of_nonneg (by have := hz k; linarith)]
    intro i
    have := hz i
    rw [Real.norm_eq_abs, abs_le]; constructor <;> linarith
  have h := newton_remainder x shift scale (Matrix.diagonal z) (Pi.single k (v k)) m a (b - a) hA (fun i hi => by
    have := hx i (by omega)
    rw [Real.norm_eq_abs, abs_le]; constructor <;> linarith)
  have hpre : ∀ j ∈ Finset.range (m + 1), exactDd 0 (m + 1) x shift scale 1 j = lejaCoeffsExp (fun _ => NormedSpace.exp) nL x shift scale 1 j := by
    intro j hj
    rw [exactDd_zero, C44_prefix nL x shift scale 1 (m + 1) j hm (Finset.mem_range.1 hj)]
  have hsing : ∀ j, newtonVec x (Matrix.diagonal z) (Pi.single k (v k)) j = Pi.single k (newtonVec x (Matrix.diagonal z) v j k) := by
    intro j
    rw [newtonVec_diag, newtonVec_diag]
    funext i
    by_cases hik : i = k
    · subst hik; simp
    · simp [Pi.single_eq_of_ne hik]
  rw [hsing, Pi.norm_single, hD, Matrix.exp_diagonal] at h
  have h2 := (norm_le_pi_norm _ k).trans h
  rw [hD, Matrix.exp_diagonal, abs_sub_comm]
  have e : ((Matrix.diagonal (NormedSpace.exp fun k => shift + scale * z k)) *ᵥ Pi.single k (v k)
        - ∑ j ∈ Finset.range (m + 1), exactDd 0 (m + 1) x shift scale 1 j • newtonVec x (Matrix.diagonal z) (Pi.single k (v k)) j) k
      = ((Matrix.diagonal (NormedSpace.exp fun k => shift + scale * z k)) *ᵥ v) k
        - (∑ j ∈ Finset.range (m + 1), lejaCoeffsExp (fun _ => NormedSpace.exp) nL x shift scale 1 j • newtonVec x (Matrix.diagonal z) v j) k := by
    rw [Pi.sub_apply, Finset.sum_apply, Finset.sum_apply, Matrix.mulVec_diagonal, Matrix.mulVec_diagonal]
    congr 1
    · simp
    · refine Finset.sum_congr rfl fun j hj => ?_
      rw [hpre j hj, hsing]
      simp
  rw [e] at h2
  refine h2.trans (le_of_eq ?_)
  rw [← Real.exp_eq_exp_ℝ, Real.norm_of_nonneg (Real.exp_pos _).le, Real.norm_of_nonneg hs.le, Real.norm_eq_abs]
  have : Real.exp b = Real.exp a * Real.exp (b - a) := by rw [← Real.exp_add]; congr 1; ring
  rw [this]
  ring

/-- **C98, what holds.** For a symmetric operator whose quadratic form `v · dt A v` lies between `a |v|^2` and `b |v|^2`, nodes in
`[a, b]`, exact divided differences and a tolerance at most two: if `real_leja_expmv` reports convergence after `i` terms then
`|p - exp(dt A) u| ≤ ((b - a) e^(b-a) / i) tol |u|` in the Euclidean norm.  (The documentation promises `tol`.) -/
theorem C98_symmetric_partial (A : LinOp n) (M : Mat n) (hA : IsMatrix A M) (dt : ℝ) (u : Vec n) (shift scale : ℝ) (hs : 0 < scale)
    (hM : Mᵀ = M) (a b : ℝ) (hab : ∀ v : Vec n, a * (v ⬝ᵥ v) ≤ v ⬝ᵥ ((dt • M) *ᵥ v) ∧ v ⬝ᵥ ((dt • M) *ᵥ v) ≤ b * (v ⬝ᵥ v))
    (nLeja : ℕ) (hn : 2 ≤ nLeja) (x : ℕ → ℝ) (hx : ∀ i < nLeja, a ≤ shift + scale * x i ∧ shift + scale * x i ≤ b)
    (tol abortTol : ℝ) (ht : 0 < tol) (ht2 : tol ≤ 2) :
    let r := realLejaExpmv A dt u shift scale nLeja x (lejaCoeffsExp (fun _ => NormedSpace.exp) nLeja x shift scale 1) tol abortTol
    r.conv → norm2 (r.pm - NormedSpace.exp (dt • M) *ᵥ u) ≤ (b - a) * Real.exp (b - a) / r.i * tol * norm2 u := by
  intro r hconv
  set c := lejaCoeffsExp (fun _ => NormedSpace.exp) nLeja x shift scale (1 : ℝ) with hc
  obtain ⟨h1, h2, h3, _⟩ := C46_newton A M hA dt u shift scale hs.ne' nLeja x c tol abortTol
  rw [newtonPoly_mulVec] at h1
  have h1' : r.pm = ∑ j ∈ Finset.range r.i, c j • newtonVec x (scaledMat M dt shift scale) u j := h1
  by_cases hu : u = 0
  · have e0 : ∀ j, newtonVec x (scaledMat M dt shift scale) u j = 0 := by
      intro j
      rw [hu]
      unfold newtonVec
      exact Matrix.mulVec_zero _
    rw [h1', Finset.sum_eq_zero fun j _ => by rw [e0, smul_zero], hu, Matrix.mulVec_zero, sub_zero, norm2_zero, mul_zero]
  obtain ⟨hi2, hlast⟩ := last_term A M hA dt u hu shift scale hs.ne' nLeja x c tol abortTol ht ht2 hconv
  have hiL : r.i ≤ nLeja := h3.trans (by omega)
  change 2 ≤ r.i at hi2
  change |c (r.i - 1)| * norm2 (newtonVec x (scaledMat M dt shift scale) u (r.i - 1)) < tol * norm2 u at hlast
  obtain ⟨m, hm⟩ : ∃ m, r.i = m + 1 := ⟨r.i - 1, by omega⟩
  rw [hm] at h1' hlast hiL ⊢
  rw [Nat.add_sub_cancel] at hlast
  obtain ⟨U, d, hU, hS, hd⟩ := symm_diag (dt • M) (by rw [Matrix.transpose_smul, hM]) a b hab
  have hU' : U * Uᵀ = 1 := mul_eq_one_comm.mp hU
  set z : Fin n → ℝ := fun k => (d k - shift) / scale with hzd
  have hzs : ∀ k, shift + scale * z k = d k := fun k => by rw [hzd]; field_simp; ring
  have hD : shift • (1 : Mat n) + scale • Matrix.diagonal z = Matrix.diagonal d := by
    rw [← Matrix.diagonal_one, ← Matrix.diagonal_smul, ← Matrix.diagonal_smul, Matrix.diagonal_add]
    congr 1; funext k; simpa using hzs k
  have hZ : scaledMat M dt shift scale = U * Matrix.diagonal z * Uᵀ := by
    have : Matrix.diagonal z = scale⁻¹ • (Matrix.diagonal d - shift • (1 : Mat n)) := by
      rw [← hD, add_sub_cancel_left, smul_smul, inv_mul_cancel₀ hs.ne', one_smul]
    rw [this, scaledMat, hS, Matrix.mul_smul, Matrix.smul_mul, Matrix.mul_sub, Matrix.sub_mul, Matrix.mul_smul, Matrix.smul_mul,
      Matrix.mul_one, hU']
  have hexp : NormedSpace.exp (dt • M) = U * NormedSpace.exp (Matrix.diagonal d) * Uᵀ := by
    have hinv : U⁻¹ = Uᵀ := Matrix.inv_eq_left_inv hU
    have hun : IsUnit U := IsUnit.of_mul_eq_one _ hU'
    rw [hS, ← hinv, Matrix.exp_conj U _ hun]
  set v := Uᵀ *ᵥ u with hv
  have hnv : ∀ j, newtonVec x (scaledMat M dt shift scale) u j = U *ᵥ newtonVec x (Matrix.diagonal z) v j := fun j => by
    rw [hZ, newtonVec_conj x U _ hU]
  have herr : r.pm - NormedSpace.exp (dt • M) *ᵥ u
      = U *ᵥ (∑ j ∈ Finset.range (m + 1), c j • newtonVec x (Matrix.diagonal z) v j
        - NormedSpace.exp (shift • (1 : Mat n) + scale • Matrix.diagonal z) *ᵥ v) := by
    rw [h1', hexp, Matrix.mulVec_sub, Matrix.mulVec_sum, hD, ← Matrix.mulVec_mulVec, ← Matrix.mulVec_mulVec]
    congr 1
    refine Finset.sum_congr rfl fun j _ => ?_
    rw [hnv, Matrix.mulVec_smul]
  rw [hnv, norm2_isometry hU] at hlast
  rw [herr, norm2_isometry hU]
  have hb0 : 0 ≤ b - a := by have := hx 0 (by omega); linarith
  have hent : ∀ k, |(∑ j ∈ Finset.range (m + 1), c j • newtonVec x (Matrix.diagonal z) v j
        - NormedSpace.exp (shift • (1 : Mat n) + scale • Matrix.diagonal z) *ᵥ v) k|
      ≤ Real.exp b * (scale ^ (m + 1) / (Nat.factorial (m + 1) : ℝ)) * ((b - a) / scale) * |newtonVec x (Matrix.diagonal z) v m k| := by
    intro k
    rw [Pi.sub_apply]
    refine (diag_error x shift scale a b hs nLeja m hiL hx z (fun k => by rw [hzs]; exact hd k) v k).trans ?_
    rw [mul_assoc _ ((b - a) / scale)]
    refine mul_le_mul_of_nonneg_left ?_ (by positivity)
    rw [newtonVec_diag, newtonVec_diag]
    simp only
    rw [Finset.prod_range_succ, mul_right_comm, abs_mul, mul_comm]
    refine mul_le_mul_of_nonneg_right ?_ (abs_nonneg _)
    rw [le_div_iff₀ hs]
    have e : |z k - x m| * scale = |d k - (shift + scale * x m)| := by
      rw [← hzs k, ← abs_of_pos hs, ← abs_mul, abs_of_pos hs]
      congr 1; ring
    rw [e, abs_le]
    have h4 := hd k
    have h5 := hx m (by omega)
    constructor <;> linarith
  refine (norm2_le_of_abs_le _ _ _ (by positivity) hent).trans ?_
  have hlow := coeff_lower nLeja x shift scale a hs.le (fun i hi => (hx i hi).1) m (by omega)
  set N := norm2 (newtonVec x (Matrix.diagonal z) v m)
  have hN : 0 ≤ N := norm2_nonneg _
  have hlow2 : Real.exp a * (scale ^ m / (Nat.factorial m : ℝ)) * N ≤ tol * norm2 u :=
    (mul_le_mul_of_nonneg_right (hlow.trans (le_abs_self _)) hN).trans hlast.le
  have e : Real.exp b * (scale ^ (m + 1) / (Nat.factorial (m + 1) : ℝ)) * ((b - a) / scale) * N
      = (b - a) * Real.exp (b - a) / ((m + 1 : ℕ) : ℝ) * (Real.exp a * (scale ^ m / (Nat.factorial m : ℝ)) * N) := by
    rw [show Real.exp b = Real.exp a * Real.exp (b - a) by rw [← Real.exp_add]; congr 1; ring, Nat.factorial_succ, pow_succ]
    push_cast
    field_simp
  rw [e, mul_assoc _ tol]
  exact mul_le_mul_of_nonneg_left hlow2 (by positivity)

end Ormatex.Props
