import Verif.Props.DivDiff
import Verif.Props.Arnoldi
import Verif.Spec.Exact
import Verif.Model.Leja

/-!
C46, C47: the Leja evaluations compute the Newton polynomial.
-/

namespace Ormatex.Props
open Matrix Polynomial Ormatex.Spec
open scoped Classical

section
variable {n : ℕ}

theorem newtonPoly_mulVec {K : Type*} [RCLike K] (x a : ℕ → K) (A : Matrix (Fin n) (Fin n) K) (u : Fin n → K) (m : ℕ) :
    aeval A (newtonPoly x a m) *ᵥ u = ∑ j ∈ Finset.range m, a j • newtonVec x A u j := by
  unfold newtonPoly newtonVec
  rw [map_sum, Matrix.sum_mulVec]
  refine Finset.sum_congr rfl fun j _ => ?_
  rw [← smul_eq_C_mul, map_smul, Matrix.smul_mulVec]

/-- the matrix at which the Newton polynomial in the unscaled nodes is evaluated: `(dt A - shift)/scale` -/
noncomputable def scaledMat (M : Mat n) (dt shift scale : ℝ) : Mat n := scale⁻¹ • (dt • M - shift • 1)

theorem scaled_step {A : LinOp n} {M : Mat n} (hA : IsMatrix A M) (dt shift scale xi : ℝ) (hs : scale ≠ 0) (v : Vec n) :
    (fun j => (dt * A.matvec v j - (shift + scale * xi) * v j) / scale)
      = scaledMat M dt shift scale *ᵥ v - xi • v := by
  funext j
  rw [hA v, scaledMat, Matrix.smul_mulVec, Matrix.sub_mulVec, Matrix.smul_mulVec, Matrix.smul_mulVec, Matrix.one_mulVec]
  simp only [Pi.sub_apply, Pi.smul_apply, smul_eq_mul]
  field_simp
  ring

/-- an invariant of the body holds at the end of the `while_loop` -/
theorem lejaLoop_invariant {cond : LejaState n → Prop} {body : LejaState n → LejaState n} (P : LejaState n → Prop)
    (hstep : ∀ s, P s → cond s → P (body s)) : ∀ (f : ℕ) (s : LejaState n), P s → P (lejaLoop cond body f s) := by
  intro f
  induction f with
  | zero => intro s hs; exact hs
  | succ f ih =>
    intro s hs
    unfold lejaLoop
    split
    · rename_i hc
      exact ih _ (hstep s hs hc)
    · exact hs

/-- **C46.**  `real_leja_expmv` with any coefficients, nodes, tolerances and a nonzero scale returns, after `i` iterations, the
Newton polynomial with the first `i` coefficients at `(dt A - shift)/scale` applied to `u`; the number of iterations is
between `1` and `max(1, n_leja - 1)`; a true flag means that the error estimate is below `tol * |u|`, or `u = 0`. -/
theorem C46_newton (A : LinOp n) (M : Mat n) (hA : IsMatrix A M) (dt : ℝ) (u : Vec n) (shift scale : ℝ) (hs : scale ≠ 0)
    (nLeja : ℕ) (x coeffs : ℕ → ℝ) (tol abortTol : ℝ) :
    let r := realLejaExpmv A dt u shift scale nLeja x coeffs tol abortTol
    r.pm = aeval (scaledMat M dt shift scale) (newtonPoly x coeffs r.i) *ᵥ u ∧
      1 ≤ r.i ∧ r.i ≤ max 1 (nLeja - 1) ∧ (r.conv → r.err < tol * norm2 u ∨ u = 0) := by
  intro r
  have h := lejaLoop_invariant (cond := lejaCond nLeja abortTol (norm2 u))
    (body := realLejaBody A dt (norm2 u) scale tol (fun i => shift + scale * x i) coeffs)
    (fun s => 1 ≤ s.i ∧ s.i ≤ max 1 (nLeja - 1) ∧ s.vm = newtonVec x (scaledMat M dt shift scale) u (s.i - 1) ∧
      s.pm = ∑ j ∈ Finset.range s.i, coeffs j • newtonVec x (scaledMat M dt shift scale) u j ∧
      (s.conv → s.err < tol * norm2 u ∨ u = 0)) ?_ nLeja
    { i := 1, vm := u, pm := coeffs 0 • u, err := 2 * norm2 u, conv := norm2 u = 0 } ?_
  · obtain ⟨h1, h2, _, h4, h5⟩ := h
    refine ⟨?_, h1, h2, h5⟩
    rw [newtonPoly_mulVec]
    exact h4
  · rintro s ⟨h1, h2, h3, h4, _⟩ hc
    have hvm : (realLejaBody A dt (norm2 u) scale tol (fun i => shift + scale * x i) coeffs s).vm
        = newtonVec x (scaledMat M dt shift scale) u s.i := by
      show (fun j => (dt * A.matvec s.vm j - (shift + scale * x (s.i - 1)) * s.vm j) / scale) = _
      rw [scaled_step hA dt shift scale _ hs, h3, ← newtonVec_succ, Nat.sub_add_cancel h1]
    refine ⟨by simp [realLejaBody], ?_, ?_, ?_, ?_⟩
    · have := hc.1
      show s.i + 1 ≤ _
      omega
    · rw [hvm]; rfl
    · show s.pm + coeffs s.i • (realLejaBody A dt (norm2 u) scale tol (fun i => shift + scale * x i) coeffs s).vm = _
      rw [hvm, h4]
      exact (Finset.sum_range_succ (fun j => coeffs j • newtonVec x (scaledMat M dt shift scale) u j) s.i).symm
    · intro h
      exact Or.inl h.2
  · refine ⟨le_rfl, le_max_left _ _, ?_, ?_, ?_⟩
    · exact (newtonVec_zero _ _ _).symm
    · simp [newtonVec_zero]
    · intro h
      exact Or.inr (norm2_eq_zero.1 h)

/-- once a Newton vector vanishes, all later ones do -/
theorem newtonVec_zero_of_le {K : Type*} [RCLike K] (x : ℕ → K) (A : Matrix (Fin n) (Fin n) K) (u : Fin n → K) {k j : ℕ}
    (h : newtonVec x A u k = 0) (hj : k ≤ j) : newtonVec x A u j = 0 := by
  induction j, hj using Nat.le_induction with
  | base => exact h
  | succ j _ ih => rw [newtonVec_succ, ih]; simp

/-- **C46, exactness.**  With coefficients from `leja_coeffs_exp` (exact exponential, substep `h = 1`) the result is exactly
`exp(dt A) u` as soon as the iteration has passed nodes that annihilate `u`. -/
theorem C46_exact (A : LinOp n) (M : Mat n) (hA : IsMatrix A M) (dt : ℝ) (u : Vec n) (shift scale : ℝ) (hs : scale ≠ 0)
    (nLeja : ℕ) (x : ℕ → ℝ) (tol abortTol : ℝ) (k : ℕ)
    (hk : aeval (scaledMat M dt shift scale) (newtonBasis x k) *ᵥ u = 0)
    (hik : k ≤ (realLejaExpmv A dt u shift scale nLeja x (lejaCoeffsExp (fun _ => NormedSpace.exp) nLeja x shift scale 1)
      tol abortTol).i) (hn : 2 ≤ nLeja) :
    (realLejaExpmv A dt u shift scale nLeja x (lejaCoeffsExp (fun _ => NormedSpace.exp) nLeja x shift scale 1) tol abortTol).pm
      = NormedSpace.exp (dt • M) *ᵥ u := by
  obtain ⟨h1, h2, h3, _⟩ := C46_newton A M hA dt u shift scale hs nLeja x
    (lejaCoeffsExp (fun _ => NormedSpace.exp) nLeja x shift scale 1) tol abortTol
  set r := realLejaExpmv A dt u shift scale nLeja x (lejaCoeffsExp (fun _ => NormedSpace.exp) nLeja x shift scale 1) tol abortTol
  have hr : r.i ≤ nLeja := by omega
  have hz : aeval (scaledMat M dt shift scale) (newtonBasis x r.i) *ᵥ u = 0 := newtonVec_zero_of_le x _ u hk hik
  have key := C44_annihilated r.i (by omega) x shift scale 1 (scaledMat M dt shift scale) u hz
  have e : (1 : ℝ) • (shift • (1 : Mat n) + scale • scaledMat M dt shift scale) = dt • M := by
    rw [scaledMat, smul_smul, mul_inv_cancel₀ hs, one_smul, one_smul]
    abel
  rw [e] at key
  rw [h1, ← key, newtonPoly_mulVec, newtonPoly_mulVec]
  refine Finset.sum_congr rfl fun j hj => ?_
  rw [C44_prefix nLeja x shift scale 1 r.i j hr (Finset.mem_range.1 hj)]

/-! ### conjugate pairs -/

/-- a real matrix or vector seen in `ℂ` -/
noncomputable def toC (Z : Mat n) : Matrix (Fin n) (Fin n) ℂ := Z.map (algebraMap ℝ ℂ)

noncomputable def vecC (v : Vec n) : Fin n → ℂ := fun i => (v i : ℂ)

theorem toC_mulVec (Z : Mat n) (v : Vec n) : toC Z *ᵥ vecC v = vecC (Z *ᵥ v) := by
  funext i
  simp [toC, vecC, Matrix.mulVec, dotProduct]

/-- **Specification.** The node list is `nReal` real points followed by conjugate pairs. -/
structure ConjNodes (x : ℕ → ℂ) (nReal nLeja : ℕ) : Prop where
  real : ∀ i < nReal, (x i).im = 0
  pair : ∀ k, nReal + 2 * k + 1 < nLeja → x (nReal + 2 * k + 1) = (starRingEnd ℂ) (x (nReal + 2 * k))

/-- the coefficient at the first member of each pair is real -/
def PairReal (c : ℕ → ℂ) (nReal nLeja : ℕ) : Prop := ∀ k, nReal + 2 * k + 1 < nLeja → (c (nReal + 2 * k + 1)).im = 0

theorem head_step {A : LinOp n} {M : Mat n} (hA : IsMatrix A M) (dt shift scale : ℝ) (hs : scale ≠ 0) (x : ℂ) (v : Vec n) :
    (fun j => (dt * A.matvec v j - ((shift : ℂ) + (scale : ℂ) * x).re * v j) / scale)
      = scaledMat M dt shift scale *ᵥ v - x.re • v := by
  have : ((shift : ℂ) + (scale : ℂ) * x).re = shift + scale * x.re := by simp
  rw [this]
  exact scaled_step hA dt shift scale _ hs v

theorem vecC_sub (v w : Vec n) : vecC (v - w) = vecC v - vecC w := by funext i; simp [vecC]
theorem vecC_smul (c : ℝ) (v : Vec n) : vecC (c • v) = (c : ℂ) • vecC v := by funext i; simp [vecC]
theorem re_vecC (v : Vec n) : (fun j => (vecC v j).re) = v := by funext i; simp [vecC]

/-- **C47.**  `complex_conj_leja_expmv`, which only does real arithmetic, returns the real part of the complex Newton
polynomial with the first `i` coefficients, for any nodes of the stated structure and any coefficients that are real at the
first member of each pair (as they are for `exp`, `C47_coeffs_real`). -/
theorem C47_newton (A : LinOp n) (M : Mat n) (hA : IsMatrix A M) (dt : ℝ) (u : Vec n) (shift scale : ℝ) (hs : scale ≠ 0)
    (nLeja nReal : ℕ) (hlt : nReal < nLeja) (x coeffs : ℕ → ℂ) (hx : ConjNodes x nReal nLeja) (hc : PairReal coeffs nReal nLeja)
    (tol abortTol : ℝ) :
    let r := complexConjLejaExpmv A dt u shift scale nLeja x nReal coeffs tol abortTol
    r.pm = (fun j => ((aeval (toC (scaledMat M dt shift scale)) (newtonPoly x coeffs r.i) *ᵥ vecC u) j).re) ∧
      nReal + 1 ≤ r.i ∧ r.i ≤ nLeja ∧ (r.conv → r.err < tol * norm2 u ∨ u = 0) := by
  intro r
  set Z := scaledMat M dt shift scale with hZ
  set N : ℕ → Fin n → ℂ := newtonVec x (toC Z) (vecC u) with hN
  have hNs : ∀ j, N (j + 1) = toC Z *ᵥ N j - x j • N j := newtonVec_succ x (toC Z) (vecC u)
  set s0 : LejaState n := { i := 1, vm := u, pm := (coeffs 0).re • u, err := 2 * norm2 u, conv := norm2 u = 0 } with hs0
  set xsc : ℕ → ℂ := fun i => (shift : ℂ) + (scale : ℂ) * x i with hxsc
  -- the head loop
  have hhead : ∀ k ≤ nReal,
      let s := (complexHeadBody A dt scale xsc coeffs)^[k] s0
      s.i = k + 1 ∧ vecC s.vm = N k ∧ s.pm = (fun j => ((∑ l ∈ Finset.range (k + 1), coeffs l • N l) j).re) ∧
      (s.conv → u = 0) := by
    intro k
    induction k with
    | zero =>
      intro _
      refine ⟨rfl, (newtonVec_zero _ _ _).symm, ?_, fun h => norm2_eq_zero.1 h⟩
      funext j
      have : N 0 = vecC u := newtonVec_zero _ _ _
      simp [hs0, this, vecC]
    | succ k ih =>
      intro hk
      obtain ⟨h1, h2, h3, h4⟩ := ih (by omega)
      rw [Function.iterate_succ_apply']
      set s := (complexHeadBody A dt scale xsc coeffs)^[k] s0
      have hvm : vecC (complexHeadBody A dt scale xsc coeffs s).vm = N (k + 1) := by
        show vecC (fun j => (dt * A.matvec s.vm j - (xsc (s.i - 1)).re * s.vm j) / scale) = _
        rw [hxsc, head_step hA dt shift scale hs, vecC_sub, vecC_smul, ← toC_mulVec, h2, h1, Nat.add_sub_cancel, hNs]
        congr 2
        apply Complex.ext
        · simp
        · simp [hx.real k (by omega)]
      refine ⟨?_, hvm, ?_, h4⟩
      · show s.i + 1 = _
        omega
      · show s.pm + (coeffs s.i).re • (complexHeadBody A dt scale xsc coeffs s).vm = _
        funext j
        rw [Finset.sum_range_succ, ← hvm, h1]
        simp only [Pi.add_apply, Complex.add_re, h3, Pi.smul_apply, smul_eq_mul, vecC, Complex.re_mul_ofReal]
  have hne : nReal ≠ nLeja := by omega
  have hr : r = lejaLoop (lejaCond nLeja abortTol (norm2 u)) (complexPairBody A dt (norm2 u) scale tol xsc coeffs) nLeja
      ((complexHeadBody A dt scale xsc coeffs)^[nReal] s0) := by
    show complexConjLejaExpmv A dt u shift scale nLeja x nReal coeffs tol abortTol = _
    unfold complexConjLejaExpmv
    rw [if_neg hne]
  obtain ⟨b1, b2, b3, b4⟩ := hhead nReal le_rfl
  have h := lejaLoop_invariant (cond := lejaCond nLeja abortTol (norm2 u))
    (body := complexPairBody A dt (norm2 u) scale tol xsc coeffs)
    (fun s => (∃ k, s.i = nReal + 2 * k + 1) ∧ s.i ≤ nLeja ∧ vecC s.vm = N (s.i - 1) ∧
      s.pm = (fun j => ((∑ l ∈ Finset.range s.i, coeffs l • N l) j).re) ∧
      (s.conv → s.err < tol * norm2 u ∨ u = 0)) ?_ nLeja _ ⟨⟨0, by rw [b1]⟩, by rw [b1]; omega, by rw [b1]; exact b2,
        by rw [b1]; exact b3, fun h => Or.inr (b4 h)⟩
  · rw [← hr] at h
    obtain ⟨⟨k, h1⟩, h2, _, h4, h5⟩ := h
    refine ⟨?_, by omega, h2, h5⟩
    rw [newtonPoly_mulVec]
    exact h4
  · rintro s ⟨⟨k, h1⟩, h2, h3, h4, _⟩ hcond
    have hlt' : s.i + 1 < nLeja := hcond.1
    have hi1 : s.i - 1 = nReal + 2 * k := by omega
    have hxe : (xsc (s.i - 1)).im / scale = (x (s.i - 1)).im := by
      simp only [hxsc, Complex.add_im, Complex.ofReal_im, Complex.mul_im, Complex.ofReal_re, zero_mul, add_zero, zero_add]
      field_simp
    set a := (x (s.i - 1)).re with ha
    set b := (x (s.i - 1)).im with hb
    have hxab : x (s.i - 1) = (a : ℂ) + (b : ℂ) * Complex.I := (Complex.re_add_im _).symm
    have hxab' : x s.i = (a : ℂ) - (b : ℂ) * Complex.I := by
      have := hx.pair k (by omega)
      rw [← h1, ← hi1] at this
      rw [this, hxab]
      simp
      ring
    set qm : Vec n := fun j => (dt * A.matvec s.vm j - (xsc (s.i - 1)).re * s.vm j) / scale with hqm
    have hq : qm = Z *ᵥ s.vm - a • s.vm := by
      rw [hqm, hxsc, head_step hA dt shift scale hs]
    have hNi : N s.i = vecC qm - ((b : ℂ) * Complex.I) • vecC s.vm := by
      have := hNs (s.i - 1)
      rw [Nat.sub_add_cancel (by omega : 1 ≤ s.i), ← h3, hxab] at this
      rw [this, hq, vecC_sub, vecC_smul, toC_mulVec, add_smul]
      abel
    set vm : Vec n := fun j => (dt * A.matvec qm j - (xsc (s.i - 1)).re * qm j) / scale
        + ((xsc (s.i - 1)).im / scale) ^ 2 * s.vm j with hvm
    have hv : vm = (Z *ᵥ qm - a • qm) + b ^ 2 • s.vm := by
      have e1 := head_step hA dt shift scale hs (x (s.i - 1)) qm
      funext j
      rw [hvm]
      simp only [hxe, Pi.add_apply, Pi.smul_apply, smul_eq_mul]
      congr 1
      exact congrFun e1 j
    have hNi1 : N (s.i + 1) = vecC vm := by
      rw [hNs, hNi, hxab', hv]
      rw [Matrix.mulVec_sub, Matrix.mulVec_smul, toC_mulVec, toC_mulVec]
      have hZq : Z *ᵥ s.vm = qm + a • s.vm := by rw [hq]; abel
      rw [hZq]
      funext j
      simp only [vecC, Pi.sub_apply, Pi.add_apply, Pi.smul_apply, smul_eq_mul]
      push_cast
      linear_combination (-(b : ℂ) ^ 2 * (s.vm j : ℂ)) * Complex.I_sq
    have hci : (coeffs s.i).im = 0 := by
      have := hc k (by omega)
      rwa [← h1] at this
    refine ⟨⟨k + 1, ?_⟩, ?_, ?_, ?_, fun h => Or.inl h.2⟩
    · show s.i + 2 = _
      omega
    · show s.i + 2 ≤ _
      omega
    · show vecC vm = N (s.i + 2 - 1)
      rw [← hNi1]
      congr 1
    · show s.pm + (coeffs s.i).re • qm + (coeffs (s.i + 1)).re • vm = _
      funext j
      show (s.pm + (coeffs s.i).re • qm + (coeffs (s.i + 1)).re • vm) j = ((∑ l ∈ Finset.range (s.i + 2), coeffs l • N l) j).re
      rw [Finset.sum_range_succ, Finset.sum_range_succ, hNi1, hNi]
      simp [h4, vecC, hci]

theorem newtonPoly_topCoeff {K : Type*} [Field K] (x a : ℕ → K) (m : ℕ) : (newtonPoly x a (m + 1)).coeff m = a m := by
  unfold newtonPoly
  rw [Finset.sum_range_succ, coeff_add, coeff_C_mul]
  have h1 : (newtonBasis x m).coeff m = 1 := by
    have := newtonBasis_monic x m
    rw [Monic, leadingCoeff, newtonBasis_natDegree] at this
    exact this
  have h2 : (∑ j ∈ Finset.range m, C (a j) * newtonBasis x j).coeff m = 0 :=
    coeff_eq_zero_of_degree_lt (newtonPoly_degree x a m)
  rw [h1, h2, zero_add, mul_one]

/-- The Lagrange interpolant of conjugation-symmetric data has real coefficients. -/
theorem interpolate_real (m : ℕ) (x y : ℕ → ℂ) (hx : Set.InjOn x (Finset.range m)) (σ : ℕ → ℕ) (hσ : ∀ i < m, σ i < m)
    (hxσ : ∀ i < m, x (σ i) = (starRingEnd ℂ) (x i)) (hyσ : ∀ i < m, y (σ i) = (starRingEnd ℂ) (y i)) (k : ℕ) :
    ((Lagrange.interpolate (Finset.range m) x y).coeff k).im = 0 := by
  set P := Lagrange.interpolate (Finset.range m) x y with hP
  have hmap : P.map (starRingEnd ℂ) = P := by
    refine Lagrange.eq_interpolate_of_eval_eq _ hx ?_ ?_
    · refine (degree_map_le).trans_lt ?_
      exact Lagrange.degree_interpolate_lt y hx
    · intro i hi
      have hi := Finset.mem_range.1 hi
      have e : x i = (starRingEnd ℂ) (x (σ i)) := by rw [hxσ i hi, Complex.conj_conj]
      rw [e, eval_map_apply]
      rw [hP, Lagrange.eval_interpolate_at_node y hx (Finset.mem_range.2 (hσ i hi)), hyσ i hi, Complex.conj_conj]
  have hc := congrArg (fun q => (q.coeff k)) hmap
  simp only [coeff_map] at hc
  exact Complex.conj_eq_iff_im.1 hc

/-- **C47, coefficients.**  For distinct nodes of the stated structure, real shift, scale and substep, the exact divided
differences of `exp` (by `leja_coeffs_exp` or recursively) are real at the first member of each conjugate pair. -/
theorem C47_coeffs_real (x : ℕ → ℂ) (nReal nLeja : ℕ) (hx : ConjNodes x nReal nLeja)
    (hd : Set.InjOn x (Finset.range nLeja)) (shift scale h : ℝ) :
    PairReal (lejaCoeffsExp (fun _ => NormedSpace.exp) nLeja x (shift : ℂ) (scale : ℂ) (h : ℂ)) nReal nLeja := by
  intro k hk
  set i := nReal + 2 * k + 1 with hi
  rw [C44_eq_recursive nLeja x _ _ _ hd i hk, lejaCoeffsExpDd]
  set y : ℕ → ℂ := fun i => NormedSpace.exp ((h : ℂ) * ((shift : ℂ) + (scale : ℂ) * x i)) with hy
  rw [← newtonPoly_topCoeff x (newtonPolyDivDiff nLeja x y) i, C43_prefix nLeja x y hd (i + 1) (by omega)]
  refine interpolate_real (i + 1) x y (hd.mono (by
    intro a ha
    simp only [Finset.coe_range, Set.mem_Iio] at ha ⊢
    omega)) (fun j => if j < nReal then j else if (j - nReal) % 2 = 0 then j + 1 else j - 1) ?_ ?_ ?_ i
  · intro j hj
    show (if j < nReal then j else if (j - nReal) % 2 = 0 then j + 1 else j - 1) < i + 1
    split_ifs <;> omega
  · have hxσ : ∀ j < i + 1, x (if j < nReal then j else if (j - nReal) % 2 = 0 then j + 1 else j - 1) = (starRingEnd ℂ) (x j) := by
      intro j hj
      split_ifs with h1 h2
      · exact (Complex.conj_eq_iff_im.2 (hx.real j h1)).symm
      · have := hx.pair ((j - nReal) / 2) (by omega)
        rw [show nReal + 2 * ((j - nReal) / 2) = j by omega] at this
        exact this
      · have := hx.pair ((j - 1 - nReal) / 2) (by omega)
        rw [show nReal + 2 * ((j - 1 - nReal) / 2) + 1 = j by omega, show nReal + 2 * ((j - 1 - nReal) / 2) = j - 1 by omega] at this
        rw [this, Complex.conj_conj]
    exact hxσ
  · have hxσ : ∀ j < i + 1, x (if j < nReal then j else if (j - nReal) % 2 = 0 then j + 1 else j - 1) = (starRingEnd ℂ) (x j) := by
      intro j hj
      split_ifs with h1 h2
      · exact (Complex.conj_eq_iff_im.2 (hx.real j h1)).symm
      · have := hx.pair ((j - nReal) / 2) (by omega)
        rw [show nReal + 2 * ((j - nReal) / 2) = j by omega] at this
        exact this
      · have := hx.pair ((j - 1 - nReal) / 2) (by omega)
        rw [show nReal + 2 * ((j - 1 - nReal) / 2) + 1 = j by omega, show nReal + 2 * ((j - 1 - nReal) / 2) = j - 1 by omega] at this
        rw [this, Complex.conj_conj]
    intro j hj
    simp only [hy, hxσ j hj]
    rw [← Complex.exp_eq_exp_ℂ, ← Complex.exp_conj]
    congr 1
    simp

attribute [local instance] Matrix.linftyOpNormedRing Matrix.linftyOpNormedAlgebra in
theorem exp_toC (Z : Mat n) : toC (NormedSpace.exp Z) = NormedSpace.exp (toC Z) := by
  have hcont : Continuous (fun M : Mat n => M.map (algebraMap ℝ ℂ)) :=
    continuous_matrix fun i j => Complex.continuous_ofReal.comp (continuous_apply_apply i j)
  exact NormedSpace.map_exp ((algebraMap ℝ ℂ).mapMatrix : Mat n →+* Matrix (Fin n) (Fin n) ℂ) hcont Z

/-- **C47, exactness.**  With distinct nodes of the stated structure and the exact divided differences of `exp`, the (real)
result is exactly `exp(dt A) u` as soon as the iteration has passed nodes that annihilate `u`. -/
theorem C47_exact (A : LinOp n) (M : Mat n) (hA : IsMatrix A M) (dt : ℝ) (u : Vec n) (shift scale : ℝ) (hs : scale ≠ 0)
    (nLeja nReal : ℕ) (hlt : nReal < nLeja) (x : ℕ → ℂ) (hx : ConjNodes x nReal nLeja)
    (hd : Set.InjOn x (Finset.range nLeja)) (tol abortTol : ℝ) (k : ℕ)
    (hk : aeval (toC (scaledMat M dt shift scale)) (newtonBasis x k) *ᵥ vecC u = 0)
    (hik : k ≤ (complexConjLejaExpmv A dt u shift scale nLeja x nReal
      (lejaCoeffsExp (fun _ => NormedSpace.exp) nLeja x (shift : ℂ) (scale : ℂ) ((1 : ℝ) : ℂ)) tol abortTol).i) :
    (complexConjLejaExpmv A dt u shift scale nLeja x nReal
      (lejaCoeffsExp (fun _ => NormedSpace.exp) nLeja x (shift : ℂ) (scale : ℂ) ((1 : ℝ) : ℂ)) tol abortTol).pm
      = NormedSpace.exp (dt • M) *ᵥ u := by
  obtain ⟨h1, h2, h3, _⟩ := C47_newton A M hA dt u shift scale hs nLeja nReal hlt x
    (lejaCoeffsExp (fun _ => NormedSpace.exp) nLeja x (shift : ℂ) (scale : ℂ) ((1 : ℝ) : ℂ)) hx
    (C47_coeffs_real x nReal nLeja hx hd shift scale 1) tol abortTol
  set r := complexConjLejaExpmv A dt u shift scale nLeja x nReal
      (lejaCoeffsExp (fun _ => NormedSpace.exp) nLeja x (shift : ℂ) (scale : ℂ) ((1 : ℝ) : ℂ)) tol abortTol
  have hz : aeval (toC (scaledMat M dt shift scale)) (newtonBasis x r.i) *ᵥ vecC u = 0 := newtonVec_zero_of_le x _ _ hk hik
  have key := C44_annihilated r.i (by omega) x (shift : ℂ) (scale : ℂ) ((1 : ℝ) : ℂ) (toC (scaledMat M dt shift scale)) (vecC u) hz
  have e : ((1 : ℝ) : ℂ) • ((shift : ℂ) • (1 : Matrix (Fin n) (Fin n) ℂ) + (scale : ℂ) • toC (scaledMat M dt shift scale))
      = toC (dt • M) := by
    have hsC : (scale : ℂ) ≠ 0 := by exact_mod_cast hs
    ext i j
    simp only [toC, scaledMat, Matrix.smul_apply, Matrix.add_apply, Matrix.map_apply, Matrix.sub_apply, smul_eq_mul,
      Complex.coe_algebraMap, Complex.ofReal_mul, Complex.ofReal_sub, Complex.ofReal_inv, Complex.ofReal_one, one_mul]
    rw [Matrix.one_apply, Matrix.one_apply]
    split_ifs <;> field_simp <;> simp
  rw [e, ← exp_toC, toC_mulVec] at key
  rw [h1, ← re_vecC (NormedSpace.exp (dt • M) *ᵥ u), ← key, newtonPoly_mulVec, newtonPoly_mulVec]
  have hsum : ∑ j ∈ Finset.range r.i, lejaCoeffsExp (fun _ => NormedSpace.exp) nLeja x (shift : ℂ) (scale : ℂ) ((1 : ℝ) : ℂ) j
        • newtonVec x (toC (scaledMat M dt shift scale)) (vecC u) j
      = ∑ j ∈ Finset.range r.i, lejaCoeffsExp (fun _ => NormedSpace.exp) r.i x (shift : ℂ) (scale : ℂ) ((1 : ℝ) : ℂ) j
        • newtonVec x (toC (scaledMat M dt shift scale)) (vecC u) j :=
    Finset.sum_congr rfl fun j hj => by rw [C44_prefix nLeja x _ _ _ r.i j h3 (Finset.mem_range.1 hj)]
  rw [hsum]

/-- The hypotheses of C47 are met by the nodes `1, -1, i, -i`. -/
example : ∃ x : ℕ → ℂ, ConjNodes x 2 4 ∧ Set.InjOn x (Finset.range 4) ∧ (x 2).im ≠ 0 := by
  refine ⟨fun i => if i = 0 then 1 else if i = 1 then -1 else if i = 2 then Complex.I else -Complex.I, ⟨?_, ?_⟩, ?_, ?_⟩
  · intro i hi
    interval_cases i <;> simp
  · intro k hk
    obtain rfl : k = 0 := by omega
    simp
  · intro i hi j hj h
    simp only [Finset.coe_range, Set.mem_Iio] at hi hj
    interval_cases i <;> interval_cases j <;> simp_all [Complex.ext_iff] <;> norm_num at h
  · simp

end
end Ormatex.Props
