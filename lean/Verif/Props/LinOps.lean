import Verif.Spec.Exact
import Mathlib.Analysis.Calculus.Deriv.Comp
import Mathlib.Analysis.Calculus.Deriv.Prod
import Mathlib.Analysis.Calculus.Deriv.Add
import Mathlib.Analysis.Calculus.Deriv.Mul
import Mathlib.Analysis.Calculus.Deriv.Slope

/-! Linear operators: C13 - C17. -/

namespace Ormatex.Props
open Ormatex Matrix Spec

variable {n : ℕ}

/-! ### C13 -/

/-- `dense()` returns a matrix, and `matvec` (hence calling the operator) multiplies by it. -/
def MatvecIsDense (A : LinOp n) : Prop := ∃ D, A.dense = .ok D ∧ ∀ v, A.matvec v = D *ᵥ v ∧ A.call v = D *ᵥ v

theorem adJac_matvec_linear (f : ℝ → Vec n → Vec n) (t : ℝ) (u : Vec n) :
    ∀ v, (adJac f t u).matvec v = (Matrix.of fun i j => (adJac f t u).matvec (Pi.single j 1) i) *ᵥ v := by
  intro v
  set L := fderiv ℝ (fun p : ℝ × Vec n => f p.1 p.2) (t, u)
  show L (0, v) = _
  have hv : ((0 : ℝ), v) = ∑ j, v j • ((0 : ℝ), (Pi.single j (1 : ℝ) : Vec n)) := by
    ext i
    · simp [Prod.fst_sum]
    · simp [Prod.snd_sum, Finset.sum_apply, Pi.single_apply]
  rw [hv, map_sum]
  ext i
  simp only [Finset.sum_apply, map_smul, Pi.smul_apply, smul_eq_mul, Matrix.mulVec, dotProduct, Matrix.of_apply]
  refine Finset.sum_congr rfl fun j _ => ?_
  rw [mul_comm]
  rfl

/-- **C13.** The identity, diagonal, matrix, custom-Jacobian and autodiff-Jacobian operators multiply by their dense
form, for every dimension and vector; so does any operator built by the checked `MatrixLinOp` constructor, which refuses
non-square arrays. -/
theorem C13_matvec_dense (d : Vec n) (a : Mat n) (f : ℝ → Vec n → Vec n) (t eps : ℝ) (u : Vec n) (fDt : Option (Vec n)) :
    MatvecIsDense (eyeLinOp n) ∧ MatvecIsDense (diagLinOp d) ∧ MatvecIsDense (matrixLinOp a) ∧
      MatvecIsDense (customJac f t u a fDt eps).toLinOp ∧ MatvecIsDense (adJac f t u).toLinOp := by
  refine ⟨⟨1, rfl, fun v => ?_⟩, ⟨_, rfl, fun v => ?_⟩, ⟨a, rfl, fun v => ⟨rfl, rfl⟩⟩, ⟨a, rfl, fun v => ⟨rfl, rfl⟩⟩,
    ⟨_, rfl, fun v => ?_⟩⟩
  · exact ⟨(Matrix.one_mulVec v).symm, (Matrix.one_mulVec v).symm⟩
  · have : d * v = Matrix.diagonal d *ᵥ v := by ext i; simp [Matrix.mulVec_diagonal]
    exact ⟨this, this⟩
  · exact ⟨adJac_matvec_linear f t u v, adJac_matvec_linear f t u v⟩

/-- **C13, the meaning of the first three**: identity, entrywise product, matrix product. -/
theorem C13_values (d v : Vec n) (a : Mat n) (i : Fin n) :
    (eyeLinOp n).matvec v i = v i ∧ (diagLinOp d).matvec v i = d i * v i ∧
      (matrixLinOp a).matvec v i = ∑ j, a i j * v j := ⟨rfl, rfl, rfl⟩

/-- **C13, constructor check.** -/
theorem C13_square_only {r c : ℕ} (a : Matrix (Fin r) (Fin c) ℝ) :
    (∃ A, matrixLinOpCtor a = .ok A) ↔ r = c := by
  unfold matrixLinOpCtor
  split
  · rename_i h; exact ⟨fun _ => h, fun _ => ⟨_, rfl⟩⟩
  · rename_i h; exact ⟨fun ⟨A, hA⟩ => (by cases hA), fun h' => (h h').elim⟩

/-! ### C14 -/

/-- **C14.** The augmented operator multiplies a stacked vector `[w; z]` by the block matrix `[[dt*A, B], [0, K]]`. -/
theorem C14_block {p : ℕ} (A : LinOp n) (M : Mat n) (hA : IsMatrix A M) (dt : ℝ) (B : Matrix (Fin n) (Fin p) ℝ)
    (K : Matrix (Fin p) (Fin p) ℝ) :
    ∃ op, augMatrixLinOp A dt B K = .ok op ∧
      (∀ (w : Vec n) (z : Vec p), op.matvec (Fin.append w z) = Fin.append (dt • (M *ᵥ w) + B *ᵥ z) (K *ᵥ z)) ∧
      IsMatrix op ((Matrix.fromBlocks (dt • M) B 0 K).submatrix finSumFinEquiv.symm finSumFinEquiv.symm) := by
  have hK : K.submatrix (Fin.cast rfl) (Fin.cast rfl) = K := by ext; rfl
  refine ⟨augMatvec A dt B K, ?_, ?_, ?_⟩
  · unfold augMatrixLinOp
    rw [dif_pos ⟨rfl, rfl⟩]
    rw [hK]
  · intro w z
    have h1 : headN (Fin.append w z) = w := by ext i; simp [headN]
    have h2 : tailP (Fin.append w z) = z := by ext i; simp [tailP]
    simp only [augMatvec, LinOp.call, h1, h2, hA w, concat]
  · intro v
    have hv : v = Fin.append (headN v) (tailP v) := by
      ext i
      refine Fin.addCases (fun i => ?_) (fun i => ?_) i <;> simp [headN, tailP]
    have hs : v ∘ finSumFinEquiv = Sum.elim (headN v) (tailP v) := by
      ext i
      rcases i with i | i <;> simp [headN, tailP]
    rw [← Matrix.reindex_apply, Matrix.reindex_apply, Matrix.submatrix_mulVec_equiv]
    simp only [Equiv.symm_symm]
    rw [hs, Matrix.fromBlocks_mulVec]
    ext i
    refine Fin.addCases (fun i => ?_) (fun i => ?_) i
    · simp [augMatvec, concat, LinOp.call, hA (headN v), Matrix.smul_mulVec]
    · simp [augMatvec, concat]

/-- **C14, refusal.** Exactly the shapes with `B.shape[1] = K.shape[0] = K.shape[1]` are accepted; otherwise
`AssertionError`. -/
theorem C14_refused {p r c : ℕ} (A : LinOp n) (dt : ℝ) (B : Matrix (Fin n) (Fin p) ℝ) (K : Matrix (Fin r) (Fin c) ℝ) :
    ((∃ op, augMatrixLinOp A dt B K = .ok op) ↔ p = r ∧ p = c) ∧
      (¬ (p = r ∧ p = c) → augMatrixLinOp A dt B K = .error .assertion) := by
  unfold augMatrixLinOp
  split
  · rename_i h; exact ⟨⟨fun _ => h, fun _ => ⟨_, rfl⟩⟩, fun h' => (h' h).elim⟩
  · rename_i h; exact ⟨⟨fun ⟨A, hA⟩ => (by cases hA), fun h' => (h h').elim⟩, fun _ => rfl⟩

/-! ### C15 -/

theorem norm1_pos {u : Vec n} (hu : u ≠ 0) : (∑ i, |u i|) ≠ 0 := by
  intro h
  refine hu (funext fun i => ?_)
  have := (Finset.sum_eq_zero_iff_of_nonneg (fun i _ => abs_nonneg (u i))).1 h i (Finset.mem_univ i)
  simpa using this

/-- **C15.** For a right-hand side affine in the state, the finite-difference operator is exactly
`scale * J v + gamma * v`, for every nonzero base state and `eps ≠ 0`. -/
theorem C15_affine (A : Mat n) (b : ℝ → Vec n) (t : ℝ) (u v : Vec n) (hu : u ≠ 0) (scale gamma eps : ℝ) (he : eps ≠ 0) :
    (fdJac (fun t y => A *ᵥ y + b t) t u scale gamma eps).matvec v = scale • (A *ᵥ v) + gamma • v := by
  have h1 := norm1_pos hu
  ext i
  simp only [fdJac, Matrix.mulVec_add, Matrix.mulVec_smul, Pi.add_apply, Pi.sub_apply, Pi.smul_apply, smul_eq_mul]
  field_simp
  ring

/-- **C15, exact error for quadratic right-hand sides**: if `f(u + h v) = f(u) + h Jv + h² Q` along the direction, the
operator returns `scale*(Jv + eps*|u|_1*Q) + gamma*v`. -/
theorem C15_quadratic (f : ℝ → Vec n → Vec n) (t : ℝ) (u v Jv Q : Vec n) (hu : u ≠ 0) (scale gamma eps : ℝ)
    (he : eps ≠ 0) (hf : ∀ h : ℝ, f t (u + h • v) = f t u + h • Jv + h ^ 2 • Q) :
    (fdJac f t u scale gamma eps).matvec v = scale • (Jv + (eps * ∑ i, |u i|) • Q) + gamma • v := by
  have h1 := norm1_pos hu
  ext i
  simp only [fdJac, hf, Pi.add_apply, Pi.sub_apply, Pi.smul_apply, smul_eq_mul]
  field_simp
  ring

/-- **C15, convergence**: for every right-hand side differentiable at the base state the operator tends to
`scale * Df(u) v + gamma * v` as `eps → 0`. -/
theorem C15_tendsto (f : ℝ → Vec n → Vec n) (t : ℝ) (u v : Vec n) (hu : u ≠ 0) (scale gamma : ℝ) (J : Vec n →L[ℝ] Vec n)
    (hf : HasFDerivAt (f t) J u) :
    Filter.Tendsto (fun eps => (fdJac f t u scale gamma eps).matvec v) (nhdsWithin 0 {0}ᶜ)
      (nhds (scale • J v + gamma • v)) := by
  have h1 := norm1_pos hu
  set c := ∑ i, |u i| with hc
  have hd : HasDerivAt (fun h : ℝ => f t (u + h • v)) (J v) 0 := by
    have hl : HasDerivAt (fun h : ℝ => u + h • v) v 0 := by
      simpa using ((hasDerivAt_id (0 : ℝ)).smul_const v).const_add u
    have hf' : HasFDerivAt (f t) J (u + (0 : ℝ) • v) := by simpa using hf
    exact hf'.comp_hasDerivAt (0 : ℝ) hl
  have hs := hasDerivAt_iff_tendsto_slope_zero.1 hd
  have hcomp : Filter.Tendsto (fun eps : ℝ => eps * c) (nhdsWithin 0 {0}ᶜ) (nhdsWithin 0 {0}ᶜ) := by
    refine tendsto_nhdsWithin_of_tendsto_nhds_of_eventually_within _ ?_ ?_
    · have : Filter.Tendsto (fun eps : ℝ => eps * c) (nhds 0) (nhds (0 * c)) := (continuous_id.mul continuous_const).tendsto 0
      rw [zero_mul] at this
      exact this.mono_left nhdsWithin_le_nhds
    · filter_upwards [self_mem_nhdsWithin] with eps he
      exact mul_ne_zero he h1
  have := ((hs.comp hcomp).const_smul scale).add_const (gamma • v)
  refine this.congr' ?_
  filter_upwards [self_mem_nhdsWithin] with eps he
  have he : eps ≠ 0 := he
  ext i
  simp only [fdJac, Function.comp, zero_add, zero_smul, add_zero, Pi.add_apply, Pi.smul_apply, Pi.sub_apply, smul_eq_mul,
    ← hc]
  field_simp

/-- **C15, zero base state**: the increment `eps*|u|_1` that the operator divides by is zero exactly when the base state is
(for `eps ≠ 0`), and then the result carries no information about the right-hand side: the difference of the two
right-hand-side values is zero for every `f`.  (Real division by zero is 0 in Lean; in floating point the code's
`0 * (scale/0)` is `nan`.) -/
theorem C15_zero_base (u : Vec n) (eps : ℝ) (he : eps ≠ 0) :
    (eps * ∑ i, |u i| = 0 ↔ u = 0) ∧
      ∀ (f : ℝ → Vec n → Vec n) (t scale gamma : ℝ) (v : Vec n), (fdJac f t 0 scale gamma eps).matvec v = gamma • v := by
  refine ⟨⟨?_, ?_⟩, ?_⟩
  · intro h
    by_contra hu
    exact (mul_ne_zero he (norm1_pos hu)) h
  · rintro rfl; simp
  · intro f t scale gamma v
    ext i
    simp [fdJac]

/-- **C15, time derivative** of the finite-difference operator: exact for right-hand sides affine in `t`. -/
theorem C15_fdt (g : Vec n → Vec n) (c : Vec n) (t : ℝ) (u : Vec n) (scale gamma eps : ℝ) (he : eps ≠ 0) :
    (fdJac (fun t y => g y + t • c) t u scale gamma eps).fdt = c ∧
      (fdJac (fun t y => g y + t • c) t u scale gamma eps).frhsCached = g u + t • c := by
  refine ⟨?_, rfl⟩
  ext i
  simp only [fdJac, Pi.add_apply, Pi.smul_apply, smul_eq_mul]
  field_simp
  ring

example : (fun _ : Fin 2 => (1 : ℝ)) ≠ 0 := by
  intro h
  have := congrFun h 0
  norm_num at this

/-! ### C16 -/

/-- **C16.** With a supplied time derivative, `fdt` is that vector; without one it is a difference quotient, which is exact
when the right-hand side is affine in `t`; the cached right-hand side is `frhs(t, u)` in both modes; the operator is
the supplied matrix. -/
theorem C16_custom (f : ℝ → Vec n → Vec n) (t : ℝ) (u : Vec n) (fDu : Mat n) (eps : ℝ) (he : eps ≠ 0) :
    (∀ d, (customJac f t u fDu (some d) eps).fdt = d) ∧
    (∀ (g : Vec n → Vec n) (c : Vec n), f = (fun t y => g y + t • c) → (customJac f t u fDu none eps).fdt = c) ∧
    (∀ fDt, (customJac f t u fDu fDt eps).frhsCached = f t u) ∧
    (∀ fDt v, (customJac f t u fDu fDt eps).matvec v = fDu *ᵥ v) := by
  refine ⟨fun d => rfl, ?_, ?_, fun _ _ => rfl⟩
  · rintro g c rfl
    ext i
    simp only [customJac, Pi.add_apply, Pi.smul_apply, smul_eq_mul]
    field_simp
    ring
  · intro fDt
    cases fDt <;> rfl

/-- **C16, convergence of the difference quotient** for right-hand sides differentiable in `t`. -/
theorem C16_tendsto (f : ℝ → Vec n → Vec n) (t : ℝ) (u : Vec n) (fDu : Mat n) (d : Vec n)
    (hf : HasDerivAt (fun s => f s u) d t) :
    Filter.Tendsto (fun eps => (customJac f t u fDu none eps).fdt) (nhdsWithin 0 {0}ᶜ) (nhds d) := by
  refine (hasDerivAt_iff_tendsto_slope_zero.1 hf).congr' ?_
  filter_upwards [self_mem_nhdsWithin] with eps he
  ext i
  simp only [customJac, Pi.smul_apply, Pi.sub_apply, smul_eq_mul]
  field_simp

/-! ### C17 -/

/-- **C17.** For a right-hand side differentiable at `(t, u)`, the autodiff operator applied to `v` is the directional
derivative, its time derivative the partial derivative in `t`, its cached right-hand side `frhs(t, u)`; column `j` of
`dense()` is the operator applied to the `j`-th unit vector; the operator is linear. -/
theorem C17_autodiff (f : ℝ → Vec n → Vec n) (t : ℝ) (u : Vec n)
    (hf : DifferentiableAt ℝ (fun p : ℝ × Vec n => f p.1 p.2) (t, u)) :
    (∀ v, HasDerivAt (fun s : ℝ => f t (u + s • v)) ((adJac f t u).matvec v) 0) ∧
    HasDerivAt (fun s => f s u) (adJac f t u).fdt t ∧
    (adJac f t u).frhsCached = f t u ∧
    (∃ D, (adJac f t u).dense = .ok D ∧ ∀ i j, D i j = (adJac f t u).matvec (Pi.single j 1) i) ∧
    (∀ (a : ℝ) (v w : Vec n), (adJac f t u).matvec (a • v + w) = a • (adJac f t u).matvec v + (adJac f t u).matvec w) := by
  have hF := hf.hasFDerivAt
  refine ⟨fun v => ?_, ?_, rfl, ⟨_, rfl, fun _ _ => rfl⟩, ?_⟩
  · have hl : HasDerivAt (fun s : ℝ => (t, u + s • v)) ((0 : ℝ), v) 0 := by
      refine (hasDerivAt_const _ _).prodMk ?_
      simpa using ((hasDerivAt_id (0 : ℝ)).smul_const v).const_add u
    have hF' : HasFDerivAt (fun p : ℝ × Vec n => f p.1 p.2) (fderiv ℝ (fun p : ℝ × Vec n => f p.1 p.2) (t, u))
        (t, u + (0 : ℝ) • v) := by simpa using hF
    exact hF'.comp_hasDerivAt (0 : ℝ) hl
  · have hl : HasDerivAt (fun s : ℝ => (s, u)) ((1 : ℝ), (0 : Vec n)) t :=
      (hasDerivAt_id t).prodMk (hasDerivAt_const _ _)
    exact hF.comp_hasDerivAt t hl
  · intro a v w
    have : ((0 : ℝ), a • v + w) = a • ((0 : ℝ), v) + ((0 : ℝ), w) := by simp
    show fderiv ℝ _ (t, u) (0, a • v + w) = _
    rw [this, map_add, map_smul]
    rfl

/-- **C17 and C16 agree**: on an affine right-hand side `A y + t c + b` the autodiff operator is the matrix `A`. -/
theorem C17_affine (A : Mat n) (b c : Vec n) (t : ℝ) (u : Vec n) :
    IsMatrix (adJac (fun t y => A *ᵥ y + t • c + b) t u).toLinOp A ∧
      (adJac (fun t y => A *ᵥ y + t • c + b) t u).fdt = c := by
  have hA : HasFDerivAt (fun p : ℝ × Vec n => A *ᵥ p.2 + p.1 • c + b)
      (((Matrix.mulVecLin A).toContinuousLinearMap.comp (ContinuousLinearMap.snd ℝ ℝ (Vec n))) +
        (ContinuousLinearMap.fst ℝ ℝ (Vec n)).smulRight c) (t, u) := by
    refine HasFDerivAt.add_const b ?_
    refine HasFDerivAt.add ?_ ?_
    · exact ((Matrix.mulVecLin A).toContinuousLinearMap.comp (ContinuousLinearMap.snd ℝ ℝ (Vec n))).hasFDerivAt
    · exact ((ContinuousLinearMap.fst ℝ ℝ (Vec n)).smulRight c).hasFDerivAt
  constructor
  · intro v
    show fderiv ℝ _ (t, u) (0, v) = _
    rw [hA.fderiv]
    simp
  · show fderiv ℝ _ (t, u) (1, 0) = _
    rw [hA.fderiv]
    simp

/-- Non-vacuity of C17: the quadratic system `y' = t y²` is differentiable everywhere. -/
example (t : ℝ) (u : Vec 1) : DifferentiableAt ℝ (fun p : ℝ × Vec 1 => (fun i => p.1 * p.2 i ^ 2 : Vec 1)) (t, u) := by
  fun_prop

end Ormatex.Props
