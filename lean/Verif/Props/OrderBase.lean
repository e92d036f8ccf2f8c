import Verif.Props.Steps
import Verif.Props.PhiAcc
import Mathlib.Analysis.Calculus.MeanValue
import Mathlib.Analysis.Calculus.ContDiff.RCLike
import Mathlib.Analysis.Calculus.ContDiff.Operations
import Mathlib.Analysis.Calculus.IteratedDeriv.Defs

/-!
Asymptotic tools for the order theorems (C37, C38, C66): boundedness of phi functions, an integrating lemma, Taylor
expansion with `O` remainder, and smoothness of solutions.
-/

namespace Ormatex.Props
open Matrix Ormatex.Spec Filter Asymptotics Topology

section
variable {n : ℕ}

section norm
open scoped Matrix.Norms.Operator

theorem phi_bound (k : ℕ) (A : Mat n) (v : Vec n) : ‖phiM k A *ᵥ v‖ ≤ Real.exp ‖A‖ * ‖v‖ := by
  refine (Matrix.linfty_opNorm_mulVec _ _).trans (mul_le_mul_of_nonneg_right ?_ (norm_nonneg _))
  have h := phi_norm_summable k A
  have h2 : ‖phiM k A‖ ≤ ∑' j : ℕ, ‖((Nat.factorial (j + k) : ℝ)⁻¹) • A ^ j‖ := norm_tsum_le_tsum_norm h
  refine h2.trans ?_
  rw [Real.exp_eq_exp_ℝ, NormedSpace.exp_eq_tsum_div]
  refine h.tsum_le_tsum (fun j => ?_) (Real.summable_pow_div_factorial _)
  rw [norm_smul, norm_inv, Real.norm_natCast, div_eq_inv_mul]
  rcases Nat.eq_zero_or_pos j with rfl | hj
  · have h1 : ‖A ^ 0‖ ≤ 1 := by
      rw [pow_zero]
      rcases isEmpty_or_nonempty (Fin n) with hn | hn
      · have : (1 : Mat n) = 0 := Subsingleton.elim _ _
        rw [this, norm_zero]; exact zero_le_one
      · exact (norm_one (α := Mat n)).le
    rw [pow_zero]
    refine mul_le_mul ?_ (by simpa using h1) (norm_nonneg _) (by positivity)
    exact inv_anti₀ (by positivity) (by exact_mod_cast Nat.factorial_le (by omega))
  · refine mul_le_mul ?_ (norm_pow_le' _ hj) (norm_nonneg _) (by positivity)
    exact inv_anti₀ (by positivity) (by exact_mod_cast Nat.factorial_le (by omega))

/-- phi functions of `c h J` are bounded near `h = 0` -/
theorem phi_isBigO {E : Type*} [Norm E] (k : ℕ) (J : Mat n) (c : ℝ) {v : ℝ → Vec n} {g : ℝ → E}
    (hv : v =O[𝓝 0] g) : (fun h : ℝ => phiM k ((c * h) • J) *ᵥ v h) =O[𝓝 0] g := by
  refine IsBigO.trans ?_ hv
  refine IsBigO.of_bound (Real.exp (|c| * ‖J‖)) ?_
  have : ∀ᶠ h : ℝ in 𝓝 0, |h| ≤ 1 := by
    filter_upwards [Metric.closedBall_mem_nhds (0 : ℝ) one_pos] with h hh
    simpa using hh
  filter_upwards [this] with h hh
  refine (phi_bound k _ _).trans (mul_le_mul_of_nonneg_right (Real.exp_le_exp.2 ?_) (norm_nonneg _))
  refine (norm_smul_le _ _).trans ?_
  refine mul_le_mul_of_nonneg_right ?_ (norm_nonneg _)
  rw [Real.norm_eq_abs, abs_mul]
  exact mul_le_of_le_one_right (abs_nonneg _) hh

theorem mulVec_isBigO {E : Type*} [Norm E] {l : Filter ℝ} (J : Mat n) {v : ℝ → Vec n} {g : ℝ → E} (hv : v =O[l] g) :
    (fun h : ℝ => J *ᵥ v h) =O[l] g := by
  refine IsBigO.trans ?_ hv
  exact IsBigO.of_bound ‖J‖ (Eventually.of_forall fun h => Matrix.linfty_opNorm_mulVec _ _)

end norm

theorem phi_isBigO' {E : Type*} [Norm E] (k : ℕ) (J : Mat n) {v : ℝ → Vec n} {g : ℝ → E}
    (hv : v =O[𝓝 0] g) : (fun h : ℝ => phiM k (h • J) *ᵥ v h) =O[𝓝 0] g := by
  simpa using phi_isBigO k J 1 hv

/-- `phi_k(c h J) v = v/k! + O(h v)` -/
theorem phi_sub_isBigO (k : ℕ) (J : Mat n) (c : ℝ) {v : ℝ → Vec n} {g : ℝ → ℝ}
    (hv : v =O[𝓝 0] g) :
    (fun h : ℝ => phiM k ((c * h) • J) *ᵥ v h - ((Nat.factorial k : ℝ)⁻¹) • v h) =O[𝓝 0] (fun h => h * g h) := by
  have e : (fun h : ℝ => phiM k ((c * h) • J) *ᵥ v h - ((Nat.factorial k : ℝ)⁻¹) • v h)
      = fun h => (c * h) • (J *ᵥ (phiM (k + 1) ((c * h) • J) *ᵥ v h)) := by
    funext h
    have := phiM_recurrence k ((c * h) • J)
    have h2 := congrArg (fun M => M *ᵥ v h) this
    simp only [Matrix.sub_mulVec, Matrix.smul_mulVec, Matrix.one_mulVec] at h2
    rw [← h2, ← Matrix.mulVec_mulVec, Matrix.smul_mulVec]
  rw [e]
  have h1 : (fun h : ℝ => c * h) =O[𝓝 0] (fun h => h) := (isBigO_refl _ _).const_mul_left c
  exact h1.smul (mulVec_isBigO J (phi_isBigO (k + 1) J c hv))

theorem phi_sub_isBigO' (k : ℕ) (J : Mat n) {v : ℝ → Vec n} {g : ℝ → ℝ}
    (hv : v =O[𝓝 0] g) :
    (fun h : ℝ => phiM k (h • J) *ᵥ v h - ((Nat.factorial k : ℝ)⁻¹) • v h) =O[𝓝 0] (fun h => h * g h) := by
  simpa using phi_sub_isBigO k J 1 hv

/-! ### integrating an `O` -/

section
variable {E : Type*} [NormedAddCommGroup E] [NormedSpace ℝ E]

theorem int_isBigO {D D' : ℝ → E} {k : ℕ} (h0 : D 0 = 0) (hd : ∀ᶠ s in 𝓝 (0 : ℝ), HasDerivAt D (D' s) s)
    (hO : D' =O[𝓝 0] fun s => s ^ k) : D =O[𝓝 0] fun s => s ^ (k + 1) := by
  obtain ⟨C, hC⟩ := hO.bound
  obtain ⟨ε, hε, hb⟩ := Metric.eventually_nhds_iff_ball.1 (hd.and hC)
  refine IsBigO.of_bound C ?_
  filter_upwards [Metric.ball_mem_nhds (0 : ℝ) hε] with h hh
  have hh' : |h| < ε := by simpa using hh
  have hsub : ∀ x ∈ Set.uIcc (0 : ℝ) h, |x| ≤ |h| := by
    intro x hx
    rcases Set.mem_uIcc.1 hx with ⟨h1, h2⟩ | ⟨h1, h2⟩
    · rw [abs_of_nonneg h1, abs_of_nonneg (h1.trans h2)]; exact h2
    · rw [abs_of_nonpos h2, abs_of_nonpos (h1.trans h2)]; linarith
  have hC0 : 0 ≤ C ∨ h = 0 := by
    by_cases hz : h = 0
    · exact Or.inr hz
    · left
      have := (hb h hh).2
      have hp : 0 < ‖h ^ k‖ := by rw [norm_pos_iff]; exact pow_ne_zero _ hz
      by_contra hneg
      have := (norm_nonneg (D' h)).trans this
      have : C * ‖h ^ k‖ < 0 := mul_neg_of_neg_of_pos (not_le.1 hneg) hp
      linarith
  rcases hC0 with hC0 | rfl
  · have := (convex_uIcc (0 : ℝ) h).norm_image_sub_le_of_norm_hasDerivWithin_le (f := D) (f' := D') (C := C * |h| ^ k)
      (fun x hx => ((hb x (by rw [Metric.mem_ball, dist_zero_right, Real.norm_eq_abs]; exact (hsub x hx).trans_lt hh')).1).hasDerivWithinAt)
      (fun x hx => by
        refine ((hb x (by rw [Metric.mem_ball, dist_zero_right, Real.norm_eq_abs]; exact (hsub x hx).trans_lt hh')).2).trans ?_
        rw [norm_pow, Real.norm_eq_abs]
        exact mul_le_mul_of_nonneg_left (pow_le_pow_left₀ (abs_nonneg _) (hsub x hx) k) hC0)
      Set.left_mem_uIcc Set.right_mem_uIcc
    rw [h0, sub_zero, sub_zero, Real.norm_eq_abs] at this
    rw [norm_pow, Real.norm_eq_abs, pow_succ, ← mul_assoc]
    exact this
  · rw [h0]; simp

/-- Taylor expansion with `O` remainder -/
theorem taylor_isBigO (m : ℕ) : ∀ g : ℝ → E, ContDiffAt ℝ m g 0 →
    (fun s => g s - ∑ i ∈ Finset.range m, s ^ i • (((Nat.factorial i : ℝ)⁻¹) • iteratedDeriv i g 0)) =O[𝓝 0] fun s => s ^ m := by
  induction m with
  | zero =>
    intro g hg
    simp only [Finset.range_zero, Finset.sum_empty, sub_zero, pow_zero]
    exact hg.continuousAt.isBigO_one ℝ
  | succ m ih =>
    intro g hg
    have hev : ∀ᶠ s in 𝓝 (0 : ℝ), ContDiffAt ℝ (m + 1 : ℕ) g s := hg.eventually (by simp)
    have hd : ContDiffAt ℝ m (deriv g) 0 := by
      have := hg.fderiv_right (m := m) (by norm_cast)
      have h2 : deriv g = fun s => fderiv ℝ g s 1 := by funext s; exact (fderiv_apply_one_eq_deriv).symm
      rw [h2]
      exact this.clm_apply contDiffAt_const
    have hI := ih (deriv g) hd
    refine int_isBigO (D' := fun s => deriv g s - ∑ i ∈ Finset.range m, s ^ i • (((Nat.factorial i : ℝ)⁻¹) • iteratedDeriv i (deriv g) 0)) ?_ ?_ hI
    · rw [Finset.sum_range_succ']
      simp
    · filter_upwards [hev] with s hs
      have hgd : HasDerivAt g (deriv g s) s := (hs.differentiableAt (by simp)).hasDerivAt
      have hsum : HasDerivAt (fun s : ℝ => ∑ i ∈ Finset.range (m + 1), s ^ i • (((Nat.factorial i : ℝ)⁻¹) • iteratedDeriv i g 0))
          (∑ i ∈ Finset.range m, s ^ i • (((Nat.factorial i : ℝ)⁻¹) • iteratedDeriv i (deriv g) 0)) s := by
        have hf : (fun s : ℝ => ∑ i ∈ Finset.range (m + 1), s ^ i • (((Nat.factorial i : ℝ)⁻¹) • iteratedDeriv i g 0))
            = fun s => (∑ i ∈ Finset.range m, s ^ (i + 1) • (((Nat.factorial (i + 1) : ℝ)⁻¹) • iteratedDeriv (i + 1) g 0))
              + iteratedDeriv 0 g 0 := by
          funext s
          rw [Finset.sum_range_succ']
          simp
        rw [hf]
        refine HasDerivAt.add_const _ ?_
        refine HasDerivAt.fun_sum fun i _ => ?_
        refine ((hasDerivAt_pow (i + 1) s).smul_const _).congr_deriv ?_
        rw [← iteratedDeriv_succ', smul_smul, smul_smul, Nat.factorial_succ]
        congr 1
        have : ((i : ℝ) + 1) ≠ 0 := by positivity
        push_cast
        field_simp
      exact hgd.sub hsum

end

/-- **integrating lemma**: a defect `O(s^k)` in `D' = J D + r`, `D(0) = 0`, gives `D = O(s^(k+1))` -/
theorem defect_isBigO (J : Mat n) {D r : ℝ → Vec n} {k : ℕ} (h0 : D 0 = 0)
    (hd : ∀ᶠ s in 𝓝 (0 : ℝ), HasDerivAt D (J *ᵥ D s + r s) s) (hr : r =O[𝓝 0] fun s => s ^ k) :
    D =O[𝓝 0] fun s => s ^ (k + 1) := by
  set u : ℝ → Vec n := fun s => phiM 0 (s • (-J)) *ᵥ D s with hu
  have hud : ∀ᶠ s in 𝓝 (0 : ℝ), HasDerivAt u (phiM 0 ((1 * s) • (-J)) *ᵥ r s) s := by
    filter_upwards [hd] with s hs
    have h := hasDerivAt_mulVec (hasDerivAt_phiM_zero (-J) s) hs
    refine h.congr_deriv ?_
    have hc := phiM_commute 0 (s • (-J)) (-J) (by rw [Matrix.mul_smul, Matrix.smul_mul])
    rw [hc, Matrix.mulVec_add, Matrix.mulVec_mulVec, Matrix.mul_neg, Matrix.neg_mulVec, one_mul]
    abel
  have h1 : u =O[𝓝 0] fun s => s ^ (k + 1) := int_isBigO (by simp [hu, h0]) hud (phi_isBigO 0 (-J) 1 hr)
  have h2 : D = fun s => phiM 0 ((1 * s) • J) *ᵥ u s := by
    funext s
    rw [hu]
    simp only [phiM_zero, one_mul, smul_neg]
    rw [Matrix.mulVec_mulVec, ← Matrix.exp_add_of_commute _ _ ((Commute.refl (s • J)).neg_right), add_neg_cancel,
      NormedSpace.exp_zero, Matrix.one_mulVec]
  rw [h2]
  exact phi_isBigO 0 J 1 h1

/-! ### smooth problems -/

/-- `Y` solves `y' = f(t, y)` near `t`, and `f` is `C^m` at `(t, Y t)`. -/
structure SmoothIVP (f : ℝ → Vec n → Vec n) (m : ℕ) (t : ℝ) (Y : ℝ → Vec n) : Prop where
  smooth : ContDiffAt ℝ m (fun p : ℝ × Vec n => f p.1 p.2) (t, Y t)
  sol : ∀ᶠ s in 𝓝 t, HasDerivAt Y (f s (Y s)) s

theorem SmoothIVP.mono {f : ℝ → Vec n → Vec n} {m m' : ℕ} {t : ℝ} {Y : ℝ → Vec n} (h : SmoothIVP f m t Y) (hm : m' ≤ m) :
    SmoothIVP f m' t Y := ⟨h.smooth.of_le (by exact_mod_cast hm), h.sol⟩

theorem SmoothIVP.contDiff {f : ℝ → Vec n → Vec n} {m : ℕ} {t : ℝ} {Y : ℝ → Vec n} (h : SmoothIVP f m t Y) :
    ContDiffAt ℝ (m + 1 : ℕ) Y t := by
  have key : ∀ k ≤ m + 1, ContDiffAt ℝ (k : ℕ) Y t := by
    intro k
    induction k with
    | zero =>
      intro _
      obtain ⟨u, hu, hs⟩ := h.sol.exists_mem
      refine contDiffAt_zero.2 ⟨u, hu, fun x hx => (hs x hx).continuousAt.continuousWithinAt⟩
    | succ k ih =>
      intro hk
      have hY := ih (by omega)
      have hF : ContDiffAt ℝ (k : ℕ) (fun s => f s (Y s)) t := by
        have h1 : ContDiffAt ℝ (k : ℕ) (fun p : ℝ × Vec n => f p.1 p.2) (t, Y t) :=
          h.smooth.of_le (by exact_mod_cast (by omega : k ≤ m))
        exact h1.comp t (contDiffAt_id.prodMk hY)
      refine (contDiffAt_succ_iff_hasFDerivAt (n := k)).2
        ⟨fun s => ContinuousLinearMap.toSpanSingleton ℝ (f s (Y s)), ?_, ?_⟩
      · obtain ⟨u, hu, hs⟩ := h.sol.exists_mem
        exact ⟨u, hu, fun x hx => (hs x hx).hasFDerivAt⟩
      · exact (ContinuousLinearMap.toSpanSingletonCLE (𝕜 := ℝ) (E := Vec n)).contDiff.contDiffAt.comp t hF
  exact key (m + 1) le_rfl

/-- the operator handed out by `fjac` at `(t, y)` carries the exact derivatives of `f` there: `J = f_y`, `fdt = f_t` -/
structure ExactJac (j : SysJac n) (f : ℝ → Vec n → Vec n) (t : ℝ) (y : Vec n) (J : Mat n) : Prop where
  deriv : ∀ τ v, fderiv ℝ (fun p : ℝ × Vec n => f p.1 p.2) (t, y) (τ, v) = τ • j.fdt + J *ᵥ v
  mat : IsMatrix j.toLinOp J
  dense : j.dense = .ok J
  rhs : j.frhsCached = f t y

/-- The default autodiff Jacobian is of this kind, for every right-hand side. -/
theorem exactJac_autodiff (f : ℝ → Vec n → Vec n) (t : ℝ) (y : Vec n) : ∃ J, ExactJac (adJac f t y) f t y J := by
  set D := fderiv ℝ (fun p : ℝ × Vec n => f p.1 p.2) (t, y) with hD
  let L : Vec n →ₗ[ℝ] Vec n := D.toLinearMap.comp (LinearMap.inr ℝ ℝ (Vec n))
  have hL : ∀ v, LinearMap.toMatrix' L *ᵥ v = D (0, v) := fun v => by
    rw [LinearMap.toMatrix'_mulVec]; rfl
  refine ⟨LinearMap.toMatrix' L, ⟨?_, ?_, ?_, rfl⟩⟩
  · intro τ v
    show D (τ, v) = τ • D (1, 0) + _
    rw [hL, ← map_smul, ← map_add]
    congr 1
    simp
  · intro v
    exact (hL v).symm
  · show Except.ok _ = _
    congr 1

end
end Ormatex.Props
