import Verif.Props.RsCauchy
import Verif.Props.CramRun

/-!
C102: accuracy of the crate's CRAM evaluator (`gen_cram_expm(16)`), the default dense kernel of its exponential integrators.
-/

namespace Ormatex.Props
open Matrix Ormatex.Spec Ormatex.Rs Ormatex.Props.Cert
open scoped Classical

variable {N : ℕ}

/-- The crate's table is the Python table `cram_16`: digit for digit, in the same order. -/
theorem C102_same_table : genCram 16 = Cauchy.new pfd_cram_16.poles pfd_cram_16.coeffs (pfd_cram_16.c0 : ℂ) := by
  simp only [genCram, pfd_cram_16, c64]
  rfl

/-- The bounds for the crate's evaluator: `exp`, `phi_1`, `phi_2`. -/
noncomputable def rsCramTol (l : ℕ) : ℝ := if l = 0 then 4.01e-16 else if l = 1 then 4.1e-14 else 8.1e-13

/-- the value: the Python product, plus `c0 v` for `l ≥ 1` -/
theorem rsCram_value {c : Cauchy} (hc : genCram 16 = .ok c) (a : Mat N) (dt : ℝ) (v : Vec N) (l : ℕ) (sp : Option (Split ℕ))
    (hsp : ValidSplit 8 sp) :
    c.phikApply a dt v l sp = .ok (fPhiKPfd pfd_cram_16 (dt • a) v l + if l = 0 then 0 else pfd_cram_16.c0 • v) := by
  rw [C102_same_table] at hc
  have := C82_value _ _ _ c hc (by simp [pfd_cram_16]) a dt v l sp (by simpa [pfd_cram_16] using hsp)
  rw [this, Complex.ofReal_re]

/-- **C102.** For every `a = V diag(d) V^{-1}` with `dt d ≤ 0`, of any size, every vector and every parallel schedule: the crate's CRAM
evaluator returns `phi_l(dt a) v` (`l ≤ 2`) up to an error that in eigenvector coordinates is at most `rsCramTol l` times the coordinate of `v`. -/
theorem C102_accuracy {c : Cauchy} (hc : genCram 16 = .ok c) (V W : Mat N) (d : Fin N → ℝ) (hWV : W * V = 1) (dt : ℝ)
    (hd : ∀ i, dt * d i ≤ 0) (v : Vec N) (l : ℕ) (hl : l ≤ 2) (sp : Option (Split ℕ)) (hsp : ValidSplit 8 sp) :
    ∃ (x : Vec N) (e : Fin N → ℝ), c.phikApply (V * diagonal d * W) dt v l sp = .ok x ∧ (∀ i, |e i| ≤ rsCramTol l) ∧
      x = phiM l (dt • (V * diagonal d * W)) *ᵥ v + V *ᵥ fun i => e i * (W *ᵥ v) i := by
  have hVW : V * W = 1 := mul_eq_one_comm.mp hWV
  have hr : (⟨"cram_16", 4.01e-16, 4.01e-14, 8.01e-13⟩ : CramRow) ∈ cramBounds := by simp [cramBounds]
  have ht : pfdDict "cram_16" = .ok pfd_cram_16 := by simp [pfdDict]
  obtain ⟨e, h1, h2⟩ := C99_accuracy hr ht V W (fun i => dt * d i) hWV hd v l hl
  rw [← smul_diag] at h2
  refine ⟨_, fun i => e i + if l = 0 then 0 else pfd_cram_16.c0, rsCram_value hc _ dt v l sp hsp, fun i => ?_, ?_⟩
  · have h3 := h1 i
    obtain rfl | rfl | rfl : l = 0 ∨ l = 1 ∨ l = 2 := by omega
    · simpa [rsCramTol, CramRow.tol] using h3
    · refine (abs_add_le _ _).trans ?_
      simp only [CramRow.tol, one_ne_zero, if_false, if_true] at h3
      simp only [rsCramTol, one_ne_zero, if_false, if_true, pfd_cram_16]
      have h4 : |(2.1248537104952237488e-16 : ℝ)| ≤ 3e-16 := by rw [abs_of_pos (by norm_num)]; norm_num
      have h5 : (4.01e-14 : ℝ) + 3e-16 ≤ 4.1e-14 := by norm_num
      linarith
    · refine (abs_add_le _ _).trans ?_
      simp only [CramRow.tol, OfNat.ofNat_ne_zero, OfNat.ofNat_ne_one, if_false] at h3
      simp only [rsCramTol, OfNat.ofNat_ne_zero, OfNat.ofNat_ne_one, if_false, pfd_cram_16]
      have h4 : |(2.1248537104952237488e-16 : ℝ)| ≤ 3e-16 := by rw [abs_of_pos (by norm_num)]; norm_num
      have h5 : (8.01e-13 : ℝ) + 3e-16 ≤ 8.1e-13 := by norm_num
      linarith
  · rw [h2, add_assoc]
    congr 1
    have e1 : (fun i => (e i + if l = 0 then 0 else pfd_cram_16.c0) * (W *ᵥ v) i)
        = (fun i => e i * (W *ᵥ v) i) + (if l = 0 then 0 else pfd_cram_16.c0) • (W *ᵥ v) := by
      funext i; simp only [Pi.add_apply, Pi.smul_apply, smul_eq_mul]; ring
    rw [e1, Matrix.mulVec_add, Matrix.mulVec_smul, Matrix.mulVec_mulVec, hVW, Matrix.one_mulVec]
    congr 1
    split_ifs <;> simp

theorem rsCramTol_nonneg (l : ℕ) : 0 ≤ rsCramTol l := by unfold rsCramTol; split_ifs <;> norm_num

/-- **C102, symmetric.** For a symmetric negative semidefinite `a` and `dt ≥ 0` the Euclidean error is at most `rsCramTol l ‖v‖`, for
`phik_dense_apply_cauchy`; the same for `matexp_dense_apply_cauchy` with `l = 0`. -/
theorem C102_symmetric {c : Cauchy} (hc : genCram 16 = .ok c) (a : Mat N) (ha : aᵀ = a) (hneg : ∀ v : Vec N, v ⬝ᵥ (a *ᵥ v) ≤ 0) (dt : ℝ)
    (hdt : 0 ≤ dt) (v : Vec N) (l : ℕ) (hl : l ≤ 2) (sp : Option (Split ℕ)) (hsp : ValidSplit 8 sp) :
    (∃ x, c.phikApply a dt v l sp = .ok x ∧ norm2 (x - phiM l (dt • a) *ᵥ v) ≤ rsCramTol l * norm2 v) ∧
    (∃ x, c.expApply a dt v sp = .ok x ∧ norm2 (x - NormedSpace.exp (dt • a) *ᵥ v) ≤ 4.01e-16 * norm2 v) := by
  have key : ∀ l ≤ 2, ∃ x, c.phikApply a dt v l sp = .ok x ∧ norm2 (x - phiM l (dt • a) *ᵥ v) ≤ rsCramTol l * norm2 v := by
    intro l hl
    obtain ⟨U, d, hU, hS, hd⟩ := symm_nonpos a ha hneg
    obtain ⟨x, e, h0, h1, h2⟩ := C102_accuracy hc U Uᵀ d hU dt (fun i => mul_nonpos_of_nonneg_of_nonpos hdt (hd i)) v l hl sp hsp
    rw [← hS] at h0 h2
    refine ⟨x, h0, ?_⟩
    rw [h2, add_sub_cancel_left, norm2_isometry hU]
    have hU' : Uᵀᵀ * Uᵀ = 1 := by rw [Matrix.transpose_transpose]; exact mul_eq_one_comm.mp hU
    rw [← norm2_isometry hU' v]
    refine norm2_le_of_abs_le _ _ _ (rsCramTol_nonneg l) fun i => ?_
    rw [abs_mul]
    exact mul_le_mul_of_nonneg_right (h1 i) (abs_nonneg _)
  refine ⟨key l hl, ?_⟩
  obtain ⟨x, h1, h2⟩ := key 0 (by omega)
  refine ⟨x, (C82_exp c a dt v sp).1.trans h1, ?_⟩
  rw [phiM_zero] at h2
  simpa [rsCramTol] using h2

/-- non-vacuity: the evaluator exists, a schedule exists, and the operator `[[-2, 1], [1, -2]]` qualifies -/
example : (∃ c, genCram 16 = .ok c) ∧ ValidSplit 8 (some (.node (.node (.node (.leaf 0) (.leaf 1)) (.node (.leaf 2) (.leaf 3))) (.node (.node (.leaf 4) (.leaf 5)) (.node (.leaf 6) (.leaf 7))))) ∧
    (!![-2, 1; 1, -2] : Mat 2)ᵀ = !![-2, 1; 1, -2] ∧ ∀ v : Vec 2, v ⬝ᵥ ((!![-2, 1; 1, -2] : Mat 2) *ᵥ v) ≤ 0 := by
  refine ⟨⟨_, rfl⟩, ?_, ?_, ?_⟩
  · exact List.Perm.refl _
  · ext i j; fin_cases i <;> fin_cases j <;> rfl
  · intro v
    simp only [Matrix.mulVec, dotProduct, Fin.sum_univ_two, Matrix.of_apply, Matrix.cons_val_zero, Matrix.cons_val_one]
    nlinarith [sq_nonneg (v 0 - v 1), sq_nonneg (v 0), sq_nonneg (v 1)]

end Ormatex.Props
