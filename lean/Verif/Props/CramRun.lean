import Verif.Props.PfdAcc
import Verif.Props.ConvergeRun

/-!
C99, C100: accuracy of `f_phi_k_pfd` with the CRAM tables on operators with real nonpositive spectrum, and of the integrators that
use it.
-/

namespace Ormatex.Props
open Matrix Ormatex.Spec Ormatex.Props.Cert
open scoped Classical

/-! ### specification -/

/-- **Specification.** Accuracy promised for a table: error of the exponential, of `phi_1` and of `phi_2` on `(-∞, 0]`. -/
structure CramRow where
  method : String
  e0 : ℝ
  e1 : ℝ
  e2 : ℝ

/-- the bound for `phi_k`, `k ≤ 2` -/
noncomputable def CramRow.tol (r : CramRow) (k : ℕ) : ℝ := if k = 0 then r.e0 else if k = 1 then r.e1 else r.e2

/-- **Specification.** The bounds of the eight CRAM tables. -/
noncomputable def cramBounds : List CramRow := [
  ⟨"cram_2", 0.00801, 0.1601, 0.6001⟩,
  ⟨"cram_4", 0.000101, 0.00401, 0.02501⟩,
  ⟨"cram_6", 1.21e-6, 6.01e-5, 6.01e-4⟩,
  ⟨"cram_8", 1.41e-8, 1.01e-6, 1.21e-5⟩,
  ⟨"cram_10", 1.61e-10, 1.51e-8, 2.01e-7⟩,
  ⟨"cram_12", 2.01e-12, 2.01e-10, 3.51e-9⟩,
  ⟨"cram_14", 6.01e-14, 3.01e-12, 5.01e-11⟩,
  ⟨"cram_16", 4.01e-16, 4.01e-14, 8.01e-13⟩]

theorem row_of {tab : Pfd} {e0 e1 e2 : ℝ} {m : String}
    (h : (∀ x ≤ 0, |pfdScalar tab 0 x - phi 0 x| ≤ e0) ∧ (∀ x ≤ 0, |pfdScalar tab 1 x - phi 1 x| ≤ e1) ∧
      ∀ x ≤ 0, |pfdScalar tab 2 x - phi 2 x| ≤ e2) (k : ℕ) (hk : k ≤ 2) (x : ℝ) (hx : x ≤ 0) :
    |pfdScalar tab k x - phi k x| ≤ (CramRow.mk m e0 e1 e2).tol k := by
  obtain rfl | rfl | rfl : k = 0 ∨ k = 1 ∨ k = 2 := by omega
  · exact h.1 x hx
  · exact h.2.1 x hx
  · exact h.2.2 x hx

theorem cram_rows : ∀ r ∈ cramBounds, ∃ tab, pfdDict r.method = .ok tab ∧ NonReal tab ∧
    ∀ k ≤ 2, ∀ x ≤ 0, |pfdScalar tab k x - phi k x| ≤ r.tol k := by
  intro r hr
  simp only [cramBounds, List.mem_cons, List.not_mem_nil, or_false] at hr
  rcases hr with rfl | rfl | rfl | rfl | rfl | rfl | rfl | rfl
  · refine ⟨pfd_cram_2, by simp [pfdDict], cram2_nonReal, ?_⟩
    exact row_of (cram_scalar cram2_matches cram2_side cram2_nonReal (fun x hx => (cram2_exp x hx).trans (by norm_num))
      (fun x hx hx1 => (cram2_phi1 x hx hx1).trans (by norm_num)) (fun x hx hx1 => (cram2_phi2 x hx hx1).trans (by norm_num))
      (by norm_num) (by norm_num))
  · refine ⟨pfd_cram_4, by simp [pfdDict], cram4_nonReal, ?_⟩
    exact row_of (cram_scalar cram4_matches cram4_side cram4_nonReal (fun x hx => (cram4_exp x hx).trans (by norm_num))
      (fun x hx hx1 => (cram4_phi1 x hx hx1).trans (by norm_num)) (fun x hx hx1 => (cram4_phi2 x hx hx1).trans (by norm_num))
      (by norm_num) (by norm_num))
  · refine ⟨pfd_cram_6, by simp [pfdDict], cram6_nonReal, ?_⟩
    exact row_of (cram_scalar cram6_matches cram6_side cram6_nonReal (fun x hx => (cram6_exp x hx).trans (by norm_num))
      (fun x hx hx1 => (cram6_phi1 x hx hx1).trans (by norm_num)) (fun x hx hx1 => (cram6_phi2 x hx hx1).trans (by norm_num))
      (by norm_num) (by norm_num))
  · refine ⟨pfd_cram_8, by simp [pfdDict], cram8_nonReal, ?_⟩
    exact row_of (cram_scalar cram8_matches cram8_side cram8_nonReal (fun x hx => (cram8_exp x hx).trans (by norm_num))
      (fun x hx hx1 => (cram8_phi1 x hx hx1).trans (by norm_num)) (fun x hx hx1 => (cram8_phi2 x hx hx1).trans (by norm_num))
      (by norm_num) (by norm_num))
  · refine ⟨pfd_cram_10, by simp [pfdDict], cram10_nonReal, ?_⟩
    exact row_of (cram_scalar cram10_matches cram10_side cram10_nonReal (fun x hx => (cram10_exp x hx).trans (by norm_num))
      (fun x hx hx1 => (cram10_phi1 x hx hx1).trans (by norm_num)) (fun x hx hx1 => (cram10_phi2 x hx hx1).trans (by norm_num))
      (by norm_num) (by norm_num))
  · refine ⟨pfd_cram_12, by simp [pfdDict], cram12_nonReal, ?_⟩
    exact row_of (cram_scalar cram12_matches cram12_side cram12_nonReal (fun x hx => (cram12_exp x hx).trans (by norm_num))
      (fun x hx hx1 => (cram12_phi1 x hx hx1).trans (by norm_num)) (fun x hx hx1 => (cram12_phi2 x hx hx1).trans (by norm_num))
      (by norm_num) (by norm_num))
  · refine ⟨pfd_cram_14, by simp [pfdDict], cram14_nonReal, ?_⟩
    exact row_of (cram_scalar cram14_matches cram14_side cram14_nonReal (fun x hx => (cram14_exp x hx).trans (by norm_num))
      (fun x hx hx1 => (cram14_phi1 x hx hx1).trans (by norm_num)) (fun x hx hx1 => (cram14_phi2 x hx hx1).trans (by norm_num))
      (by norm_num) (by norm_num))
  · refine ⟨pfd_cram_16, by simp [pfdDict], cram16_nonReal, ?_⟩
    exact row_of (cram_scalar cram16_matches cram16_side cram16_nonReal (fun x hx => (cram16_exp x hx).trans (by norm_num))
      (fun x hx hx1 => (cram16_phi1 x hx hx1).trans (by norm_num)) (fun x hx hx1 => (cram16_phi2 x hx hx1).trans (by norm_num))
      (by norm_num) (by norm_num))

theorem cram_row {r : CramRow} (hr : r ∈ cramBounds) {tab : Pfd} (ht : pfdDict r.method = .ok tab) :
    NonReal tab ∧ ∀ k ≤ 2, ∀ x ≤ 0, |pfdScalar tab k x - phi k x| ≤ r.tol k := by
  obtain ⟨tab', h1, h2⟩ := cram_rows r hr
  rw [h1] at ht
  cases ht
  exact h2

variable {n : ℕ}

theorem symm_nonpos (S : Mat n) (hS : Sᵀ = S) (hneg : ∀ v : Vec n, v ⬝ᵥ (S *ᵥ v) ≤ 0) :
    ∃ (U : Mat n) (d : Fin n → ℝ), Uᵀ * U = 1 ∧ S = U * Matrix.diagonal d * Uᵀ ∧ ∀ k, d k ≤ 0 := by
  have hH : S.IsHermitian := by
    rw [Matrix.IsHermitian, Matrix.conjTranspose_eq_transpose_of_trivial]; exact hS
  obtain ⟨U, d, h1, h2⟩ : ∃ (U : Mat n) (d : Fin n → ℝ), Uᵀ * U = 1 ∧ S = U * Matrix.diagonal d * Uᵀ := by
    refine ⟨hH.eigenvectorUnitary, hH.eigenvalues, ?_, ?_⟩
    · have := Unitary.coe_star_mul_self hH.eigenvectorUnitary
      rwa [Matrix.star_eq_conjTranspose, Matrix.conjTranspose_eq_transpose_of_trivial] at this
    · have := hH.spectral_theorem
      rw [Unitary.conjStarAlgAut_apply] at this
      rw [Matrix.star_eq_conjTranspose, Matrix.conjTranspose_eq_transpose_of_trivial] at this
      exact this
  refine ⟨U, d, h1, h2, fun k => ?_⟩
  have h3 := hneg (U *ᵥ Pi.single k 1)
  have e : S *ᵥ (U *ᵥ Pi.single k 1) = U *ᵥ (d k • Pi.single k 1) := by
    rw [h2, Matrix.mulVec_mulVec, Matrix.mul_assoc, h1, Matrix.mul_one, ← Matrix.mulVec_mulVec]
    congr 1
    funext i
    rw [Matrix.mulVec_diagonal]
    by_cases hik : i = k
    · subst hik; simp
    · simp [Pi.single_eq_of_ne hik]
  rw [e, Matrix.mulVec_smul, dotProduct_smul, Matrix.dotProduct_mulVec, Matrix.vecMul_mulVec, ← Matrix.mulVec_transpose,
    Matrix.transpose_mul, Matrix.transpose_transpose, h1, Matrix.one_mulVec] at h3
  simpa using h3

/-! ### C99: products -/

/-- **C99.** `f_phi_k_pfd` with a CRAM table, on any real-diagonalisable operator `z = V diag(d) V^{-1}` with `d ≤ 0` (of any size, however
stiff), returns `phi_k(z) b` up to an error that in eigenvector coordinates is at most `tol_k` times the coordinate of `b`. -/
theorem C99_accuracy {r : CramRow} (hr : r ∈ cramBounds) {tab : Pfd} (ht : pfdDict r.method = .ok tab) (V W : Mat n) (d : Fin n → ℝ)
    (hWV : W * V = 1) (hd : ∀ i, d i ≤ 0) (b : Vec n) (k : ℕ) (hk : k ≤ 2) :
    ∃ e : Fin n → ℝ, (∀ i, |e i| ≤ r.tol k) ∧
      fPhiKPfd tab (V * diagonal d * W) b k = phiM k (V * diagonal d * W) *ᵥ b + V *ᵥ fun i => e i * (W *ᵥ b) i := by
  obtain ⟨h1, h2⟩ := cram_row hr ht
  exact fPhiKPfd_error tab h1 k (r.tol k) (h2 k hk) V W d hWV hd b

theorem cram_tol_nonneg {r : CramRow} (hr : r ∈ cramBounds) {k : ℕ} : 0 ≤ r.tol k := by
  simp only [cramBounds, List.mem_cons, List.not_mem_nil, or_false] at hr
  unfold CramRow.tol
  rcases hr with rfl | rfl | rfl | rfl | rfl | rfl | rfl | rfl <;> split_ifs <;> norm_num

/-- **C99, symmetric operators.** For a symmetric negative semidefinite operator the Euclidean error is at most `tol_k ‖b‖`. -/
theorem C99_symmetric {r : CramRow} (hr : r ∈ cramBounds) {tab : Pfd} (ht : pfdDict r.method = .ok tab) (z : Mat n) (hz : zᵀ = z)
    (hneg : ∀ v : Vec n, v ⬝ᵥ (z *ᵥ v) ≤ 0) (b : Vec n) (k : ℕ) (hk : k ≤ 2) :
    norm2 (fPhiKPfd tab z b k - phiM k z *ᵥ b) ≤ r.tol k * norm2 b := by
  obtain ⟨U, d, hU, hS, hd⟩ := symm_nonpos z hz hneg
  obtain ⟨e, h1, h2⟩ := C99_accuracy hr ht U Uᵀ d hU hd b k hk
  rw [← hS] at h2
  rw [h2, add_sub_cancel_left, norm2_isometry hU]
  have hU' : Uᵀᵀ * Uᵀ = 1 := by rw [Matrix.transpose_transpose]; exact mul_eq_one_comm.mp hU
  rw [← norm2_isometry hU' b]
  refine norm2_le_of_abs_le _ _ _ (cram_tol_nonneg hr) fun i => ?_
  rw [abs_mul]
  exact mul_le_mul_of_nonneg_right (h1 i) (abs_nonneg _)

/-! ### C100: runs -/

variable {P : Type} [EmptyCollection P]

/-- step of `exp_pfd` on a linear system -/
theorem stepExpPfd_lin {K : Kernels n} {tab : Pfd} (hK : ∀ z b k, K.phiPfd z b k = .ok (fPhiKPfd tab z b k)) (sys : OdeSys n P) {A : Mat n}
    {b c : Vec n} (hsys : ForcedSys sys A b c) (s : ExpRB n) {t : ℝ} {y : Vec n} (hs : At s.base t y) (dt : ℝ) (kw : P) :
    stepExpPfd K sys s dt kw = .ok (StepResult.mk (t + dt) dt (fPhiKPfd tab (dt • A) y 0) (-1)) := by
  unfold stepExpPfd
  rw [hs.yNew, hs.time]
  simp only [bind, Except.bind, pure, Except.pure, hsys.jacDense, hK]

/-- step of `exprb2_pfd` on an autonomous affine system -/
theorem stepExprb2Pfd_lin {K : Kernels n} {tab : Pfd} (hK : ∀ z b k, K.phiPfd z b k = .ok (fPhiKPfd tab z b k)) (sys : OdeSys n P) {A : Mat n}
    {b : Vec n} (hsys : ForcedSys sys A b 0) (s : ExpRB n) {t : ℝ} {y : Vec n} (hs : At s.base t y) (dt : ℝ) (kw : P) :
    stepExprb2Pfd K sys s dt kw = .ok (StepResult.mk (t + dt) dt (y + dt • fPhiKPfd tab (dt • A) (A *ᵥ y + b) 1) (-1)) := by
  unfold stepExprb2Pfd
  rw [hs.yNew, hs.time]
  simp only [bind, Except.bind, pure, Except.pure, hsys.jacDense, hsys.jacFdt, hsys.jacRhs, hK, norm_zero, smul_zero, add_zero]
  by_cases h1 : s.tolFdt ≥ 0
  · have h2 : ¬ (0 > s.tolFdt) := by linarith
    simp only [h1, h2, if_true, if_false, smul_zero, add_zero]
  · simp only [h1, if_false, smul_zero, add_zero]

/-- **C100 (exact form).** A run of `exp_pfd` on `y' = A y + ...` applies the table's rational function once per step. -/
theorem expPfd_run {K : Kernels n} {tab : Pfd} (hK : ∀ z b k, K.phiPfd z b k = .ok (fPhiKPfd tab z b k)) {Q W : Type} (hasRust : Bool)
    (sys : OdeSys n P) {A : Mat n} {b c : Vec n} (hsys : ForcedSys sys A b c) (t0 : ℝ) (y0 : Vec n) (tol : ℝ) (s : ExpRB n)
    (hnew : ExpRB.new hasRust t0 y0 "exp_pfd" tol = .ok s) (dt : ℝ) (nsteps : ℕ)
    (before : Option (W → ℝ → Vec n → P × W)) (after : Option (W → ℝ → Vec n → Q × W)) (w : W) :
    ∃ l, integrateOrmatex (rbStepper hasRust K sys) s y0 t0 dt nsteps before after w = .ok l ∧
      l.tRes = (List.range (nsteps + 1)).map (fun i : ℕ => t0 + i * dt) ∧
      l.yRes = (List.range (nsteps + 1)).map (fun i : ℕ => (fun y => fPhiKPfd tab (dt • A) y 0)^[i] y0) := by
  refine run_seq (rbStepper hasRust K sys) (fun (o : ExpRB n) k => At o.base (t0 + k * dt) ((fun y => fPhiKPfd tab (dt • A) y 0)^[k] y0) ∧
    o.base.method = "exp_pfd" ∧ (Nonempty2 o.base ∧ 0 < o.base.yHist.maxlen ∧ o.base.tHist.maxlen = o.base.yHist.maxlen))
    (fun i => (fun y => fPhiKPfd tab (dt • A) y 0)^[i] y0) t0 dt before after ?_ s ?_ nsteps w
  · rintro o k kw - ⟨h1, h2, h4⟩
    have e1 : ExpRB.step hasRust K sys o dt kw = .ok (StepResult.mk (t0 + k * dt + dt) dt
        (fPhiKPfd tab (dt • A) ((fun y => fPhiKPfd tab (dt • A) y 0)^[k] y0) 0) (-1)) := by
      unfold ExpRB.step
      simp only [h2, String.reduceEq, if_true, if_false]
      exact stepExpPfd_lin hK sys hsys o h1 dt _
    refine ⟨StepResult.mk (t0 + k * dt + dt) dt (fPhiKPfd tab (dt • A) ((fun y => fPhiKPfd tab (dt • A) y 0)^[k] y0) 0) (-1), o, ?_, rfl, ?_, ?_, h2, accept_nonempty h4 _⟩
    · show keep o (ExpRB.step hasRust K sys o dt kw) = _
      rw [e1]; rfl
    · rw [Function.iterate_succ_apply']
    · have := at_accept h4.2 (StepResult.mk (t0 + k * dt + dt) dt
        (fPhiKPfd tab (dt • A) ((fun y => fPhiKPfd tab (dt • A) y 0)^[k] y0) 0) (-1))
      rw [Function.iterate_succ_apply']
      have ht : t0 + ((k + 1 : ℕ) : ℝ) * dt = t0 + k * dt + dt := by push_cast; ring
      rw [ht]
      exact this
  · obtain ⟨g1, g2, _, g4⟩ := rb_new_at hnew
    exact ⟨by simpa using g1, g2, g4⟩

theorem exprb2Pfd_run {K : Kernels n} {tab : Pfd} (hK : ∀ z b k, K.phiPfd z b k = .ok (fPhiKPfd tab z b k)) {Q W : Type} (hasRust : Bool)
    (sys : OdeSys n P) {A : Mat n} {b : Vec n} (hsys : ForcedSys sys A b 0) (t0 : ℝ) (y0 : Vec n) (tol : ℝ) (s : ExpRB n)
    (hnew : ExpRB.new hasRust t0 y0 "exprb2_pfd" tol = .ok s) (dt : ℝ) (nsteps : ℕ)
    (before : Option (W → ℝ → Vec n → P × W)) (after : Option (W → ℝ → Vec n → Q × W)) (w : W) :
    ∃ l, integrateOrmatex (rbStepper hasRust K sys) s y0 t0 dt nsteps before after w = .ok l ∧
      l.tRes = (List.range (nsteps + 1)).map (fun i : ℕ => t0 + i * dt) ∧
      l.yRes = (List.range (nsteps + 1)).map (fun i : ℕ => (fun y => y + dt • fPhiKPfd tab (dt • A) (A *ᵥ y + b) 1)^[i] y0) := by
  refine run_seq (rbStepper hasRust K sys) (fun (o : ExpRB n) k =>
    At o.base (t0 + k * dt) ((fun y => y + dt • fPhiKPfd tab (dt • A) (A *ᵥ y + b) 1)^[k] y0) ∧
    o.base.method = "exprb2_pfd" ∧ (Nonempty2 o.base ∧ 0 < o.base.yHist.maxlen ∧ o.base.tHist.maxlen = o.base.yHist.maxlen))
    (fun i => (fun y => y + dt • fPhiKPfd tab (dt • A) (A *ᵥ y + b) 1)^[i] y0) t0 dt before after ?_ s ?_ nsteps w
  · rintro o k kw - ⟨h1, h2, h4⟩
    have e1 : ExpRB.step hasRust K sys o dt kw = .ok (StepResult.mk (t0 + k * dt + dt) dt
        ((fun y => y + dt • fPhiKPfd tab (dt • A) (A *ᵥ y + b) 1) ((fun y => y + dt • fPhiKPfd tab (dt • A) (A *ᵥ y + b) 1)^[k] y0)) (-1)) := by
      unfold ExpRB.step
      simp only [h2, String.reduceEq, if_true, if_false]
      exact stepExprb2Pfd_lin hK sys hsys o h1 dt _
    refine ⟨StepResult.mk (t0 + k * dt + dt) dt ((fun y => y + dt • fPhiKPfd tab (dt • A) (A *ᵥ y + b) 1) ((fun y => y + dt • fPhiKPfd tab (dt • A) (A *ᵥ y + b) 1)^[k] y0)) (-1), o, ?_, rfl, ?_, ?_, h2, accept_nonempty h4 _⟩
    · show keep o (ExpRB.step hasRust K sys o dt kw) = _
      rw [e1]; rfl
    · rw [Function.iterate_succ_apply']
    · have := at_accept h4.2 (StepResult.mk (t0 + k * dt + dt) dt
        ((fun y => y + dt • fPhiKPfd tab (dt • A) (A *ᵥ y + b) 1) ((fun y => y + dt • fPhiKPfd tab (dt • A) (A *ᵥ y + b) 1)^[k] y0)) (-1))
      rw [Function.iterate_succ_apply']
      have ht : t0 + ((k + 1 : ℕ) : ℝ) * dt = t0 + k * dt + dt := by push_cast; ring
      rw [ht]
      exact this
  · obtain ⟨g1, g2, _, g4⟩ := rb_new_at hnew
    exact ⟨by simpa using g1, g2, g4⟩

theorem smul_diag (V W : Mat n) (d : Fin n → ℝ) (dt : ℝ) : dt • (V * diagonal d * W) = V * diagonal (fun i => dt * d i) * W := by
  rw [← Matrix.smul_mul, ← Matrix.mul_smul, ← Matrix.diagonal_smul]
  rfl

/-- eigenvector coordinates of a product -/
theorem W_fPhi {tab : Pfd} (hp : NonReal tab) (V W : Mat n) (d : Fin n → ℝ) (hWV : W * V = 1) (b : Vec n) (k : ℕ) (i : Fin n) :
    (W *ᵥ fPhiKPfd tab (V * diagonal d * W) b k) i = pfdScalar tab k (d i) * (W *ᵥ b) i := by
  rw [fPhiKPfd_diag tab V W d hWV b k hp, Matrix.mulVec_mulVec, hWV, Matrix.one_mulVec]

theorem W_phiM (V W : Mat n) (d : Fin n → ℝ) (hWV : W * V = 1) (b : Vec n) (k : ℕ) (i : Fin n) :
    (W *ᵥ (phiM k (V * diagonal d * W) *ᵥ b)) i = phi k (d i) * (W *ᵥ b) i := by
  rw [phiM_diag V W d hWV, ← Matrix.mulVec_mulVec, ← Matrix.mulVec_mulVec, Matrix.mulVec_mulVec _ W V, hWV, Matrix.one_mulVec,
    Matrix.mulVec_diagonal]

theorem phi0_le_one {x : ℝ} (hx : x ≤ 0) : |phi 0 x| ≤ 1 := by
  rw [phi_zero, ← Real.exp_eq_exp_ℝ, abs_of_pos (Real.exp_pos _)]
  exact Real.exp_le_one_iff.2 hx

/-- eigenvector coordinates of the error of `exp_pfd`, from the error at this eigenvalue -/
theorem expPfd_error_at {tab : Pfd} (hp : NonReal tab) {ε : ℝ} (V W : Mat n) (d : Fin n → ℝ)
    (hWV : W * V = 1) {Y : ℝ → Vec n} (hY : Solves (V * diagonal d * W) 0 0 Y) (t0 dt : ℝ) (m : ℕ) (i : Fin n) (hz : dt * d i ≤ 0)
    (hε0 : 0 ≤ ε) (hε : |pfdScalar tab 0 (dt * d i) - phi 0 (dt * d i)| ≤ ε) :
    |(W *ᵥ ((fun y => fPhiKPfd tab (dt • (V * diagonal d * W)) y 0)^[m] (Y t0) - Y (t0 + m * dt))) i|
      ≤ ((1 + ε) ^ m - 1) * |(W *ᵥ Y t0) i| ∧ |(W *ᵥ Y (t0 + m * dt)) i| ≤ |(W *ᵥ Y t0) i| := by
  induction m with
  | zero => simp
  | succ m ih =>
    obtain ⟨ih1, ih2⟩ := ih
    have ht : t0 + ((m + 1 : ℕ) : ℝ) * dt = t0 + m * dt + dt := by push_cast; ring
    have hflow : (W *ᵥ Y (t0 + ((m + 1 : ℕ) : ℝ) * dt)) i = phi 0 (dt * d i) * (W *ᵥ Y (t0 + m * dt)) i := by
      rw [ht, ← homogeneous_flow hY, smul_diag, W_phiM V W _ hWV]
    have h1 := phi0_le_one hz
    have h2 : |(W *ᵥ Y (t0 + ((m + 1 : ℕ) : ℝ) * dt)) i| ≤ |(W *ᵥ Y t0) i| := by
      rw [hflow, abs_mul]
      have := mul_le_mul h1 ih2 (abs_nonneg _) zero_le_one
      linarith
    refine ⟨?_, h2⟩
    set u := (fun y => fPhiKPfd tab (dt • (V * diagonal d * W)) y 0)^[m] (Y t0) with hu
    rw [Function.iterate_succ_apply', ← hu, Matrix.mulVec_sub, Pi.sub_apply, hflow]
    rw [smul_diag, W_fPhi hp V W _ hWV]
    rw [Matrix.mulVec_sub, Pi.sub_apply] at ih1
    set r := pfdScalar tab 0 (dt * d i)
    set p := phi 0 (dt * d i)
    set a := (W *ᵥ u) i
    set c := (W *ᵥ Y (t0 + m * dt)) i
    set g := |(W *ᵥ Y t0) i| with hg
    have h3 : |r - p| ≤ ε := hε
    have e : r * a - p * c = r * (a - c) + (r - p) * c := by ring
    have hr : |r| ≤ 1 + ε := by
      have : r = p + (r - p) := by ring
      rw [this]
      refine (abs_add_le _ _).trans (add_le_add h1 h3)
    rw [e]
    refine (abs_add_le _ _).trans ?_
    rw [abs_mul, abs_mul]
    have k1 := mul_le_mul hr ih1 (abs_nonneg _) (by linarith)
    have k2 := mul_le_mul h3 ih2 (abs_nonneg _) hε0
    have hg0 : 0 ≤ g := abs_nonneg _
    rw [pow_succ]
    nlinarith

/-- eigenvector coordinates of the error of `exp_pfd` -/
theorem expPfd_error {tab : Pfd} (hp : NonReal tab) {ε : ℝ} (hε : ∀ x ≤ 0, |pfdScalar tab 0 x - phi 0 x| ≤ ε) (V W : Mat n) (d : Fin n → ℝ)
    (hWV : W * V = 1) (hd : ∀ i, d i ≤ 0) {Y : ℝ → Vec n} (hY : Solves (V * diagonal d * W) 0 0 Y) (t0 dt : ℝ) (hdt : 0 ≤ dt) (m : ℕ) (i : Fin n) :
    |(W *ᵥ ((fun y => fPhiKPfd tab (dt • (V * diagonal d * W)) y 0)^[m] (Y t0) - Y (t0 + m * dt))) i|
      ≤ ((1 + ε) ^ m - 1) * |(W *ᵥ Y t0) i| ∧ |(W *ᵥ Y (t0 + m * dt)) i| ≤ |(W *ᵥ Y t0) i| :=
  have hz : dt * d i ≤ 0 := mul_nonpos_of_nonneg_of_nonpos hdt (hd i)
  expPfd_error_at hp V W d hWV hY t0 dt m i hz ((abs_nonneg _).trans (hε 0 le_rfl)) (hε _ hz)

/-- **C100, `exp_pfd`.** Whole runs of `exp_pfd` with a CRAM table on `y' = A y`, `A = V diag(d) V^{-1}`, `d ≤ 0`: for every step size
`dt ≥ 0` and number of steps the error in eigenvector coordinates at output `m` is at most `((1 + tol_0)^m - 1)` times the initial
coordinate. -/
theorem C100_exp_pfd {r : CramRow} (hr : r ∈ cramBounds) {tab : Pfd} (ht : pfdDict r.method = .ok tab) {Q T : Type} (hasRust : Bool)
    (expm : ∀ m, Mat m → Mat m) (rs : Mat n → ℝ → Vec n → ℕ → Vec n) (maxDim iom : ℕ)
    (sys : OdeSys n P) (V W : Mat n) (d : Fin n → ℝ) (hWV : W * V = 1) (hd : ∀ i, d i ≤ 0)
    (hsys : ForcedSys sys (V * diagonal d * W) 0 0) {Y : ℝ → Vec n} (hY : Solves (V * diagonal d * W) 0 0 Y) (t0 : ℝ) (tol : ℝ) (s : ExpRB n)
    (hnew : ExpRB.new hasRust t0 (Y t0) "exp_pfd" tol = .ok s) (dt : ℝ) (hdt : 0 ≤ dt) (nsteps : ℕ)
    (before : Option (T → ℝ → Vec n → P × T)) (after : Option (T → ℝ → Vec n → Q × T)) (w : T) :
    ∃ (l : _) (u : ℕ → Vec n),
      integrateOrmatex (rbStepper hasRust (realKernels n expm tab rs maxDim iom) sys) s (Y t0) t0 dt nsteps before after w = .ok l ∧
      l.tRes = (List.range (nsteps + 1)).map (fun m : ℕ => t0 + m * dt) ∧ l.yRes = (List.range (nsteps + 1)).map u ∧
      ∀ m i, |(W *ᵥ (u m - Y (t0 + m * dt))) i| ≤ ((1 + r.tol 0) ^ m - 1) * |(W *ᵥ Y t0) i| := by
  obtain ⟨h1, h2⟩ := cram_row hr ht
  obtain ⟨l, e1, e2, e3⟩ := expPfd_run (K := realKernels n expm tab rs maxDim iom) (tab := tab) (fun _ _ _ => rfl) hasRust sys hsys t0 (Y t0) tol s
    hnew dt nsteps before after w
  exact ⟨l, _, e1, e2, e3, fun m i => (expPfd_error h1 (h2 0 (by norm_num)) V W d hWV hd hY t0 dt hdt m i).1⟩

/-- **C100, `exp_pfd`, symmetric.** For a symmetric negative semidefinite `A`: `‖y_m - y(t_m)‖₂ ≤ ((1 + tol_0)^m - 1) ‖y_0‖₂`. -/
theorem C100_exp_pfd_symmetric {r : CramRow} (hr : r ∈ cramBounds) {tab : Pfd} (ht : pfdDict r.method = .ok tab) {Q T : Type} (hasRust : Bool)
    (expm : ∀ m, Mat m → Mat m) (rs : Mat n → ℝ → Vec n → ℕ → Vec n) (maxDim iom : ℕ)
    (sys : OdeSys n P) (A : Mat n) (hA : Aᵀ = A) (hneg : ∀ v : Vec n, v ⬝ᵥ (A *ᵥ v) ≤ 0)
    (hsys : ForcedSys sys A 0 0) {Y : ℝ → Vec n} (hY : Solves A 0 0 Y) (t0 : ℝ) (tol : ℝ) (s : ExpRB n)
    (hnew : ExpRB.new hasRust t0 (Y t0) "exp_pfd" tol = .ok s) (dt : ℝ) (hdt : 0 ≤ dt) (nsteps : ℕ)
    (before : Option (T → ℝ → Vec n → P × T)) (after : Option (T → ℝ → Vec n → Q × T)) (w : T) :
    ∃ (l : _) (u : ℕ → Vec n),
      integrateOrmatex (rbStepper hasRust (realKernels n expm tab rs maxDim iom) sys) s (Y t0) t0 dt nsteps before after w = .ok l ∧
      l.tRes = (List.range (nsteps + 1)).map (fun m : ℕ => t0 + m * dt) ∧ l.yRes = (List.range (nsteps + 1)).map u ∧
      ∀ m, norm2 (u m - Y (t0 + m * dt)) ≤ ((1 + r.tol 0) ^ m - 1) * norm2 (Y t0) := by
  obtain ⟨U, d, hU, hS, hd⟩ := symm_nonpos A hA hneg
  subst hS
  obtain ⟨l, u, e1, e2, e3, e4⟩ := C100_exp_pfd hr ht hasRust expm rs maxDim iom sys U Uᵀ d hU hd hsys hY t0 tol s hnew dt hdt nsteps
    before after w
  refine ⟨l, u, e1, e2, e3, fun m => ?_⟩
  have hU' : Uᵀᵀ * Uᵀ = 1 := by rw [Matrix.transpose_transpose]; exact mul_eq_one_comm.mp hU
  rw [← norm2_isometry hU' (u m - Y (t0 + m * dt)), ← norm2_isometry hU' (Y t0)]
  refine norm2_le_of_abs_le _ _ _ ?_ fun i => e4 m i
  have := one_le_pow₀ (n := m) (by linarith [cram_tol_nonneg hr (k := 0)] : (1 : ℝ) ≤ 1 + r.tol 0)
  linarith

theorem rosEuler_affine {A : Mat n} {b : Vec n} {Y : ℝ → Vec n} (hY : Solves A b 0 Y) (t dt : ℝ) :
    Y (t + dt) = Y t + dt • (phiM 1 (dt • A) *ᵥ (A *ᵥ Y t + b)) := by
  have := rosEuler_flow hY t dt 1
  rw [one_mul] at this
  rw [← this, rosEuler]
  simp

/-- eigenvector coordinates of the error of `exprb2_pfd`, from the errors at zero and at this eigenvalue -/
theorem exprb2Pfd_error_at {tab : Pfd} (hp : NonReal tab) {ε0 ε1 : ℝ} (V W : Mat n) (d : Fin n → ℝ)
    (hWV : W * V = 1) {b : Vec n} {Y : ℝ → Vec n} (hY : Solves (V * diagonal d * W) b 0 Y) (t0 dt : ℝ) (hdt : 0 ≤ dt)
    (m : ℕ) (i : Fin n) (hz : dt * d i ≤ 0) (r3 : |pfdScalar tab 0 0 - phi 0 (0 : ℝ)| ≤ ε0)
    (r4 : |pfdScalar tab 0 (dt * d i) - phi 0 (dt * d i)| ≤ ε0) (r5 : |pfdScalar tab 1 (dt * d i) - phi 1 (dt * d i)| ≤ ε1) :
    |(W *ᵥ ((fun y => y + dt • fPhiKPfd tab (dt • (V * diagonal d * W)) ((V * diagonal d * W) *ᵥ y + b) 1)^[m] (Y t0) - Y (t0 + m * dt))) i|
      ≤ m * dt * ε1 * (1 + 2 * ε0) ^ m * |(W *ᵥ ((V * diagonal d * W) *ᵥ Y t0 + b)) i| ∧
    |(W *ᵥ ((V * diagonal d * W) *ᵥ Y (t0 + m * dt) + b)) i| ≤ |(W *ᵥ ((V * diagonal d * W) *ᵥ Y t0 + b)) i| := by
  have hε0 : 0 ≤ ε0 := (abs_nonneg _).trans r3
  have hε1 : 0 ≤ ε1 := (abs_nonneg _).trans r5
  have hWA : ∀ y : Vec n, (W *ᵥ ((V * diagonal d * W) *ᵥ y + b)) i = d i * (W *ᵥ y) i + (W *ᵥ b) i := by
    intro y
    rw [Matrix.mulVec_add, Pi.add_apply, Matrix.mulVec_mulVec, ← Matrix.mul_assoc, ← Matrix.mul_assoc, hWV, Matrix.one_mul,
      ← Matrix.mulVec_mulVec, Matrix.mulVec_diagonal]
  induction m with
  | zero => simp
  | succ m ih =>
    obtain ⟨ih1, ih2⟩ := ih
    have ht : t0 + ((m + 1 : ℕ) : ℝ) * dt = t0 + m * dt + dt := by push_cast; ring
    have hflow : (W *ᵥ Y (t0 + ((m + 1 : ℕ) : ℝ) * dt)) i
        = (W *ᵥ Y (t0 + m * dt)) i + dt * (phi 1 (dt * d i) * (d i * (W *ᵥ Y (t0 + m * dt)) i + (W *ᵥ b) i)) := by
      rw [ht, rosEuler_affine hY, Matrix.mulVec_add, Matrix.mulVec_smul, Pi.add_apply, Pi.smul_apply, smul_diag, W_phiM V W _ hWV, hWA, smul_eq_mul]
    set u := (fun y => y + dt • fPhiKPfd tab (dt • (V * diagonal d * W)) ((V * diagonal d * W) *ᵥ y + b) 1)^[m] (Y t0) with hu
    have hnum : (W *ᵥ (u + dt • fPhiKPfd tab (dt • (V * diagonal d * W)) ((V * diagonal d * W) *ᵥ u + b) 1)) i
        = (W *ᵥ u) i + dt * (pfdScalar tab 1 (dt * d i) * (d i * (W *ᵥ u) i + (W *ᵥ b) i)) := by
      rw [Matrix.mulVec_add, Matrix.mulVec_smul, Pi.add_apply, Pi.smul_apply, smul_diag, W_fPhi hp V W _ hWV, hWA, smul_eq_mul]
    rw [Function.iterate_succ_apply', ← hu, Matrix.mulVec_sub, Pi.sub_apply, hWA, hWA, hflow]
    rw [hnum]
    rw [Matrix.mulVec_sub, Pi.sub_apply, hWA] at ih1
    rw [hWA, hWA] at ih2
    have r1 := scalar_rec tab hp 0 (dt * d i)
    have r2 := phi_recurrence 0 (dt * d i)
    have r6 := phi0_le_one hz
    have r7 : phi 0 (0 : ℝ) = 1 := by rw [phi_at_zero]; simp
    rw [r7] at r3
    simp only [Nat.factorial_zero, Nat.cast_one, inv_one, one_smul, zero_add] at r1 r2
    set R0 := pfdScalar tab 0 (dt * d i)
    set R1 := pfdScalar tab 1 (dt * d i)
    set P0 := phi 0 (dt * d i)
    set P1 := phi 1 (dt * d i)
    set R00 := pfdScalar tab 0 0
    set a := (W *ᵥ u) i
    set c := (W *ᵥ Y (t0 + m * dt)) i
    set β := (W *ᵥ b) i
    set g := |d i * (W *ᵥ Y t0) i + β| with hg
    have hg0 : 0 ≤ g := abs_nonneg _
    have e1 : d i * (c + dt * (P1 * (d i * c + β))) + β = P0 * (d i * c + β) := by
      have : P0 = 1 + dt * d i * P1 := by rw [r2]; ring
      rw [this]; ring
    constructor
    · have e2 : a + dt * (R1 * (d i * a + β)) - (c + dt * (P1 * (d i * c + β)))
          = (1 + dt * d i * R1) * (a - c) + dt * (R1 - P1) * (d i * c + β) := by ring
      rw [e2, r1]
      refine (abs_add_le _ _).trans ?_
      rw [abs_mul, abs_mul, abs_mul, abs_of_nonneg hdt]
      have hq : |1 + (R0 - R00)| ≤ 1 + 2 * ε0 := by
        have : 1 + (R0 - R00) = P0 + (R0 - P0) - (R00 - 1) := by ring
        rw [this]
        have k1 := abs_sub (P0 + (R0 - P0)) (R00 - 1)
        have k2 := abs_add_le P0 (R0 - P0)
        linarith
      have k1 := mul_le_mul hq ih1 (abs_nonneg _) (by linarith)
      have k2 : dt * |R1 - P1| * |d i * c + β| ≤ dt * ε1 * g := by
        have := mul_le_mul r5 ih2 (abs_nonneg _) hε1
        calc dt * |R1 - P1| * |d i * c + β| = dt * (|R1 - P1| * |d i * c + β|) := by ring
          _ ≤ dt * (ε1 * g) := mul_le_mul_of_nonneg_left this hdt
          _ = _ := by ring
      have k3 : dt * ε1 * g ≤ dt * ε1 * (1 + 2 * ε0) ^ (m + 1) * g := by
        have := one_le_pow₀ (n := m + 1) (by linarith : (1 : ℝ) ≤ 1 + 2 * ε0)
        have h' : 0 ≤ dt * ε1 * g := by positivity
        nlinarith
      have e3 : ((m + 1 : ℕ) : ℝ) * dt * ε1 * (1 + 2 * ε0) ^ (m + 1) * g
          = (1 + 2 * ε0) * (m * dt * ε1 * (1 + 2 * ε0) ^ m * g) + dt * ε1 * (1 + 2 * ε0) ^ (m + 1) * g := by
        push_cast; ring
      rw [e3]
      linarith
    · rw [e1, abs_mul]
      have := mul_le_mul r6 ih2 (abs_nonneg _) zero_le_one
      linarith

/-- eigenvector coordinates of the error of `exprb2_pfd` -/
theorem exprb2Pfd_error {tab : Pfd} (hp : NonReal tab) {ε0 ε1 : ℝ} (h0 : ∀ x ≤ 0, |pfdScalar tab 0 x - phi 0 x| ≤ ε0)
    (h1 : ∀ x ≤ 0, |pfdScalar tab 1 x - phi 1 x| ≤ ε1) (V W : Mat n) (d : Fin n → ℝ)
    (hWV : W * V = 1) (hd : ∀ i, d i ≤ 0) {b : Vec n} {Y : ℝ → Vec n} (hY : Solves (V * diagonal d * W) b 0 Y) (t0 dt : ℝ) (hdt : 0 ≤ dt)
    (m : ℕ) (i : Fin n) :
    |(W *ᵥ ((fun y => y + dt • fPhiKPfd tab (dt • (V * diagonal d * W)) ((V * diagonal d * W) *ᵥ y + b) 1)^[m] (Y t0) - Y (t0 + m * dt))) i|
      ≤ m * dt * ε1 * (1 + 2 * ε0) ^ m * |(W *ᵥ ((V * diagonal d * W) *ᵥ Y t0 + b)) i| ∧
    |(W *ᵥ ((V * diagonal d * W) *ᵥ Y (t0 + m * dt) + b)) i| ≤ |(W *ᵥ ((V * diagonal d * W) *ᵥ Y t0 + b)) i| :=
  have hz : dt * d i ≤ 0 := mul_nonpos_of_nonneg_of_nonpos hdt (hd i)
  exprb2Pfd_error_at hp V W d hWV hY t0 dt hdt m i hz (h0 0 le_rfl) (h0 _ hz) (h1 _ hz)

/-- **C100, `exprb2_pfd`.** Whole runs of `exprb2_pfd` with a CRAM table on `y' = A y + b`, `A = V diag(d) V^{-1}`, `d ≤ 0`: for every
`dt ≥ 0` the error in eigenvector coordinates at output `m` is at most `m dt tol_1 (1 + 2 tol_0)^m` times the coordinate of `y'(t0)`. -/
theorem C100_exprb2_pfd {r : CramRow} (hr : r ∈ cramBounds) {tab : Pfd} (ht : pfdDict r.method = .ok tab) {Q T : Type} (hasRust : Bool)
    (expm : ∀ m, Mat m → Mat m) (rs : Mat n → ℝ → Vec n → ℕ → Vec n) (maxDim iom : ℕ)
    (sys : OdeSys n P) (V W : Mat n) (d : Fin n → ℝ) (hWV : W * V = 1) (hd : ∀ i, d i ≤ 0) {b : Vec n}
    (hsys : ForcedSys sys (V * diagonal d * W) b 0) {Y : ℝ → Vec n} (hY : Solves (V * diagonal d * W) b 0 Y) (t0 : ℝ) (tol : ℝ) (s : ExpRB n)
    (hnew : ExpRB.new hasRust t0 (Y t0) "exprb2_pfd" tol = .ok s) (dt : ℝ) (hdt : 0 ≤ dt) (nsteps : ℕ)
    (before : Option (T → ℝ → Vec n → P × T)) (after : Option (T → ℝ → Vec n → Q × T)) (w : T) :
    ∃ (l : _) (u : ℕ → Vec n),
      integrateOrmatex (rbStepper hasRust (realKernels n expm tab rs maxDim iom) sys) s (Y t0) t0 dt nsteps before after w = .ok l ∧
      l.tRes = (List.range (nsteps + 1)).map (fun m : ℕ => t0 + m * dt) ∧ l.yRes = (List.range (nsteps + 1)).map u ∧
      ∀ m i, |(W *ᵥ (u m - Y (t0 + m * dt))) i|
        ≤ m * dt * r.tol 1 * (1 + 2 * r.tol 0) ^ m * |(W *ᵥ ((V * diagonal d * W) *ᵥ Y t0 + b)) i| := by
  obtain ⟨h1, h2⟩ := cram_row hr ht
  obtain ⟨l, e1, e2, e3⟩ := exprb2Pfd_run (K := realKernels n expm tab rs maxDim iom) (tab := tab) (fun _ _ _ => rfl) hasRust sys hsys t0 (Y t0) tol s
    hnew dt nsteps before after w
  exact ⟨l, _, e1, e2, e3, fun m i => (exprb2Pfd_error h1 (h2 0 (by norm_num)) (h2 1 (by norm_num)) V W d hWV hd hY t0 dt hdt m i).1⟩

/-- **C100, `exprb2_pfd`, symmetric.** For a symmetric negative semidefinite `A`:
`‖y_m - y(t_m)‖₂ ≤ m dt tol_1 (1 + 2 tol_0)^m ‖A y_0 + b‖₂`. -/
theorem C100_exprb2_pfd_symmetric {r : CramRow} (hr : r ∈ cramBounds) {tab : Pfd} (ht : pfdDict r.method = .ok tab) {Q T : Type} (hasRust : Bool)
    (expm : ∀ m, Mat m → Mat m) (rs : Mat n → ℝ → Vec n → ℕ → Vec n) (maxDim iom : ℕ)
    (sys : OdeSys n P) (A : Mat n) (hA : Aᵀ = A) (hneg : ∀ v : Vec n, v ⬝ᵥ (A *ᵥ v) ≤ 0) {b : Vec n}
    (hsys : ForcedSys sys A b 0) {Y : ℝ → Vec n} (hY : Solves A b 0 Y) (t0 : ℝ) (tol : ℝ) (s : ExpRB n)
    (hnew : ExpRB.new hasRust t0 (Y t0) "exprb2_pfd" tol = .ok s) (dt : ℝ) (hdt : 0 ≤ dt) (nsteps : ℕ)
    (before : Option (T → ℝ → Vec n → P × T)) (after : Option (T → ℝ → Vec n → Q × T)) (w : T) :
    ∃ (l : _) (u : ℕ → Vec n),
      integrateOrmatex (rbStepper hasRust (realKernels n expm tab rs maxDim iom) sys) s (Y t0) t0 dt nsteps before after w = .ok l ∧
      l.tRes = (List.range (nsteps + 1)).map (fun m : ℕ => t0 + m * dt) ∧ l.yRes = (List.range (nsteps + 1)).map u ∧
      ∀ m, norm2 (u m - Y (t0 + m * dt)) ≤ m * dt * r.tol 1 * (1 + 2 * r.tol 0) ^ m * norm2 (A *ᵥ Y t0 + b) := by
  obtain ⟨U, d, hU, hS, hd⟩ := symm_nonpos A hA hneg
  subst hS
  obtain ⟨l, u, e1, e2, e3, e4⟩ := C100_exprb2_pfd hr ht hasRust expm rs maxDim iom sys U Uᵀ d hU hd hsys hY t0 tol s hnew dt hdt nsteps
    before after w
  refine ⟨l, u, e1, e2, e3, fun m => ?_⟩
  have hU' : Uᵀᵀ * Uᵀ = 1 := by rw [Matrix.transpose_transpose]; exact mul_eq_one_comm.mp hU
  rw [← norm2_isometry hU' (u m - Y (t0 + m * dt)), ← norm2_isometry hU' ((U * diagonal d * Uᵀ) *ᵥ Y t0 + b)]
  refine norm2_le_of_abs_le _ _ _ ?_ fun i => e4 m i
  have t0' := cram_tol_nonneg hr (k := 0)
  have t1' := cram_tol_nonneg hr (k := 1)
  positivity

/-- non-vacuity: the row of the default table; a symmetric negative semidefinite operator; a solution; a new integrator -/
example : (⟨"cram_16", 4.01e-16, 4.01e-14, 8.01e-13⟩ : CramRow) ∈ cramBounds ∧ pfdDict "cram_16" = .ok pfd_cram_16 ∧
    (!![-2, 1; 1, -2] : Mat 2)ᵀ = !![-2, 1; 1, -2] ∧ (∀ v : Vec 2, v ⬝ᵥ ((!![-2, 1; 1, -2] : Mat 2) *ᵥ v) ≤ 0) ∧
    Solves (!![-2, 1; 1, -2] : Mat 2) 0 0 (fun t => Real.exp (-t) • ![1, 1]) ∧
    (∃ s, ExpRB.new true 0 (![1, 1] : Vec 2) "exprb2_pfd" 1e-8 = .ok s) ∧ ∃ s, ExpRB.new true 0 (![1, 1] : Vec 2) "exp_pfd" 1e-8 = .ok s := by
  refine ⟨by simp [cramBounds], by simp [pfdDict], ?_, ?_, ?_, ⟨_, rfl⟩, ⟨_, rfl⟩⟩
  · ext i j; fin_cases i <;> fin_cases j <;> rfl
  · intro v
    simp only [Matrix.mulVec, dotProduct, Fin.sum_univ_two, Matrix.of_apply, Matrix.cons_val_zero, Matrix.cons_val_one]
    nlinarith [sq_nonneg (v 0 - v 1), sq_nonneg (v 0), sq_nonneg (v 1)]
  · intro t
    have h : HasDerivAt (fun t : ℝ => Real.exp (-t) • (![1, 1] : Vec 2)) ((Real.exp (-t) * -1) • ![1, 1]) t :=
      (((hasDerivAt_id t).neg.exp)).smul_const _
    convert h using 1
    funext i
    fin_cases i <;> simp [Matrix.mulVec, dotProduct, Fin.sum_univ_two] <;> ring

end Ormatex.Props
