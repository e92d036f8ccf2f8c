import Verif.Model.Bridge
import Verif.Props.RsCram
import Verif.Props.RsPadeAcc

/-!
C113: runs of `exp_pfd_rs` and `exprb2_pfd_rs`, the Python integrators that call the dense evaluators of the crate.
-/

namespace Ormatex.Props
open Matrix Ormatex.Spec Ormatex.Rs Ormatex.Props.Cert
open scoped Classical

variable {n : ℕ} {P : Type} [EmptyCollection P]

/-! ### closed form of the runs -/

/-- a run of `exp_pfd_rs` on a linear system applies the evaluator once per step -/
theorem expPfdRs_run {K : Kernels n} {Q W : Type} (sys : OdeSys n P) {A : Mat n} {b c : Vec n} (hsys : ForcedSys sys A b c) (t0 : ℝ) (y0 : Vec n)
    (tol : ℝ) (s : ExpRB n) (hnew : ExpRB.new true t0 y0 "exp_pfd_rs" tol = .ok s) (dt : ℝ) (nsteps : ℕ)
    (before : Option (W → ℝ → Vec n → P × W)) (after : Option (W → ℝ → Vec n → Q × W)) (w : W) :
    ∃ l, integrateOrmatex (rbStepper true K sys) s y0 t0 dt nsteps before after w = .ok l ∧
      l.tRes = (List.range (nsteps + 1)).map (fun i : ℕ => t0 + i * dt) ∧
      l.yRes = (List.range (nsteps + 1)).map (fun i : ℕ => (fun y => K.phikvRs A dt y 0)^[i] y0) := by
  refine run_seq (rbStepper true K sys) (fun (o : ExpRB n) k => At o.base (t0 + k * dt) ((fun y => K.phikvRs A dt y 0)^[k] y0) ∧
    o.base.method = "exp_pfd_rs" ∧ (Nonempty2 o.base ∧ 0 < o.base.yHist.maxlen ∧ o.base.tHist.maxlen = o.base.yHist.maxlen))
    (fun i => (fun y => K.phikvRs A dt y 0)^[i] y0) t0 dt before after ?_ s ?_ nsteps w
  · rintro o k kw - ⟨h1, h2, h4⟩
    set res : StepResult (Vec n) := StepResult.mk (t0 + k * dt + dt) dt (K.phikvRs A dt ((fun y => K.phikvRs A dt y 0)^[k] y0) 0) (-1) with hres
    have e1 : ExpRB.step true K sys o dt kw = .ok res := by
      unfold ExpRB.step
      simp only [h2, String.reduceEq, if_true, if_false, false_and, true_and]
      unfold stepExpPfdRs
      rw [h1.yNew, h1.time]
      simp only [bind, Except.bind, pure, Except.pure, hsys.jacDense]
      rfl
    refine ⟨res, o, ?_, rfl, ?_, ?_, h2, accept_nonempty h4 _⟩
    · show keep o (ExpRB.step true K sys o dt kw) = _
      rw [e1]; rfl
    · rw [Function.iterate_succ_apply']
    · have := at_accept h4.2 res
      rw [Function.iterate_succ_apply']
      have ht : t0 + ((k + 1 : ℕ) : ℝ) * dt = t0 + k * dt + dt := by push_cast; ring
      rw [ht]
      exact this
  · obtain ⟨g1, g2, _, g4⟩ := rb_new_at hnew
    exact ⟨by simpa using g1, g2, g4⟩

/-- a run of `exprb2_pfd_rs` on an autonomous affine system -/
theorem exprb2PfdRs_run {K : Kernels n} {Q W : Type} (sys : OdeSys n P) {A : Mat n} {b : Vec n} (hsys : ForcedSys sys A b 0) (t0 : ℝ) (y0 : Vec n)
    (tol : ℝ) (s : ExpRB n) (hnew : ExpRB.new true t0 y0 "exprb2_pfd_rs" tol = .ok s) (dt : ℝ) (nsteps : ℕ)
    (before : Option (W → ℝ → Vec n → P × W)) (after : Option (W → ℝ → Vec n → Q × W)) (w : W) :
    ∃ l, integrateOrmatex (rbStepper true K sys) s y0 t0 dt nsteps before after w = .ok l ∧
      l.tRes = (List.range (nsteps + 1)).map (fun i : ℕ => t0 + i * dt) ∧
      l.yRes = (List.range (nsteps + 1)).map (fun i : ℕ => (fun y => y + dt • K.phikvRs A dt (A *ᵥ y + b) 1)^[i] y0) := by
  refine run_seq (rbStepper true K sys) (fun (o : ExpRB n) k =>
    At o.base (t0 + k * dt) ((fun y => y + dt • K.phikvRs A dt (A *ᵥ y + b) 1)^[k] y0) ∧
    o.base.method = "exprb2_pfd_rs" ∧ (Nonempty2 o.base ∧ 0 < o.base.yHist.maxlen ∧ o.base.tHist.maxlen = o.base.yHist.maxlen))
    (fun i => (fun y => y + dt • K.phikvRs A dt (A *ᵥ y + b) 1)^[i] y0) t0 dt before after ?_ s ?_ nsteps w
  · rintro o k kw - ⟨h1, h2, h4⟩
    set y := (fun y => y + dt • K.phikvRs A dt (A *ᵥ y + b) 1)^[k] y0 with hy
    set res : StepResult (Vec n) := StepResult.mk (t0 + k * dt + dt) dt (y + dt • K.phikvRs A dt (A *ᵥ y + b) 1) (-1) with hres
    have e1 : ExpRB.step true K sys o dt kw = .ok res := by
      unfold ExpRB.step
      simp only [h2, String.reduceEq, if_true, if_false, false_and, true_and]
      unfold stepExprb2PfdRs
      rw [h1.yNew, h1.time]
      simp only [bind, Except.bind, pure, Except.pure, hsys.jacDense, hsys.jacFdt, hsys.jacRhs, norm_zero, smul_zero, add_zero]
      have hz : (if o.tolFdt ≥ 0 then if 0 > o.tolFdt then K.phikvRs A dt 0 2 else 0 else 0 : Vec n) = 0 := by
        split_ifs with g1 g2
        · linarith
        · rfl
        · rfl
      rw [hz, smul_zero, add_zero]
    refine ⟨res, o, ?_, rfl, ?_, ?_, h2, accept_nonempty h4 _⟩
    · show keep o (ExpRB.step true K sys o dt kw) = _
      rw [e1]; rfl
    · rw [Function.iterate_succ_apply', ← hy]
    · have := at_accept h4.2 res
      rw [Function.iterate_succ_apply', ← hy]
      have ht : t0 + ((k + 1 : ℕ) : ℝ) * dt = t0 + k * dt + dt := by push_cast; ring
      rw [ht]
      exact this
  · obtain ⟨g1, g2, _, g4⟩ := rb_new_at hnew
    exact ⟨by simpa using g1, g2, g4⟩

/-! ### the CRAM evaluator -/

/-- the CRAM evaluator of the crate: the Python product, plus `c0 v` for `k ≥ 1` -/
theorem evalRs_cram {split : ℕ → Option (Split ℕ)} (hsp : ValidSplit 8 (split 8)) {method : String} (hm : method = "cram" ∨ method = "cram_16")
    {E : DenseRs} (hE : densePhikvEvalRs split method 16 = .ok E) (a : Mat n) (dt : ℝ) (v : Vec n) (k : ℕ) :
    evalRs E a dt v k = fPhiKPfd pfd_cram_16 (dt • a) v k + if k = 0 then 0 else pfd_cram_16.c0 • v := by
  unfold densePhikvEvalRs at hE
  rw [if_pos hm] at hE
  obtain ⟨c, hc, hE⟩ := bind_ok' hE
  cases hE
  have hlen : c.theta.length = 8 := by
    have h := hc
    rw [C102_same_table] at h
    unfold Cauchy.new at h
    rw [if_neg (by simp [pfd_cram_16])] at h
    cases h
    simp [pfd_cram_16]
  unfold evalRs denseOf
  rw [hlen, rsCram_value hc a dt v k _ hsp]

/-- **C113, `exp_pfd_rs`.** With the CRAM evaluator of the crate a run of `exp_pfd_rs` on a linear system returns the same states as `exp_pfd`
with the table "cram_16", whatever the parallel schedule; in particular, on `y' = A y`, `A = V diag(d) V^{-1}`, `d ≤ 0`, the error in eigenvector
coordinates at output `m` is at most `((1 + 4.01e-16)^m - 1)` times the initial coordinate, for every step size. -/
theorem C113_exp_cram {split : ℕ → Option (Split ℕ)} (hsp : ValidSplit 8 (split 8)) {method : String} (hm : method = "cram" ∨ method = "cram_16")
    {E : DenseRs} (hE : densePhikvEvalRs split method 16 = .ok E) {Q T : Type} (expm : ∀ m, Mat m → Mat m) (tab : Pfd) (maxDim iom : ℕ)
    (sys : OdeSys n P) (V W : Mat n) (d : Fin n → ℝ) (hWV : W * V = 1) (hd : ∀ i, d i ≤ 0)
    (hsys : ForcedSys sys (V * diagonal d * W) 0 0) {Y : ℝ → Vec n} (hY : Solves (V * diagonal d * W) 0 0 Y) (t0 : ℝ) (tol : ℝ) (s : ExpRB n)
    (hnew : ExpRB.new true t0 (Y t0) "exp_pfd_rs" tol = .ok s) (dt : ℝ) (hdt : 0 ≤ dt) (nsteps : ℕ)
    (before : Option (T → ℝ → Vec n → P × T)) (after : Option (T → ℝ → Vec n → Q × T)) (w : T) :
    ∃ (l : _) (u : ℕ → Vec n),
      integrateOrmatex (rbStepper true (realKernels n expm tab (evalRs E) maxDim iom) sys) s (Y t0) t0 dt nsteps before after w = .ok l ∧
      l.tRes = (List.range (nsteps + 1)).map (fun m : ℕ => t0 + m * dt) ∧ l.yRes = (List.range (nsteps + 1)).map u ∧
      (∀ m, u m = (fun y => fPhiKPfd pfd_cram_16 (dt • (V * diagonal d * W)) y 0)^[m] (Y t0)) ∧
      ∀ m i, |(W *ᵥ (u m - Y (t0 + m * dt))) i| ≤ ((1 + 4.01e-16) ^ m - 1) * |(W *ᵥ Y t0) i| := by
  obtain ⟨l, e1, e2, e3⟩ := expPfdRs_run (K := realKernels n expm tab (evalRs E) maxDim iom) sys hsys t0 (Y t0) tol s hnew dt nsteps before after w
  have hstep : (fun y => (realKernels n expm tab (evalRs E) maxDim iom).phikvRs (V * diagonal d * W) dt y 0)
      = fun y => fPhiKPfd pfd_cram_16 (dt • (V * diagonal d * W)) y 0 := by
    funext y
    show evalRs E _ dt y 0 = _
    rw [evalRs_cram hsp hm hE, if_pos rfl, add_zero]
  rw [hstep] at e3
  have hr : (⟨"cram_16", 4.01e-16, 4.01e-14, 8.01e-13⟩ : CramRow) ∈ cramBounds := by simp [cramBounds]
  obtain ⟨h1, h2⟩ := cram_row hr (by simp [pfdDict] : pfdDict "cram_16" = .ok pfd_cram_16)
  refine ⟨l, _, e1, e2, e3, fun _ => rfl, fun m i => ?_⟩
  exact (expPfd_error h1 (ε := 4.01e-16) (fun x hx => by simpa [CramRow.tol] using h2 0 (by norm_num) x hx) V W d hWV hd hY t0 dt hdt m i).1

/-- coordinates of one step of `exprb2_pfd_rs` with the CRAM evaluator -/
theorem exprb2Rs_coord (V W : Mat n) (d : Fin n → ℝ) (hWV : W * V = 1) (b : Vec n) (dt : ℝ) (y : Vec n) (i : Fin n) :
    (W *ᵥ (y + dt • (fPhiKPfd pfd_cram_16 (dt • (V * diagonal d * W)) ((V * diagonal d * W) *ᵥ y + b) 1
      + pfd_cram_16.c0 • ((V * diagonal d * W) *ᵥ y + b)))) i
      = (W *ᵥ y) i + dt * ((pfdScalar pfd_cram_16 1 (dt * d i) + pfd_cram_16.c0) * (d i * (W *ᵥ y) i + (W *ᵥ b) i)) := by
  have hWA : (W *ᵥ ((V * diagonal d * W) *ᵥ y + b)) i = d i * (W *ᵥ y) i + (W *ᵥ b) i := by
    rw [Matrix.mulVec_add, Pi.add_apply, Matrix.mulVec_mulVec, ← Matrix.mul_assoc, ← Matrix.mul_assoc, hWV, Matrix.one_mul,
      ← Matrix.mulVec_mulVec, Matrix.mulVec_diagonal]
  rw [Matrix.mulVec_add, Matrix.mulVec_smul, Matrix.mulVec_add, Matrix.mulVec_smul, Pi.add_apply, Pi.smul_apply, Pi.add_apply, Pi.smul_apply,
    smul_diag, W_fPhi cram16_nonReal V W _ hWV, hWA, smul_eq_mul, smul_eq_mul]
  ring

theorem cram16_scalar (k : ℕ) (hk : k ≤ 2) (x : ℝ) (hx : x ≤ 0) :
    |pfdScalar pfd_cram_16 k x - phi k x| ≤ (⟨"cram_16", 4.01e-16, 4.01e-14, 8.01e-13⟩ : CramRow).tol k :=
  (cram_row (by simp [cramBounds] : (⟨"cram_16", 4.01e-16, 4.01e-14, 8.01e-13⟩ : CramRow) ∈ cramBounds)
    (by simp [pfdDict] : pfdDict "cram_16" = .ok pfd_cram_16)).2 k hk x hx

theorem cram16_c0 : pfd_cram_16.c0 = 2.1248537104952237488e-16 := rfl

/-- amplification of one step without the extra term -/
theorem cram16_amp (x : ℝ) (hx : x ≤ 0) : |1 + x * pfdScalar pfd_cram_16 1 x| ≤ 1 + 1e-15 := by
  have r1 := scalar_rec pfd_cram_16 cram16_nonReal 0 x
  have r3 := cram16_scalar 0 (by norm_num) 0 le_rfl
  have r4 := cram16_scalar 0 (by norm_num) x hx
  have r6 := phi0_le_one hx
  have r7 : phi 0 (0 : ℝ) = 1 := by rw [phi_at_zero]; simp
  rw [r7] at r3
  simp only [CramRow.tol, if_true] at r3 r4
  rw [zero_add] at r1
  rw [r1]
  have : 1 + (pfdScalar pfd_cram_16 0 x - pfdScalar pfd_cram_16 0 0) = phi 0 x + (pfdScalar pfd_cram_16 0 x - phi 0 x)
      - (pfdScalar pfd_cram_16 0 0 - 1) := by ring
  rw [this]
  have k1 := abs_sub (phi 0 x + (pfdScalar pfd_cram_16 0 x - phi 0 x)) (pfdScalar pfd_cram_16 0 0 - 1)
  have k2 := abs_add_le (phi 0 x) (pfdScalar pfd_cram_16 0 x - phi 0 x)
  have k3 : (4.01e-16 : ℝ) + 4.01e-16 ≤ 1e-15 := by norm_num
  linarith

/-- **C113, `exprb2_pfd_rs` (the part that holds).** With the CRAM evaluator of the crate a run of `exprb2_pfd_rs` on `y' = A y + b`,
`A = V diag(d) V^{-1}`, `d ≤ 0`, has at output `m` an error in eigenvector coordinate `i` of at most `m dt 4.1e-14 q^m` times the coordinate of
`y'(t0)`, with `q = 1 + 1e-15 + 2.2e-16 dt |d_i|`: no growth to speak of as long as `dt |d_i|` is well below `1e15 / m`. -/
theorem C113_exprb2_cram_partial {split : ℕ → Option (Split ℕ)} (hsp : ValidSplit 8 (split 8)) {method : String}
    (hm : method = "cram" ∨ method = "cram_16") {E : DenseRs} (hE : densePhikvEvalRs split method 16 = .ok E) {Q T : Type}
    (expm : ∀ m, Mat m → Mat m) (tab : Pfd) (maxDim iom : ℕ) (sys : OdeSys n P) (V W : Mat n) (d : Fin n → ℝ) (hWV : W * V = 1) (hd : ∀ i, d i ≤ 0)
    {b : Vec n} (hsys : ForcedSys sys (V * diagonal d * W) b 0) {Y : ℝ → Vec n} (hY : Solves (V * diagonal d * W) b 0 Y) (t0 : ℝ) (tol : ℝ)
    (s : ExpRB n) (hnew : ExpRB.new true t0 (Y t0) "exprb2_pfd_rs" tol = .ok s) (dt : ℝ) (hdt : 0 ≤ dt) (nsteps : ℕ)
    (before : Option (T → ℝ → Vec n → P × T)) (after : Option (T → ℝ → Vec n → Q × T)) (w : T) :
    ∃ (l : _) (u : ℕ → Vec n),
      integrateOrmatex (rbStepper true (realKernels n expm tab (evalRs E) maxDim iom) sys) s (Y t0) t0 dt nsteps before after w = .ok l ∧
      l.tRes = (List.range (nsteps + 1)).map (fun m : ℕ => t0 + m * dt) ∧ l.yRes = (List.range (nsteps + 1)).map u ∧
      ∀ m i, |(W *ᵥ (u m - Y (t0 + m * dt))) i| ≤
        m * dt * 4.1e-14 * (1 + 1e-15 + 2.2e-16 * (dt * |d i|)) ^ m * |(W *ᵥ ((V * diagonal d * W) *ᵥ Y t0 + b)) i| := by
  obtain ⟨l, e1, e2, e3⟩ := exprb2PfdRs_run (K := realKernels n expm tab (evalRs E) maxDim iom) sys hsys t0 (Y t0) tol s hnew dt nsteps before after w
  have hstep : (fun y => y + dt • (realKernels n expm tab (evalRs E) maxDim iom).phikvRs (V * diagonal d * W) dt ((V * diagonal d * W) *ᵥ y + b) 1)
      = fun y => y + dt • (fPhiKPfd pfd_cram_16 (dt • (V * diagonal d * W)) ((V * diagonal d * W) *ᵥ y + b) 1
        + pfd_cram_16.c0 • ((V * diagonal d * W) *ᵥ y + b)) := by
    funext y
    show y + dt • evalRs E _ dt _ 1 = _
    rw [evalRs_cram hsp hm hE, if_neg one_ne_zero]
  rw [hstep] at e3
  refine ⟨l, _, e1, e2, e3, fun m i => ?_⟩
  have hWA : ∀ y : Vec n, (W *ᵥ ((V * diagonal d * W) *ᵥ y + b)) i = d i * (W *ᵥ y) i + (W *ᵥ b) i := by
    intro y
    rw [Matrix.mulVec_add, Pi.add_apply, Matrix.mulVec_mulVec, ← Matrix.mul_assoc, ← Matrix.mul_assoc, hWV, Matrix.one_mul,
      ← Matrix.mulVec_mulVec, Matrix.mulVec_diagonal]
  have hz : dt * d i ≤ 0 := mul_nonpos_of_nonneg_of_nonpos hdt (hd i)
  have hzabs : dt * |d i| = |dt * d i| := by rw [abs_mul, abs_of_nonneg hdt]
  have hamp : |1 + dt * d i * (pfdScalar pfd_cram_16 1 (dt * d i) + pfd_cram_16.c0)| ≤ 1 + 1e-15 + 2.2e-16 * (dt * |d i|) := by
    have h1 := cram16_amp _ hz
    have h2 : 1 + dt * d i * (pfdScalar pfd_cram_16 1 (dt * d i) + pfd_cram_16.c0)
        = (1 + dt * d i * pfdScalar pfd_cram_16 1 (dt * d i)) + pfd_cram_16.c0 * (dt * d i) := by ring
    rw [h2]
    refine (abs_add_le _ _).trans (add_le_add h1 ?_)
    rw [abs_mul, hzabs, cram16_c0, abs_of_pos (by norm_num)]
    exact mul_le_mul_of_nonneg_right (by norm_num) (abs_nonneg _)
  have hdef : |pfdScalar pfd_cram_16 1 (dt * d i) + pfd_cram_16.c0 - phi 1 (dt * d i)| ≤ 4.1e-14 := by
    have h1 := cram16_scalar 1 (by norm_num) _ hz
    simp only [CramRow.tol, one_ne_zero, if_false, if_true] at h1
    have h2 : pfdScalar pfd_cram_16 1 (dt * d i) + pfd_cram_16.c0 - phi 1 (dt * d i)
        = (pfdScalar pfd_cram_16 1 (dt * d i) - phi 1 (dt * d i)) + pfd_cram_16.c0 := by ring
    rw [h2]
    refine (abs_add_le _ _).trans ?_
    have h4 : |pfd_cram_16.c0| ≤ 3e-16 := by rw [cram16_c0, abs_of_pos (by norm_num)]; norm_num
    have h5 : (4.01e-14 : ℝ) + 3e-16 ≤ 4.1e-14 := by norm_num
    linarith
  have hq1 : (1 : ℝ) ≤ 1 + 1e-15 + 2.2e-16 * (dt * |d i|) := by
    have : 0 ≤ 2.2e-16 * (dt * |d i|) := by positivity
    have : (0 : ℝ) ≤ 1e-15 := by norm_num
    linarith
  generalize hq : 1 + 1e-15 + 2.2e-16 * (dt * |d i|) = q at hamp hq1 ⊢
  generalize hε : (4.1e-14 : ℝ) = ε at hdef ⊢
  have hε0 : 0 ≤ ε := (abs_nonneg _).trans hdef
  suffices h : |(W *ᵥ ((fun y => y + dt • (fPhiKPfd pfd_cram_16 (dt • (V * diagonal d * W)) ((V * diagonal d * W) *ᵥ y + b) 1
        + pfd_cram_16.c0 • ((V * diagonal d * W) *ᵥ y + b)))^[m] (Y t0) - Y (t0 + m * dt))) i|
      ≤ m * dt * ε * q ^ m * |(W *ᵥ ((V * diagonal d * W) *ᵥ Y t0 + b)) i| ∧
    |(W *ᵥ ((V * diagonal d * W) *ᵥ Y (t0 + m * dt) + b)) i| ≤ |(W *ᵥ ((V * diagonal d * W) *ᵥ Y t0 + b)) i| from h.1
  induction m with
  | zero => simp
  | succ m ih =>
    obtain ⟨ih1, ih2⟩ := ih
    have ht : t0 + ((m + 1 : ℕ) : ℝ) * dt = t0 + m * dt + dt := by push_cast; ring
    have hflow : (W *ᵥ Y (t0 + ((m + 1 : ℕ) : ℝ) * dt)) i
        = (W *ᵥ Y (t0 + m * dt)) i + dt * (phi 1 (dt * d i) * (d i * (W *ᵥ Y (t0 + m * dt)) i + (W *ᵥ b) i)) := by
      rw [ht, rosEuler_affine hY, Matrix.mulVec_add, Matrix.mulVec_smul, Pi.add_apply, Pi.smul_apply, smul_diag, W_phiM V W _ hWV, hWA, smul_eq_mul]
    rw [Function.iterate_succ_apply', Matrix.mulVec_sub, Pi.sub_apply, hWA, hWA, hflow, exprb2Rs_coord V W d hWV]
    rw [Matrix.mulVec_sub, Pi.sub_apply, hWA] at ih1
    rw [hWA, hWA] at ih2
    have r2 := phi_recurrence 0 (dt * d i)
    have r6 := phi0_le_one hz
    simp only [Nat.factorial_zero, Nat.cast_one, inv_one, one_smul, zero_add] at r2
    set R1 := pfdScalar pfd_cram_16 1 (dt * d i) + pfd_cram_16.c0
    set P0 := phi 0 (dt * d i)
    set P1 := phi 1 (dt * d i)
    set a := (W *ᵥ _) i
    set c := (W *ᵥ Y (t0 + m * dt)) i
    set β := (W *ᵥ b) i
    set g := |d i * (W *ᵥ Y t0) i + β| with hg
    have hg0 : 0 ≤ g := abs_nonneg _
    have e1 : d i * (c + dt * (P1 * (d i * c + β))) + β = P0 * (d i * c + β) := by
      have : P0 = 1 + dt * d i * P1 := by rw [r2]; ring
      rw [this]; ring
    constructor
    · have e2 : a + dt * (R1 * (d i * a + β)) - (c + dt * (P1 * (d i * c + β)))
          = (1 + dt * d i * R1) * (a - c) + dt * (R1 - P1) * (d i * c + β) := by ring
      rw [e2]
      refine (abs_add_le _ _).trans ?_
      rw [abs_mul, abs_mul, abs_mul, abs_of_nonneg hdt]
      have k1 := mul_le_mul hamp ih1 (abs_nonneg _) (by linarith)
      have k2 : dt * |R1 - P1| * |d i * c + β| ≤ dt * ε * g := by
        have := mul_le_mul hdef ih2 (abs_nonneg _) hε0
        calc dt * |R1 - P1| * |d i * c + β| = dt * (|R1 - P1| * |d i * c + β|) := by ring
          _ ≤ dt * (ε * g) := mul_le_mul_of_nonneg_left this hdt
          _ = _ := by ring
      have k3 : dt * ε * g ≤ dt * ε * q ^ (m + 1) * g := by
        have := one_le_pow₀ (n := m + 1) hq1
        have h' : 0 ≤ dt * ε * g := by positivity
        nlinarith
      have e3 : ((m + 1 : ℕ) : ℝ) * dt * ε * q ^ (m + 1) * g = q * (m * dt * ε * q ^ m * g) + dt * ε * q ^ (m + 1) * g := by
        push_cast; ring
      rw [e3]
      linarith
    · rw [e1, abs_mul]
      have := mul_le_mul r6 ih2 (abs_nonneg _) zero_le_one
      linarith

/-- **C113 is refuted for very stiff systems.** The evaluator of the crate adds `c0 v` to `phi_1`, so on a component with `dt d_i ≤ -2e16`
the numerical solution of `y' = A y` by `exprb2_pfd_rs` at least doubles in every step, while the solution decays (and `exprb2_pfd` follows it,
see C100). -/
theorem C113_stiff_false {split : ℕ → Option (Split ℕ)} (hsp : ValidSplit 8 (split 8)) {method : String}
    (hm : method = "cram" ∨ method = "cram_16") {E : DenseRs} (hE : densePhikvEvalRs split method 16 = .ok E) {Q T : Type}
    (expm : ∀ m, Mat m → Mat m) (tab : Pfd) (maxDim iom : ℕ) (sys : OdeSys n P) (V W : Mat n) (d : Fin n → ℝ) (hWV : W * V = 1)
    (hsys : ForcedSys sys (V * diagonal d * W) 0 0) (y0 : Vec n) (t0 : ℝ) (tol : ℝ)
    (s : ExpRB n) (hnew : ExpRB.new true t0 y0 "exprb2_pfd_rs" tol = .ok s) (dt : ℝ) (i : Fin n) (hstiff : dt * d i ≤ -2e16) (nsteps : ℕ)
    (before : Option (T → ℝ → Vec n → P × T)) (after : Option (T → ℝ → Vec n → Q × T)) (w : T) :
    ∃ (l : _) (u : ℕ → Vec n),
      integrateOrmatex (rbStepper true (realKernels n expm tab (evalRs E) maxDim iom) sys) s y0 t0 dt nsteps before after w = .ok l ∧
      l.yRes = (List.range (nsteps + 1)).map u ∧ ∀ m, 2 ^ m * |(W *ᵥ y0) i| ≤ |(W *ᵥ u m) i| := by
  obtain ⟨l, e1, _, e3⟩ := exprb2PfdRs_run (K := realKernels n expm tab (evalRs E) maxDim iom) sys hsys t0 y0 tol s hnew dt nsteps before after w
  have hstep : (fun y => y + dt • (realKernels n expm tab (evalRs E) maxDim iom).phikvRs (V * diagonal d * W) dt ((V * diagonal d * W) *ᵥ y + 0) 1)
      = fun y => y + dt • (fPhiKPfd pfd_cram_16 (dt • (V * diagonal d * W)) ((V * diagonal d * W) *ᵥ y + 0) 1
        + pfd_cram_16.c0 • ((V * diagonal d * W) *ᵥ y + 0)) := by
    funext y
    show y + dt • evalRs E _ dt _ 1 = _
    rw [evalRs_cram hsp hm hE, if_neg one_ne_zero]
  rw [hstep] at e3
  refine ⟨l, _, e1, e3, fun m => ?_⟩
  induction m with
  | zero => simp
  | succ m ih =>
    rw [Function.iterate_succ_apply', exprb2Rs_coord V W d hWV]
    have hw0 : (W *ᵥ (0 : Vec n)) i = 0 := by rw [Matrix.mulVec_zero]; rfl
    rw [hw0]
    generalize (_ : Vec n → Vec n)^[m] y0 = z at ih ⊢
    set a := (W *ᵥ z) i
    have hx : dt * d i ≤ 0 := by linarith [show (-2e16 : ℝ) ≤ 0 by norm_num]
    have h1 := cram16_amp _ hx
    have e : a + dt * ((pfdScalar pfd_cram_16 1 (dt * d i) + pfd_cram_16.c0) * (d i * a + 0))
        = ((1 + dt * d i * pfdScalar pfd_cram_16 1 (dt * d i)) + pfd_cram_16.c0 * (dt * d i)) * a := by ring
    rw [e, abs_mul, pow_succ]
    have h2 : (2 : ℝ) ≤ |(1 + dt * d i * pfdScalar pfd_cram_16 1 (dt * d i)) + pfd_cram_16.c0 * (dt * d i)| := by
      have h3 : pfd_cram_16.c0 * (dt * d i) ≤ -4.2 := by
        rw [cram16_c0]
        have := mul_le_mul_of_nonneg_left hstiff (by norm_num : (0 : ℝ) ≤ 2.1248537104952237488e-16)
        refine this.trans (by norm_num)
      have h4 := (abs_le.1 h1).2
      have h5 : (1 : ℝ) + 1e-15 - 4.2 ≤ -2 := by norm_num
      rw [abs_of_nonpos (by linarith)]
      linarith
    nlinarith [abs_nonneg a]

/-! ### the Padé evaluator -/

open scoped Matrix.Norms.Operator in
/-- **C113, `exp_pfd_rs` with the Padé evaluator.** For every linear system `y' = A y` (no condition on the spectrum), every step and every number
of steps: the state at output `m` is within `‖exp(m dt A)‖ ((1 + 1e-15)^(k m) - 1) ‖y_0‖` of the solution, `k ≤ max(1, |dt A|_1 / 2.68)`. -/
theorem C113_exp_pade {split : ℕ → Option (Split ℕ)} {method : String} (hm : method ∉ ["cram", "cram_16", "parabolic"]) {order : ℕ}
    {E : DenseRs} (hE : densePhikvEvalRs split method order = .ok E) {Q T : Type} (expm : ∀ m, Mat m → Mat m) (tab : Pfd) (maxDim iom : ℕ)
    (sys : OdeSys n P) (A : Mat n) (hsys : ForcedSys sys A 0 0) {Y : ℝ → Vec n} (hY : Solves A 0 0 Y) (t0 : ℝ) (tol : ℝ) (s : ExpRB n)
    (hnew : ExpRB.new true t0 (Y t0) "exp_pfd_rs" tol = .ok s) (dt : ℝ) (nsteps : ℕ)
    (before : Option (T → ℝ → Vec n → P × T)) (after : Option (T → ℝ → Vec n → Q × T)) (w : T) :
    ∃ (l : _) (u : ℕ → Vec n) (k : ℕ),
      integrateOrmatex (rbStepper true (realKernels n expm tab (evalRs E) maxDim iom) sys) s (Y t0) t0 dt nsteps before after w = .ok l ∧
      l.tRes = (List.range (nsteps + 1)).map (fun m : ℕ => t0 + m * dt) ∧ l.yRes = (List.range (nsteps + 1)).map u ∧
      (k : ℝ) ≤ max 1 (2 * normL1 (dt • A) / 5.371920351148152) ∧
      ∀ m : ℕ, ‖u m - Y (t0 + m * dt)‖ ≤ ‖NormedSpace.exp ((m * dt) • A)‖ * ((1 + 1 / 10 ^ 15) ^ (k * m) - 1) * ‖Y t0‖ := by
  obtain ⟨l, e1, e2, e3⟩ := expPfdRs_run (K := realKernels n expm tab (evalRs E) maxDim iom) sys hsys t0 (Y t0) tol s hnew dt nsteps before after w
  obtain ⟨k, hk, hpow⟩ := C80_power (dt • A) 1
  rw [one_smul] at hk
  refine ⟨l, _, k, e1, e2, e3, hk, fun m => ?_⟩
  simp only [List.mem_cons, List.not_mem_nil, or_false, not_or] at hm
  have hE' : E = padeApply fun _ a => matexpRs a 1 := by
    unfold densePhikvEvalRs at hE
    rw [if_neg (by tauto), if_neg hm.2.2] at hE
    exact (Except.ok.inj hE).symm
  have hit : (fun y => (realKernels n expm tab (evalRs E) maxDim iom).phikvRs A dt y 0)^[m] (Y t0) = (matexpRs (dt • A) 1) ^ m *ᵥ Y t0 := by
    induction m with
    | zero => simp
    | succ m ih =>
      rw [Function.iterate_succ_apply', ih]
      show evalRs E A dt _ 0 = _
      rw [hE', pow_succ', ← Matrix.mulVec_mulVec]
      rfl
  have hex : Y (t0 + m * dt) = NormedSpace.exp ((m * dt) • A) *ᵥ Y t0 := by
    rw [← phiM_zero]; exact (homogeneous_flow hY t0 (m * dt)).symm
  rw [hit, hex, ← Matrix.sub_mulVec]
  refine (Matrix.linfty_opNorm_mulVec _ _).trans (mul_le_mul_of_nonneg_right ?_ (norm_nonneg _))
  have := hpow m
  rw [mul_one, smul_smul] at this
  exact this

/-- non-vacuity: evaluators with a valid schedule exist, and the stiff hypotheses hold for the scalar system `y' = -1e16 y` with `dt = 2` -/
example : (∃ E, densePhikvEvalRs (fun _ => some (.node (.node (.node (.leaf 0) (.leaf 1)) (.node (.leaf 2) (.leaf 3)))
      (.node (.node (.leaf 4) (.leaf 5)) (.node (.leaf 6) (.leaf 7))))) "cram" 16 = .ok E) ∧
    ValidSplit 8 (some (.node (.node (.node (.leaf 0) (.leaf 1)) (.node (.leaf 2) (.leaf 3)))
      (.node (.node (.leaf 4) (.leaf 5)) (.node (.leaf 6) (.leaf 7))))) ∧
    (∃ E, densePhikvEvalRs (fun _ => none) "pade" 16 = .ok E) ∧
    (∃ s, ExpRB.new true 0 (fun _ => 1 : Vec 1) "exp_pfd_rs" 1e-8 = .ok s) ∧ (∃ s, ExpRB.new true 0 (fun _ => 1 : Vec 1) "exprb2_pfd_rs" 1e-8 = .ok s) ∧
    (1 : Mat 1) * 1 = 1 ∧ (2 : ℝ) * (fun _ : Fin 1 => (-1e16 : ℝ)) 0 ≤ -2e16 :=
  ⟨⟨_, rfl⟩, List.Perm.refl _, ⟨_, rfl⟩, ⟨_, rfl⟩, ⟨_, rfl⟩, one_mul 1, by norm_num⟩

end Ormatex.Props
