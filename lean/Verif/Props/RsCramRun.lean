import Verif.Props.Lanczos
import Verif.Props.RsConvergeExp
import Verif.Props.RsRobustRk
import Verif.Props.Bridge
import Verif.Props.ApproxKrylov
import Mathlib.Analysis.Complex.ExponentialBounds

/-!
C124.  Linear dissipative systems through the Python binding with `expmv_method = "cram"`: the error does not depend on the stiffness
times the step, only on the accuracy of the products.
-/

namespace Ormatex.Props
open Matrix Ormatex.Spec Ormatex.Rs
open scoped Matrix.Norms.Operator

section
variable {n : ℕ}

/-- accuracy of the products with step `dt` -/
noncomputable def cramEps (dt : ℝ) : ℝ := 4.1e-14 + dt * 1e-12

/-- the step of the second order methods on a linear system, for a product with relative error `ε` -/
theorem cram_seq (M : Mat n) (hM : Mᵀ = M) (hneg : ∀ v, v ⬝ᵥ (M *ᵥ v) ≤ 0) (b : Vec n) (ρ : ℝ) (hρ : 0 ≤ ρ)
    (hMρ : ∀ x, norm2 (M *ᵥ x) ≤ ρ * norm2 x) (Y : ℝ → Vec n) (hY : ∀ s, HasDerivAt Y (M *ᵥ Y s + b) s) (t0 dt : ℝ) (hdt : 0 ≤ dt)
    (ε : ℝ) (hε : 0 ≤ ε) (u : ℕ → Vec n) (N : ℕ) (hu0 : u 0 = Y t0)
    (hu : ∀ k < N, norm2 (u (k + 1) - (u k + phiM 1 (dt • M) *ᵥ (dt • (M *ᵥ u k + b)))) ≤ ε * norm2 (dt • (M *ᵥ u k + b))) :
    ∀ k ≤ N, norm2 (M *ᵥ u k + b) ≤ (1 + ρ * (dt * ε)) ^ k * norm2 (M *ᵥ Y t0 + b) ∧
      norm2 (u k - Y (t0 + k * dt)) ≤ k * (dt * ε) * (1 + ρ * (dt * ε)) ^ k * norm2 (M *ᵥ Y t0 + b) := by
  have hs : (dt • M)ᵀ = dt • M := by rw [Matrix.transpose_smul, hM]
  have hn : ∀ v, v ⬝ᵥ ((dt • M) *ᵥ v) ≤ 0 := fun x => by
    rw [Matrix.smul_mulVec, dotProduct_smul]
    exact mul_nonpos_of_nonneg_of_nonpos hdt (hneg x)
  have hrec : ∀ x, M *ᵥ (phiM 1 (dt • M) *ᵥ (dt • x)) = phiM 0 (dt • M) *ᵥ x - x := fun x => by
    have h := phiM_recurrence 0 (dt • M)
    have h2 := congrArg (fun A : Mat n => A *ᵥ x) h
    simp only [Nat.factorial_zero, Nat.cast_one, inv_one, one_smul, zero_add, Matrix.sub_mulVec, Matrix.one_mulVec] at h2
    rw [← h2, Matrix.smul_mul, Matrix.smul_mulVec, ← Matrix.mulVec_mulVec, Matrix.mulVec_smul, Matrix.mulVec_smul]
  have hrec' : ∀ x, phiM 1 (dt • M) *ᵥ (dt • (M *ᵥ x)) = phiM 0 (dt • M) *ᵥ x - x := fun x => by
    have h := phiM_recurrence' 0 (dt • M)
    have h2 := congrArg (fun A : Mat n => A *ᵥ x) h
    simp only [Nat.factorial_zero, Nat.cast_one, inv_one, one_smul, zero_add, Matrix.sub_mulVec, Matrix.one_mulVec] at h2
    rw [← h2, ← Matrix.mulVec_mulVec, Matrix.smul_mulVec]
  have hflow : ∀ t, Y (t + dt) = Y t + phiM 1 (dt • M) *ᵥ (dt • (M *ᵥ Y t + b)) := fun t => by
    have h := forced_solution M 1 (fun _ => b) t Y (fun s => by simpa using hY s) dt
    simp only [Finset.range_one, Finset.sum_singleton, zero_add, pow_one] at h
    rw [h, smul_add, Matrix.mulVec_add, hrec', Matrix.mulVec_smul]
    abel
  set F := norm2 (M *ᵥ Y t0 + b) with hF
  have hF0 : 0 ≤ F := norm2_nonneg _
  set κ := dt * ε with hκ
  have hκ0 : 0 ≤ κ := mul_nonneg hdt hε
  have hG : 1 ≤ 1 + ρ * κ := by have := mul_nonneg hρ hκ0; linarith
  intro k
  induction k with
  | zero =>
    intro _
    rw [hu0]
    simp [norm2_zero, hF]
  | succ k ih =>
    intro hk
    obtain ⟨i1, i2⟩ := ih (by omega)
    have he := hu k (by omega)
    set f := M *ᵥ u k + b with hf
    obtain ⟨e, hee⟩ : ∃ e, e = u (k + 1) - (u k + phiM 1 (dt • M) *ᵥ (dt • f)) := ⟨_, rfl⟩
    rw [← hee, norm2_smul, abs_of_nonneg hdt, ← mul_assoc, mul_comm ε dt, ← hκ] at he
    have hun : u (k + 1) = u k + phiM 1 (dt • M) *ᵥ (dt • f) + e := by rw [hee]; abel
    have hP : 0 ≤ (1 + ρ * κ) ^ k * F := mul_nonneg (pow_nonneg (by linarith) _) hF0
    have hstep : norm2 e ≤ κ * ((1 + ρ * κ) ^ k * F) := he.trans (mul_le_mul_of_nonneg_left i1 hκ0)
    constructor
    · have e1 : M *ᵥ u (k + 1) + b = phiM 0 (dt • M) *ᵥ f + M *ᵥ e := by
        rw [hun, Matrix.mulVec_add, Matrix.mulVec_add, hrec, hf]; abel
      rw [e1]
      calc norm2 (phiM 0 (dt • M) *ᵥ f + M *ᵥ e) ≤ norm2 f + ρ * norm2 e :=
            (norm2_add_le _ _).trans (add_le_add (exp_contract hs hn f) (hMρ e))
        _ ≤ (1 + ρ * κ) ^ k * F + ρ * (κ * ((1 + ρ * κ) ^ k * F)) := add_le_add i1 (mul_le_mul_of_nonneg_left hstep hρ)
        _ = (1 + ρ * κ) ^ (k + 1) * F := by ring
    · have ht : t0 + ((k + 1 : ℕ) : ℝ) * dt = t0 + k * dt + dt := by push_cast; ring
      have e1 : u (k + 1) - Y (t0 + ((k + 1 : ℕ) : ℝ) * dt) = phiM 0 (dt • M) *ᵥ (u k - Y (t0 + k * dt)) + e := by
        rw [ht, hflow, hun, hf, smul_add, smul_add, Matrix.mulVec_add, Matrix.mulVec_add, hrec', hrec', Matrix.mulVec_sub]
        abel
      rw [e1]
      have h3 : (1 + ρ * κ) ^ k ≤ (1 + ρ * κ) ^ (k + 1) := pow_le_pow_right₀ hG (Nat.le_succ k)
      have h4 : 0 ≤ ((k : ℝ) + 1) * κ * F := by positivity
      calc norm2 (phiM 0 (dt • M) *ᵥ (u k - Y (t0 + k * dt)) + e) ≤ norm2 (u k - Y (t0 + k * dt)) + norm2 e :=
            (norm2_add_le _ _).trans (add_le_add (exp_contract hs hn _) le_rfl)
        _ ≤ k * κ * (1 + ρ * κ) ^ k * F + κ * ((1 + ρ * κ) ^ k * F) := add_le_add i2 hstep
        _ = ((k : ℝ) + 1) * κ * F * (1 + ρ * κ) ^ k := by ring
        _ ≤ ((k : ℝ) + 1) * κ * F * (1 + ρ * κ) ^ (k + 1) := mul_le_mul_of_nonneg_left h3 h4
        _ = ((k + 1 : ℕ) : ℝ) * κ * (1 + ρ * κ) ^ (k + 1) * F := by push_cast; ring

/-- a symmetric matrix with `|S x| ≤ σ |x|` has an exponential that shrinks vectors by at most `e^{-σ}` -/
theorem exp_lower {S : Mat n} (hS : Sᵀ = S) (hneg : ∀ v : Vec n, v ⬝ᵥ (S *ᵥ v) ≤ 0) (σ : ℝ) (hσ : ∀ x, norm2 (S *ᵥ x) ≤ σ * norm2 x) (x : Vec n) :
    Real.exp (-σ) * norm2 x ≤ norm2 (phiM 0 S *ᵥ x) := by
  obtain ⟨U, d, hU, hd, hd0⟩ := symm_nonpos S hS hneg
  have hU' : Uᵀᵀ * Uᵀ = 1 := by rw [Matrix.transpose_transpose]; exact mul_eq_one_comm.mp hU
  have hdσ : ∀ k, -σ ≤ d k := by
    intro k
    have h := hσ (U *ᵥ Pi.single k 1)
    have e : S *ᵥ (U *ᵥ Pi.single k 1) = U *ᵥ (d k • Pi.single k 1) := by
      rw [hd, Matrix.mulVec_mulVec, Matrix.mul_assoc, hU, Matrix.mul_one, ← Matrix.mulVec_mulVec]
      congr 1
      funext i
      rw [Matrix.mulVec_diagonal]
      by_cases hik : i = k
      · subst hik; simp
      · simp [Pi.single_eq_of_ne hik]
    have h1 : norm2 (Pi.single k 1 : Vec n) = 1 := by
      unfold norm2; simp
    rw [e, norm2_isometry hU, norm2_isometry hU, norm2_smul, h1, mul_one, mul_one] at h
    have := neg_abs_le (d k)
    linarith
  have h : norm2 x ≤ Real.exp σ * norm2 (phiM 0 S *ᵥ x) := by
    rw [hd, Cert.phiM_diag U Uᵀ d hU 0, ← Matrix.mulVec_mulVec, ← Matrix.mulVec_mulVec, norm2_isometry hU, ← norm2_isometry hU' x]
    refine norm2_le_of_abs_le _ _ _ (Real.exp_pos _).le fun i => ?_
    rw [Matrix.mulVec_diagonal, abs_mul, phi_zero, ← Real.exp_eq_exp_ℝ, abs_of_pos (Real.exp_pos _), ← mul_assoc, ← Real.exp_add]
    refine le_mul_of_one_le_left (abs_nonneg _) (Real.one_le_exp ?_)
    have := hdσ i
    linarith
  calc Real.exp (-σ) * norm2 x ≤ Real.exp (-σ) * (Real.exp σ * norm2 (phiM 0 S *ᵥ x)) := mul_le_mul_of_nonneg_left h (Real.exp_pos _).le
    _ = norm2 (phiM 0 S *ᵥ x) := by rw [← mul_assoc, ← Real.exp_add, neg_add_cancel, Real.exp_zero, one_mul]

/-- right-hand side after a step -/
theorem cram_rhs (M : Mat n) (b : Vec n) (dt : ℝ) (x e : Vec n) :
    M *ᵥ (x + phiM 1 (dt • M) *ᵥ (dt • (M *ᵥ x + b)) + e) + b = phiM 0 (dt • M) *ᵥ (M *ᵥ x + b) + M *ᵥ e := by
  have hrec : ∀ x, M *ᵥ (phiM 1 (dt • M) *ᵥ (dt • x)) = phiM 0 (dt • M) *ᵥ x - x := fun x => by
    have h := phiM_recurrence 0 (dt • M)
    have h2 := congrArg (fun A : Mat n => A *ᵥ x) h
    simp only [Nat.factorial_zero, Nat.cast_one, inv_one, one_smul, zero_add, Matrix.sub_mulVec, Matrix.one_mulVec] at h2
    rw [← h2, Matrix.smul_mul, Matrix.smul_mulVec, ← Matrix.mulVec_mulVec, Matrix.mulVec_smul, Matrix.mulVec_smul]
  rw [Matrix.mulVec_add, Matrix.mulVec_add, hrec]
  abel

/-- **Specification.** The system `y' = M y + b`, with any operator objects that apply `M` as Jacobians. -/
structure LinearSysRs (sys : Sys n) (M : Mat n) (b : Vec n) : Prop where
  rhs : ∀ t y, sys.frhs t y = M *ᵥ y + b
  jac : ∀ t y, IsMatrix (sys.fjac t y) M

/-- one step of `epi2`/`exprb2` that returns, for a linear system and any kernel -/
theorem step2_linear {K : Kern n} {sys : Sys n} {M : Mat n} {b : Vec n} (hsys : LinearSysRs sys M b) (s : Epirk n) {t : ℝ} {y : Vec n}
    (hs : AtRs s t y) (dt : ℝ) :
    Epirk.stepOrder2 K sys s dt = (K.phi (sys.fjac t y) dt (dt • (M *ᵥ y + b)) 1).map fun p => StepRes.mk (t + dt) dt (y + p) none := by
  have hfd : Epirk.fphi2V K sys s (M *ᵥ y + b) (sys.fjac t y) dt = .ok (0, 0) := by
    unfold Epirk.fphi2V
    by_cases h0 : s.tolFdt < 0
    · rw [if_pos h0]
    · rw [if_neg h0]
      unfold Epirk.frhsFdt
      simp only [hs.yNew, bind, Except.bind, pure, Except.pure, hsys.rhs]
      have e : (fun i => ((M *ᵥ y + b) i - (M *ᵥ y + b) i) / 1e-8 : Vec n) = 0 := by funext i; simp
      rw [e, norm_zero, if_neg (by simpa using h0)]
  unfold Epirk.stepOrder2
  simp only [hs.yNew, hs.time, bind, Except.bind, pure, Except.pure, hsys.rhs, hfd]
  cases K.phi (sys.fjac t y) dt (dt • (M *ᵥ y + b)) 1 with
  | error e => rfl
  | ok p => simp only [Except.map, add_zero]

/-- **C124 (any kernel).** Runs that return are accurate to the accuracy of the products. -/
theorem C124_run {K : Kern n} {sys : Sys n} {M : Mat n} {b : Vec n} (hsys : LinearSysRs sys M b) (hM : Mᵀ = M) (hneg : ∀ v, v ⬝ᵥ (M *ᵥ v) ≤ 0)
    (ρ : ℝ) (hρ : 0 ≤ ρ) (hMρ : ∀ x, norm2 (M *ᵥ x) ≤ ρ * norm2 x) (Y : ℝ → Vec n) (hY : ∀ s, HasDerivAt Y (M *ᵥ Y s + b) s)
    (t0 dt : ℝ) (hdt : 0 ≤ dt) (ε : ℝ) (hε : 0 ≤ ε)
    (hK : ∀ A v w, IsMatrix A M → K.phi A dt v 1 = .ok w → norm2 (w - phiM 1 (dt • M) *ᵥ v) ≤ ε * norm2 v)
    (N osteps : ℕ) (ho : 0 < osteps) (s0 : Epirk n) (hs0 : AtRs s0 t0 (Y t0)) (hm : s0.method = "epi2" ∨ s0.method = "exprb2") :
    (∀ out, outLoop (Epirk.integrator K sys) dt osteps N 0 s0 [] [] = .ok out →
      RsRunAccurate out t0 dt osteps N Y (N * (dt * ε) * (1 + ρ * (dt * ε)) ^ N * norm2 (M *ᵥ Y t0 + b))) ∧
    ((∀ A v, IsMatrix A M → v ≠ 0 → ∃ w, K.phi A dt v 1 = .ok w) → 0 < dt → ρ * (dt * ε) < Real.exp (-(ρ * dt)) → M *ᵥ Y t0 + b ≠ 0 →
      ∃ out, outLoop (Epirk.integrator K sys) dt osteps N 0 s0 [] [] = .ok out) := by
  classical
  -- the integrator with failed steps replaced by the exact ones
  let fb : Epirk n → StepRes n := fun s =>
    StepRes.mk (s.t + dt) dt (s.yHist.headD 0 + phiM 1 (dt • M) *ᵥ (dt • (M *ᵥ s.yHist.headD 0 + b))) none
  let g : Epirk n → StepRes n := fun s => match (Epirk.integrator K sys).step s dt with
    | .ok r => r
    | .error _ => fb s
  let I' : Integrator (Epirk n) n := { Epirk.integrator K sys with step := fun s _ => .ok (g s) }
  let S : ℕ → Epirk n := fun k => Nat.rec s0 (fun _ s => (Epirk.integrator K sys).accept s (g s)) k
  have hSs : ∀ k, S (k + 1) = (Epirk.integrator K sys).accept (S k) (g (S k)) := fun k => rfl
  let u : ℕ → Vec n := fun k => (S k).yHist.headD 0
  have hmeth : ∀ k, (S k).method = s0.method := fun k => by
    induction k with
    | zero => rfl
    | succ k ih => rw [hSs]; exact ih
  have key : ∀ k, AtRs (S k) (t0 + k * dt) (u k) ∧
      norm2 (u (k + 1) - (u k + phiM 1 (dt • M) *ᵥ (dt • (M *ᵥ u k + b)))) ≤ ε * norm2 (dt • (M *ᵥ u k + b)) := by
    have hstep : ∀ k, AtRs (S k) (t0 + k * dt) (u k) → (g (S k)).t = t0 + k * dt + dt ∧
        norm2 ((g (S k)).y - (u k + phiM 1 (dt • M) *ᵥ (dt • (M *ᵥ u k + b)))) ≤ ε * norm2 (dt • (M *ᵥ u k + b)) := by
      intro k hk
      have e : (Epirk.integrator K sys).step (S k) dt = Epirk.stepOrder2 K sys (S k) dt := by
        show Epirk.step K sys (S k) dt = _
        unfold Epirk.step
        rw [if_pos (by rw [hmeth]; exact hm)]
      have e2 := step2_linear (K := K) hsys (S k) hk dt
      rw [← e] at e2
      cases hp : K.phi (sys.fjac (t0 + k * dt) (u k)) dt (dt • (M *ᵥ u k + b)) 1 with
      | error er =>
        rw [hp] at e2
        have eg : g (S k) = fb (S k) := by simp only [g, e2, Except.map]
        rw [eg]
        refine ⟨by show (S k).t + dt = _; rw [hk.time], ?_⟩
        have : (fb (S k)).y - (u k + phiM 1 (dt • M) *ᵥ (dt • (M *ᵥ u k + b))) = 0 := sub_self _
        rw [this, norm2_zero]
        exact mul_nonneg hε (norm2_nonneg _)
      | ok p =>
        rw [hp] at e2
        have eg : g (S k) = StepRes.mk (t0 + k * dt + dt) dt (u k + p) none := by simp only [g, e2, Except.map]
        rw [eg]
        refine ⟨rfl, ?_⟩
        have : u k + p - (u k + phiM 1 (dt • M) *ᵥ (dt • (M *ᵥ u k + b))) = p - phiM 1 (dt • M) *ᵥ (dt • (M *ᵥ u k + b)) := by abel
        show norm2 (u k + p - _) ≤ _
        rw [this]
        exact hK _ _ _ (hsys.jac _ _) hp
    have hat : ∀ k, AtRs (S k) (t0 + k * dt) (u k) := by
      intro k
      induction k with
      | zero =>
        have h0 : u 0 = Y t0 := by
          have h := hs0.yNew
          show s0.yHist.headD 0 = _
          cases hy : s0.yHist with
          | nil => rw [hy] at h; simp [rsGet] at h
          | cons a l =>
            rw [hy] at h
            simp [rsGet] at h
            simpa using h
        rw [h0]
        show AtRs s0 _ _
        simpa using hs0
      | succ k ih =>
        have hg := (hstep k ih).1
        have ht : t0 + ((k + 1 : ℕ) : ℝ) * dt = (g (S k)).t := by rw [hg]; push_cast; ring
        rw [ht]
        exact AtRs.mk rfl rfl rfl
    exact fun k => ⟨hat k, (hstep k (hat k)).2⟩
  have hu0 : u 0 = Y t0 := by
    have h1 := (key 0).1.yNew
    have h2 := hs0.yNew
    have : (S 0).yHist = s0.yHist := rfl
    rw [this, h2] at h1
    exact (Except.ok.inj h1).symm
  have herr := cram_seq M hM hneg b ρ hρ hMρ Y hY t0 dt hdt ε hε u N hu0 (fun k _ => (key k).2)
  constructor
  swap
  · intro hex hdt0 hsmall hne
    have hnz : ∀ k, M *ᵥ u k + b ≠ 0 := by
      intro k
      induction k with
      | zero => rw [hu0]; exact hne
      | succ k ih =>
        intro h0
        have he := (key k).2
        set f := M *ᵥ u k + b with hf
        obtain ⟨e, hee⟩ : ∃ e, e = u (k + 1) - (u k + phiM 1 (dt • M) *ᵥ (dt • f)) := ⟨_, rfl⟩
        rw [← hee, norm2_smul, abs_of_nonneg hdt] at he
        have hun : u (k + 1) = u k + phiM 1 (dt • M) *ᵥ (dt • f) + e := by rw [hee]; abel
        rw [hun, hf, cram_rhs, ← hf] at h0
        have h1 := exp_lower (S := dt • M) (by rw [Matrix.transpose_smul, hM])
          (fun x => by
            rw [Matrix.smul_mulVec, dotProduct_smul]
            exact mul_nonpos_of_nonneg_of_nonpos hdt (hneg x)) (ρ * dt)
          (fun x => by
            rw [Matrix.smul_mulVec, norm2_smul, abs_of_nonneg hdt, mul_comm ρ dt, mul_assoc]
            exact mul_le_mul_of_nonneg_left (hMρ x) hdt) f
        have h2 : norm2 (phiM 0 (dt • M) *ᵥ f) = norm2 (M *ᵥ e) := by
          rw [eq_neg_of_add_eq_zero_left h0, norm2_neg]
        have h3 : norm2 (M *ᵥ e) ≤ ρ * (dt * ε) * norm2 f := by
          refine (hMρ e).trans ?_
          rw [mul_assoc]
          refine mul_le_mul_of_nonneg_left (he.trans (le_of_eq ?_)) hρ
          ring
        have h4 := mul_lt_mul_of_pos_right hsmall (norm2_pos ih)
        linarith
    refine ⟨_, rs_follow (Epirk.integrator K sys) (fun o k => o = S k) u t0 dt N
      (fun o k h => by subst h; exact ⟨(key k).1.yNew, (key k).1.time⟩) (fun o k _ h => ?_) s0 rfl osteps ho⟩
    subst h
    refine ⟨g (S k), ?_, (hSs k).symm⟩
    have e : (Epirk.integrator K sys).step (S k) dt = Epirk.stepOrder2 K sys (S k) dt := by
      show Epirk.step K sys (S k) dt = _
      unfold Epirk.step
      rw [if_pos (by rw [hmeth]; exact hm)]
    have e2 := step2_linear (K := K) hsys (S k) (key k).1 dt
    rw [← e] at e2
    obtain ⟨w, hw⟩ := hex (sys.fjac (t0 + k * dt) (u k)) (dt • (M *ᵥ u k + b)) (hsys.jac _ _) (smul_ne_zero hdt0.ne' (hnz k))
    rw [hw] at e2
    have eg : g (S k) = StepRes.mk (t0 + k * dt + dt) dt (u k + w) none := by simp only [g, e2, Except.map]
    rw [eg, e2]
    rfl
  intro out hout
  have hmono := outLoop_mono (I := Epirk.integrator K sys) (I' := I') (dt := dt) rfl rfl rfl
    (fun s r hr => by show Except.ok (g s) = _; simp only [g, hr]) osteps N 0 s0 [] [] out hout
  have hfol := rs_follow I' (fun o k => o = S k) u t0 dt N
    (fun o k h => by subst h; exact ⟨(key k).1.yNew, (key k).1.time⟩)
    (fun o k _ h => ⟨g o, rfl, by subst h; exact (hSs k).symm⟩) s0 rfl osteps ho
  rw [hfol] at hmono
  cases hmono
  refine rsAccurate_of fun k hk => (norm_le_norm2 _).trans ((herr k hk).2.trans ?_)
  refine mul_le_mul_of_nonneg_right ?_ (norm2_nonneg _)
  have hG : (1 : ℝ) ≤ 1 + ρ * (dt * ε) := by have := mul_nonneg hρ (mul_nonneg hdt hε); linarith
  refine mul_le_mul ?_ (pow_le_pow_right₀ hG hk) (pow_nonneg (by linarith) _) (by positivity)
  refine mul_le_mul_of_nonneg_right ?_ (mul_nonneg hdt hε)
  exact_mod_cast hk

/-- `integrate_wrapper_rs` with "epi2" or "exprb2" on a linear dissipative system, for a dense evaluator that is accurate to `τ` on symmetric
negative semidefinite matrices. -/
theorem linear_binding (gmres : Gmres n) (split : ℕ → Option (Split ℕ)) (sys : Sys n) {M : Mat n} {b : Vec n}
    (hsys : LinearSysRs sys M b) (hM : Mᵀ = M) (hneg : ∀ v, v ⬝ᵥ (M *ᵥ v) ≤ 0) (ρ : ℝ) (hρ : 0 ≤ ρ)
    (hMρ : ∀ x, norm2 (M *ᵥ x) ≤ ρ * norm2 x) (Y : ℝ → Vec n) (hY : ∀ s, HasDerivAt Y (M *ᵥ Y s + b) s)
    (t0 dt : ℝ) (hdt : 0 ≤ dt) (N : ℕ) (kd : Kwds) (o : RunOpts) (hp : parseOpts kd = .ok o) (hme : o.method = "epi2" ∨ o.method = "exprb2")
    {E : DenseRs} (hE : selectExpmv split o.expmvMethod = .ok E) (τ : ℝ) (hτ : 0 ≤ τ)
    (hEa : ∀ (k : ℕ) (H : Mat k) (x : Vec k), Hᵀ = H → (∀ v, v ⬝ᵥ (H *ᵥ v) ≤ 0) →
      ∃ e, E k H dt x 1 = .ok e ∧ norm2 (e - phiM 1 (dt • H) *ᵥ x) ≤ τ * norm2 x)
    (hk : n ≤ o.krylovDim) (hk0 : 0 < o.krylovDim) (hi : 1 ≤ o.iom) (ho : 0 < o.osteps) :
    (∀ out, integrateWrapperRs gmres split sys (Y t0) t0 dt N kd = .ok out →
      RsRunAccurate out t0 dt o.osteps N Y (N * (dt * (τ + dt * 1e-12)) * (1 + ρ * (dt * (τ + dt * 1e-12))) ^ N * norm2 (M *ᵥ Y t0 + b))) ∧
    (0 < dt → ρ * (dt * (τ + dt * 1e-12)) < Real.exp (-(ρ * dt)) → M *ᵥ Y t0 + b ≠ 0 →
      ∃ out, integrateWrapperRs gmres split sys (Y t0) t0 dt N kd = .ok out) := by
  obtain ⟨s1, hs1⟩ : ∃ s1, Epirk.new t0 (Y t0) o.method = .ok s1 := by
    rcases hme with h | h <;> rw [h] <;> exact ⟨_, rfl⟩
  obtain ⟨s0, hs0⟩ : ∃ s0, s1.withOpt "tol_fdt" o.tolFdt = .ok s0 := ⟨_, rfl⟩
  have hsel : selectSolver split t0 (Y t0) o.method o.expmvMethod o.krylovDim o.iom o.tolFdt =
      .ok (.epirk (KrylovExpm.mk E o.krylovDim o.iom) s0) := by
    have en : KrylovExpm.new E o.krylovDim (some o.iom) = .ok (KrylovExpm.mk E o.krylovDim o.iom) := if_pos hk0
    have ne : ¬ (o.method = "bdf1" ∨ o.method = "backeuler") ∧ o.method ≠ "bdf2" ∧ o.method ≠ "cn" := by
      rcases hme with h | h <;> rw [h] <;> decide
    unfold selectSolver
    rw [if_neg ne.1, if_neg ne.2.1, if_neg ne.2.2, hE]
    show (KrylovExpm.new E o.krylovDim (some o.iom) >>= fun K => Epirk.new t0 (Y t0) o.method >>= fun s => s.withOpt "tol_fdt" o.tolFdt >>= fun s =>
      Pure.pure (Solver.epirk K s)) = _
    rw [en, hs1]
    show (s1.withOpt "tol_fdt" o.tolFdt >>= fun s => Pure.pure (Solver.epirk _ s)) = _
    rw [hs0]
    rfl
  have hw : integrateWrapperRs gmres split sys (Y t0) t0 dt N kd =
      outLoop (Epirk.integrator ((KrylovExpm.mk E o.krylovDim o.iom).kern n) sys) dt o.osteps N 0 s0 [] [] := by
    unfold integrateWrapperRs
    rw [hp]
    show (selectSolver split t0 (Y t0) o.method o.expmvMethod o.krylovDim o.iom o.tolFdt >>= fun s =>
      outLoop (solverIntegrator gmres sys) dt o.osteps N 0 s [] []) = _
    rw [hsel]
    show outLoop (solverIntegrator gmres sys) dt o.osteps N 0 (.epirk _ s0) [] [] = _
    rw [outLoop_epirk]
  rw [hw]
  obtain ⟨g1, g2, g3, g4⟩ := epirk_built hs1 hs0
  have hprod : ∀ A v, IsMatrix A M → v ≠ 0 → ∃ w, ((KrylovExpm.mk E o.krylovDim o.iom).kern n).phi A dt v 1 = .ok w := by
    intro A v hA hv
    obtain ⟨w', h1, -⟩ := krylov_dense o.krylovDim o.iom hk hi A M hA hM hneg dt hdt v hv 1 τ hEa
    exact ⟨w', h1⟩
  refine (fun h => ⟨h.1, h.2 hprod⟩) (C124_run hsys hM hneg ρ hρ hMρ Y hY t0 dt hdt (τ + dt * 1e-12) (by positivity) ?_ N o.osteps ho s0
    (AtRs.mk (by simp [g2]) (by rw [g4]; simp [rsGet]) (by rw [g3]; rfl)) (by rw [g1]; exact hme))
  intro A v w hA hw
  by_cases hv : v = 0
  · exfalso
    subst hv
    have : ((KrylovExpm.mk E o.krylovDim o.iom).kern n).phi A dt 0 1 = (KrylovExpm.mk E o.krylovDim o.iom).applyPhiLinop A dt 0 1 := rfl
    rw [this] at hw
    unfold KrylovExpm.applyPhiLinop at hw
    simp only [arnoldiRs, norm2_zero] at hw
    split_ifs at hw <;> simp_all [bind, Except.bind]
  · obtain ⟨w', h1, h2⟩ := krylov_dense o.krylovDim o.iom hk hi A M hA hM hneg dt hdt v hv 1 τ hEa
    have h3 : ((KrylovExpm.mk E o.krylovDim o.iom).kern n).phi A dt v 1 = .ok w' := h1
    rw [h3] at hw
    cases hw
    exact h2

/-- **C124 (through the binding).** `integrate_wrapper_rs` with `method` "epi2" or "exprb2" and `expmv_method` "cram" or "cram_16" on
`y' = M y + b`, `M` symmetric negative semidefinite of any norm `ρ`: with a Krylov dimension of at least the size of the system and an
orthogonalisation depth of at least one, for every step size, number of steps, tolerance, output stride and schedule of the parallel sums,
a call that returns has output states within `N dt ε (1 + ρ dt ε)^N |M y0 + b|` of the solution, where `ε = 4.1e-14 + dt 1e-12`.  The
call returns if the initial state is not an equilibrium and `ρ dt ε < e^{-ρ dt}`. -/
theorem C124_binding (gmres : Gmres n) (split : ℕ → Option (Split ℕ)) (hsp : ValidSplit 8 (split 8)) (sys : Sys n) {M : Mat n} {b : Vec n}
    (hsys : LinearSysRs sys M b) (hM : Mᵀ = M) (hneg : ∀ v, v ⬝ᵥ (M *ᵥ v) ≤ 0) (ρ : ℝ) (hρ : 0 ≤ ρ)
    (hMρ : ∀ x, norm2 (M *ᵥ x) ≤ ρ * norm2 x) (Y : ℝ → Vec n) (hY : ∀ s, HasDerivAt Y (M *ᵥ Y s + b) s)
    (t0 dt : ℝ) (hdt : 0 ≤ dt) (N : ℕ) (kd : Kwds) (o : RunOpts) (hp : parseOpts kd = .ok o) (hme : o.method = "epi2" ∨ o.method = "exprb2")
    (he : o.expmvMethod = "cram" ∨ o.expmvMethod = "cram_16") (hk : n ≤ o.krylovDim) (hk0 : 0 < o.krylovDim) (hi : 1 ≤ o.iom) (ho : 0 < o.osteps) :
    (∀ out, integrateWrapperRs gmres split sys (Y t0) t0 dt N kd = .ok out →
      RsRunAccurate out t0 dt o.osteps N Y (N * (dt * cramEps dt) * (1 + ρ * (dt * cramEps dt)) ^ N * norm2 (M *ᵥ Y t0 + b))) ∧
    (0 < dt → ρ * (dt * cramEps dt) < Real.exp (-(ρ * dt)) → M *ᵥ Y t0 + b ≠ 0 →
      ∃ out, integrateWrapperRs gmres split sys (Y t0) t0 dt N kd = .ok out) := by
  obtain ⟨c, hc, hsel⟩ := (C123_option split o.expmvMethod).1 he
  have ht : rsCramTol 1 = 4.1e-14 := by simp [rsCramTol]
  have h := linear_binding gmres split sys hsys hM hneg ρ hρ hMρ Y hY t0 dt hdt N kd o hp hme hsel (rsCramTol 1) (rsCramTol_nonneg 1)
    (fun k H x hH hHn => (C102_symmetric hc H hH hHn dt hdt x 1 (by norm_num) (split 8) hsp).1) hk hk0 hi ho
  rw [ht] at h
  exact h

end

/-- non-vacuity: heat conduction between two cells, all hypotheses and the condition for the call to return -/
example : ∃ (sys : Sys 2) (kd : Kwds) (o : RunOpts), LinearSysRs sys !![-2, 1; 1, -2] ![1, 0] ∧ parseOpts kd = .ok o ∧ o.method = "epi2" ∧
    o.expmvMethod = "cram" ∧ 2 ≤ o.krylovDim ∧ 1 ≤ o.iom ∧ 0 < o.osteps ∧
    (∀ x, norm2 ((!![-2, 1; 1, -2] : Mat 2) *ᵥ x) ≤ 3 * norm2 x) ∧ 3 * (1 * cramEps 1) < Real.exp (-(3 * 1)) ∧
    (!![-2, 1; 1, -2] : Mat 2) *ᵥ (0 : Vec 2) + ![1, 0] ≠ 0 := by
  refine ⟨Sys.mk (fun _ y => !![-2, 1; 1, -2] *ᵥ y + ![1, 0]) (fun _ _ => matrixLinOp !![-2, 1; 1, -2]),
    fun k => if k = "expmv_method" then some (.str "cram") else none,
    RunOpts.mk "epi2" "cram" 100 2 1e-8 1e-8 1, ⟨fun _ _ => rfl, fun _ _ _ => rfl⟩, ?_, rfl, rfl, by norm_num, by norm_num, by norm_num, ?_, ?_, ?_⟩
  · simp [parseOpts, getValOrDefault, PyVal.asString, bind, Except.bind, pure, Except.pure]
  · intro x
    have h : norm2 ((!![-2, 1; 1, -2] : Mat 2) *ᵥ x) ≤ norm2 ((3 : ℝ) • x) := by
      unfold norm2
      refine Real.sqrt_le_sqrt ?_
      simp [Matrix.mulVec, dotProduct, Fin.sum_univ_two]
      nlinarith [sq_nonneg (x 0), sq_nonneg (x 1), sq_nonneg (x 0 - x 1), sq_nonneg (x 0 + x 1)]
    rwa [norm2_smul, abs_of_pos (by norm_num)] at h
  · have h := Real.exp_one_lt_d9
    have h3 : Real.exp 3 = Real.exp 1 ^ 3 := by rw [← Real.exp_nat_mul]; norm_num
    have h0 := Real.exp_pos 1
    have h4 : Real.exp 1 ^ 3 < 27 := (pow_lt_pow_left₀ (by linarith : Real.exp 1 < 3) h0.le (by norm_num)).trans_le (by norm_num)
    rw [mul_one, Real.exp_neg, h3, lt_inv_comm₀ (by unfold cramEps; norm_num) (by positivity)]
    refine h4.trans ?_
    unfold cramEps
    norm_num
  · intro h
    have := congrFun h 0
    simp at this

end Ormatex.Props
