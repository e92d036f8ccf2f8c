import Verif.Props.StiffSplit
import Verif.Props.RsConvergeExp
import Mathlib.Analysis.SpecialFunctions.Trigonometric.Bounds

/-!
C133: error of the exponential Rosenbrock-Euler methods on stiff nonlinear systems, uniform in the stiffness.
-/

namespace Ormatex.Props
open Matrix Ormatex.Spec Ormatex.Rs

section
variable {n : ℕ} {P : Type} [EmptyCollection P]
variable {f : ℝ → Vec n → Vec n} {J : ℝ → Vec n → Mat n} {d : ℝ → Vec n → Vec n} {Y : ℝ → Vec n} {t0 B l κ μ M2 : ℝ}

/-- the Rosenbrock-Euler update is a curve of the linearized equation -/
theorem rosEuler_curve (A : Mat n) (y F e : Vec n) (h : ℝ) : rosEuler A y F e h 1 = phiCurve A y (F - A *ᵥ y) e h := by
  have := stage1_eq (f := fun _ _ => F) (L := A) 0 h y
  unfold rosEuler
  rw [one_mul, this, one_pow, one_mul]
  simp only [stage1, phiCurve, mulVec_zero, add_zero, nonl, smul_mulVec]

/-- one step: the error is carried over and the new defect is of third order -/
theorem rosEuler_err (hp : StiffNonlinear f J d Y t0 B l κ μ M2) {t : ℝ} (ht : t0 ≤ t) {h : ℝ} (hh : 0 ≤ h) (x e : Vec n) {τ : ℝ}
    (he : norm2 (d t x - e) ≤ τ) :
    norm2 (rosEuler (J t x) x (f t x) e h 1 - Y (t + h)) ≤
      (1 + h * (l + (κ * B + μ) * h)) * norm2 (x - Y t) + (M2 / 2 * h ^ 3 + τ * h ^ 2) := by
  obtain ⟨hB, hl, hκ, hμ, hM⟩ := hp.nonneg
  obtain ⟨ε, hε⟩ : ∃ ε, ε = norm2 (x - Y t) := ⟨_, rfl⟩
  have hε0 : 0 ≤ ε := by rw [hε]; exact norm2_nonneg _
  have hτ : 0 ≤ τ := (norm2_nonneg _).trans he
  have hX : ∀ s, HasDerivAt (fun s => Y (t + s)) (J t x *ᵥ Y (t + s) + (f (t + s) (Y (t + s)) - J t x *ᵥ Y (t + s))) s := fun s => by
    refine (shift_deriv hp.sol t s).congr_deriv ?_
    abel
  have key := phiCurve_compare (hp.diss t x) hX x (f t x - J t x *ᵥ x) e (M2 / 2 * h ^ 2 + κ * ε * (B * h) + l * ε + h * (μ * ε) + h * τ) 0 hh
    (fun s hs hsh => by
      have e1 : f (t + s) (Y (t + s)) - J t x *ᵥ Y (t + s) - (f t x - J t x *ᵥ x) - s • e =
          (((f (t + s) (Y (t + s)) - f t (Y t) - J t (Y t) *ᵥ (Y (t + s) - Y t) - s • d t (Y t)) -
            (J t x - J t (Y t)) *ᵥ (Y (t + s) - Y t)) - (f t x - f t (Y t) - J t x *ᵥ (x - Y t))) - s • (d t x - d t (Y t)) + s • (d t x - e) := by
        rw [sub_mulVec, mulVec_sub, mulVec_sub, mulVec_sub, smul_sub, smul_sub]
        abel
      rw [e1, pow_zero, mul_one]
      have a0 := norm2_add_le ((((f (t + s) (Y (t + s)) - f t (Y t) - J t (Y t) *ᵥ (Y (t + s) - Y t) - s • d t (Y t)) -
            (J t x - J t (Y t)) *ᵥ (Y (t + s) - Y t)) - (f t x - f t (Y t) - J t x *ᵥ (x - Y t))) - s • (d t x - d t (Y t))) (s • (d t x - e))
      have a1 := norm2_sub_le (((f (t + s) (Y (t + s)) - f t (Y t) - J t (Y t) *ᵥ (Y (t + s) - Y t) - s • d t (Y t)) -
            (J t x - J t (Y t)) *ᵥ (Y (t + s) - Y t)) - (f t x - f t (Y t) - J t x *ᵥ (x - Y t))) (s • (d t x - d t (Y t)))
      have a2 := norm2_sub_le ((f (t + s) (Y (t + s)) - f t (Y t) - J t (Y t) *ᵥ (Y (t + s) - Y t) - s • d t (Y t)) -
            (J t x - J t (Y t)) *ᵥ (Y (t + s) - Y t)) (f t x - f t (Y t) - J t x *ᵥ (x - Y t))
      have a3 := norm2_sub_le (f (t + s) (Y (t + s)) - f t (Y t) - J t (Y t) *ᵥ (Y (t + s) - Y t) - s • d t (Y t))
            ((J t x - J t (Y t)) *ᵥ (Y (t + s) - Y t))
      rw [norm2_smul, abs_of_nonneg hs] at a0 a1
      have b1 := hp.curv t s ht hs
      have b2 := hp.jac t x (Y (t + s) - Y t) ht
      have b3 := hp.speed t s ht hs
      have b4 := hp.lip t x ht
      have b5 := hp.time t x ht
      rw [← hε] at b2 b4 b5
      have c1 : M2 / 2 * s ^ 2 ≤ M2 / 2 * h ^ 2 := by gcongr
      have c2 : κ * ε * norm2 (Y (t + s) - Y t) ≤ κ * ε * (B * h) :=
        mul_le_mul_of_nonneg_left (b3.trans (mul_le_mul_of_nonneg_left hsh hB)) (mul_nonneg hκ hε0)
      have c3 : s * norm2 (d t x - d t (Y t)) ≤ h * (μ * ε) := mul_le_mul hsh b5 (norm2_nonneg _) hh
      have c4 : s * norm2 (d t x - e) ≤ h * τ := mul_le_mul hsh he (norm2_nonneg _) hh
      linarith)
  rw [add_zero, zero_add, pow_one] at key
  rw [rosEuler_curve, ← norm2_neg, neg_sub]
  refine key.trans (le_of_eq ?_)
  rw [← norm2_neg (Y t - x), neg_sub, ← hε]
  norm_num
  ring

/-- the methods of the code that are the exponential Rosenbrock-Euler method -/
def eulerTypes : List String := ["exprb2", "epi2", "exprb2_dense", "exprb2_pfd", "exprb2_pfd_rs"]

theorem norm2_le_sup (v : Vec n) : norm2 v ≤ Real.sqrt n * ‖v‖ := by
  unfold norm2
  rw [← Real.sqrt_sq (norm_nonneg v), ← Real.sqrt_mul (by positivity)]
  apply Real.sqrt_le_sqrt
  unfold dotProduct
  calc ∑ i, v i * v i ≤ ∑ _i : Fin n, ‖v‖ ^ 2 := Finset.sum_le_sum fun i _ => by
        have := norm_le_pi_norm v i
        rw [Real.norm_eq_abs] at this
        rw [← abs_mul_abs_self, sq]
        exact mul_le_mul this this (abs_nonneg _) (norm_nonneg _)
    _ = _ := by simp

/-- **C133.**  On a stiff nonlinear problem with a dissipative Jacobian, a run of the exponential Rosenbrock-Euler methods with exact derivatives and any step
size is within `exp(T (l + (κ B + μ) dt)) · T · (M2 / 2 dt² + τ dt)` of the solution after the time `T = k dt`; `τ` bounds the time derivative the method is
allowed to ignore (`0` for autonomous systems and the methods that never ignore it).  The bound contains no norm of the Jacobian. -/
theorem C133_error {K : Kernels n} (hK : ExactKernels K) (hasRust : Bool) (sys : OdeSys n P)
    (hj : ∀ kw t y, ExactJac (sys.fjac kw t y) (sys.frhs none) t y (J t y)) (hd : ∀ kw t y, (sys.fjac kw t y).fdt = d t y)
    (hp : StiffNonlinear (sys.frhs none) J d Y t0 B l κ μ M2) (m : String) (hm : m ∈ eulerTypes) (tol τ : ℝ) (hτ : 0 ≤ τ)
    (htol : (0 ≤ tol ∧ Real.sqrt n * tol ≤ τ) ∨ (∀ t y, d t y = 0) ∨ m ∈ alwaysCorrected) (dt : ℝ) (hdt : 0 < dt) (N : ℕ) (s : ExpRB n)
    (hnew : ExpRB.new hasRust t0 (Y t0) m tol = .ok s)
    {Q W : Type} (before : Option (W → ℝ → Vec n → P × W)) (after : Option (W → ℝ → Vec n → Q × W)) (w : W) :
    ∃ (run : LoopState (ExpRB n) P Q W (Vec n)) (u : ℕ → Vec n),
      integrateOrmatex (rbStepper hasRust K sys) s (Y t0) t0 dt N before after w = .ok run ∧
      run.tRes = (List.range (N + 1)).map (fun i : ℕ => t0 + i * dt) ∧ run.yRes = (List.range (N + 1)).map u ∧
      ∀ k : ℕ, norm2 (u k - Y (t0 + k * dt)) ≤ Real.exp (k * dt * (l + (κ * B + μ) * dt)) * (k * dt) * (M2 / 2 * dt ^ 2 + τ * dt) := by
  have hr : m = "exprb2_pfd_rs" → hasRust = true := fun h =>
    ((C09_construct_rb hasRust t0 (Y t0) m tol).1.2 ⟨s, hnew⟩).2 (Or.inl h)
  have hjs : ExactJacs sys := fun kw t y => ⟨_, hj kw t y⟩
  have hJ : ∀ t y, jacM (sys.frhs none) (t, y) = J t y := fun t y => ((hj none t y).eq.1).symm
  have hD : ∀ t y, dtM (sys.frhs none) (t, y) = d t y := fun t y => by rw [← (hj none t y).eq.2, hd]
  have hm2 : (m, 2) ∈ rbOrders := by
    simp only [eulerTypes, List.mem_cons, List.not_mem_nil, or_false] at hm
    rcases hm with rfl | rfl | rfl | rfl | rfl <;> simp [rbOrders]
  have hmap : ∀ q, rbMap m (sys.frhs none) q = mapRB2 (sys.frhs none) q := by
    intro q
    simp only [eulerTypes, List.mem_cons, List.not_mem_nil, or_false] at hm
    rcases hm with rfl | rfl | rfl | rfl | rfl <;> simp [rbMap]
  obtain ⟨Φ, hΦ⟩ : ∃ Φ : ℝ → Vec n → Vec n, Φ = fun t y => rosEuler (J t y) y (sys.frhs none t y) (rbEff m tol (d t y)) dt 1 := ⟨_, rfl⟩
  obtain ⟨u, hu⟩ : ∃ u, u = iterSeq Φ t0 dt (Y t0) := ⟨_, rfl⟩
  have hu0 : u 0 = Y t0 := by rw [hu]; rfl
  have hus : ∀ k : ℕ, u (k + 1) = Φ (t0 + k * dt) (u k) := fun k => by rw [hu]; rfl
  obtain ⟨run, e1, e2, e3⟩ := run_seq (rbStepper hasRust K sys) (fun (o : ExpRB n) k => At o.base (t0 + k * dt) (u k) ∧ o.base.method = m ∧
    o.tolFdt = tol ∧ (Nonempty2 o.base ∧ 0 < o.base.yHist.maxlen ∧ o.base.tHist.maxlen = o.base.yHist.maxlen)) u t0 dt before after
    (by
      rintro o k kw - ⟨g1, g2, g3, g4⟩
      have hst := rb_step_closed hK hasRust sys hjs o _ _ g1 kw dt 2 (by rw [g2]; exact hm2) (by rw [g2]; exact hr)
      rw [g2, g3, hmap] at hst
      unfold mapRB2 at hst
      simp only [hJ, hD] at hst
      have hst' : ExpRB.step hasRust K sys o dt kw = .ok (StepResult.mk (t0 + k * dt + dt) dt (u (k + 1)) (-1)) := by
        rw [hst, hus, hΦ]
      refine ⟨StepResult.mk (t0 + k * dt + dt) dt (u (k + 1)) (-1), o, ?_, rfl, rfl, ?_, g2, g3, accept_nonempty g4 _⟩
      · show keep o (ExpRB.step hasRust K sys o dt kw) = _
        rw [hst']; rfl
      · have := at_accept g4.2 (StepResult.mk (t0 + k * dt + dt) dt (u (k + 1)) (-1))
        have e : t0 + ((k + 1 : ℕ) : ℝ) * dt = t0 + k * dt + dt := by push_cast; ring
        rw [e]
        exact this)
    s (by
      obtain ⟨g1, g2, g3, g4⟩ := rb_new_at hnew
      refine ⟨by simpa [hu0] using g1, g2, g3, g4⟩) N w
  rw [hu0] at e1
  refine ⟨run, u, e1, e2, e3, ?_⟩
  obtain ⟨hB, hl, hκ, hμ, hM⟩ := hp.nonneg
  have heff : ∀ t x, norm2 (d t x - rbEff m tol (d t x)) ≤ τ := by
    intro t x
    unfold rbEff effFdt
    split_ifs with h1 h2
    · rw [sub_self, norm2_zero]; exact hτ
    · rw [sub_self, norm2_zero]; exact hτ
    · rw [sub_zero]
      rcases htol with h | h | h
      · have : ‖d t x‖ ≤ tol := by
          by_contra hc
          exact h2 ⟨h.1, by linarith⟩
        exact ((norm2_le_sup _).trans (mul_le_mul_of_nonneg_left this (Real.sqrt_nonneg _))).trans h.2
      · rw [h, norm2_zero]; exact hτ
      · exact absurd h h1
  intro k
  have hx : 0 ≤ dt * (l + (κ * B + μ) * dt) := by positivity
  have hsum := stable_sum (e := fun k => norm2 (u k - Y (t0 + k * dt))) (q := 1 + dt * (l + (κ * B + μ) * dt)) (d := M2 / 2 * dt ^ 3 + τ * dt ^ 2)
    (by linarith) (by positivity) (by simp [hu0, norm2_zero]) (fun k => by
      have e : t0 + ((k + 1 : ℕ) : ℝ) * dt = t0 + k * dt + dt := by push_cast; ring
      rw [e, hus, hΦ]
      exact rosEuler_err hp (by have : (0 : ℝ) ≤ k * dt := by positivity
                                linarith) hdt.le _ _ (heff _ _)) k
  have hq : (1 + dt * (l + (κ * B + μ) * dt)) ^ k ≤ Real.exp (k * dt * (l + (κ * B + μ) * dt)) := by
    rw [mul_assoc, Real.exp_nat_mul]
    exact pow_le_pow_left₀ (by linarith) (by linarith [Real.add_one_le_exp (dt * (l + (κ * B + μ) * dt))]) k
  refine (hsum.trans (mul_le_mul_of_nonneg_right hq (by positivity))).trans (le_of_eq ?_)
  ring

/-- the iterates of the method without auxiliary argument -/
theorem euler_seq (hp : StiffNonlinear f J d Y t0 B l κ μ M2) {dt : ℝ} (hdt : 0 ≤ dt) (h0 : ∀ t y, d t y = 0) {u : ℕ → Vec n} (hu0 : u 0 = Y t0) {N : ℕ}
    (hu : ∀ k < N, u (k + 1) = rosEuler (J (t0 + k * dt) (u k)) (u k) (f (t0 + k * dt) (u k)) 0 dt 1) :
    ∀ k ≤ N, norm2 (u k - Y (t0 + k * dt)) ≤ Real.exp (k * dt * (l + κ * B * dt)) * (k * dt) * (M2 / 2 * dt ^ 2) := by
  obtain ⟨hB, hl, hκ, hμ, hM⟩ := hp.nonneg
  have hp' : StiffNonlinear f J d Y t0 B l κ 0 M2 :=
    StiffNonlinear.mk hp.diss ⟨hB, hl, hκ, le_rfl, hM⟩ hp.sol hp.speed hp.curv hp.lip hp.jac fun t x _ => by
      rw [h0, h0, sub_self, norm2_zero, zero_mul]
  have hx : 0 ≤ dt * (l + κ * B * dt) := by positivity
  have hsum : ∀ k ≤ N, norm2 (u k - Y (t0 + k * dt)) ≤ (1 + dt * (l + κ * B * dt)) ^ k * (k * (M2 / 2 * dt ^ 3)) := by
    intro k hk
    have := stable_sum (e := fun j => if j ≤ N then norm2 (u j - Y (t0 + j * dt)) else 0) (q := 1 + dt * (l + κ * B * dt)) (d := M2 / 2 * dt ^ 3)
      (by linarith) (by positivity) (by simp [hu0, norm2_zero]) (fun j => by
        have e : t0 + ((j + 1 : ℕ) : ℝ) * dt = t0 + j * dt + dt := by push_cast; ring
        by_cases hj : j + 1 ≤ N
        · rw [if_pos hj, if_pos (by omega), e, hu j (by omega)]
          have := rosEuler_err hp' (t := t0 + j * dt) (by have : (0 : ℝ) ≤ j * dt := by positivity
                                                          linarith) hdt (u j) 0 (τ := 0) (by rw [h0, sub_zero, norm2_zero])
          simpa using this
        · rw [if_neg hj]
          have : 0 ≤ (if j ≤ N then norm2 (u j - Y (t0 + j * dt)) else 0) := by
            split_ifs
            · exact norm2_nonneg _
            · exact le_rfl
          positivity) k
    simp only [if_pos hk] at this
    exact this
  intro k hk
  have hq : (1 + dt * (l + κ * B * dt)) ^ k ≤ Real.exp (k * dt * (l + κ * B * dt)) := by
    rw [mul_assoc (k : ℝ) dt, Real.exp_nat_mul]
    exact pow_le_pow_left₀ (by linarith) (by linarith [Real.add_one_le_exp (dt * (l + κ * B * dt))]) k
  refine ((hsum k hk).trans (mul_le_mul_of_nonneg_right hq (by positivity))).trans (le_of_eq ?_)
  ring

/-- **C133, Rust.**  The second order exponential methods of the crate on an autonomous stiff problem: the same bound, as long as no equilibrium lies within
the bound of the solution (at an equilibrium the step fails, `C76_false`). -/
theorem C133_rust {K : Kern n} (hK : ExactKern K) (sys : Sys n) (ha : ∀ t t' y, sys.frhs t y = sys.frhs t' y)
    (hj : ∀ t y, IsMatrix (sys.fjac t y) (J t y) ∧ HasFDerivAt (sys.frhs t) (LinearMap.toContinuousLinearMap (Matrix.toLin' (J t y))) y)
    (h0 : ∀ t y, d t y = 0) (hp : StiffNonlinear sys.frhs J d Y t0 B l κ μ M2) (m : String) (hm : m = "epi2" ∨ m = "exprb2")
    (dt tol : ℝ) (hdt : 0 < dt) (N osteps : ℕ) (ho : 0 < osteps)
    (hne : ∀ k < N, ∀ x, norm2 (x - Y (t0 + k * dt)) ≤ Real.exp (k * dt * (l + κ * B * dt)) * (k * dt) * (M2 / 2 * dt ^ 2) → sys.frhs (t0 + k * dt) x ≠ 0)
    (s1 s0 : Epirk n) (hn1 : Epirk.new t0 (Y t0) m = .ok s1) (hn0 : s1.withOpt "tol_fdt" tol = .ok s0) :
    ∃ u : ℕ → Vec n, outLoop (Epirk.integrator K sys) dt osteps N 0 s0 [] [] =
        .ok ((outputSteps osteps N).map u, (outputSteps osteps N).map fun i : ℕ => t0 + i * dt) ∧
      ∀ k ≤ N, norm2 (u k - Y (t0 + k * dt)) ≤ Real.exp (k * dt * (l + κ * B * dt)) * (k * dt) * (M2 / 2 * dt ^ 2) := by
  have hjs : ExactJacsRs sys := ⟨ha, fun t y => ⟨_, hj t y⟩⟩
  obtain ⟨u, hu⟩ : ∃ u, u = iterSeq (fun t y => rosEuler (J t y) y (sys.frhs t y) 0 dt 1) t0 dt (Y t0) := ⟨_, rfl⟩
  have hu0 : u 0 = Y t0 := by rw [hu]; rfl
  have hus : ∀ k : ℕ, u (k + 1) = rosEuler (J (t0 + k * dt) (u k)) (u k) (sys.frhs (t0 + k * dt) (u k)) 0 dt 1 := fun k => by rw [hu]; rfl
  have herr := euler_seq hp hdt.le h0 hu0 (N := N) fun k _ => hus k
  obtain ⟨g1, g2, g3, g4⟩ := epirk_built hn1 hn0
  refine ⟨u, rs_follow (Epirk.integrator K sys) (fun o k => o.method = m ∧ AtRs o (t0 + k * dt) (u k)) u t0 dt N ?_ ?_ s0 ?_ osteps ho, herr⟩
  · rintro o k ⟨-, e⟩
    exact ⟨e.yNew, e.time⟩
  · rintro o k hk ⟨e1, e2⟩
    refine ⟨StepRes.mk (t0 + k * dt + dt) dt (u (k + 1)) none, ?_, e1, ?_⟩
    · show Epirk.step K sys o dt = _
      unfold Epirk.step
      rw [e1, if_pos hm, rsOrder2_closed hK sys o e2 _ (hj _ _).1 dt hdt.ne' (hne k hk _ (herr k hk.le)), rsFdt_zero hjs, effFdt_zero, hus]
    · have e : t0 + ((k + 1 : ℕ) : ℝ) * dt = t0 + k * dt + dt := by push_cast; ring
      rw [e]
      exact ⟨rfl, rfl, rfl⟩
  · refine ⟨g1, ?_⟩
    refine ⟨by simp [g2], by rw [g4]; simp [rsGet], by rw [g3]; simp [hu0, rsGet]⟩

/-- the hypotheses hold for a stiff nonlinear problem: `y' = -1000 (y - t) + 1 + sin y - sin t` with the solution `y = t` -/
example : StiffNonlinear (n := 1) (fun t y => fun _ => -1000 * (y 0 - t) + 1 + Real.sin (y 0) - Real.sin t) (fun _ y _ _ => -1000 + Real.cos (y 0))
    (fun t _ _ => 1000 - Real.cos t) (fun t _ => t) 0 1 2 1 0 0 := by
  have a : ∀ v : Vec 1, norm2 v = |v 0| := by
    intro v
    unfold norm2
    simp [dotProduct, Real.sqrt_mul_self_eq_abs]
  have lipsin : ∀ x y : ℝ, |Real.sin x - Real.sin y| ≤ |x - y| := fun x y => by
    simpa [Real.dist_eq] using Real.lipschitzWith_sin.dist_le_mul x y
  have lipcos : ∀ x y : ℝ, |Real.cos x - Real.cos y| ≤ |x - y| := fun x y => by
    simpa [Real.dist_eq] using Real.lipschitzWith_cos.dist_le_mul x y
  refine StiffNonlinear.mk ?_ ⟨by norm_num, by norm_num, by norm_num, le_rfl, le_rfl⟩ ?_ ?_ ?_ ?_ ?_ ?_
  · intro t y v
    simp [mulVec, dotProduct]
    nlinarith [mul_self_nonneg (v 0), Real.cos_le_one (y 0)]
  · intro s
    rw [hasDerivAt_pi]
    intro i
    refine (hasDerivAt_id s).congr_deriv ?_
    simp
  · intro t s _ hs
    rw [a]
    simp [abs_of_nonneg hs]
  · intro t s _ hs
    rw [a]
    simp [mulVec, dotProduct]
    ring_nf
  · intro t x _
    rw [a, a]
    simp [mulVec, dotProduct]
    have e : -(1000 * (x 0 - t)) + 1 + Real.sin (x 0) - Real.sin t - 1 - (-1000 + Real.cos (x 0)) * (x 0 - t) =
      (Real.sin (x 0) - Real.sin t) - Real.cos (x 0) * (x 0 - t) := by ring
    rw [e]
    have h1 := abs_sub (Real.sin (x 0) - Real.sin t) (Real.cos (x 0) * (x 0 - t))
    have h2 := lipsin (x 0) t
    have h3 : |Real.cos (x 0) * (x 0 - t)| ≤ |x 0 - t| := by
      rw [abs_mul]
      exact mul_le_of_le_one_left (abs_nonneg _) (Real.abs_cos_le_one _)
    linarith
  · intro t x v _
    rw [a, a, a]
    simp [mulVec, dotProduct, abs_mul]
    show |(-1000 + Real.cos (x 0)) - (-1000 + Real.cos t)| * |v 0| ≤ |x 0 - t| * |v 0|
    rw [add_sub_add_left_eq_sub]
    exact mul_le_mul_of_nonneg_right (lipcos _ _) (abs_nonneg _)
  · intro t x _
    rw [a]
    simp

end
end Ormatex.Props
