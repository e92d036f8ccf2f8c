import Verif.Props.StiffRB

/-!
C134: third order of `exprb3` on stiff nonlinear systems, uniform in the stiffness.
-/

namespace Ormatex.Props
open Matrix Ormatex.Spec Ormatex.Rs

section
variable {n : ℕ} {P : Type} [EmptyCollection P]
variable {f : ℝ → Vec n → Vec n} {J : ℝ → Vec n → Mat n} {d : ℝ → Vec n → Vec n} {Y C : ℝ → Vec n} {t0 B l κ μ M2 M3 : ℝ}

/-- the curve with a quadratic source -/
noncomputable def phiCurve3 (L : Mat n) (a v w z : Vec n) (s : ℝ) : Vec n :=
  phiCurve L a v w s + (s ^ (2 + 1) • phiM (2 + 1) (s • L)) *ᵥ z

theorem phiCurve3_deriv (L : Mat n) (a v w z : Vec n) (s : ℝ) :
    HasDerivAt (phiCurve3 L a v w z) (L *ᵥ phiCurve3 L a v w z s + (v + s • w + (s ^ 2 / 2) • z)) s := by
  have h3 := hasDerivAt_mulVec_const (hasDerivAt_phiM_succ 2 L s) z
  refine ((phiCurve_deriv L a v w s).add h3).congr_deriv ?_
  have r2 : phiM 2 (s • L) = (s • L) * phiM (2 + 1) (s • L) + (1 / 2 : ℝ) • 1 := by
    rw [phiM_recurrence 2 (s • L)]; simp
  have e3 : (s ^ 2 • phiM 2 (s • L)) *ᵥ z = L *ᵥ ((s ^ (2 + 1) • phiM (2 + 1) (s • L)) *ᵥ z) + (s ^ 2 / 2) • z := by
    conv_lhs => rw [r2]
    rw [smul_add, add_mulVec, smul_smul, smul_mulVec _ 1, one_mulVec, mulVec_mulVec, smul_mul_assoc, mul_smul_comm, smul_smul,
      show s ^ (2 + 1) = s ^ 2 * s by ring, show s ^ 2 * (1 / 2) = s ^ 2 / 2 by ring]
  rw [e3, phiCurve3, mulVec_add]
  abel

theorem phiCurve3_zero (L : Mat n) (a v w z : Vec n) : phiCurve3 L a v w z 0 = a := by
  rw [phiCurve3, phiCurve_zero]; simp

/-- the `exprb3` update -/
noncomputable def rb3Update (f : ℝ → Vec n → Vec n) (A : Mat n) (t : ℝ) (x e : Vec n) (h : ℝ) : Vec n :=
  rosEuler A x (f t x) e h 1 + (2 * h) • (phiM 3 (h • A) *ᵥ (f (t + h) (rosEuler A x (f t x) e h 1) - f t x - A *ᵥ (rosEuler A x (f t x) e h 1 - x) - h • e))

theorem rb3_curve (A : Mat n) (t : ℝ) (x e : Vec n) {h : ℝ} (hh : 0 < h) :
    rb3Update f A t x e h = phiCurve3 A x (f t x - A *ᵥ x) e ((2 / h ^ 2) •
      (f (t + h) (rosEuler A x (f t x) e h 1) - f t x - A *ᵥ (rosEuler A x (f t x) e h 1 - x) - h • e)) h := by
  unfold rb3Update phiCurve3
  rw [← rosEuler_curve, mulVec_smul, smul_mulVec, smul_smul]
  congr 2
  have : h ≠ 0 := hh.ne'
  field_simp

theorem rb3_err (hp : StiffNonlinear f J d Y t0 B l κ μ M2) (hc : StiffCubic f J d Y C t0 l M3) {t : ℝ} (ht : t0 ≤ t) {h : ℝ} (hh : 0 < h)
    (x e : Vec n) {τ : ℝ} (he : norm2 (d t x - e) ≤ τ) :
    norm2 (rb3Update f (J t x) t x e h - Y (t + h)) ≤
      (1 + h * (2 * (l + (κ * B + μ) * h) + l * (1 + h * (l + (κ * B + μ) * h)))) * norm2 (x - Y t) +
        ((2 * M3 + l * M2 / 2) * h ^ 4 + (2 + l * h) * (τ * h ^ 2)) := by
  obtain ⟨hB, hl, hκ, hμ, hM⟩ := hp.nonneg
  obtain ⟨ε, hε⟩ : ∃ ε, ε = norm2 (x - Y t) := ⟨_, rfl⟩
  have hε0 : 0 ≤ ε := by rw [hε]; exact norm2_nonneg _
  have hτ : 0 ≤ τ := (norm2_nonneg _).trans he
  obtain ⟨U, hU⟩ : ∃ U, U = rosEuler (J t x) x (f t x) e h 1 := ⟨_, rfl⟩
  have hUerr := rosEuler_err hp ht hh.le x e he
  rw [← hU, ← hε] at hUerr
  obtain ⟨r, hr⟩ : ∃ r : ℝ → Vec n, r = fun s => f (t + s) (Y (t + s)) - f t (Y t) - J t (Y t) *ᵥ (Y (t + s) - Y t) - s • d t (Y t) := ⟨_, rfl⟩
  obtain ⟨R, hR⟩ : ∃ R : ℝ → Vec n, R = fun s => f (t + s) (Y (t + s)) - f t x - J t x *ᵥ (Y (t + s) - x) - s • e := ⟨_, rfl⟩
  obtain ⟨Δ, hΔ⟩ : ∃ Δ : Vec n, Δ = f (t + h) U - f t x - J t x *ᵥ (U - x) - h • e := ⟨_, rfl⟩
  have hRr : ∀ s, 0 ≤ s → s ≤ h → norm2 (R s - r s) ≤ ε * (κ * B * h + l + h * μ) + h * τ := by
    intro s hs hsh
    have e1 : R s - r s = -((J t x - J t (Y t)) *ᵥ (Y (t + s) - Y t)) - (f t x - f t (Y t) - J t x *ᵥ (x - Y t)) - s • (d t x - d t (Y t)) + s • (d t x - e) := by
      rw [hR, hr]
      simp only
      rw [sub_mulVec, mulVec_sub, mulVec_sub, mulVec_sub, mulVec_sub, smul_sub, smul_sub]
      abel
    rw [e1]
    have a0 := norm2_add_le (-((J t x - J t (Y t)) *ᵥ (Y (t + s) - Y t)) - (f t x - f t (Y t) - J t x *ᵥ (x - Y t)) - s • (d t x - d t (Y t))) (s • (d t x - e))
    have a1 := norm2_sub_le (-((J t x - J t (Y t)) *ᵥ (Y (t + s) - Y t)) - (f t x - f t (Y t) - J t x *ᵥ (x - Y t))) (s • (d t x - d t (Y t)))
    have a2 := norm2_sub_le (-((J t x - J t (Y t)) *ᵥ (Y (t + s) - Y t))) (f t x - f t (Y t) - J t x *ᵥ (x - Y t))
    rw [norm2_smul, abs_of_nonneg hs] at a0 a1
    rw [norm2_neg] at a2
    have b2 := hp.jac t x (Y (t + s) - Y t) ht
    have b3 := hp.speed t s ht hs
    have b4 := hp.lip t x ht
    have b5 := hp.time t x ht
    rw [← hε] at b2 b4 b5
    have c2 : κ * ε * norm2 (Y (t + s) - Y t) ≤ κ * ε * (B * h) :=
      mul_le_mul_of_nonneg_left (b3.trans (mul_le_mul_of_nonneg_left hsh hB)) (mul_nonneg hκ hε0)
    have c3 : s * norm2 (d t x - d t (Y t)) ≤ h * (μ * ε) := mul_le_mul hsh b5 (norm2_nonneg _) hh.le
    have c4 : s * norm2 (d t x - e) ≤ h * τ := mul_le_mul hsh he (norm2_nonneg _) hh.le
    linarith
  have hΔR : norm2 (R h - Δ) ≤ l * norm2 (U - Y (t + h)) := by
    have := hc.frozen t h U x ht hh.le
    have e1 : R h - Δ = -(f (t + h) U - f (t + h) (Y (t + h)) - J t x *ᵥ (U - Y (t + h))) := by
      rw [hR, hΔ]
      simp only
      rw [mulVec_sub, mulVec_sub, mulVec_sub]
      abel
    rw [e1, norm2_neg]
    exact this
  have hX : ∀ s, HasDerivAt (fun s => Y (t + s)) (J t x *ᵥ Y (t + s) + (f (t + s) (Y (t + s)) - J t x *ᵥ Y (t + s))) s := fun s => by
    refine (shift_deriv hp.sol t s).congr_deriv ?_
    abel
  have key := duhamel_norm (hp.diss t x) (D := fun s => Y (t + s) - phiCurve3 (J t x) x (f t x - J t x *ᵥ x) e ((2 / h ^ 2) • Δ) s)
    (r := fun s => R s - (s / h) ^ 2 • Δ) (fun s => by
      refine ((hX s).sub (phiCurve3_deriv (J t x) x (f t x - J t x *ᵥ x) e ((2 / h ^ 2) • Δ) s)).congr_deriv ?_
      rw [smul_smul, show s ^ 2 / 2 * (2 / h ^ 2) = (s / h) ^ 2 by field_simp, hR, mulVec_sub (J t x) (Y (t + s)) (phiCurve3 _ _ _ _ _ _)]
      simp only
      rw [mulVec_sub]
      abel)
    (2 * M3 * h ^ 3 + 2 * (ε * (κ * B * h + l + h * μ) + h * τ) + l * norm2 (U - Y (t + h))) 0 hh.le (fun s hs hsh => by
      rw [pow_zero, mul_one]
      have hq0 : 0 ≤ (s / h) ^ 2 := by positivity
      have hq1 : (s / h) ^ 2 ≤ 1 := by
        have : s / h ≤ 1 := by rw [div_le_one hh]; exact hsh
        have : 0 ≤ s / h := by positivity
        nlinarith
      have e1 : R s - (s / h) ^ 2 • Δ = (R s - r s) + ((r s - s ^ 2 • C t) - (s / h) ^ 2 • ((r h - h ^ 2 • C t) + (R h - r h) - (R h - Δ))) := by
        have : s ^ 2 • C t = (s / h) ^ 2 • (h ^ 2 • C t) := by
          rw [smul_smul]
          congr 1
          field_simp
        rw [this]
        module
      rw [e1]
      have a0 := norm2_add_le (R s - r s) ((r s - s ^ 2 • C t) - (s / h) ^ 2 • ((r h - h ^ 2 • C t) + (R h - r h) - (R h - Δ)))
      have a1 := norm2_sub_le (r s - s ^ 2 • C t) ((s / h) ^ 2 • ((r h - h ^ 2 • C t) + (R h - r h) - (R h - Δ)))
      have a2 := norm2_sub_le ((r h - h ^ 2 • C t) + (R h - r h)) (R h - Δ)
      have a3 := norm2_add_le (r h - h ^ 2 • C t) (R h - r h)
      rw [norm2_smul, abs_of_nonneg hq0] at a1
      have b1 := mul_le_of_le_one_left (norm2_nonneg ((r h - h ^ 2 • C t) + (R h - r h) - (R h - Δ))) hq1
      have b2 := hRr s hs hsh
      have b3 := hRr h hh.le le_rfl
      have b4 : norm2 (r s - s ^ 2 • C t) ≤ M3 * h ^ 3 := by
        have := hc.cubic t s ht hs
        rw [hr]
        refine this.trans (mul_le_mul_of_nonneg_left ?_ hc.nonneg.2)
        gcongr
      have b5 : norm2 (r h - h ^ 2 • C t) ≤ M3 * h ^ 3 := by
        have := hc.cubic t h ht hh.le
        rw [hr]
        exact this
      linarith)
  rw [phiCurve3_zero, add_zero, zero_add, pow_one] at key
  rw [rb3_curve _ _ _ _ hh, ← hU, ← hΔ, ← norm2_neg, neg_sub]
  refine key.trans ?_
  rw [← norm2_neg (Y t - x), neg_sub, ← hε]
  have h1 := mul_le_mul_of_nonneg_left hUerr (mul_nonneg hl hh.le)
  norm_num
  have e2 : (2 * M3 * h ^ 3 + 2 * (ε * (κ * B * h + l + h * μ) + h * τ) + l * norm2 (U - Y (t + h))) * h =
      (2 * M3 * h ^ 3 + 2 * (ε * (κ * B * h + l + h * μ) + h * τ)) * h + l * h * norm2 (U - Y (t + h)) := by ring
  rw [e2]
  have e3 : ε + ((2 * M3 * h ^ 3 + 2 * (ε * (κ * B * h + l + h * μ) + h * τ)) * h +
      l * h * ((1 + h * (l + (κ * B + μ) * h)) * ε + (M2 / 2 * h ^ 3 + τ * h ^ 2))) =
      (1 + h * (2 * (l + (κ * B + μ) * h) + l * (1 + h * (l + (κ * B + μ) * h)))) * ε +
        ((2 * M3 + l * M2 / 2) * h ^ 4 + (2 + l * h) * (τ * h ^ 2)) := by ring
  linarith

/-- **C134.**  `exprb3` on a stiff nonlinear problem with a dissipative Jacobian: third order, with constants that contain no norm of the Jacobian and for
every step size.  With `g = l + (κ B + μ) dt` the error after the time `T = k dt` is at most
`exp(T (2 g + l (1 + dt g))) · T · ((2 M3 + l M2 / 2) dt³ + (2 + l dt) τ dt)`. -/
theorem C134_error {K : Kernels n} (hK : ExactKernels K) (hasRust : Bool) (sys : OdeSys n P)
    (hj : ∀ kw t y, ExactJac (sys.fjac kw t y) (sys.frhs none) t y (J t y)) (hd : ∀ kw t y, (sys.fjac kw t y).fdt = d t y)
    (hp : StiffNonlinear (sys.frhs none) J d Y t0 B l κ μ M2) (hc : StiffCubic (sys.frhs none) J d Y C t0 l M3) (tol τ : ℝ) (hτ : 0 ≤ τ)
    (htol : (0 ≤ tol ∧ Real.sqrt n * tol ≤ τ) ∨ (∀ t y, d t y = 0)) (dt : ℝ) (hdt : 0 < dt) (N : ℕ) (s : ExpRB n)
    (hnew : ExpRB.new hasRust t0 (Y t0) "exprb3" tol = .ok s)
    {Q W : Type} (before : Option (W → ℝ → Vec n → P × W)) (after : Option (W → ℝ → Vec n → Q × W)) (w : W) :
    ∃ (run : LoopState (ExpRB n) P Q W (Vec n)) (u : ℕ → Vec n),
      integrateOrmatex (rbStepper hasRust K sys) s (Y t0) t0 dt N before after w = .ok run ∧
      run.tRes = (List.range (N + 1)).map (fun i : ℕ => t0 + i * dt) ∧ run.yRes = (List.range (N + 1)).map u ∧
      ∀ k : ℕ, norm2 (u k - Y (t0 + k * dt)) ≤
        Real.exp (k * dt * (2 * (l + (κ * B + μ) * dt) + l * (1 + dt * (l + (κ * B + μ) * dt)))) * (k * dt) *
          ((2 * M3 + l * M2 / 2) * dt ^ 3 + (2 + l * dt) * (τ * dt)) := by
  have hjs : ExactJacs sys := fun kw t y => ⟨_, hj kw t y⟩
  have hJ : ∀ t y, jacM (sys.frhs none) (t, y) = J t y := fun t y => ((hj none t y).eq.1).symm
  have hD : ∀ t y, dtM (sys.frhs none) (t, y) = d t y := fun t y => by rw [← (hj none t y).eq.2, hd]
  obtain ⟨Φ, hΦ⟩ : ∃ Φ : ℝ → Vec n → Vec n, Φ = fun t y => rb3Update (sys.frhs none) (J t y) t y (effFdt tol (d t y)) dt := ⟨_, rfl⟩
  obtain ⟨u, hu⟩ : ∃ u, u = iterSeq Φ t0 dt (Y t0) := ⟨_, rfl⟩
  have hu0 : u 0 = Y t0 := by rw [hu]; rfl
  have hus : ∀ k : ℕ, u (k + 1) = Φ (t0 + k * dt) (u k) := fun k => by rw [hu]; rfl
  obtain ⟨run, e1, e2, e3⟩ := run_seq (rbStepper hasRust K sys) (fun (o : ExpRB n) k => At o.base (t0 + k * dt) (u k) ∧ o.base.method = "exprb3" ∧
    o.tolFdt = tol ∧ (Nonempty2 o.base ∧ 0 < o.base.yHist.maxlen ∧ o.base.tHist.maxlen = o.base.yHist.maxlen)) u t0 dt before after
    (by
      rintro o k kw - ⟨g1, g2, g3, g4⟩
      have hst := rb_step_closed hK hasRust sys hjs o _ _ g1 kw dt 3 (by rw [g2]; simp [rbOrders]) (by rw [g2]; exact fun h => absurd h (by decide))
      have hmap : rbMap (n := n) "exprb3" = mapRB3 := by simp [rbMap]
      have heff : ∀ v : Vec n, rbEff "exprb3" tol v = effFdt tol v := fun v => by simp [rbEff, alwaysCorrected]
      rw [g2, g3, hmap, heff] at hst
      unfold mapRB3 mapRB2 at hst
      simp only [hJ, hD] at hst
      have hst' : ExpRB.step hasRust K sys o dt kw = .ok (StepResult.mk (t0 + k * dt + dt) dt (u (k + 1)) (-1)) := by
        rw [hst, hus, hΦ]; rfl
      refine ⟨StepResult.mk (t0 + k * dt + dt) dt (u (k + 1)) (-1), o, ?_, rfl, rfl, ?_, g2, g3, accept_nonempty g4 _⟩
      · show keep o (ExpRB.step hasRust K sys o dt kw) = _
        rw [hst']; rfl
      · have := at_accept g4.2 (StepResult.mk (t0 + k * dt + dt) dt (u (k + 1)) (-1))
        have e : t0 + ((k + 1 : ℕ) : ℝ) * dt = t0 + k * dt + dt := by push_cast; ring
        rw [e]
        exact this)
    s (by
      obtain ⟨g1, g2, g3, g4⟩ := rb_new_at hnew
      refine ⟨by simpa [hu0] using g1, g2, g3, g4⟩) N w
  rw [hu0] at e1
  refine ⟨run, u, e1, e2, e3, ?_⟩
  obtain ⟨hB, hl, hκ, hμ, hM⟩ := hp.nonneg
  have hM3 := hc.nonneg.2
  have heff : ∀ t x, norm2 (d t x - effFdt tol (d t x)) ≤ τ := by
    intro t x
    unfold effFdt
    split_ifs with h2
    · rw [sub_self, norm2_zero]; exact hτ
    · rw [sub_zero]
      rcases htol with h | h
      · have : ‖d t x‖ ≤ tol := by
          by_contra hc
          exact h2 ⟨h.1, by linarith⟩
        exact ((norm2_le_sup _).trans (mul_le_mul_of_nonneg_left this (Real.sqrt_nonneg _))).trans h.2
      · rw [h, norm2_zero]; exact hτ
  intro k
  obtain ⟨G, hG⟩ : ∃ G, G = 2 * (l + (κ * B + μ) * dt) + l * (1 + dt * (l + (κ * B + μ) * dt)) := ⟨_, rfl⟩
  have hG0 : 0 ≤ G := by rw [hG]; positivity
  have hsum := stable_sum (e := fun k => norm2 (u k - Y (t0 + k * dt))) (q := 1 + dt * G)
    (d := (2 * M3 + l * M2 / 2) * dt ^ 4 + (2 + l * dt) * (τ * dt ^ 2))
    (by have := mul_nonneg hdt.le hG0; linarith) (by positivity) (by simp [hu0, norm2_zero]) (fun k => by
      have e : t0 + ((k + 1 : ℕ) : ℝ) * dt = t0 + k * dt + dt := by push_cast; ring
      simp only [e, hus, hΦ, hG]
      exact rb3_err hp hc (by have : (0 : ℝ) ≤ k * dt := by positivity
                              linarith) hdt _ _ (heff _ _)) k
  have hq : (1 + dt * G) ^ k ≤ Real.exp (k * dt * G) := by
    rw [mul_assoc (k : ℝ) dt, Real.exp_nat_mul]
    have := mul_nonneg hdt.le hG0
    exact pow_le_pow_left₀ (by linarith) (by linarith [Real.add_one_le_exp (dt * G)]) k
  rw [← hG]
  refine (hsum.trans (mul_le_mul_of_nonneg_right hq (by positivity))).trans (le_of_eq ?_)
  ring

/-- the additional hypotheses hold for the problem `y' = -1000 (y - t) + 1 + sin y - sin t`, `y = t` of C133 -/
example : StiffCubic (n := 1) (fun t y => fun _ => -1000 * (y 0 - t) + 1 + Real.sin (y 0) - Real.sin t) (fun _ y _ _ => -1000 + Real.cos (y 0))
    (fun t _ _ => 1000 - Real.cos t) (fun t _ => t) (fun _ => 0) 0 2 0 := by
  have a : ∀ v : Vec 1, norm2 v = |v 0| := by
    intro v
    unfold norm2
    simp [dotProduct, Real.sqrt_mul_self_eq_abs]
  have lipsin : ∀ x y : ℝ, |Real.sin x - Real.sin y| ≤ |x - y| := fun x y => by
    simpa [Real.dist_eq] using Real.lipschitzWith_sin.dist_le_mul x y
  refine StiffCubic.mk ⟨by norm_num, le_rfl⟩ ?_ ?_
  · intro t s _ hs
    rw [a]
    simp [mulVec, dotProduct]
    ring_nf
  · intro t s x z _ _
    rw [a, a]
    simp [mulVec, dotProduct]
    have e : -(1000 * (x 0 - (t + s))) + 1 + Real.sin (x 0) - Real.sin (t + s) - 1 - (-1000 + Real.cos (z 0)) * (x 0 - (t + s)) =
      (Real.sin (x 0) - Real.sin (t + s)) - Real.cos (z 0) * (x 0 - (t + s)) := by ring
    rw [e]
    have h1 := abs_sub (Real.sin (x 0) - Real.sin (t + s)) (Real.cos (z 0) * (x 0 - (t + s)))
    have h2 := lipsin (x 0) (t + s)
    have h3 : |Real.cos (z 0) * (x 0 - (t + s))| ≤ |x 0 - (t + s)| := by
      rw [abs_mul]
      exact mul_le_of_le_one_left (abs_nonneg _) (Real.abs_cos_le_one _)
    linarith

end
end Ormatex.Props
