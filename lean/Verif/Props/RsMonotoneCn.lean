import Verif.Props.RsMonotone

/-!
C139: Crank-Nicolson of the crate on nonlinear dissipative systems of any stiffness, with inexact Newton steps.
-/

namespace Ormatex.Props
open Matrix Ormatex.Spec Ormatex.Rs

section
variable {n : ℕ}

/-- the residual that Newton's method leaves is of second order in the residual of the guess, up to the tolerance of the linear solver -/
theorem newton_quad {gmres : Gmres n} (hg : ResidualGmres gmres) {f : Vec n → Vec n} {J : Vec n → Mat n} {l l2 : ℝ} (hm : Rs.Monotone f J l)
    (h2 : MissedQuad f J l2) {h : ℝ} (hh : 0 ≤ h)
    (t : ℝ) (y : Vec n) (frhs : ℝ → Vec n → Vec n) (jac : ℝ → Vec n → LinOp n) (hf : ∀ x, frhs t x = x - y - h • f x)
    (hj : ∀ x, IsMatrix (jac t x) (1 - h • J x)) (tol : ℝ) {η q : ℝ} (h0 : 0 < η) (hq : q = η + h * l * (1 + η)) (hq1 : q ≤ 1) {itersLin : ℕ}
    (hn : n ≤ itersLin) (it : ℕ) (x a : Vec n) (hx : q ^ (it + 1) * ((1 + η) * norm2 (x - y - h • f x)) < tol) :
    ∃ x', newtonLoop gmres t frhs jac tol η itersLin (it + 1 + 1) x a = .ok x' ∧ norm2 (x' - y - h • f x') ≤ q * norm2 (x - y - h • f x) ∧
      norm2 (x' - y - h • f x') ≤ η * norm2 (x - y - h • f x) + h * (l2 * ((1 + η) * norm2 (x - y - h • f x)) ^ 2) := by
  have hq0 : 0 ≤ q := by rw [hq]; have := hm.nonneg; positivity
  obtain ⟨a', ha⟩ := hg.returns _ _ (hj x) (dissipative_unit (hm.diss x) hh) (frhs t x) a itersLin η h0 hn
  obtain ⟨p1, p2⟩ := newton_pass hg hm hh y x a a' _ (hj x) h0 (by rw [← hf]; exact ha)
  have hl := h2.nonneg
  have p3 : norm2 (x - a' - y - h • f (x - a')) ≤ η * norm2 (x - y - h • f x) + h * (l2 * ((1 + η) * norm2 (x - y - h • f x)) ^ 2) := by
    have hr := hg.residual _ _ (hj x) _ _ _ _ _ h0 ha
    rw [hf] at hr
    obtain ⟨G, hG⟩ : ∃ G, G = x - y - h • f x := ⟨_, rfl⟩
    rw [← hG] at hr p2 ⊢
    have e : x - a' - y - h • f (x - a') = -((1 - h • J x) *ᵥ a' - G) - h • (f (x - a') - f x - J x *ᵥ (x - a' - x)) := by
      rw [hG, sub_mulVec, one_mulVec, smul_mulVec, show x - a' - x = -a' by abel, mulVec_neg]
      module
    rw [e]
    have c1 := norm2_sub_le (-((1 - h • J x) *ᵥ a' - G)) (h • (f (x - a') - f x - J x *ᵥ (x - a' - x)))
    rw [norm2_neg, norm2_smul, abs_of_nonneg hh] at c1
    have c2 := h2.missed (x - a') x
    rw [show norm2 (x - a' - x) = norm2 a' by rw [show x - a' - x = -a' by abel, norm2_neg]] at c2
    have c3 : norm2 a' ^ 2 ≤ ((1 + η) * norm2 G) ^ 2 := pow_le_pow_left₀ (norm2_nonneg _) p2 2
    have c4 := mul_le_mul_of_nonneg_left (c2.trans (mul_le_mul_of_nonneg_left c3 hl)) hh
    linarith
  rw [← hq] at p1
  rw [newtonLoop]
  simp only [Bind.bind, Except.bind, ha]
  split_ifs with hc
  · exact ⟨_, rfl, p1, p3⟩
  · obtain ⟨x', e1, e2⟩ := newton_monotone hg hm hh t y frhs jac hf hj tol h0 hq hq1 hn it (x - a') a' (lt_of_le_of_lt (by
      have := mul_le_mul_of_nonneg_left (mul_le_mul_of_nonneg_left p1 (by linarith : (0 : ℝ) ≤ 1 + η)) (pow_nonneg hq0 it)
      refine this.trans (le_of_eq ?_)
      rw [pow_succ]; ring) hx)
    have e3 := e2.trans (mul_le_of_le_one_left (norm2_nonneg _) hq1)
    exact ⟨x', e1, e3.trans p1, e3.trans p3⟩

/-- `x - h f(x)` separates states at least as much as they are apart, and more than `x + h f(x)` -/
theorem cayley_monotone {f : Vec n → Vec n} (hm : ∀ x y, (x - y) ⬝ᵥ (f x - f y) ≤ 0) {h : ℝ} (hh : 0 ≤ h) (x y : Vec n) :
    norm2 (x - y) ≤ norm2 (x - y - h • (f x - f y)) ∧ norm2 (x - y + h • (f x - f y)) ≤ norm2 (x - y - h • (f x - f y)) := by
  obtain ⟨a, ha⟩ : ∃ a, a = x - y := ⟨_, rfl⟩
  obtain ⟨b, hb⟩ : ∃ b, b = f x - f y := ⟨_, rfl⟩
  have hab := hm x y
  rw [← ha, ← hb] at hab ⊢
  have h1 := mul_nonpos_of_nonneg_of_nonpos hh hab
  have e1 : (a - h • b) ⬝ᵥ (a - h • b) = a ⬝ᵥ a - 2 * (h * (a ⬝ᵥ b)) + (h • b) ⬝ᵥ (h • b) := by
    rw [sub_dotProduct, dotProduct_sub, dotProduct_sub, dotProduct_comm (h • b) a, dotProduct_smul, smul_eq_mul]
    ring
  have e2 : (a + h • b) ⬝ᵥ (a + h • b) = a ⬝ᵥ a + 2 * (h * (a ⬝ᵥ b)) + (h • b) ⬝ᵥ (h • b) := by
    rw [add_dotProduct, dotProduct_add, dotProduct_add, dotProduct_comm (h • b) a, dotProduct_smul, smul_eq_mul]
    ring
  have h3 : 0 ≤ (h • b) ⬝ᵥ (h • b) := by rw [← norm2_sq]; exact mul_self_nonneg _
  unfold norm2
  exact ⟨Real.sqrt_le_sqrt (by rw [e1]; linarith), Real.sqrt_le_sqrt (by rw [e1, e2]; linarith)⟩

/-- two pairs of states that satisfy the trapezoidal formula up to residuals -/
theorem trapezoid_stable {f : Vec n → Vec n} (hm : ∀ x y, (x - y) ⬝ᵥ (f x - f y) ≤ 0) {h : ℝ} (hh : 0 ≤ h) (x y a b : Vec n) :
    norm2 (x - y - h • (f x - f y)) ≤ norm2 (a - b - h • (f a - f b)) + norm2 (x - (a + h • f a) - h • f x) + norm2 (y - (b + h • f b) - h • f y) := by
  have e : x - y - h • (f x - f y) = (a - b + h • (f a - f b)) + (x - (a + h • f a) - h • f x) - (y - (b + h • f b) - h • f y) := by module
  rw [e]
  have h1 := norm2_sub_le ((a - b + h • (f a - f b)) + (x - (a + h • f a) - h • f x)) (y - (b + h • f b) - h • f y)
  have h2 := norm2_add_le (a - b + h • (f a - f b)) (x - (a + h • f a) - h • f x)
  have h3 := (cayley_monotone hm hh a b).2
  linarith

theorem trapezoid_speed {f : Vec n → Vec n} (hm : ∀ x y, (x - y) ⬝ᵥ (f x - f y) ≤ 0) {h : ℝ} (hh : 0 < h) (x y : Vec n) {q : ℝ} (hq : 0 ≤ q)
    (hr : norm2 (x - (y + (h / 2) • f y) - (h / 2) • f x) ≤ q * (h * norm2 (f y))) : norm2 (f x) ≤ (1 + 2 * q) * norm2 (f y) := by
  obtain ⟨r, hr'⟩ : ∃ r, r = x - (y + (h / 2) • f y) - (h / 2) • f x := ⟨_, rfl⟩
  rw [← hr'] at hr
  have e : x - y = (h / 2) • (f x + f y) + r := by rw [hr']; module
  have h1 := hm x y
  have e2 : (f x + f y) ⬝ᵥ (f x - f y) = norm2 (f x) * norm2 (f x) - norm2 (f y) * norm2 (f y) := by
    rw [add_dotProduct, dotProduct_sub, dotProduct_sub, dotProduct_comm (f y) (f x), ← norm2_sq, ← norm2_sq]
    ring
  rw [e, add_dotProduct, smul_dotProduct, smul_eq_mul, e2] at h1
  have h2 : -(r ⬝ᵥ (f x - f y)) ≤ norm2 r * (norm2 (f x) + norm2 (f y)) := by
    have := dot_le_norm2 (-r) (f x - f y)
    rw [neg_dotProduct, norm2_neg] at this
    exact this.trans (mul_le_mul_of_nonneg_left (norm2_sub_le _ _) (norm2_nonneg _))
  obtain ⟨X, hX⟩ : ∃ X, X = norm2 (f x) := ⟨_, rfl⟩
  obtain ⟨Z, hZ⟩ : ∃ Z, Z = norm2 (f y) := ⟨_, rfl⟩
  have hX0 : 0 ≤ X := by rw [hX]; exact norm2_nonneg _
  have hZ0 : 0 ≤ Z := by rw [hZ]; exact norm2_nonneg _
  rw [← hX, ← hZ] at h1 h2
  rw [← hZ] at hr
  rw [← hX, ← hZ]
  have h4 : norm2 r * (X + Z) ≤ q * (h * Z) * (X + Z) := mul_le_mul_of_nonneg_right hr (by positivity)
  have h5 : h * ((X - Z) * (X + Z)) ≤ h * (2 * (q * Z) * (X + Z)) := by linarith
  have h6 := le_of_mul_le_mul_left h5 hh
  rcases (add_nonneg hX0 hZ0).eq_or_lt with h7 | h7
  · have : X = 0 := by linarith
    rw [this]
    positivity
  · have := le_of_mul_le_mul_right h6 h7
    linarith

/-- one step of the method -/
theorem cn_step {gmres : Gmres n} (hg : ResidualGmres gmres) (hn : n ≤ 1000) {sys : Sys n} {f : Vec n → Vec n} {J : Vec n → Mat n} (hs : AutSys sys f J)
    {l l2 : ℝ} (hm : Rs.Monotone f J l) (h2 : MissedQuad f J l2) (s : Bdf n) (hso : s.order = 3) (y : Vec n) (L : List (Vec n)) (hy : s.yHist = y :: L) {dt : ℝ}
    (hdt : 0 ≤ dt) {q : ℝ} (hq : q = 1e-8 + dt / 2 * l * (1 + 1e-8)) (hq2 : q ≤ 1 / 2) (hbig : dt * norm2 (f y) ≤ 1e20) :
    ∃ x, Bdf.step gmres sys s dt = .ok ⟨s.t + dt, dt, x, none⟩ ∧
      norm2 (x - (y + (dt / 2) • f y) - (dt / 2) • f x) ≤ q * (dt * norm2 (f y)) ∧
      norm2 (x - (y + (dt / 2) • f y) - (dt / 2) • f x) ≤ dt * (1e-8 * norm2 (f y) + l2 * dt ^ 2 * norm2 (f y) ^ 2) := by
  have hl := hm.nonneg
  have hl2 := h2.nonneg
  have hq0 : 0 ≤ q := by rw [hq]; positivity
  have hF0 := norm2_nonneg (f y)
  have hres : norm2 (y - (y + (dt / 2) • f y) - (dt / 2) • f y) = dt * norm2 (f y) := by
    rw [show y - (y + (dt / 2) • f y) - (dt / 2) • f y = -(dt • f y) by module, norm2_neg, norm2_smul, abs_of_nonneg hdt]
  have hd : dt * 0.5 = dt / 2 := by norm_num; ring
  obtain ⟨x, k1, k2, k3⟩ := newton_quad hg hm h2 (h := dt / 2) (by positivity) (s.t + dt) (y + (dt / 2) • f y)
    (fun t x => -((dt * 0.5) • sys.frhs (t + dt) x) - (dt * 0.5) • sys.frhs t y - y + x)
    (fun t x => sys.fjacShifted (t + dt) x (-0.5 * dt) (some 1)) (fun x => by
      simp only [hs.frhs, hd]
      module) (fun x v => by
      simp only [Sys.fjacShifted, shiftedLinOp, LinOp.call]
      rw [hs.fjac (s.t + dt + dt) x v, sub_mulVec, one_mulVec, smul_mulVec, show -0.5 * dt = -(dt / 2) by norm_num; ring]
      module) 1e-6 (η := 1e-8) (by norm_num) hq (by linarith) hn 98 y 0 (by
    rw [hres]
    have hp0 : 0 ≤ dt * norm2 (f y) := mul_nonneg hdt (norm2_nonneg _)
    calc q ^ (98 + 1) * ((1 + 1e-8) * (dt * norm2 (f y))) ≤ (1 / 2 : ℝ) ^ (98 + 1) * ((1 + 1e-8) * 1e20) := by gcongr
      _ < 1e-6 := by norm_num)
  rw [hres] at k2 k3
  refine ⟨x, ?_, k2, k3.trans ?_⟩
  · rw [bdf_step_3 gmres sys s dt hso]
    unfold Bdf.stepCn
    rw [hy]
    simp only [show rsGet (y :: L) 0 = .ok y from rfl, Bind.bind, Except.bind]
    have k4 : jacNewton gmres (s.t + dt) y (fun t x => -((dt * 0.5) • sys.frhs (t + dt) x) - (dt * 0.5) • sys.frhs t y - y + x)
      (fun t x => sys.fjacShifted (t + dt) x (-0.5 * dt) (some 1)) 1e-6 1e-8 100 1000 = .ok x := k1
    rw [k4]
    rfl
  · have k5 : 0 ≤ dt * (l2 * dt ^ 2 * norm2 (f y) ^ 2) := by positivity
    have k6 : dt / 2 * (l2 * ((1 + 1e-8) * (dt * norm2 (f y))) ^ 2) = ((1 + 1e-8) ^ 2 / 2) * (dt * (l2 * dt ^ 2 * norm2 (f y) ^ 2)) := by ring
    have k7 : (((1 : ℝ) + 1e-8) ^ 2 / 2) * (dt * (l2 * dt ^ 2 * norm2 (f y) ^ 2)) ≤ 1 * (dt * (l2 * dt ^ 2 * norm2 (f y) ^ 2)) :=
      mul_le_mul_of_nonneg_right (by norm_num) k5
    rw [k6]
    linarith

/-- the calls return, and their states satisfy the trapezoidal formula up to the stated residuals -/
theorem cn_run {gmres : Gmres n} (hg : ResidualGmres gmres) (hn : n ≤ 1000) (split : ℕ → Option (Split ℕ)) {sys : Sys n} {f : Vec n → Vec n}
    {J : Vec n → Mat n} (hs : AutSys sys f J) {l l2 : ℝ} (hm : Rs.Monotone f J l) (h2 : MissedQuad f J l2) (y0 : Vec n) (t0 dt : ℝ) (hdt : 0 < dt) (N : ℕ)
    (kd : Kwds) (o : RunOpts) (hp : parseOpts kd = .ok o) (ho : 0 < o.osteps) (hmeth : o.method = "cn") {q : ℝ}
    (hq : q = 1e-8 + dt / 2 * l * (1 + 1e-8)) (hq2 : q ≤ 1 / 2) (hbig : dt * ((1 + 2 * q) ^ N * norm2 (f y0)) ≤ 1e20) :
    ∃ u : ℕ → Vec n, u 0 = y0 ∧
      integrateWrapperRs gmres split sys y0 t0 dt N kd =
        .ok ((outputSteps o.osteps N).map u, (outputSteps o.osteps N).map fun i : ℕ => t0 + i * dt) ∧
      ∀ k < N, norm2 (u (k + 1) - (u k + (dt / 2) • f (u k)) - (dt / 2) • f (u (k + 1))) ≤ q * (dt * ((1 + 2 * q) ^ k * norm2 (f y0))) ∧
        norm2 (u (k + 1) - (u k + (dt / 2) • f (u k)) - (dt / 2) • f (u (k + 1))) ≤
          dt * (1e-8 * ((1 + 2 * q) ^ k * norm2 (f y0)) + l2 * dt ^ 2 * ((1 + 2 * q) ^ k * norm2 (f y0)) ^ 2) := by
  have hl := hm.nonneg
  have hl2 := h2.nonneg
  have hq0 : 0 ≤ q := by rw [hq]; positivity
  obtain ⟨u, hu0, hus⟩ : ∃ u : ℕ → Vec n, u 0 = y0 ∧ ∀ k, u (k + 1) = match Bdf.step gmres sys ⟨3, t0 + k * dt, [u k]⟩ dt with
      | .ok r => r.y
      | .error _ => 0 :=
    ⟨fun k => Nat.rec y0 (fun k y => match Bdf.step gmres sys ⟨3, t0 + k * dt, [y]⟩ dt with
      | .ok r => r.y
      | .error _ => 0) k, rfl, fun _ => rfl⟩
  have hkey : ∀ k, dt * norm2 (f (u k)) ≤ 1e20 → ∀ (s : Bdf n) (L : List (Vec n)), s.order = 3 → s.t = t0 + k * dt → s.yHist = u k :: L →
      Bdf.step gmres sys s dt = .ok ⟨s.t + dt, dt, u (k + 1), none⟩ ∧
      norm2 (u (k + 1) - (u k + (dt / 2) • f (u k)) - (dt / 2) • f (u (k + 1))) ≤ q * (dt * norm2 (f (u k))) ∧
      norm2 (u (k + 1) - (u k + (dt / 2) • f (u k)) - (dt / 2) • f (u (k + 1))) ≤
        dt * (1e-8 * norm2 (f (u k)) + l2 * dt ^ 2 * norm2 (f (u k)) ^ 2) := by
    intro k hk s L h1 h2' h3
    have hsame : Bdf.step gmres sys s dt = Bdf.step gmres sys ⟨3, t0 + k * dt, [u k]⟩ dt := by
      rw [bdf_step_3 gmres sys s dt h1, bdf_step_3 gmres sys _ dt rfl]
      unfold Bdf.stepCn
      rw [h2', h3]
      rfl
    obtain ⟨x, e1, e2, e3⟩ := cn_step hg hn hs hm h2 s h1 (u k) L h3 hdt.le hq hq2 hk
    have hx : u (k + 1) = x := by rw [hus, ← hsame, e1]
    rw [hx]
    exact ⟨e1, e2, e3⟩
  have hb : ∀ k ≤ N, norm2 (f (u k)) ≤ (1 + 2 * q) ^ k * norm2 (f y0) → dt * norm2 (f (u k)) ≤ 1e20 := by
    intro k hk h
    refine (mul_le_mul_of_nonneg_left (h.trans ?_) hdt.le).trans hbig
    exact mul_le_mul_of_nonneg_right (pow_le_pow_right₀ (by linarith) hk) (norm2_nonneg _)
  have hsp : ∀ k ≤ N, norm2 (f (u k)) ≤ (1 + 2 * q) ^ k * norm2 (f y0) := by
    intro k
    induction k with
    | zero => intro _; rw [hu0, pow_zero, one_mul]
    | succ k ih =>
      intro hk
      have i1 := ih (by omega)
      have i2 := (hkey k (hb k (by omega) i1) ⟨3, t0 + k * dt, [u k]⟩ [] rfl rfl rfl).2.1
      refine (trapezoid_speed hm.mono hdt _ _ hq0 i2).trans ?_
      rw [pow_succ, mul_comm _ (1 + 2 * q), mul_assoc]
      exact mul_le_mul_of_nonneg_left i1 (by linarith)
  refine ⟨u, hu0, ?_, fun k hk => ?_⟩
  · have h := bdf_follow gmres sys 3 t0 dt u N o.osteps ho (by
      intro s k L hk g1 g2 g3 _ _
      exact (hkey k (hb k hk.le (hsp k hk.le)) s L g1 g2 g3).1)
    rw [hu0] at h
    exact wrap_bdf gmres split sys y0 t0 dt N kd o 3 _ hp (by unfold selectSolver; rw [hmeth]; simp) h
  · obtain ⟨-, i1, i2⟩ := hkey k (hb k hk.le (hsp k hk.le)) ⟨3, t0 + k * dt, [u k]⟩ [] rfl rfl rfl
    have i3 := hsp k hk.le
    have i4 := norm2_nonneg (f (u k))
    refine ⟨i1.trans ?_, i2.trans ?_⟩
    · exact mul_le_mul_of_nonneg_left (mul_le_mul_of_nonneg_left i3 hdt.le) hq0
    · gcongr

/-- a curve against its derivative at the end of an interval -/
theorem back_taylor {Y A : ℝ → Vec n} {t0 M : ℝ} (hY : ∀ s, HasDerivAt Y (A s) s) (hA : ∀ t s, t0 ≤ t → 0 ≤ s → norm2 (A (t + s) - A t) ≤ M * s) {t h : ℝ}
    (ht : t0 ≤ t) (hh : 0 ≤ h) : norm2 (Y (t + h) - Y t - h • A (t + h)) ≤ M / 2 * h ^ 2 := by
  have hz : Dissipative (0 : Mat n) := fun v => by rw [zero_mulVec, dotProduct_zero]
  have key := duhamel_norm hz (D := fun s => Y (t + h) - Y (t + h - s) - s • A (t + h))
    (r := fun s => A (t + h - s) - A (t + h)) (fun s => by
      have h1 := HasDerivAt.scomp s (hY (t + h - s)) ((hasDerivAt_id s).const_sub (t + h))
      have h2 := (h1.const_sub (Y (t + h))).sub ((hasDerivAt_id s).smul_const (A (t + h)))
      refine h2.congr_deriv ?_
      rw [zero_mulVec]
      module) M 1 hh (fun s hs hsh => by
      have := hA (t + h - s) s (by linarith) hs
      rw [sub_add_cancel] at this
      rw [pow_one, ← norm2_neg, neg_sub]
      exact this)
  have e0 : t + h - h = t := by ring
  simp only [sub_zero, zero_smul, sub_self, norm2_zero, e0, zero_add] at key
  refine key.trans (le_of_eq ?_)
  norm_num
  ring

/-- a solution with slowly changing acceleration satisfies the trapezoidal formula up to third order -/
theorem trapezoid_defect {f : Vec n → Vec n} {Y A : ℝ → Vec n} {t0 M : ℝ} (hY : SlowAcceleration f Y A t0 M) {t h : ℝ} (ht : t0 ≤ t) (hh : 0 ≤ h) :
    norm2 (Y (t + h) - (Y t + (h / 2) • f (Y t)) - (h / 2) • f (Y (t + h))) ≤ M / 12 * h ^ 3 := by
  have hz : Dissipative (0 : Mat n) := fun v => by rw [zero_mulVec, dotProduct_zero]
  have key := duhamel_norm hz (D := fun s => Y (t + s) - Y t - (s / 2) • (f (Y (t + s)) + f (Y t)))
    (r := fun s => (1 / 2 : ℝ) • (f (Y (t + s)) - f (Y t) - s • A (t + s))) (fun s => by
      have h1 := shift_deriv hY.sol t s
      have h2 := shift_deriv hY.acc t s
      refine ((h1.sub_const (Y t)).sub (((hasDerivAt_id s).div_const 2).smul (h2.add_const (f (Y t))))).congr_deriv ?_
      rw [zero_mulVec]
      simp only [id]
      module) (M / 4) 2 hh (fun s hs hsh => by
      rw [norm2_smul, abs_of_nonneg (by norm_num)]
      have := back_taylor hY.acc hY.rate ht hs
      linarith)
  simp only [add_zero, zero_div, zero_smul, sub_self, norm2_zero, zero_add] at key
  have e : Y (t + h) - (Y t + (h / 2) • f (Y t)) - (h / 2) • f (Y (t + h)) = Y (t + h) - Y t - (h / 2) • (f (Y (t + h)) + f (Y t)) := by module
  rw [e]
  refine key.trans (le_of_eq ?_)
  norm_num
  ring

/-- **C139 (error).** On a nonlinear autonomous system of any stiffness whose solutions do not move apart, and whose Newton matrices miss a part of second
order, `cn` through the binding is of order two up to the tolerance of the linear solver, with constants that do not involve the norm of the Jacobian or a
Lipschitz constant of `f`. -/
theorem C139_error {gmres : Gmres n} (hg : ResidualGmres gmres) (hn : n ≤ 1000) (split : ℕ → Option (Split ℕ)) {sys : Sys n} {f : Vec n → Vec n}
    {J : Vec n → Mat n} (hs : AutSys sys f J) {l l2 : ℝ} (hm : Rs.Monotone f J l) (h2 : MissedQuad f J l2) {Y A : ℝ → Vec n} {t0 M : ℝ}
    (hY : SlowAcceleration f Y A t0 M) (dt : ℝ) (hdt : 0 < dt)
    (N : ℕ) (kd : Kwds) (o : RunOpts) (hp : parseOpts kd = .ok o) (ho : 0 < o.osteps) (hmeth : o.method = "cn") {q : ℝ}
    (hq : q = 1e-8 + dt / 2 * l * (1 + 1e-8)) (hq2 : q ≤ 1 / 2) (hbig : dt * ((1 + 2 * q) ^ N * norm2 (f (Y t0))) ≤ 1e20) :
    ∃ u : ℕ → Vec n, u 0 = Y t0 ∧
      integrateWrapperRs gmres split sys (Y t0) t0 dt N kd =
        .ok ((outputSteps o.osteps N).map u, (outputSteps o.osteps N).map fun i : ℕ => t0 + i * dt) ∧
      ∀ k ≤ N, norm2 (u k - Y (t0 + k * dt)) ≤
        k * dt * (M / 12 * dt ^ 2 + 1e-8 * ((1 + 2 * q) ^ k * norm2 (f (Y t0))) + l2 * dt ^ 2 * ((1 + 2 * q) ^ k * norm2 (f (Y t0))) ^ 2) := by
  obtain ⟨u, u0, u1, u2⟩ := cn_run hg hn split hs hm h2 (Y t0) t0 dt hdt N kd o hp ho hmeth hq hq2 hbig
  have hl := hm.nonneg
  have hl2 := h2.nonneg
  have hq0 : 0 ≤ q := by rw [hq]; positivity
  have hh : 0 ≤ dt / 2 := by positivity
  refine ⟨u, u0, u1, fun k hk => ?_⟩
  refine (cayley_monotone hm.mono hh _ _).1.trans ?_
  revert hk
  induction k with
  | zero => intro _; rw [u0]; simp [norm2_zero]
  | succ k ih =>
    intro hk
    have i1 := ih (by omega)
    have e : t0 + ((k + 1 : ℕ) : ℝ) * dt = t0 + k * dt + dt := by push_cast; ring
    have i2 := trapezoid_stable hm.mono hh (u (k + 1)) (Y (t0 + k * dt + dt)) (u k) (Y (t0 + k * dt))
    have i3 := (u2 k (by omega)).2
    have i4 := trapezoid_defect hY (t := t0 + k * dt) (h := dt) (by have : (0 : ℝ) ≤ k * dt := by positivity
                                                                    linarith) hdt.le
    rw [e]
    obtain ⟨P, hP⟩ : ∃ P, P = (1 + 2 * q) ^ k * norm2 (f (Y t0)) := ⟨_, rfl⟩
    have hP0 : 0 ≤ P := by rw [hP]; exact mul_nonneg (by positivity) (norm2_nonneg _)
    obtain ⟨P', hP'⟩ : ∃ P', P' = (1 + 2 * q) ^ (k + 1) * norm2 (f (Y t0)) := ⟨_, rfl⟩
    have hP1 : P ≤ P' := by
      rw [hP, hP']
      exact mul_le_mul_of_nonneg_right (pow_le_pow_right₀ (by linarith) (by omega)) (norm2_nonneg _)
    rw [← hP] at i1 i3
    rw [← hP']
    have i5 : ((k + 1 : ℕ) : ℝ) * dt * (M / 12 * dt ^ 2 + 1e-8 * P + l2 * dt ^ 2 * P ^ 2) ≤
        ((k + 1 : ℕ) : ℝ) * dt * (M / 12 * dt ^ 2 + 1e-8 * P' + l2 * dt ^ 2 * P' ^ 2) := by
      gcongr
    refine le_trans ?_ i5
    push_cast
    linarith

/-- **C139 (two runs).** Two calls with `cn` never separate by more than `‖(y0 - z0) - dt/2 (f(y0) - f(z0))‖` and the residuals of the Newton iterations. -/
theorem C139_stable {gmres gmres' : Gmres n} (hg : ResidualGmres gmres) (hg' : ResidualGmres gmres') (hn : n ≤ 1000)
    (split : ℕ → Option (Split ℕ)) {sys : Sys n} {f : Vec n → Vec n} {J : Vec n → Mat n} (hs : AutSys sys f J) {l l2 : ℝ} (hm : Rs.Monotone f J l)
    (h2 : MissedQuad f J l2) (y0 z0 : Vec n) (t0 dt : ℝ) (hdt : 0 < dt) (N : ℕ) (kd : Kwds) (o : RunOpts) (hp : parseOpts kd = .ok o) (ho : 0 < o.osteps)
    (hmeth : o.method = "cn") {q : ℝ} (hq : q = 1e-8 + dt / 2 * l * (1 + 1e-8)) (hq2 : q ≤ 1 / 2)
    (hbig : dt * ((1 + 2 * q) ^ N * norm2 (f y0)) ≤ 1e20) (hbig' : dt * ((1 + 2 * q) ^ N * norm2 (f z0)) ≤ 1e20) :
    ∃ u v : ℕ → Vec n, u 0 = y0 ∧ v 0 = z0 ∧
      integrateWrapperRs gmres split sys y0 t0 dt N kd =
        .ok ((outputSteps o.osteps N).map u, (outputSteps o.osteps N).map fun i : ℕ => t0 + i * dt) ∧
      integrateWrapperRs gmres' split sys z0 t0 dt N kd =
        .ok ((outputSteps o.osteps N).map v, (outputSteps o.osteps N).map fun i : ℕ => t0 + i * dt) ∧
      ∀ k ≤ N, norm2 (u k - v k) ≤ norm2 (y0 - z0 - (dt / 2) • (f y0 - f z0)) + k * dt * (q * ((1 + 2 * q) ^ k * (norm2 (f y0) + norm2 (f z0)))) := by
  obtain ⟨u, u0, u1, u2⟩ := cn_run hg hn split hs hm h2 y0 t0 dt hdt N kd o hp ho hmeth hq hq2 hbig
  obtain ⟨v, v0, v1, v2⟩ := cn_run hg' hn split hs hm h2 z0 t0 dt hdt N kd o hp ho hmeth hq hq2 hbig'
  have hl := hm.nonneg
  have hq0 : 0 ≤ q := by rw [hq]; positivity
  have hh : 0 ≤ dt / 2 := by positivity
  refine ⟨u, v, u0, v0, u1, v1, fun k hk => ?_⟩
  refine (cayley_monotone hm.mono hh _ _).1.trans ?_
  revert hk
  induction k with
  | zero => intro _; rw [u0, v0]; simp
  | succ k ih =>
    intro hk
    have i1 := ih (by omega)
    have i2 := trapezoid_stable hm.mono hh (u (k + 1)) (v (k + 1)) (u k) (v k)
    have i3 := (u2 k (by omega)).1
    have i4 := (v2 k (by omega)).1
    obtain ⟨S, hS⟩ : ∃ S, S = norm2 (f y0) + norm2 (f z0) := ⟨_, rfl⟩
    have hS0 : 0 ≤ S := by rw [hS]; exact add_nonneg (norm2_nonneg _) (norm2_nonneg _)
    obtain ⟨P, hP⟩ : ∃ P, P = (1 + 2 * q) ^ k := ⟨_, rfl⟩
    have hP0 : 0 ≤ P := by rw [hP]; positivity
    have hP1 : P ≤ (1 + 2 * q) ^ (k + 1) := by rw [hP]; exact pow_le_pow_right₀ (by linarith) (by omega)
    rw [← hP] at i1 i3 i4
    rw [← hS] at i1 ⊢
    have i6 : q * (dt * (P * norm2 (f y0))) + q * (dt * (P * norm2 (f z0))) = q * (dt * (P * S)) := by rw [hS]; ring
    have i5 : ((k + 1 : ℕ) : ℝ) * dt * (q * (P * S)) ≤ ((k + 1 : ℕ) : ℝ) * dt * (q * ((1 + 2 * q) ^ (k + 1) * S)) := by
      gcongr
    refine le_trans ?_ (add_le_add_right i5 _)
    push_cast
    linarith


theorem real_lip {g g' : ℝ → ℝ} {C : ℝ} (hg : ∀ x, HasDerivAt g (g' x) x) (hC : ∀ x, |g' x| ≤ C) (x y : ℝ) : |g x - g y| ≤ C * |x - y| := by
  simpa using Convex.norm_image_sub_le_of_norm_hasDerivWithin_le (s := Set.univ) (fun x _ => (hg x).hasDerivWithinAt) (fun x _ => hC x) convex_univ
    (Set.mem_univ y) (Set.mem_univ x)

theorem sech_sq (x : ℝ) : 1 / Real.cosh x ^ 2 = 1 - Real.tanh x ^ 2 := by
  have := Real.cosh_pos x
  rw [Real.tanh_eq_sinh_div_cosh]
  field_simp
  have := Real.cosh_sq x
  linarith

theorem tanh_le (x : ℝ) : |Real.tanh x| ≤ 1 := by
  have h := sech_bounds x
  rw [sech_sq] at h
  exact (sq_le_one_iff_abs_le_one _).1 (by linarith)

theorem sech_deriv (x : ℝ) : HasDerivAt (fun x => 1 - Real.tanh x ^ 2) (-(2 * Real.tanh x * (1 - Real.tanh x ^ 2))) x := by
  have h := ((tanh_deriv x).pow 2).const_sub 1
  rw [sech_sq] at h
  refine h.congr_deriv ?_
  norm_num

theorem sech_lip (x y : ℝ) : |1 - Real.tanh x ^ 2 - (1 - Real.tanh y ^ 2)| ≤ 2 * |x - y| := by
  refine real_lip (g := fun x => 1 - Real.tanh x ^ 2) sech_deriv (fun z => ?_) x y
  have h1 := tanh_le z
  have h2 := sech_bounds z
  rw [sech_sq] at h2
  rw [abs_neg, abs_mul, abs_mul, abs_two, abs_of_nonneg h2.1]
  have := mul_le_mul h1 h2.2 h2.1 zero_le_one
  linarith

theorem tanh_quad : MissedQuad tanhRhs tanhJac 2 := by
  refine MissedQuad.mk zero_le_two ?_
  intro x y
  have hq : |Real.tanh (x 0) - Real.tanh (y 0) - (1 - Real.tanh (y 0) ^ 2) * (x 0 - y 0)| ≤ 2 * (x 0 - y 0) ^ 2 := by
    have h := Convex.norm_image_sub_le_of_norm_hasDerivWithin_le (f := fun z => Real.tanh z - (1 - Real.tanh (y 0) ^ 2) * z)
      (f' := fun z => (1 - Real.tanh z ^ 2) - (1 - Real.tanh (y 0) ^ 2)) (C := 2 * |x 0 - y 0|) (s := Set.uIcc (y 0) (x 0))
      (fun z _ => by
        have := (tanh_deriv z).sub ((hasDerivAt_id z).const_mul (1 - Real.tanh (y 0) ^ 2))
        rw [sech_sq, mul_one] at this
        exact this.hasDerivWithinAt)
      (fun z hz => (sech_lip z (y 0)).trans (mul_le_mul_of_nonneg_left (Set.abs_sub_left_of_mem_uIcc hz) zero_le_two))
      (convex_uIcc _ _) Set.left_mem_uIcc Set.right_mem_uIcc
    simp only [Real.norm_eq_abs] at h
    rw [mul_assoc, abs_mul_abs_self] at h
    rw [sq (x 0 - y 0)]
    refine le_trans (le_of_eq ?_) h
    congr 1
    ring
  have e : tanhRhs x - tanhRhs y - tanhJac y *ᵥ (x - y) =
      ![-(Real.tanh (x 0) - Real.tanh (y 0) - (1 - Real.tanh (y 0) ^ 2) * (x 0 - y 0)), 0] := by
    funext i
    fin_cases i
    · have := sech_sq (y 0)
      simp only [tanhRhs, tanhJac, mulVec, dotProduct, Fin.sum_univ_two, Pi.sub_apply]
      simp
      rw [one_div] at this
      rw [this]
      ring
    · simp [tanhRhs, tanhJac, mulVec, dotProduct, Fin.sum_univ_two]
      ring
  have h3 : norm2 (x - y) ^ 2 = (x 0 - y 0) ^ 2 + (x 1 - y 1) ^ 2 := by
    unfold norm2
    simp only [dotProduct, Fin.sum_univ_two, Pi.sub_apply]
    rw [Real.sq_sqrt (add_nonneg (mul_self_nonneg _) (mul_self_nonneg _))]
    ring
  rw [e, h3]
  have h4 : norm2 (![-(Real.tanh (x 0) - Real.tanh (y 0) - (1 - Real.tanh (y 0) ^ 2) * (x 0 - y 0)), 0] : Vec 2) =
      |Real.tanh (x 0) - Real.tanh (y 0) - (1 - Real.tanh (y 0) ^ 2) * (x 0 - y 0)| := by
    unfold norm2
    simp only [dotProduct, Fin.sum_univ_two, cons_val_zero, cons_val_one, mul_zero, add_zero, Real.sqrt_mul_self_eq_abs, abs_neg]
  rw [h4]
  have := sq_nonneg (x 1 - y 1)
  linarith

theorem tanh_acceleration : SlowAcceleration tanhRhs tanhSol
    (fun s => ![(1 - Real.tanh (tanhSol s 0) ^ 2) * Real.tanh (tanhSol s 0), 0]) 0 2 := by
  have hd : ∀ s : ℝ, HasDerivAt (fun t => tanhSol t 0) (-Real.tanh (tanhSol s 0)) s := fun s => by
    have := hasDerivAt_pi.1 (tanh_solution.sol s) 0
    simpa [tanhRhs] using this
  refine SlowAcceleration.mk tanh_solution.sol ?_ ?_
  · intro s
    rw [hasDerivAt_pi]
    intro i
    fin_cases i
    · have h := ((tanh_deriv (tanhSol s 0)).comp s (hd s)).neg
      rw [sech_sq] at h
      refine h.congr_deriv ?_
      simp
    · simpa [tanhRhs, tanhSol] using hasDerivAt_const s (0 : ℝ)
  · intro t s _ hs
    have h1 : |tanhSol (t + s) 0 - tanhSol t 0| ≤ 1 * |t + s - t| :=
      real_lip (g := fun t => tanhSol t 0) hd (fun z => by rw [abs_neg]; exact tanh_le _) _ _
    have h2 := real_lip (g := fun y => (1 - Real.tanh y ^ 2) * Real.tanh y) (C := 2)
      (g' := fun y => (1 - 3 * Real.tanh y ^ 2) * (1 - Real.tanh y ^ 2))
      (fun y => by
        have h := (sech_deriv y).mul (tanh_deriv y)
        rw [sech_sq] at h
        refine h.congr_deriv ?_
        ring)
      (fun y => by
        have h2 := sech_bounds y
        rw [sech_sq] at h2
        have h3 : |1 - 3 * Real.tanh y ^ 2| ≤ 2 := by rw [abs_le]; constructor <;> nlinarith [sq_nonneg (Real.tanh y)]
        rw [abs_mul, abs_of_nonneg h2.1]
        have := mul_le_mul h3 h2.2 h2.1 zero_le_two
        linarith) (tanhSol (t + s) 0) (tanhSol t 0)
    have e : (![(1 - Real.tanh (tanhSol (t + s) 0) ^ 2) * Real.tanh (tanhSol (t + s) 0), 0] : Vec 2) -
        ![(1 - Real.tanh (tanhSol t 0) ^ 2) * Real.tanh (tanhSol t 0), 0] =
        ![(1 - Real.tanh (tanhSol (t + s) 0) ^ 2) * Real.tanh (tanhSol (t + s) 0) - (1 - Real.tanh (tanhSol t 0) ^ 2) * Real.tanh (tanhSol t 0), 0] := by
      funext i
      fin_cases i <;> simp
    rw [e]
    have h4 : ∀ a : ℝ, norm2 (![a, 0] : Vec 2) = |a| := fun a => by
      unfold norm2
      simp [dotProduct, Fin.sum_univ_two, Real.sqrt_mul_self_eq_abs]
    rw [h4]
    rw [show t + s - t = s by ring, one_mul, abs_of_nonneg hs] at h1
    linarith

/-- the hypotheses are met: a hundred steps of size `1/1000` of the stiff system `y0' = -tanh y0`, `y1' = -10^6 (y1 - 1)` -/
example : ∃ u : ℕ → Vec 2, u 0 = tanhSol 0 ∧
    integrateWrapperRs (sloppyGmres 2) (fun _ => none) (autSys tanhRhs tanhJac) (tanhSol 0) 0 (1 / 1000) 100
      (fun k => if k = "method" then some (.str "cn") else none) =
      .ok ((outputSteps 1 100).map u, (outputSteps 1 100).map fun i : ℕ => 0 + i * (1 / 1000)) ∧
    ∀ k ≤ 100, norm2 (u k - tanhSol (0 + k * (1 / 1000))) ≤ k * (1 / 1000) * (2 / 12 * (1 / 1000) ^ 2 +
      1e-8 * ((1 + 2 * (1e-8 + 1 / 1000 / 2 * 1 * (1 + 1e-8))) ^ k * norm2 (tanhRhs (tanhSol 0))) +
      2 * (1 / 1000) ^ 2 * ((1 + 2 * (1e-8 + 1 / 1000 / 2 * 1 * (1 + 1e-8))) ^ k * norm2 (tanhRhs (tanhSol 0))) ^ 2) := by
  refine C139_error (sloppy_residual 2) (by norm_num) (fun _ => none) (autSys_aut _ _) tanh_monotone tanh_quad tanh_acceleration (1 / 1000) (by norm_num)
    100 _ (RunOpts.mk "cn" "pade" 100 2 1e-8 1e-8 1)
    (by simp [parseOpts, getValOrDefault, PyVal.asString, bind, Except.bind, pure, Except.pure]) one_pos rfl rfl (by norm_num) ?_
  have h1 : norm2 (tanhRhs (tanhSol 0)) ≤ 1 := by
    unfold norm2
    rw [Real.sqrt_le_left (by norm_num)]
    simp [tanhRhs, tanhSol, dotProduct, Fin.sum_univ_two, Real.tanh_arsinh]
    norm_num
    rw [← mul_inv, Real.mul_self_sqrt (by norm_num)]
    norm_num
  have h2 : ((1 : ℝ) + 2 * (1e-8 + 1 / 1000 / 2 * 1 * (1 + 1e-8))) ^ 100 ≤ 2 ^ 60 := by norm_num
  have h3 := mul_le_mul h2 h1 (norm2_nonneg _) (by positivity)
  calc (1 / 1000 : ℝ) * _ ≤ 1 / 1000 * (2 ^ 60 * 1) := mul_le_mul_of_nonneg_left h3 (by norm_num)
    _ ≤ 1e20 := by norm_num

end
end Ormatex.Props
