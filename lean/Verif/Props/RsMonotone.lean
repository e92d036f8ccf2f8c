import Verif.Spec.RsMonotone
import Verif.Props.RsInexact
import Verif.Props.StiffSplit
import Mathlib.Analysis.SpecialFunctions.Arsinh
import Mathlib.Analysis.SpecialFunctions.Trigonometric.DerivHyp
import Mathlib.Analysis.Calculus.MeanValue

/-!
C137: backward Euler of the crate on nonlinear dissipative systems of any stiffness, with inexact Newton steps.
-/

namespace Ormatex.Props
open Matrix Ormatex.Spec Ormatex.Rs

section
variable {n : ℕ}

/-- one pass of Newton's method with an inexact linear solver -/
theorem newton_pass {gmres : Gmres n} (hg : ResidualGmres gmres) {f : Vec n → Vec n} {J : Vec n → Mat n} {l : ℝ} (hm : Monotone f J l) {h : ℝ} (hh : 0 ≤ h)
    (y x g a : Vec n) (op : LinOp n) (hop : IsMatrix op (1 - h • J x)) {η : ℝ} (h0 : 0 < η) {itersLin : ℕ}
    (ha : gmres op (x - y - h • f x) g itersLin η = .ok a) :
    norm2 (x - a - y - h • f (x - a)) ≤ (η + h * l * (1 + η)) * norm2 (x - y - h • f x) ∧ norm2 a ≤ (1 + η) * norm2 (x - y - h • f x) := by
  have hr := hg.residual _ _ hop _ _ _ _ _ h0 ha
  obtain ⟨G, hG⟩ : ∃ G, G = x - y - h • f x := ⟨_, rfl⟩
  rw [← hG] at hr ⊢
  have b1 := (resolvent_bounds (hm.diss x) hh a).1
  have b2 : norm2 ((1 - h • J x) *ᵥ a) ≤ norm2 ((1 - h • J x) *ᵥ a - G) + norm2 G := by
    have := norm2_add_le ((1 - h • J x) *ᵥ a - G) G
    rwa [sub_add_cancel] at this
  have b3 : norm2 a ≤ (1 + η) * norm2 G := by linarith
  refine ⟨?_, b3⟩
  have e : x - a - y - h • f (x - a) = -((1 - h • J x) *ᵥ a - G) - h • (f (x - a) - f x - J x *ᵥ (x - a - x)) := by
    rw [hG, sub_mulVec, one_mulVec, smul_mulVec, show x - a - x = -a by abel, mulVec_neg]
    module
  rw [e]
  have c1 := norm2_sub_le (-((1 - h • J x) *ᵥ a - G)) (h • (f (x - a) - f x - J x *ᵥ (x - a - x)))
  rw [norm2_neg, norm2_smul, abs_of_nonneg hh] at c1
  have c2 := hm.missed (x - a) x
  rw [show norm2 (x - a - x) = norm2 a by rw [show x - a - x = -a by abel, norm2_neg]] at c2
  have c3 := mul_le_mul_of_nonneg_left (c2.trans (mul_le_mul_of_nonneg_left b3 hm.nonneg)) hh
  linarith

/-- Newton's method returns a state whose residual is at most `q` times that of the guess -/
theorem newton_monotone {gmres : Gmres n} (hg : ResidualGmres gmres) {f : Vec n → Vec n} {J : Vec n → Mat n} {l : ℝ} (hm : Monotone f J l) {h : ℝ} (hh : 0 ≤ h)
    (t : ℝ) (y : Vec n) (frhs : ℝ → Vec n → Vec n) (jac : ℝ → Vec n → LinOp n) (hf : ∀ x, frhs t x = x - y - h • f x)
    (hj : ∀ x, IsMatrix (jac t x) (1 - h • J x)) (tol : ℝ) {η q : ℝ} (h0 : 0 < η) (hq : q = η + h * l * (1 + η)) (hq1 : q ≤ 1) {itersLin : ℕ}
    (hn : n ≤ itersLin) (it : ℕ) : ∀ (x a : Vec n), q ^ it * ((1 + η) * norm2 (x - y - h • f x)) < tol →
    ∃ x', newtonLoop gmres t frhs jac tol η itersLin (it + 1) x a = .ok x' ∧ norm2 (x' - y - h • f x') ≤ q * norm2 (x - y - h • f x) := by
  have hq0 : 0 ≤ q := by rw [hq]; have := hm.nonneg; positivity
  induction it with
  | zero =>
    intro x a hx
    obtain ⟨a', ha⟩ := hg.returns _ _ (hj x) (dissipative_unit (hm.diss x) hh) (frhs t x) a itersLin η h0 hn
    obtain ⟨p1, p2⟩ := newton_pass hg hm hh y x a a' _ (hj x) h0 (by rw [← hf]; exact ha)
    rw [← hq] at p1
    rw [newtonLoop]
    simp only [Bind.bind, Except.bind, ha]
    have e1 : norm2 x ≤ norm2 (x - a') + norm2 a' := by
      have := norm2_add_le (x - a') a'
      rwa [sub_add_cancel] at this
    rw [if_pos (by rw [pow_zero, one_mul] at hx; linarith)]
    exact ⟨_, rfl, p1⟩
  | succ it ih =>
    intro x a hx
    obtain ⟨a', ha⟩ := hg.returns _ _ (hj x) (dissipative_unit (hm.diss x) hh) (frhs t x) a itersLin η h0 hn
    obtain ⟨p1, p2⟩ := newton_pass hg hm hh y x a a' _ (hj x) h0 (by rw [← hf]; exact ha)
    rw [← hq] at p1
    rw [newtonLoop]
    simp only [Bind.bind, Except.bind, ha]
    split_ifs with hc
    · exact ⟨_, rfl, p1⟩
    · obtain ⟨x', e1, e2⟩ := ih (x - a') a' (lt_of_le_of_lt (by
        have := mul_le_mul_of_nonneg_left (mul_le_mul_of_nonneg_left p1 (by linarith : (0 : ℝ) ≤ 1 + η)) (pow_nonneg hq0 it)
        refine this.trans (le_of_eq ?_)
        rw [pow_succ]; ring) hx)
      refine ⟨x', e1, e2.trans ?_⟩
      exact (mul_le_of_le_one_left (norm2_nonneg _) hq1).trans p1

/-- two states that satisfy the equation of the implicit step up to residuals -/
theorem implicit_stable {f : Vec n → Vec n} (hm : ∀ x y, (x - y) ⬝ᵥ (f x - f y) ≤ 0) {h : ℝ} (hh : 0 ≤ h) (x y a b : Vec n) :
    norm2 (x - y) ≤ norm2 (a - b) + norm2 (x - a - h • f x) + norm2 (y - b - h • f y) := by
  obtain ⟨w, hw⟩ : ∃ w, w = (a - b) + (x - a - h • f x) - (y - b - h • f y) := ⟨_, rfl⟩
  have e : x - y = w + h • (f x - f y) := by rw [hw]; module
  have h1 : (x - y) ⬝ᵥ (x - y) ≤ (x - y) ⬝ᵥ w := by
    have : (x - y) ⬝ᵥ (x - y) = (x - y) ⬝ᵥ w + h * ((x - y) ⬝ᵥ (f x - f y)) := by
      conv_lhs => rw [e, dotProduct_add, dotProduct_smul, smul_eq_mul, ← e]
    have := mul_nonpos_of_nonneg_of_nonpos hh (hm x y)
    linarith
  have h2 : norm2 (x - y) ≤ norm2 w := by
    have h3 := h1.trans (dot_le_norm2 _ _)
    rw [← norm2_sq] at h3
    rcases (norm2_nonneg (x - y)).eq_or_lt with h4 | h4
    · rw [← h4]; exact norm2_nonneg _
    · exact le_of_mul_le_mul_left h3 h4
  have h3 := norm2_sub_le ((a - b) + (x - a - h • f x)) (y - b - h • f y)
  have h4 := norm2_add_le (a - b) (x - a - h • f x)
  rw [← hw] at h3
  linarith

/-- the right-hand side grows along the steps only through the residuals -/
theorem implicit_speed {f : Vec n → Vec n} (hm : ∀ x y, (x - y) ⬝ᵥ (f x - f y) ≤ 0) {h : ℝ} (hh : 0 < h) (x y : Vec n) {q : ℝ} (hq : 0 ≤ q)
    (hr : norm2 (x - y - h • f x) ≤ q * (h * norm2 (f y))) : norm2 (f x) ≤ (1 + 2 * q) * norm2 (f y) := by
  obtain ⟨r, hr'⟩ : ∃ r, r = x - y - h • f x := ⟨_, rfl⟩
  rw [← hr'] at hr
  have e : x - y = h • f x + r := by rw [hr']; abel
  have h1 := hm x y
  rw [e, add_dotProduct, smul_dotProduct, smul_eq_mul, dotProduct_sub (f x)] at h1
  have h2 : -(r ⬝ᵥ (f x - f y)) ≤ norm2 r * (norm2 (f x) + norm2 (f y)) := by
    have := dot_le_norm2 (-r) (f x - f y)
    rw [neg_dotProduct, norm2_neg] at this
    exact this.trans (mul_le_mul_of_nonneg_left (norm2_sub_le _ _) (norm2_nonneg _))
  have h3 := dot_le_norm2 (f x) (f y)
  rw [← norm2_sq] at h1
  obtain ⟨X, hX⟩ : ∃ X, X = norm2 (f x) := ⟨_, rfl⟩
  obtain ⟨Z, hZ⟩ : ∃ Z, Z = norm2 (f y) := ⟨_, rfl⟩
  have hX0 : 0 ≤ X := by rw [hX]; exact norm2_nonneg _
  have hZ0 : 0 ≤ Z := by rw [hZ]; exact norm2_nonneg _
  rw [← hX, ← hZ] at h2 h3
  rw [← hZ] at hr
  rw [← hX] at h1
  rw [← hX, ← hZ]
  have h4 : norm2 r * (X + Z) ≤ q * (h * Z) * (X + Z) := mul_le_mul_of_nonneg_right hr (by positivity)
  have h5 : h * (X * X) ≤ h * (X * Z + q * Z * (X + Z)) := by
    have := mul_le_mul_of_nonneg_left h3 hh.le
    linarith
  have h6 := le_of_mul_le_mul_left h5 hh
  by_contra hc
  push Not at hc
  have h7 : 0 ≤ q * Z := mul_nonneg hq hZ0
  have h8 : 2 * (q * Z) < X - Z := by linarith
  have h9 : X * (X - Z) ≤ q * Z * (X + Z) := by linarith
  have h10 : Z < X := by linarith
  have h11 : X * (2 * (q * Z)) ≤ X * (X - Z) := mul_le_mul_of_nonneg_left h8.le hX0
  have h12 : q * Z * (X + Z) ≤ q * Z * (2 * X) := mul_le_mul_of_nonneg_left (by linarith) h7
  have h13 : X * (2 * (q * Z)) < X * (X - Z) := mul_lt_mul_of_pos_left h8 (by linarith)
  linarith

/-- one step of the method -/
theorem monotone_step {gmres : Gmres n} (hg : ResidualGmres gmres) (hn : n ≤ 1000) {sys : Sys n} {f : Vec n → Vec n} {J : Vec n → Mat n} (hs : AutSys sys f J)
    {l : ℝ} (hm : Monotone f J l) (s : Bdf n) (hso : s.order = 1) (y : Vec n) (L : List (Vec n)) (hy : s.yHist = y :: L) {dt : ℝ} (hdt : 0 ≤ dt) {q : ℝ}
    (hq : q = 1e-8 + dt * l * (1 + 1e-8)) (hq2 : q ≤ 1 / 2) (hbig : dt * norm2 (f y) ≤ 1e20) :
    ∃ x, Bdf.step gmres sys s dt = .ok ⟨s.t + dt, dt, x, none⟩ ∧ norm2 (x - y - dt • f x) ≤ q * (dt * norm2 (f y)) := by
  have hl := hm.nonneg
  have hq0 : 0 ≤ q := by rw [hq]; positivity
  have hres : norm2 (y - y - dt • f y) = dt * norm2 (f y) := by rw [sub_self, zero_sub, norm2_neg, norm2_smul, abs_of_nonneg hdt]
  obtain ⟨x, h1, h2⟩ := newton_monotone hg hm hdt (s.t + dt) y (fun t x => -(dt • sys.frhs (t + dt) x) - y + x)
    (fun t x => sys.fjacShifted (t + dt) x (-dt) (some 1)) (fun x => by simp only [hs.frhs]; abel) (fun x v => by
      simp only [Sys.fjacShifted, shiftedLinOp, LinOp.call]
      rw [hs.fjac (s.t + dt + dt) x v, sub_mulVec, one_mulVec, smul_mulVec, one_smul, neg_smul]
      abel) 1e-6 (η := 1e-8) (by norm_num) hq (by linarith) hn 99 y 0 (by
    rw [hres]
    have hp0 : 0 ≤ dt * norm2 (f y) := mul_nonneg hdt (norm2_nonneg _)
    calc q ^ 99 * ((1 + 1e-8) * (dt * norm2 (f y))) ≤ (1 / 2 : ℝ) ^ 99 * ((1 + 1e-8) * 1e20) := by gcongr
      _ < 1e-6 := by norm_num)
  rw [hres] at h2
  refine ⟨x, ?_, h2⟩
  rw [bdf_step_1 gmres sys s dt hso]
  unfold Bdf.stepOrder1
  rw [hy]
  simp only [show rsGet (y :: L) 0 = .ok y from rfl, Bind.bind, Except.bind]
  have h3 : jacNewton gmres (s.t + dt) y (fun t x => -(dt • sys.frhs (t + dt) x) - y + x)
    (fun t x => sys.fjacShifted (t + dt) x (-dt) (some 1)) 1e-6 1e-8 100 1000 = .ok x := h1
  rw [h3]
  rfl

/-- the calls return, and their states satisfy the implicit formula up to the stated residual -/
theorem monotone_run {gmres : Gmres n} (hg : ResidualGmres gmres) (hn : n ≤ 1000) (split : ℕ → Option (Split ℕ)) {sys : Sys n} {f : Vec n → Vec n}
    {J : Vec n → Mat n} (hs : AutSys sys f J) {l : ℝ} (hm : Monotone f J l) (y0 : Vec n) (t0 dt : ℝ) (hdt : 0 < dt) (N : ℕ) (kd : Kwds) (o : RunOpts)
    (hp : parseOpts kd = .ok o) (ho : 0 < o.osteps) (hmeth : o.method = "bdf1" ∨ o.method = "backeuler") {q : ℝ}
    (hq : q = 1e-8 + dt * l * (1 + 1e-8)) (hq2 : q ≤ 1 / 2) (hbig : dt * ((1 + 2 * q) ^ N * norm2 (f y0)) ≤ 1e20) :
    ∃ u : ℕ → Vec n, u 0 = y0 ∧
      integrateWrapperRs gmres split sys y0 t0 dt N kd =
        .ok ((outputSteps o.osteps N).map u, (outputSteps o.osteps N).map fun i : ℕ => t0 + i * dt) ∧
      ∀ k < N, norm2 (u (k + 1) - u k - dt • f (u (k + 1))) ≤ q * (dt * ((1 + 2 * q) ^ k * norm2 (f y0))) := by
  have hl := hm.nonneg
  have hq0 : 0 ≤ q := by rw [hq]; positivity
  obtain ⟨u, hu0, hus⟩ : ∃ u : ℕ → Vec n, u 0 = y0 ∧ ∀ k, u (k + 1) = match Bdf.step gmres sys ⟨1, t0 + k * dt, [u k]⟩ dt with
      | .ok r => r.y
      | .error _ => 0 :=
    ⟨fun k => Nat.rec y0 (fun k y => match Bdf.step gmres sys ⟨1, t0 + k * dt, [y]⟩ dt with
      | .ok r => r.y
      | .error _ => 0) k, rfl, fun _ => rfl⟩
  have hkey : ∀ k, dt * norm2 (f (u k)) ≤ 1e20 → ∀ (s : Bdf n) (L : List (Vec n)), s.order = 1 → s.t = t0 + k * dt → s.yHist = u k :: L →
      Bdf.step gmres sys s dt = .ok ⟨s.t + dt, dt, u (k + 1), none⟩ ∧
      norm2 (u (k + 1) - u k - dt • f (u (k + 1))) ≤ q * (dt * norm2 (f (u k))) := by
    intro k hk s L h1 h2 h3
    have hsame : Bdf.step gmres sys s dt = Bdf.step gmres sys ⟨1, t0 + k * dt, [u k]⟩ dt := by
      rw [bdf_step_1 gmres sys s dt h1, bdf_step_1 gmres sys _ dt rfl]
      unfold Bdf.stepOrder1
      rw [h2, h3]
      rfl
    obtain ⟨x, e1, e2⟩ := monotone_step hg hn hs hm s h1 (u k) L h3 hdt.le hq hq2 hk
    have hx : u (k + 1) = x := by rw [hus, ← hsame, e1]
    rw [hx]
    exact ⟨e1, e2⟩
  have hb : ∀ k ≤ N, norm2 (f (u k)) ≤ (1 + 2 * q) ^ k * norm2 (f y0) → dt * norm2 (f (u k)) ≤ 1e20 := by
    intro k hk h
    refine (mul_le_mul_of_nonneg_left (h.trans ?_) hdt.le).trans hbig
    exact mul_le_mul_of_nonneg_right (pow_le_pow_right₀ (by linarith) hk) (norm2_nonneg _)
  have hsp : ∀ k ≤ N, norm2 (f (u k)) ≤ (1 + 2 * q) ^ k * norm2 (f y0) := by
    intro k
    induction k with
    | zero => intro _; rw [hu0, pow_zero, one_mul]
    | succ k ih =>
      intro hk
      have i1 := ih (by omega)
      have i2 := (hkey k (hb k (by omega) i1) ⟨1, t0 + k * dt, [u k]⟩ [] rfl rfl rfl).2
      refine (implicit_speed hm.mono hdt _ _ hq0 i2).trans ?_
      rw [pow_succ, mul_comm _ (1 + 2 * q), mul_assoc]
      exact mul_le_mul_of_nonneg_left i1 (by linarith)
  refine ⟨u, hu0, ?_, fun k hk => ?_⟩
  · have h := bdf_follow gmres sys 1 t0 dt u N o.osteps ho (by
      intro s k L hk g1 g2 g3 _ _
      exact (hkey k (hb k hk.le (hsp k hk.le)) s L g1 g2 g3).1)
    rw [hu0] at h
    exact wrap_bdf gmres split sys y0 t0 dt N kd o 1 _ hp (by unfold selectSolver; rw [if_pos hmeth]) h
  · refine ((hkey k (hb k hk.le (hsp k hk.le)) ⟨1, t0 + k * dt, [u k]⟩ [] rfl rfl rfl).2).trans ?_
    exact mul_le_mul_of_nonneg_left (mul_le_mul_of_nonneg_left (hsp k hk.le) hdt.le) hq0

/-- a slow solution satisfies the equation of the implicit step up to second order -/
theorem slow_defect {f : Vec n → Vec n} {Y : ℝ → Vec n} {t0 M : ℝ} (hY : SlowSolution f Y t0 M) {t h : ℝ} (ht : t0 ≤ t) (hh : 0 ≤ h) :
    norm2 (Y (t + h) - Y t - h • f (Y (t + h))) ≤ M / 2 * h ^ 2 := by
  have hz : Dissipative (0 : Mat n) := fun v => by rw [zero_mulVec, dotProduct_zero]
  have key := duhamel_norm hz (D := fun s => Y (t + h) - Y (t + h - s) - s • f (Y (t + h)))
    (r := fun s => f (Y (t + h - s)) - f (Y (t + h))) (fun s => by
      have h1 := HasDerivAt.scomp s (hY.sol (t + h - s)) ((hasDerivAt_id s).const_sub (t + h))
      have h2 := (h1.const_sub (Y (t + h))).sub ((hasDerivAt_id s).smul_const (f (Y (t + h))))
      refine h2.congr_deriv ?_
      rw [zero_mulVec]
      module) M 1 hh (fun s hs hsh => by
      have := hY.rate (t + h - s) s (by linarith) hs
      rw [sub_add_cancel] at this
      rw [pow_one, ← norm2_neg, neg_sub]
      exact this)
  have e0 : t + h - h = t := by ring
  simp only [sub_zero, zero_smul, sub_self, norm2_zero, e0, zero_add] at key
  refine key.trans (le_of_eq ?_)
  norm_num
  ring

/-- **C137 (error).** On a nonlinear autonomous system of any stiffness whose solutions do not move apart, `bdf1` and `backeuler` through the binding, with a
linear solver known only by its residual contract, differ from a slow solution at `t0 + k dt` by at most `k dt (M/2 dt + q (1 + 2q)^k |f(y0)|)`,
`q = 1e-8 + dt l (1 + 1e-8)`: no norm of the Jacobian and no Lipschitz constant of `f` enters. -/
theorem C137_error {gmres : Gmres n} (hg : ResidualGmres gmres) (hn : n ≤ 1000) (split : ℕ → Option (Split ℕ)) {sys : Sys n} {f : Vec n → Vec n}
    {J : Vec n → Mat n} (hs : AutSys sys f J) {l : ℝ} (hm : Monotone f J l) {Y : ℝ → Vec n} {t0 M : ℝ} (hY : SlowSolution f Y t0 M) (dt : ℝ) (hdt : 0 < dt)
    (N : ℕ) (kd : Kwds) (o : RunOpts) (hp : parseOpts kd = .ok o) (ho : 0 < o.osteps) (hmeth : o.method = "bdf1" ∨ o.method = "backeuler") {q : ℝ}
    (hq : q = 1e-8 + dt * l * (1 + 1e-8)) (hq2 : q ≤ 1 / 2) (hbig : dt * ((1 + 2 * q) ^ N * norm2 (f (Y t0))) ≤ 1e20) :
    ∃ u : ℕ → Vec n, u 0 = Y t0 ∧
      integrateWrapperRs gmres split sys (Y t0) t0 dt N kd =
        .ok ((outputSteps o.osteps N).map u, (outputSteps o.osteps N).map fun i : ℕ => t0 + i * dt) ∧
      ∀ k ≤ N, norm2 (u k - Y (t0 + k * dt)) ≤ k * dt * (M / 2 * dt + q * ((1 + 2 * q) ^ k * norm2 (f (Y t0)))) := by
  obtain ⟨u, u0, u1, u2⟩ := monotone_run hg hn split hs hm (Y t0) t0 dt hdt N kd o hp ho hmeth hq hq2 hbig
  have hl := hm.nonneg
  have hq0 : 0 ≤ q := by rw [hq]; positivity
  refine ⟨u, u0, u1, fun k => ?_⟩
  induction k with
  | zero => intro _; rw [u0]; simp [norm2_zero]
  | succ k ih =>
    intro hk
    have i1 := ih (by omega)
    have e : t0 + ((k + 1 : ℕ) : ℝ) * dt = t0 + k * dt + dt := by push_cast; ring
    have i2 := implicit_stable hm.mono hdt.le (u (k + 1)) (Y (t0 + k * dt + dt)) (u k) (Y (t0 + k * dt))
    have i3 := u2 k (by omega)
    have i4 := slow_defect hY (t := t0 + k * dt) (h := dt) (by have : (0 : ℝ) ≤ k * dt := by positivity
                                                               linarith) hdt.le
    rw [e]
    obtain ⟨P, hP⟩ : ∃ P, P = (1 + 2 * q) ^ k * norm2 (f (Y t0)) := ⟨_, rfl⟩
    have hP0 : 0 ≤ P := by rw [hP]; exact mul_nonneg (by positivity) (norm2_nonneg _)
    have hP1 : P ≤ (1 + 2 * q) ^ (k + 1) * norm2 (f (Y t0)) := by
      rw [hP]
      exact mul_le_mul_of_nonneg_right (pow_le_pow_right₀ (by linarith) (by omega)) (norm2_nonneg _)
    rw [← hP] at i1 i3
    have i5 : ((k + 1 : ℕ) : ℝ) * dt * (M / 2 * dt + q * P) ≤ ((k + 1 : ℕ) : ℝ) * dt * (M / 2 * dt + q * ((1 + 2 * q) ^ (k + 1) * norm2 (f (Y t0)))) := by
      gcongr
    refine le_trans ?_ i5
    push_cast
    linarith

/-- **C137 (two runs).** Two such calls, each with its own linear solver, never separate by more than their starts and the residuals of the Newton
iterations. -/
theorem C137_contractive {gmres gmres' : Gmres n} (hg : ResidualGmres gmres) (hg' : ResidualGmres gmres') (hn : n ≤ 1000)
    (split : ℕ → Option (Split ℕ)) {sys : Sys n} {f : Vec n → Vec n} {J : Vec n → Mat n} (hs : AutSys sys f J) {l : ℝ} (hm : Monotone f J l) (y0 z0 : Vec n)
    (t0 dt : ℝ) (hdt : 0 < dt) (N : ℕ) (kd : Kwds) (o : RunOpts) (hp : parseOpts kd = .ok o) (ho : 0 < o.osteps)
    (hmeth : o.method = "bdf1" ∨ o.method = "backeuler") {q : ℝ} (hq : q = 1e-8 + dt * l * (1 + 1e-8)) (hq2 : q ≤ 1 / 2)
    (hbig : dt * ((1 + 2 * q) ^ N * norm2 (f y0)) ≤ 1e20) (hbig' : dt * ((1 + 2 * q) ^ N * norm2 (f z0)) ≤ 1e20) :
    ∃ u v : ℕ → Vec n, u 0 = y0 ∧ v 0 = z0 ∧
      integrateWrapperRs gmres split sys y0 t0 dt N kd =
        .ok ((outputSteps o.osteps N).map u, (outputSteps o.osteps N).map fun i : ℕ => t0 + i * dt) ∧
      integrateWrapperRs gmres' split sys z0 t0 dt N kd =
        .ok ((outputSteps o.osteps N).map v, (outputSteps o.osteps N).map fun i : ℕ => t0 + i * dt) ∧
      ∀ k ≤ N, norm2 (u k - v k) ≤ norm2 (y0 - z0) + k * dt * (q * ((1 + 2 * q) ^ k * (norm2 (f y0) + norm2 (f z0)))) := by
  obtain ⟨u, u0, u1, u2⟩ := monotone_run hg hn split hs hm y0 t0 dt hdt N kd o hp ho hmeth hq hq2 hbig
  obtain ⟨v, v0, v1, v2⟩ := monotone_run hg' hn split hs hm z0 t0 dt hdt N kd o hp ho hmeth hq hq2 hbig'
  have hl := hm.nonneg
  have hq0 : 0 ≤ q := by rw [hq]; positivity
  refine ⟨u, v, u0, v0, u1, v1, fun k => ?_⟩
  induction k with
  | zero => intro _; rw [u0, v0]; simp
  | succ k ih =>
    intro hk
    have i1 := ih (by omega)
    have i2 := implicit_stable hm.mono hdt.le (u (k + 1)) (v (k + 1)) (u k) (v k)
    have i3 := u2 k (by omega)
    have i4 := v2 k (by omega)
    obtain ⟨S, hS⟩ : ∃ S, S = norm2 (f y0) + norm2 (f z0) := ⟨_, rfl⟩
    have hS0 : 0 ≤ S := by rw [hS]; exact add_nonneg (norm2_nonneg _) (norm2_nonneg _)
    obtain ⟨P, hP⟩ : ∃ P, P = (1 + 2 * q) ^ k := ⟨_, rfl⟩
    have hP0 : 0 ≤ P := by rw [hP]; positivity
    have hP1 : P ≤ (1 + 2 * q) ^ (k + 1) := by rw [hP]; exact pow_le_pow_right₀ (by linarith) (by omega)
    rw [← hP] at i1 i3 i4
    rw [← hS] at i1 ⊢
    have i6 : q * (dt * (P * norm2 (f y0))) + q * (dt * (P * norm2 (f z0))) = q * (dt * (P * S)) := by rw [hS]; ring
    have i5 : ((k + 1 : ℕ) : ℝ) * dt * (q * (P * S)) ≤ ((k + 1 : ℕ) : ℝ) * dt * (q * ((1 + 2 * q) ^ (k + 1) * S)) := by
      gcongr
    refine le_trans ?_ (add_le_add_right i5 _)
    push_cast
    linarith

/-- an example with a fast and a slow nonlinear component -/
noncomputable def tanhRhs (y : Vec 2) : Vec 2 := ![-Real.tanh (y 0), -1000000 * (y 1 - 1)]

noncomputable def tanhJac (y : Vec 2) : Mat 2 := !![-(1 / Real.cosh (y 0) ^ 2), 0; 0, -1000000]

noncomputable def tanhSol (t : ℝ) : Vec 2 := ![Real.arsinh (Real.exp (-t)), 1]

theorem tanh_deriv (x : ℝ) : HasDerivAt Real.tanh (1 / Real.cosh x ^ 2) x := by
  have h := (Real.hasDerivAt_sinh x).div (Real.hasDerivAt_cosh x) (Real.cosh_pos x).ne'
  have e : Real.tanh = Real.sinh / Real.cosh := by funext y; exact Real.tanh_eq_sinh_div_cosh y
  rw [e]
  refine h.congr_deriv ?_
  rw [show Real.cosh x * Real.cosh x - Real.sinh x * Real.sinh x = 1 by have := Real.cosh_sq x; nlinarith]

theorem sech_bounds (x : ℝ) : 0 ≤ 1 / Real.cosh x ^ 2 ∧ 1 / Real.cosh x ^ 2 ≤ 1 := by
  refine ⟨by positivity, ?_⟩
  rw [div_le_one (by have := Real.cosh_pos x; positivity)]
  have := Real.one_le_cosh x
  nlinarith

theorem tanh_slopes {x y : ℝ} (h : y ≤ x) : 0 ≤ Real.tanh x - Real.tanh y ∧ Real.tanh x - Real.tanh y ≤ x - y := by
  have m1 : _root_.Monotone Real.tanh := monotone_of_deriv_nonneg (fun z => (tanh_deriv z).differentiableAt) fun z => by
    rw [(tanh_deriv z).deriv]; exact (sech_bounds z).1
  have m2 : _root_.Monotone fun z => z - Real.tanh z := monotone_of_deriv_nonneg (fun z => ((hasDerivAt_id z).sub (tanh_deriv z)).differentiableAt) fun z => by
    have : HasDerivAt (fun z => z - Real.tanh z) (1 - 1 / Real.cosh z ^ 2) z := (hasDerivAt_id z).sub (tanh_deriv z)
    rw [this.deriv]
    linarith [(sech_bounds z).2]
  have h1 := m1 h
  have h2 := m2 h
  simp only at h2
  exact ⟨by linarith, by linarith⟩

theorem tanh_monotone : Rs.Monotone tanhRhs tanhJac 1 := by
  refine Rs.Monotone.mk zero_le_one ?_ ?_ ?_
  · intro x y
    simp only [tanhRhs, dotProduct, Fin.sum_univ_two, Pi.sub_apply, cons_val_zero, cons_val_one]
    have h1 : 0 ≤ (x 0 - y 0) * (Real.tanh (x 0) - Real.tanh (y 0)) := by
      rcases le_total (y 0) (x 0) with h | h
      · exact mul_nonneg (by linarith) (tanh_slopes h).1
      · exact mul_nonneg_of_nonpos_of_nonpos (by linarith) (by linarith [(tanh_slopes h).1])
    have h2 := mul_self_nonneg (x 1 - y 1)
    linarith
  · intro y v
    simp [tanhJac, mulVec, dotProduct, Fin.sum_univ_two]
    have h1 := mul_nonneg (sech_bounds (y 0)).1 (mul_self_nonneg (v 0))
    have h2 := mul_self_nonneg (v 1)
    rw [one_div] at h1
    linarith
  · intro x y
    rw [one_mul]
    refine Real.sqrt_le_sqrt (Finset.sum_le_sum fun i _ => ?_)
    refine abs_le_iff_mul_self_le.1 ?_
    fin_cases i
    · simp [tanhRhs, tanhJac, dotProduct, Fin.sum_univ_two]
      have hs := sech_bounds (y 0)
      rw [one_div] at hs
      rcases le_total (y 0) (x 0) with h | h
      · obtain ⟨a, b⟩ := tanh_slopes h
        have h1 := mul_nonneg hs.1 (sub_nonneg.2 h)
        have h2 := mul_le_mul_of_nonneg_right hs.2 (sub_nonneg.2 h)
        rw [abs_of_nonneg (sub_nonneg.2 h), abs_le]
        constructor <;> linarith
      · obtain ⟨a, b⟩ := tanh_slopes h
        have h1 := mul_nonneg hs.1 (sub_nonneg.2 h)
        have h2 := mul_le_mul_of_nonneg_right hs.2 (sub_nonneg.2 h)
        rw [abs_of_nonpos (sub_nonpos.2 h), abs_le]
        constructor <;> linarith
    · simp [tanhRhs, tanhJac, dotProduct, Fin.sum_univ_two]
      rw [show -(1000000 * (x 1 - 1)) + 1000000 * (y 1 - 1) + 1000000 * (x 1 - y 1) = 0 by ring, abs_zero]
      exact abs_nonneg _

theorem tanh_solution : SlowSolution tanhRhs tanhSol 0 1 := by
  have hd : ∀ s : ℝ, HasDerivAt (fun t => Real.arsinh (Real.exp (-t))) (-Real.tanh (Real.arsinh (Real.exp (-s)))) s := fun s => by
    have h1 : HasDerivAt (fun t : ℝ => Real.exp (-t)) (Real.exp (-s) * -1) s := (hasDerivAt_neg s).exp
    refine ((Real.hasDerivAt_arsinh (Real.exp (-s))).comp s h1).congr_deriv ?_
    rw [Real.tanh_arsinh]
    ring
  have hpos : ∀ s : ℝ, 0 ≤ Real.tanh (Real.arsinh (Real.exp (-s))) ∧ Real.tanh (Real.arsinh (Real.exp (-s))) ≤ 1 := fun s => by
    rw [Real.tanh_arsinh]
    have h2 := Real.exp_pos (-s)
    refine ⟨by positivity, ?_⟩
    rw [div_le_one (by positivity)]
    exact Real.le_sqrt_of_sq_le (by linarith)
  refine SlowSolution.mk ?_ ?_
  · intro s
    rw [hasDerivAt_pi]
    intro i
    fin_cases i
    · exact hd s
    · simpa [tanhRhs, tanhSol] using hasDerivAt_const s (1 : ℝ)
  · intro t s _ hs
    have m1 : Antitone fun t => Real.arsinh (Real.exp (-t)) := antitone_of_deriv_nonpos (fun z => (hd z).differentiableAt) fun z => by
      rw [(hd z).deriv]; linarith [(hpos z).1]
    have m2 : _root_.Monotone fun t => t + Real.arsinh (Real.exp (-t)) :=
      monotone_of_deriv_nonneg (fun z => ((hasDerivAt_id z).add (hd z)).differentiableAt) fun z => by
        have : HasDerivAt (fun t : ℝ => t + Real.arsinh (Real.exp (-t))) (1 + -Real.tanh (Real.arsinh (Real.exp (-z)))) z := (hasDerivAt_id z).add (hd z)
        rw [this.deriv]; linarith [(hpos z).2]
    have h1 := m1 (show t ≤ t + s by linarith)
    have h2 := m2 (show t ≤ t + s by linarith)
    simp only at h1 h2
    obtain ⟨a, b⟩ := tanh_slopes h1
    have e : tanhRhs (tanhSol (t + s)) - tanhRhs (tanhSol t) =
        ![Real.tanh (Real.arsinh (Real.exp (-t))) - Real.tanh (Real.arsinh (Real.exp (-(t + s)))), 0] := by
      funext i
      fin_cases i
      · simp [tanhRhs, tanhSol]; ring
      · simp [tanhRhs, tanhSol]
    rw [e]
    unfold norm2
    rw [Real.sqrt_le_left (by positivity)]
    simp only [dotProduct, Fin.sum_univ_two, cons_val_zero, cons_val_one, mul_zero, add_zero]
    have h3 : Real.tanh (Real.arsinh (Real.exp (-t))) - Real.tanh (Real.arsinh (Real.exp (-(t + s)))) ≤ 1 * s := by linarith
    rw [← sq]
    exact pow_le_pow_left₀ a h3 2

/-- the hypotheses are met: a hundred steps of size `1/1000` of the stiff system `y0' = -tanh y0`, `y1' = -10^6 (y1 - 1)` -/
example : ∃ u : ℕ → Vec 2, u 0 = tanhSol 0 ∧
    integrateWrapperRs (sloppyGmres 2) (fun _ => none) (autSys tanhRhs tanhJac) (tanhSol 0) 0 (1 / 1000) 100
      (fun k => if k = "method" then some (.str "backeuler") else none) =
      .ok ((outputSteps 1 100).map u, (outputSteps 1 100).map fun i : ℕ => 0 + i * (1 / 1000)) ∧
    ∀ k ≤ 100, norm2 (u k - tanhSol (0 + k * (1 / 1000))) ≤ k * (1 / 1000) * (1 / 2 * (1 / 1000) +
      (1e-8 + 1 / 1000 * 1 * (1 + 1e-8)) * ((1 + 2 * (1e-8 + 1 / 1000 * 1 * (1 + 1e-8))) ^ k * norm2 (tanhRhs (tanhSol 0)))) := by
  refine C137_error (sloppy_residual 2) (by norm_num) (fun _ => none) (autSys_aut _ _) tanh_monotone tanh_solution (1 / 1000) (by norm_num) 100 _
    (RunOpts.mk "backeuler" "pade" 100 2 1e-8 1e-8 1)
    (by simp [parseOpts, getValOrDefault, PyVal.asString, bind, Except.bind, pure, Except.pure]) one_pos (Or.inr rfl) rfl (by norm_num) ?_
  have h1 : norm2 (tanhRhs (tanhSol 0)) ≤ 1 := by
    unfold norm2
    rw [Real.sqrt_le_left (by norm_num)]
    simp [tanhRhs, tanhSol, dotProduct, Fin.sum_univ_two, Real.tanh_arsinh]
    norm_num
    rw [← mul_inv, Real.mul_self_sqrt (by norm_num)]
    norm_num
  have h2 : ((1 : ℝ) + 2 * (1e-8 + 1 / 1000 * 1 * (1 + 1e-8))) ^ 100 ≤ 2 ^ 60 := by norm_num
  have h3 := mul_le_mul h2 h1 (norm2_nonneg _) (by positivity)
  calc (1 / 1000 : ℝ) * _ ≤ 1 / 1000 * (2 ^ 60 * 1) := mul_le_mul_of_nonneg_left h3 (by norm_num)
    _ ≤ 1e20 := by norm_num

end
end Ormatex.Props
