import Verif.Props.RsMonotone

/-!
C138: `bdf2` of the crate on nonlinear dissipative systems of any stiffness, with inexact Newton steps.
-/

namespace Ormatex.Props
open Matrix Ormatex.Spec Ormatex.Rs

section
variable {n : ℕ}

/-- the two-step formula up to a residual: the speed does not grow but through the residuals -/
theorem bdf2_speed {f : Vec n → Vec n} (hm : ∀ x y, (x - y) ⬝ᵥ (f x - f y) ≤ 0) {h : ℝ} (hh : 0 < h) (w y x : Vec n) {q F : ℝ} (hq : 0 ≤ q) (hF : 0 ≤ F)
    (hy : norm2 (f y) ≤ (1 + 2 * q) * F) (hr1 : norm2 (y - w - h • f y) ≤ q * (h * F))
    (hr2 : norm2 (x - ((4 / 3 : ℝ) • y - (1 / 3 : ℝ) • w) - (2 / 3 * h) • f x) ≤ q * (h * ((1 + 3 * q) * F))) (hq2 : q ≤ 1 / 2) :
    norm2 (f x) ≤ (1 + 6 * q) * ((1 + 2 * q) * F) := by
  obtain ⟨r1, e1⟩ : ∃ r1, r1 = y - w - h • f y := ⟨_, rfl⟩
  obtain ⟨r2, e2⟩ : ∃ r2, r2 = x - ((4 / 3 : ℝ) • y - (1 / 3 : ℝ) • w) - (2 / 3 * h) • f x := ⟨_, rfl⟩
  obtain ⟨ρ, e3⟩ : ∃ ρ, ρ = (1 / 3 : ℝ) • r1 + r2 := ⟨_, rfl⟩
  rw [← e1] at hr1
  rw [← e2] at hr2
  have hρ : norm2 ρ ≤ h * (3 * q * F) := by
    have h1 := norm2_add_le ((1 / 3 : ℝ) • r1) r2
    rw [← e3, norm2_smul, abs_of_nonneg (by norm_num)] at h1
    have h2 : q * (h * ((1 + 3 * q) * F)) ≤ q * (h * (5 / 2 * F)) := by gcongr; linarith
    have h3 : 0 ≤ q * (h * F) := by positivity
    linarith
  have e4 : x - y = (h / 3) • f y + (2 * h / 3) • f x + ρ := by rw [e3, e1, e2]; module
  have h1 := hm x y
  rw [e4, add_dotProduct, add_dotProduct, smul_dotProduct, smul_dotProduct, smul_eq_mul, smul_eq_mul, dotProduct_sub (f y), dotProduct_sub (f x),
    ← norm2_sq, ← norm2_sq, dotProduct_comm (f y) (f x)] at h1
  have h2 : -(ρ ⬝ᵥ (f x - f y)) ≤ norm2 ρ * (norm2 (f x) + norm2 (f y)) := by
    have := dot_le_norm2 (-ρ) (f x - f y)
    rw [neg_dotProduct, norm2_neg] at this
    exact this.trans (mul_le_mul_of_nonneg_left (norm2_sub_le _ _) (norm2_nonneg _))
  have h3 := dot_le_norm2 (f x) (f y)
  obtain ⟨X, hX⟩ : ∃ X, X = norm2 (f x) := ⟨_, rfl⟩
  obtain ⟨Z, hZ⟩ : ∃ Z, Z = norm2 (f y) := ⟨_, rfl⟩
  have hX0 : 0 ≤ X := by rw [hX]; exact norm2_nonneg _
  have hZ0 : 0 ≤ Z := by rw [hZ]; exact norm2_nonneg _
  rw [← hX, ← hZ] at h1 h2 h3
  rw [← hZ] at hy
  rw [← hX]
  obtain ⟨A, hA⟩ : ∃ A, A = (1 + 2 * q) * F := ⟨_, rfl⟩
  rw [← hA] at hy ⊢
  have hFA : F ≤ A := by rw [hA]; have := mul_nonneg hq hF; linarith
  have hA0 : 0 ≤ A := hF.trans hFA
  have h4 : norm2 ρ * (X + Z) ≤ h * (3 * q * A) * (X + A) := by
    have : norm2 ρ ≤ h * (3 * q * A) := hρ.trans (by gcongr)
    exact mul_le_mul this (by linarith) (by positivity) (by positivity)
  have h5 : h * (2 * (X * X)) ≤ h * (X * Z + Z * Z + 9 * q * A * (X + A)) := by
    have := mul_le_mul_of_nonneg_left h3 hh.le
    linarith
  have h6 := le_of_mul_le_mul_left h5 hh
  have h7 : X * Z ≤ X * A := mul_le_mul_of_nonneg_left hy hX0
  have h8 : Z * Z ≤ A * A := mul_le_mul hy hy hZ0 hA0
  by_contra hc
  push Not at hc
  -- `2 X² ≤ (1 + 9 q) A (X + A)` while `X > (1 + 6 q) A`
  have h9 : 2 * (X * X) ≤ (1 + 9 * q) * (A * (X + A)) := by linarith
  obtain ⟨δ, hδ⟩ : ∃ δ, δ = X - (1 + 6 * q) * A := ⟨_, rfl⟩
  have hδ0 : 0 < δ := by rw [hδ]; linarith
  have hXe : X = (1 + 6 * q) * A + δ := by rw [hδ]; ring
  rw [hXe] at h9
  have k1 : 0 ≤ q * (A * A) := by positivity
  have k2 : 0 ≤ q * q * (A * A) := by positivity
  have k3 : 0 ≤ A * δ := by positivity
  have k4 : 0 ≤ q * (A * δ) := by positivity
  have k5 : 0 < δ * δ := by positivity
  linarith

/-- one step of the two-step formula -/
theorem bdf2_step {gmres : Gmres n} (hg : ResidualGmres gmres) (hn : n ≤ 1000) {sys : Sys n} {f : Vec n → Vec n} {J : Vec n → Mat n} (hs : AutSys sys f J)
    {l : ℝ} (hm : Rs.Monotone f J l) (s : Bdf n) (hso : s.order = 2) (w y : Vec n) (hy : s.yHist = [y, w]) {dt : ℝ} (hdt : 0 < dt) {q F : ℝ}
    (hq : q = 1e-8 + dt * l * (1 + 1e-8)) (hq2 : q ≤ 1 / 2) (hF : 0 ≤ F) (hf : norm2 (f y) ≤ (1 + 2 * q) * F)
    (hr1 : norm2 (y - w - dt • f y) ≤ q * (dt * F)) (hbig : dt * ((1 + 3 * q) * F) ≤ 1e20) :
    ∃ x, Bdf.step gmres sys s dt = .ok ⟨s.t + dt, dt, x, none⟩ ∧
      norm2 (x - ((4 / 3 : ℝ) • y - (1 / 3 : ℝ) • w) - (2 / 3 * dt) • f x) ≤ q * (dt * ((1 + 3 * q) * F)) := by
  have hl := hm.nonneg
  have hq0 : 0 ≤ q := by rw [hq]; positivity
  have hh : 0 ≤ 2 / 3 * dt := by positivity
  obtain ⟨q', hq'⟩ : ∃ q', q' = 1e-8 + 2 / 3 * dt * l * (1 + 1e-8) := ⟨_, rfl⟩
  have hqq : q' ≤ q := by
    rw [hq, hq']
    have : 0 ≤ dt * l * (1 + 1e-8) := by positivity
    linarith
  have hq'0 : 0 ≤ q' := by rw [hq']; positivity
  have hres : norm2 (y - ((4 / 3 : ℝ) • y - (1 / 3 : ℝ) • w) - (2 / 3 * dt) • f y) ≤ dt * ((1 + 3 * q) * F) := by
    have e : y - ((4 / 3 : ℝ) • y - (1 / 3 : ℝ) • w) - (2 / 3 * dt) • f y = -((1 / 3 : ℝ) • (y - w - dt • f y)) - dt • f y := by module
    rw [e]
    have h1 := norm2_sub_le (-((1 / 3 : ℝ) • (y - w - dt • f y))) (dt • f y)
    rw [norm2_neg, norm2_smul, norm2_smul, abs_of_nonneg hdt.le, abs_of_nonneg (by norm_num : (0 : ℝ) ≤ 1 / 3)] at h1
    have h2 := mul_le_mul_of_nonneg_left hf hdt.le
    have h3 : 0 ≤ q * (dt * F) := by positivity
    linarith
  obtain ⟨x, h1, h2⟩ := newton_monotone hg hm hh (s.t + dt) ((4 / 3 : ℝ) • y - (1 / 3 : ℝ) • w)
    (fun t x => match Bdf.nonlinGfn sys s t x dt s.order with
      | .ok g => g
      | .error _ => 0)
    (fun t x => sys.fjacShifted (t + dt) x (-2 * dt / 3) (some 1)) (fun x => by
      unfold Bdf.nonlinGfn
      rw [hso, hy]
      simp only [rsGet, List.getElem?_cons_zero, List.getElem?_cons_succ, Bind.bind, Except.bind, pure, Except.pure, hs.frhs]
      module) (fun x v => by
      simp only [Sys.fjacShifted, shiftedLinOp, LinOp.call]
      rw [hs.fjac (s.t + dt + dt) x v, sub_mulVec, one_mulVec, smul_mulVec]
      module) 1e-6 (η := 1e-8) (by norm_num) hq' (by linarith) hn 99 y 0 (by
    calc q' ^ 99 * ((1 + 1e-8) * norm2 (y - ((4 / 3 : ℝ) • y - (1 / 3 : ℝ) • w) - (2 / 3 * dt) • f y)) ≤ (1 / 2 : ℝ) ^ 99 * ((1 + 1e-8) * 1e20) := by
          have h3 : q' ≤ 1 / 2 := by linarith
          have h4 := hres.trans hbig
          have h5 := norm2_nonneg (y - ((4 / 3 : ℝ) • y - (1 / 3 : ℝ) • w) - (2 / 3 * dt) • f y)
          gcongr
      _ < 1e-6 := by norm_num)
  refine ⟨x, ?_, h2.trans (mul_le_mul hqq hres (norm2_nonneg _) hq0)⟩
  rw [bdf_step_2 gmres sys s dt hso, hy, if_pos (show [y, w].length = 2 from rfl)]
  unfold Bdf.stepOrder2
  have h3 : jacNewton gmres (s.t + dt) y (fun t x => match Bdf.nonlinGfn sys s t x dt s.order with
      | .ok g => g
      | .error _ => 0) (fun t x => sys.fjacShifted (t + dt) x (-2 * dt / 3) (some 1)) 1e-6 1e-8 100 1000 = .ok x := h1
  have h4 : Bdf.nonlinScale dt s.order = .ok (-2 * dt / 3) := by rw [hso]; rfl
  have h5 : ∃ g, Bdf.nonlinGfn sys s (s.t + dt) y dt s.order = .ok g := by
    unfold Bdf.nonlinGfn
    rw [hso, hy]
    exact ⟨_, rfl⟩
  obtain ⟨g, h5⟩ := h5
  have h6 : rsGet s.yHist 0 = .ok y := by rw [hy]; rfl
  simp only [h6, h5, h4, Bind.bind, Except.bind]
  generalize hgen : jacNewton _ _ _ _ _ _ _ _ _ = r
  have hr : r = .ok x := hgen.symm.trans h3
  rw [hr]
  rfl

/-- a one-step formula, whatever the order the object was made with -/
theorem be_step {gmres : Gmres n} (hg : ResidualGmres gmres) (hn : n ≤ 1000) {sys : Sys n} {f : Vec n → Vec n} {J : Vec n → Mat n} (hs : AutSys sys f J)
    {l : ℝ} (hm : Rs.Monotone f J l) (s : Bdf n) (hso : s.order = 2) (y : Vec n) (L : List (Vec n)) (hy : s.yHist = y :: L) (hL : L.length ≠ 1) {dt : ℝ}
    (hdt : 0 ≤ dt) {q : ℝ} (hq : q = 1e-8 + dt * l * (1 + 1e-8)) (hq2 : q ≤ 1 / 2) (hbig : dt * norm2 (f y) ≤ 1e20) :
    ∃ x, Bdf.step gmres sys s dt = .ok ⟨s.t + dt, dt, x, none⟩ ∧ norm2 (x - y - dt • f x) ≤ q * (dt * norm2 (f y)) := by
  obtain ⟨x, h1, h2⟩ := monotone_step hg hn hs hm ⟨1, s.t, s.yHist⟩ rfl y L hy hdt hq hq2 hbig
  refine ⟨x, ?_, h2⟩
  rw [bdf_step_1 gmres sys _ dt rfl] at h1
  rw [bdf_step_2 gmres sys s dt hso, if_neg (by rw [hy]; simpa using hL)]
  exact h1

/-- what the states of a `bdf2` run satisfy: the first step is a backward Euler step, the second the two-step formula, and every later one is a backward
Euler step again (see C70) -/
theorem bdf2_run {gmres : Gmres n} (hg : ResidualGmres gmres) (hn : n ≤ 1000) (split : ℕ → Option (Split ℕ)) {sys : Sys n} {f : Vec n → Vec n}
    {J : Vec n → Mat n} (hs : AutSys sys f J) {l : ℝ} (hm : Rs.Monotone f J l) (y0 : Vec n) (t0 dt : ℝ) (hdt : 0 < dt) (N : ℕ) (kd : Kwds) (o : RunOpts)
    (hp : parseOpts kd = .ok o) (ho : 0 < o.osteps) (hmeth : o.method = "bdf2") {q : ℝ}
    (hq : q = 1e-8 + dt * l * (1 + 1e-8)) (hq2 : q ≤ 1 / 2) (hbig : dt * ((1 + 2 * q) ^ (N + 2) * norm2 (f y0)) ≤ 1e20) :
    ∃ u : ℕ → Vec n, u 0 = y0 ∧
      integrateWrapperRs gmres split sys y0 t0 dt N kd =
        .ok ((outputSteps o.osteps N).map u, (outputSteps o.osteps N).map fun i : ℕ => t0 + i * dt) ∧
      (∀ k < N, k ≠ 1 → norm2 (u (k + 1) - u k - dt • f (u (k + 1))) ≤ q * (dt * ((1 + 2 * q) ^ (k + 2) * norm2 (f y0)))) ∧
      (1 < N → norm2 (u 2 - ((4 / 3 : ℝ) • u 1 - (1 / 3 : ℝ) • u 0) - (2 / 3 * dt) • f (u 2)) ≤ q * (dt * ((1 + 3 * q) * norm2 (f y0)))) ∧
      (0 < N → norm2 (u 1 - u 0 - dt • f (u 1)) ≤ q * (dt * norm2 (f y0))) := by
  have hl := hm.nonneg
  have hq0 : 0 ≤ q := by rw [hq]; positivity
  obtain ⟨F, hF⟩ : ∃ F, F = norm2 (f y0) := ⟨_, rfl⟩
  have hF0 : 0 ≤ F := by rw [hF]; exact norm2_nonneg _
  rw [← hF] at hbig ⊢
  obtain ⟨u, hu0, hus⟩ : ∃ u : ℕ → Vec n, u 0 = y0 ∧ ∀ k : ℕ, u (k + 1) =
      match Bdf.step gmres sys ⟨2, t0 + k * dt, if k = 1 then [u k, y0] else [u k]⟩ dt with
      | .ok r => r.y
      | .error _ => 0 :=
    ⟨fun k => Nat.rec y0 (fun k y => match Bdf.step gmres sys ⟨2, t0 + k * dt, if k = 1 then [y, y0] else [y]⟩ dt with
      | .ok r => r.y
      | .error _ => 0) k, rfl, fun _ => rfl⟩
  -- a backward Euler step
  have hbe : ∀ k, k ≠ 1 → dt * norm2 (f (u k)) ≤ 1e20 → ∀ (s : Bdf n) (L : List (Vec n)), s.order = 2 → s.t = t0 + k * dt → s.yHist = u k :: L →
      s.yHist.length = k + 1 → Bdf.step gmres sys s dt = .ok ⟨s.t + dt, dt, u (k + 1), none⟩ := by
    intro k hk hb s L h1 h2 h3 h4
    have hL : L.length ≠ 1 := by rw [h3] at h4; simp only [List.length_cons] at h4; omega
    obtain ⟨x, e1, -⟩ := be_step hg hn hs hm s h1 (u k) L h3 hL hdt.le hq hq2 hb
    have hsame : Bdf.step gmres sys s dt = Bdf.step gmres sys ⟨2, t0 + k * dt, if k = 1 then [u k, y0] else [u k]⟩ dt := by
      rw [if_neg hk, bdf_step_2 gmres sys s dt h1, bdf_step_2 gmres sys _ dt rfl, if_neg (by rw [h4]; omega), if_neg (by simp)]
      unfold Bdf.stepOrder1
      rw [h2, h3]
      rfl
    have hx : u (k + 1) = x := by rw [hus, ← hsame, e1]
    rw [hx, e1]
  have hbeR : ∀ k, k ≠ 1 → dt * norm2 (f (u k)) ≤ 1e20 → norm2 (u (k + 1) - u k - dt • f (u (k + 1))) ≤ q * (dt * norm2 (f (u k))) := by
    intro k hk hb
    obtain ⟨x, e1, e2⟩ := be_step hg hn hs hm ⟨2, t0 + k * dt, [u k]⟩ rfl (u k) [] rfl (by simp) hdt.le hq hq2 hb
    have hx : u (k + 1) = x := by rw [hus, if_neg hk, e1]
    rw [hx]
    exact e2
  have hb : ∀ k ≤ N + 2, ∀ c, c ≤ (1 + 2 * q) ^ k * F → dt * c ≤ 1e20 := by
    intro k hk c h
    refine (mul_le_mul_of_nonneg_left (h.trans ?_) hdt.le).trans hbig
    exact mul_le_mul_of_nonneg_right (pow_le_pow_right₀ (by linarith) hk) hF0
  have hr0 : norm2 (u 1 - u 0 - dt • f (u 1)) ≤ q * (dt * F) := by
    have := hbeR 0 (by norm_num) (hb 0 (by omega) _ (by rw [hu0, ← hF, pow_zero, one_mul]))
    rwa [hu0, ← hF, zero_add, ← hu0] at this
  have hf1 : norm2 (f (u 1)) ≤ (1 + 2 * q) * F := by
    have := implicit_speed hm.mono hdt (u 1) (u 0) hq0 (by rw [hu0, ← hF, ← hu0]; exact hr0)
    rwa [hu0, ← hF] at this
  have h3q : (1 + 3 * q) * F ≤ (1 + 2 * q) ^ 2 * F := by
    have : (1 + 3 * q) ≤ (1 + 2 * q) ^ 2 := by have := mul_nonneg hq0 hq0; nlinarith
    exact mul_le_mul_of_nonneg_right this hF0
  -- the two-step formula
  have hb2 : ∀ s : Bdf n, s.order = 2 → s.t = t0 + (1 : ℕ) * dt → s.yHist = [u 1, u 0] →
      Bdf.step gmres sys s dt = .ok ⟨s.t + dt, dt, u 2, none⟩ ∧
      norm2 (u 2 - ((4 / 3 : ℝ) • u 1 - (1 / 3 : ℝ) • u 0) - (2 / 3 * dt) • f (u 2)) ≤ q * (dt * ((1 + 3 * q) * F)) := by
    intro s h1 h2 h3
    obtain ⟨x, e1, e2⟩ := bdf2_step hg hn hs hm s h1 (u 0) (u 1) h3 hdt hq hq2 hF0 hf1 hr0 (hb 2 (by omega) _ h3q)
    have hse : s = ⟨2, t0 + (1 : ℕ) * dt, if 1 = 1 then [u 1, y0] else [u 1]⟩ := by
      cases s
      simp only at h1 h2 h3
      rw [h1, h2, h3, if_pos rfl, hu0]
    have hx : u 2 = x := by rw [show (2 : ℕ) = 1 + 1 from rfl, hus, ← hse, e1]
    rw [hx]
    exact ⟨e1, e2⟩
  have hr1 := (hb2 ⟨2, t0 + (1 : ℕ) * dt, [u 1, u 0]⟩ rfl rfl rfl).2
  have hsp : ∀ k ≤ N, norm2 (f (u k)) ≤ (1 + 2 * q) ^ (k + 2) * F := by
    intro k
    induction k with
    | zero =>
      intro _
      rw [hu0, ← hF]
      exact le_mul_of_one_le_left hF0 (one_le_pow₀ (by linarith))
    | succ k ih =>
      intro hk
      by_cases h1 : k = 1
      · subst h1
        refine (bdf2_speed hm.mono hdt (u 0) (u 1) (u 2) hq0 hF0 hf1 hr0 hr1 hq2).trans ?_
        have k1 : 1 + 6 * q ≤ (1 + 2 * q) ^ 3 := by
          have := mul_nonneg hq0 hq0
          have := mul_nonneg this hq0
          nlinarith
        have k2 := mul_le_mul_of_nonneg_right k1 (show 0 ≤ (1 + 2 * q) * F by positivity)
        refine k2.trans (le_of_eq ?_)
        ring
      · have i1 := ih (by omega)
        refine (implicit_speed hm.mono hdt _ _ hq0 (hbeR k h1 (hb (k + 2) (by omega) _ i1))).trans ?_
        rw [show k + 1 + 2 = k + 2 + 1 by ring, pow_succ, mul_comm _ (1 + 2 * q), mul_assoc]
        exact mul_le_mul_of_nonneg_left i1 (by linarith)
  refine ⟨u, hu0, ?_, fun k hk h1 => ?_, fun _ => hr1, fun _ => hr0⟩
  · have h := bdf_follow gmres sys 2 t0 dt u N o.osteps ho (by
      intro s k L hk g1 g2 g3 g4 g5
      by_cases h1 : k = 1
      · subst h1
        obtain ⟨L', hL'⟩ := g5 0 rfl
        have hnil : L' = [] := by
          rw [g3, hL'] at g4
          simpa using g4
        exact (hb2 s g1 g2 (by rw [g3, hL', hnil])).1
      · exact hbe k h1 (hb (k + 2) (by omega) _ (hsp k hk.le)) s L g1 g2 g3 g4)
    rw [hu0] at h
    exact wrap_bdf gmres split sys y0 t0 dt N kd o 2 _ hp (by unfold selectSolver; rw [hmeth]; simp) h
  · refine (hbeR k h1 (hb (k + 2) (by omega) _ (hsp k hk.le))).trans ?_
    exact mul_le_mul_of_nonneg_left (mul_le_mul_of_nonneg_left (hsp k hk.le) hdt.le) hq0

/-- two states that satisfy a formula `x = a + h f(x)` up to residuals -/
theorem implicit_stable' {f : Vec n → Vec n} (hm : ∀ x y, (x - y) ⬝ᵥ (f x - f y) ≤ 0) {h : ℝ} (hh : 0 ≤ h) (x y a1 a0 b1 b0 : Vec n) :
    norm2 (x - y) ≤ 4 / 3 * norm2 (a1 - b1) + 1 / 3 * norm2 (a0 - b0) + norm2 (x - ((4 / 3 : ℝ) • a1 - (1 / 3 : ℝ) • a0) - h • f x) +
      norm2 (y - ((4 / 3 : ℝ) • b1 - (1 / 3 : ℝ) • b0) - h • f y) := by
  have h1 := implicit_stable hm hh x y ((4 / 3 : ℝ) • a1 - (1 / 3 : ℝ) • a0) ((4 / 3 : ℝ) • b1 - (1 / 3 : ℝ) • b0)
  have e : (4 / 3 : ℝ) • a1 - (1 / 3 : ℝ) • a0 - ((4 / 3 : ℝ) • b1 - (1 / 3 : ℝ) • b0) = (4 / 3 : ℝ) • (a1 - b1) - (1 / 3 : ℝ) • (a0 - b0) := by module
  rw [e] at h1
  have h2 := norm2_sub_le ((4 / 3 : ℝ) • (a1 - b1)) ((1 / 3 : ℝ) • (a0 - b0))
  rw [norm2_smul, norm2_smul, abs_of_nonneg (by norm_num : (0 : ℝ) ≤ 4 / 3), abs_of_nonneg (by norm_num : (0 : ℝ) ≤ 1 / 3)] at h2
  linarith

/-- a slow solution satisfies the two-step formula up to second order -/
theorem slow_defect2 {f : Vec n → Vec n} {Y : ℝ → Vec n} {t0 M : ℝ} (hY : SlowSolution f Y t0 M) {t h : ℝ} (ht : t0 ≤ t) (hh : 0 ≤ h) :
    norm2 (Y (t + h + h) - ((4 / 3 : ℝ) • Y (t + h) - (1 / 3 : ℝ) • Y t) - (2 / 3 * h) • f (Y (t + h + h))) ≤ 4 / 3 * (M * h ^ 2) := by
  have d1 := slow_defect hY (t := t + h) (h := h) (by linarith) hh
  have d2 := slow_defect hY (t := t) (h := 2 * h) ht (by linarith)
  rw [show t + 2 * h = t + h + h by ring] at d2
  have e : Y (t + h + h) - ((4 / 3 : ℝ) • Y (t + h) - (1 / 3 : ℝ) • Y t) - (2 / 3 * h) • f (Y (t + h + h)) =
      (4 / 3 : ℝ) • (Y (t + h + h) - Y (t + h) - h • f (Y (t + h + h))) - (1 / 3 : ℝ) • (Y (t + h + h) - Y t - (2 * h) • f (Y (t + h + h))) := by module
  rw [e]
  have h2 := norm2_sub_le ((4 / 3 : ℝ) • (Y (t + h + h) - Y (t + h) - h • f (Y (t + h + h)))) ((1 / 3 : ℝ) • (Y (t + h + h) - Y t - (2 * h) • f (Y (t + h + h))))
  rw [norm2_smul, norm2_smul, abs_of_nonneg (by norm_num : (0 : ℝ) ≤ 4 / 3), abs_of_nonneg (by norm_num : (0 : ℝ) ≤ 1 / 3)] at h2
  linarith

/-- **C138 (error).** As C137, for `bdf2`: the error at `t0 + k dt` is at most `k dt (M dt + 2 q (1 + 2q)^(k+2) |f(y0)|)`. -/
theorem C138_error {gmres : Gmres n} (hg : ResidualGmres gmres) (hn : n ≤ 1000) (split : ℕ → Option (Split ℕ)) {sys : Sys n} {f : Vec n → Vec n}
    {J : Vec n → Mat n} (hs : AutSys sys f J) {l : ℝ} (hm : Rs.Monotone f J l) {Y : ℝ → Vec n} {t0 M : ℝ} (hM : 0 ≤ M) (hY : SlowSolution f Y t0 M) (dt : ℝ)
    (hdt : 0 < dt) (N : ℕ) (kd : Kwds) (o : RunOpts) (hp : parseOpts kd = .ok o) (ho : 0 < o.osteps) (hmeth : o.method = "bdf2") {q : ℝ}
    (hq : q = 1e-8 + dt * l * (1 + 1e-8)) (hq2 : q ≤ 1 / 2) (hbig : dt * ((1 + 2 * q) ^ (N + 2) * norm2 (f (Y t0))) ≤ 1e20) :
    ∃ u : ℕ → Vec n, u 0 = Y t0 ∧
      integrateWrapperRs gmres split sys (Y t0) t0 dt N kd =
        .ok ((outputSteps o.osteps N).map u, (outputSteps o.osteps N).map fun i : ℕ => t0 + i * dt) ∧
      ∀ k ≤ N, norm2 (u k - Y (t0 + k * dt)) ≤ k * dt * (M * dt + 2 * q * ((1 + 2 * q) ^ (k + 2) * norm2 (f (Y t0)))) := by
  obtain ⟨u, u0, u1, u2, u3, u4⟩ := bdf2_run hg hn split hs hm (Y t0) t0 dt hdt N kd o hp ho hmeth hq hq2 hbig
  have hl := hm.nonneg
  have hq0 : 0 ≤ q := by rw [hq]; positivity
  obtain ⟨F, hF⟩ : ∃ F, F = norm2 (f (Y t0)) := ⟨_, rfl⟩
  have hF0 : 0 ≤ F := by rw [hF]; exact norm2_nonneg _
  rw [← hF] at u2 u3 u4 ⊢
  have hP : ∀ j k : ℕ, j ≤ k → (1 + 2 * q) ^ j * F ≤ (1 + 2 * q) ^ k * F := fun j k h =>
    mul_le_mul_of_nonneg_right (pow_le_pow_right₀ (by linarith) h) hF0
  have hFP : ∀ k : ℕ, F ≤ (1 + 2 * q) ^ k * F := fun k => le_mul_of_one_le_left hF0 (one_le_pow₀ (by linarith))
  have hMdt : 0 ≤ M * dt ^ 2 := by positivity
  -- the first step
  have e1 : 0 < N → norm2 (u 1 - Y (t0 + dt)) ≤ M / 2 * dt ^ 2 + q * (dt * F) := fun hN => by
    have i2 := implicit_stable hm.mono hdt.le (u 1) (Y (t0 + dt)) (u 0) (Y t0)
    have i4 := slow_defect hY (t := t0) (h := dt) le_rfl hdt.le
    have i3 := u4 hN
    rw [u0, sub_self, norm2_zero] at i2
    rw [u0] at i3
    linarith
  refine ⟨u, u0, u1, fun k => ?_⟩
  induction k with
  | zero => intro _; rw [u0]; simp [norm2_zero]
  | succ k ih =>
    intro hk
    have e : t0 + ((k + 1 : ℕ) : ℝ) * dt = t0 + k * dt + dt := by push_cast; ring
    by_cases h1 : k = 1
    · subst h1
      have i1 := e1 (by omega)
      have i2 := implicit_stable' hm.mono (h := 2 / 3 * dt) (by positivity) (u 2) (Y (t0 + dt + dt)) (u 1) (u 0) (Y (t0 + dt)) (Y t0)
      have i3 := u3 (by omega)
      have i4 := slow_defect2 hY (t := t0) (h := dt) le_rfl hdt.le
      rw [u0, sub_self, norm2_zero] at i2
      rw [u0] at i3
      have e' : t0 + ((1 + 1 : ℕ) : ℝ) * dt = t0 + dt + dt := by push_cast; ring
      rw [e']
      have i5 := mul_le_mul_of_nonneg_left (hFP (1 + 1 + 2)) (show 0 ≤ 4 * q * dt by positivity)
      have i6 : q * (dt * ((1 + 3 * q) * F)) ≤ q * (dt * ((1 + 3 * (1 / 2)) * F)) := by gcongr
      have i7 : 0 ≤ q * (dt * F) := by positivity
      obtain ⟨P, hPd⟩ : ∃ P, P = (1 + 2 * q) ^ (1 + 1 + 2) * F := ⟨_, rfl⟩
      rw [← hPd] at i5 ⊢
      push_cast
      linarith
    · have i1 := ih (by omega)
      have i2 := implicit_stable hm.mono hdt.le (u (k + 1)) (Y (t0 + k * dt + dt)) (u k) (Y (t0 + k * dt))
      have i3 := u2 k (by omega) h1
      have i4 := slow_defect hY (t := t0 + k * dt) (h := dt) (by have : (0 : ℝ) ≤ k * dt := by positivity
                                                                 linarith) hdt.le
      rw [e]
      have i5 : ((k : ℝ) + 1) * dt * (2 * q) * ((1 + 2 * q) ^ (k + 2) * F) ≤ ((k : ℝ) + 1) * dt * (2 * q) * ((1 + 2 * q) ^ (k + 1 + 2) * F) :=
        mul_le_mul_of_nonneg_left (hP _ _ (by omega)) (by positivity)
      have i6 : 0 ≤ q * (dt * ((1 + 2 * q) ^ (k + 2) * F)) := by positivity
      push_cast
      linarith

/-- **C138 (two runs).** Two calls with `bdf2` never separate by more than `5/3` times the distance of their starts and the residuals of the Newton
iterations. -/
theorem C138_stable {gmres gmres' : Gmres n} (hg : ResidualGmres gmres) (hg' : ResidualGmres gmres') (hn : n ≤ 1000)
    (split : ℕ → Option (Split ℕ)) {sys : Sys n} {f : Vec n → Vec n} {J : Vec n → Mat n} (hs : AutSys sys f J) {l : ℝ} (hm : Rs.Monotone f J l)
    (y0 z0 : Vec n) (t0 dt : ℝ) (hdt : 0 < dt) (N : ℕ) (kd : Kwds) (o : RunOpts) (hp : parseOpts kd = .ok o) (ho : 0 < o.osteps)
    (hmeth : o.method = "bdf2") {q : ℝ} (hq : q = 1e-8 + dt * l * (1 + 1e-8)) (hq2 : q ≤ 1 / 2)
    (hbig : dt * ((1 + 2 * q) ^ (N + 2) * norm2 (f y0)) ≤ 1e20) (hbig' : dt * ((1 + 2 * q) ^ (N + 2) * norm2 (f z0)) ≤ 1e20) :
    ∃ u v : ℕ → Vec n, u 0 = y0 ∧ v 0 = z0 ∧
      integrateWrapperRs gmres split sys y0 t0 dt N kd =
        .ok ((outputSteps o.osteps N).map u, (outputSteps o.osteps N).map fun i : ℕ => t0 + i * dt) ∧
      integrateWrapperRs gmres' split sys z0 t0 dt N kd =
        .ok ((outputSteps o.osteps N).map v, (outputSteps o.osteps N).map fun i : ℕ => t0 + i * dt) ∧
      ∀ k ≤ N, norm2 (u k - v k) ≤ 5 / 3 * norm2 (y0 - z0) + k * dt * (2 * q * ((1 + 2 * q) ^ (k + 2) * (norm2 (f y0) + norm2 (f z0)))) := by
  obtain ⟨u, u0, u1, u2, u3, u4⟩ := bdf2_run hg hn split hs hm y0 t0 dt hdt N kd o hp ho hmeth hq hq2 hbig
  obtain ⟨v, v0, v1, v2, v3, v4⟩ := bdf2_run hg' hn split hs hm z0 t0 dt hdt N kd o hp ho hmeth hq hq2 hbig'
  have hl := hm.nonneg
  have hq0 : 0 ≤ q := by rw [hq]; positivity
  obtain ⟨E, hE⟩ : ∃ E, E = norm2 (y0 - z0) := ⟨_, rfl⟩
  have hE0 : 0 ≤ E := by rw [hE]; exact norm2_nonneg _
  obtain ⟨A, hA⟩ : ∃ A, A = norm2 (f y0) := ⟨_, rfl⟩
  obtain ⟨B, hB⟩ : ∃ B, B = norm2 (f z0) := ⟨_, rfl⟩
  have hA0 : 0 ≤ A := by rw [hA]; exact norm2_nonneg _
  have hB0 : 0 ≤ B := by rw [hB]; exact norm2_nonneg _
  rw [← hA] at u2 u3 u4 ⊢
  rw [← hB] at v2 v3 v4 ⊢
  rw [← hE]
  have hS0 : 0 ≤ A + B := by positivity
  have hP : ∀ j k : ℕ, j ≤ k → (1 + 2 * q) ^ j * (A + B) ≤ (1 + 2 * q) ^ k * (A + B) := fun j k h =>
    mul_le_mul_of_nonneg_right (pow_le_pow_right₀ (by linarith) h) hS0
  have hFP : ∀ k : ℕ, A + B ≤ (1 + 2 * q) ^ k * (A + B) := fun k => le_mul_of_one_le_left hS0 (one_le_pow₀ (by linarith))
  have e1 : 0 < N → norm2 (u 1 - v 1) ≤ E + q * (dt * (A + B)) := fun hN => by
    have i2 := implicit_stable hm.mono hdt.le (u 1) (v 1) (u 0) (v 0)
    have i3 := u4 hN
    have i4 := v4 hN
    rw [u0, v0, ← hE] at i2
    rw [u0] at i3
    rw [v0] at i4
    linarith
  refine ⟨u, v, u0, v0, u1, v1, fun k => ?_⟩
  induction k with
  | zero => intro _; rw [u0, v0, ← hE]; push_cast; linarith
  | succ k ih =>
    intro hk
    by_cases h1 : k = 1
    · subst h1
      have i1 := e1 (by omega)
      have i2 := implicit_stable' hm.mono (h := 2 / 3 * dt) (by positivity) (u 2) (v 2) (u 1) (u 0) (v 1) (v 0)
      have i3 := u3 (by omega)
      have i4 := v3 (by omega)
      have hE' : norm2 (u 0 - v 0) = E := by rw [u0, v0, hE]
      rw [hE'] at i2
      have i5 := mul_le_mul_of_nonneg_left (hFP (1 + 1 + 2)) (show 0 ≤ 4 * q * dt by positivity)
      have i6 : q * (dt * ((1 + 3 * q) * A)) ≤ q * (dt * ((1 + 3 * (1 / 2)) * A)) := by gcongr
      have i7 : q * (dt * ((1 + 3 * q) * B)) ≤ q * (dt * ((1 + 3 * (1 / 2)) * B)) := by gcongr
      have i8 : 0 ≤ q * (dt * (A + B)) := by positivity
      obtain ⟨P, hPd⟩ : ∃ P, P = (1 + 2 * q) ^ (1 + 1 + 2) * (A + B) := ⟨_, rfl⟩
      rw [← hPd] at i5 ⊢
      push_cast
      linarith
    · have i1 := ih (by omega)
      have i2 := implicit_stable hm.mono hdt.le (u (k + 1)) (v (k + 1)) (u k) (v k)
      have i3 := u2 k (by omega) h1
      have i4 := v2 k (by omega) h1
      have i5 : ((k : ℝ) + 1) * dt * (2 * q) * ((1 + 2 * q) ^ (k + 2) * (A + B)) ≤ ((k : ℝ) + 1) * dt * (2 * q) * ((1 + 2 * q) ^ (k + 1 + 2) * (A + B)) :=
        mul_le_mul_of_nonneg_left (hP _ _ (by omega)) (by positivity)
      have i6 : 0 ≤ q * (dt * ((1 + 2 * q) ^ (k + 2) * (A + B))) := by positivity
      push_cast
      linarith

/-- the hypotheses are met by the stiff system of C137 -/
example : ∃ u : ℕ → Vec 2, u 0 = tanhSol 0 ∧
    integrateWrapperRs (sloppyGmres 2) (fun _ => none) (autSys tanhRhs tanhJac) (tanhSol 0) 0 (1 / 1000) 100
      (fun k => if k = "method" then some (.str "bdf2") else none) =
      .ok ((outputSteps 1 100).map u, (outputSteps 1 100).map fun i : ℕ => 0 + i * (1 / 1000)) ∧
    ∀ k ≤ 100, norm2 (u k - tanhSol (0 + k * (1 / 1000))) ≤ k * (1 / 1000) * (1 * (1 / 1000) +
      2 * (1e-8 + 1 / 1000 * 1 * (1 + 1e-8)) * ((1 + 2 * (1e-8 + 1 / 1000 * 1 * (1 + 1e-8))) ^ (k + 2) * norm2 (tanhRhs (tanhSol 0)))) := by
  refine C138_error (sloppy_residual 2) (by norm_num) (fun _ => none) (autSys_aut _ _) tanh_monotone zero_le_one tanh_solution (1 / 1000) (by norm_num) 100 _
    (RunOpts.mk "bdf2" "pade" 100 2 1e-8 1e-8 1)
    (by simp [parseOpts, getValOrDefault, PyVal.asString, bind, Except.bind, pure, Except.pure]) one_pos rfl rfl (by norm_num) ?_
  have h1 : norm2 (tanhRhs (tanhSol 0)) ≤ 1 := by
    unfold norm2
    rw [Real.sqrt_le_left (by norm_num)]
    simp [tanhRhs, tanhSol, dotProduct, Fin.sum_univ_two, Real.tanh_arsinh]
    norm_num
    rw [← mul_inv, Real.mul_self_sqrt (by norm_num)]
    norm_num
  have h2 : ((1 : ℝ) + 2 * (1e-8 + 1 / 1000 * 1 * (1 + 1e-8))) ^ (100 + 2) ≤ 2 ^ 60 := by norm_num
  have h3 := mul_le_mul h2 h1 (norm2_nonneg _) (by positivity)
  calc (1 / 1000 : ℝ) * _ ≤ 1 / 1000 * (2 ^ 60 * 1) := mul_le_mul_of_nonneg_left h3 (by norm_num)
    _ ≤ 1e20 := by norm_num

end
end Ormatex.Props
