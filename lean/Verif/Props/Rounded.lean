import Verif.Model.Rounded
import Verif.Props.ApproxLoop

/-!
C117: `rk4` runs in floating-point arithmetic.
-/

namespace Ormatex.Props
open Filter Asymptotics Topology Matrix Ormatex.Spec
open scoped Classical

section
variable {n : ℕ} {P : Type}

/-- **Specification: the standard model of floating-point arithmetic.**  An operation whose exact result is at most `Ω` in
magnitude has relative error at most `u` (unit roundoff) plus an absolute error at most `η` (underflow); nothing is said about
the others (overflow). -/
structure FlAccurate (F : FlOps) (u η Ω : ℝ) : Prop where
  u_nonneg : 0 ≤ u
  eta_nonneg : 0 ≤ η
  add : ∀ a b, |a + b| ≤ Ω → |F.add a b - (a + b)| ≤ u * |a + b| + η
  mul : ∀ a b, |a * b| ≤ Ω → |F.mul a b - a * b| ≤ u * |a * b| + η
  div : ∀ a b, b ≠ 0 → |a / b| ≤ Ω → |F.div a b - a / b| ≤ u * |a / b| + η

theorem exact_accurate (u η Ω : ℝ) (hu : 0 ≤ u) (hη : 0 ≤ η) : FlAccurate FlOps.exact u η Ω := by
  refine ⟨hu, hη, fun a b _ => ?_, fun a b _ => ?_, fun a b _ _ => ?_⟩ <;> simp only [FlOps.exact, sub_self, abs_zero] <;> positivity

/-- exact arithmetic gives back the model over the reals -/
theorem rk4KernelFl_exact (f : ℝ → Vec n → Vec n) (t : ℝ) (y : Vec n) (dt : ℝ) :
    rk4KernelFl (fun _ => FlOps.exact) f t y dt = rk4Kernel f t y dt := by
  have e1 : ∀ (y v : Vec n), FlOps.exact.addV y (FlOps.exact.divV (FlOps.exact.mulVr v dt) 2) = y + (dt / 2) • v := by
    intro y v; funext i; simp [FlOps.exact, FlOps.addV, FlOps.divV, FlOps.mulVr]; ring
  have e2 : ∀ (y v : Vec n), FlOps.exact.addV y (FlOps.exact.mulVr v dt) = y + dt • v := by
    intro y v; funext i; simp [FlOps.exact, FlOps.addV, FlOps.mulVr]; ring
  have e3 : ∀ (y v : Vec n), FlOps.exact.addV y (FlOps.exact.divV (FlOps.exact.mulV dt v) 6) = y + (dt / 6) • v := by
    intro y v; funext i; simp [FlOps.exact, FlOps.addV, FlOps.divV, FlOps.mulV]; ring
  have e4 : ∀ (v w : Vec n), FlOps.exact.addV v w = v + w := fun v w => rfl
  have e5 : ∀ (v : Vec n), FlOps.exact.mulV 2 v = (2 : ℝ) • v := fun v => rfl
  have e6 : ∀ a b, FlOps.exact.add a b = a + b := fun a b => rfl
  have e7 : ∀ a b, FlOps.exact.div a b = a / b := fun a b => rfl
  simp only [rk4KernelFl, rk4Kernel, e1, e2, e3, e6, e7]
  simp only [e4, e5]

/-- the stepper over exact arithmetic is the one over the reals -/
theorem rkStepperFl_exact (sys : OdeSys n P) : rkStepperFl (fun _ => FlOps.exact) sys = rkStepper sys := by
  unfold rkStepperFl rkStepper RK.stepFl RK.step stepRk4Fl stepRk4
  simp only [rk4KernelFl_exact]
  rfl

/-! ### one operation -/

section op
variable {F : FlOps} {u η Ω E w : ℝ}

theorem acc_add (hF : FlAccurate F u η Ω) (hu : u ≤ 1) (huE : u ≤ E) (hηE : η ≤ E) (hw0 : 0 < w) (hw1 : w ≤ 1) (hEw : E ≤ w)
    {a' a b' b : Vec n} {p q M : ℝ} (hp : 0 ≤ p) (hq : 0 ≤ q) (hΩ : p + q + M ≤ Ω)
    (ha : w * ‖a' - a‖ ≤ p * E) (hb : w * ‖b' - b‖ ≤ q * E) (hM : ‖a + b‖ ≤ M) :
    w * ‖F.addV a' b' - (a + b)‖ ≤ (2 * (p + q) + M + 1) * E := by
  have hE : 0 ≤ E := hF.u_nonneg.trans huE
  have hM0 : 0 ≤ M := (norm_nonneg _).trans hM
  have na : ‖a' - a‖ ≤ p := le_of_mul_le_mul_left
    (ha.trans (by rw [mul_comm w]; exact mul_le_mul_of_nonneg_left hEw hp)) hw0
  have nb : ‖b' - b‖ ≤ q := le_of_mul_le_mul_left
    (hb.trans (by rw [mul_comm w]; exact mul_le_mul_of_nonneg_left hEw hq)) hw0
  have h1 : ‖F.addV a' b' - (a + b)‖ ≤ 2 * (‖a' - a‖ + ‖b' - b‖) + u * M + η := by
    rw [pi_norm_le_iff_of_nonneg (by have := hF.u_nonneg; have := hF.eta_nonneg; positivity)]
    intro i
    have e2 : |a' i - a i| ≤ ‖a' - a‖ := by simpa using norm_le_pi_norm (a' - a) i
    have e3 : |b' i - b i| ≤ ‖b' - b‖ := by simpa using norm_le_pi_norm (b' - b) i
    have e4 : |a i + b i| ≤ M := le_trans (by simpa using norm_le_pi_norm (a + b) i) hM
    have e5 : |a' i + b' i| ≤ ‖a' - a‖ + ‖b' - b‖ + M := by
      have : a' i + b' i = (a' i - a i) + (b' i - b i) + (a i + b i) := by ring
      rw [this]
      exact (abs_add_three _ _ _).trans (by linarith)
    have e1 := hF.add (a' i) (b' i) (e5.trans (by linarith))
    have e6 : u * |a' i + b' i| ≤ (‖a' - a‖ + ‖b' - b‖) + u * M := by
      calc u * |a' i + b' i| ≤ u * (‖a' - a‖ + ‖b' - b‖ + M) := mul_le_mul_of_nonneg_left e5 hF.u_nonneg
        _ = u * (‖a' - a‖ + ‖b' - b‖) + u * M := by ring
        _ ≤ 1 * (‖a' - a‖ + ‖b' - b‖) + u * M := by gcongr
        _ = _ := by ring
    rw [Real.norm_eq_abs]
    have e7 : (F.addV a' b' - (a + b)) i = (F.add (a' i) (b' i) - (a' i + b' i)) + (a' i - a i) + (b' i - b i) := by
      simp only [FlOps.addV, Pi.sub_apply, Pi.add_apply]; ring
    rw [e7]
    exact (abs_add_three _ _ _).trans (by linarith)
  have h2 : w * (u * M) ≤ M * E := by
    calc w * (u * M) ≤ 1 * (E * M) := by
          have := hF.u_nonneg
          have := hw0.le
          gcongr
      _ = M * E := by ring
  have h3 : w * η ≤ 1 * E := mul_le_mul hw1 hηE hF.eta_nonneg zero_le_one
  have h4 := mul_le_mul_of_nonneg_left h1 hw0.le
  nlinarith [h4]

theorem acc_mul (hF : FlAccurate F u η Ω) (hu : u ≤ 1) (huE : u ≤ E) (hηE : η ≤ E) (hw0 : 0 < w) (hw1 : w ≤ 1) (hEw : E ≤ w)
    {a' a : Vec n} {c p M : ℝ} (hp : 0 ≤ p) (hΩ : p + M ≤ Ω)
    (ha : w * (|c| * ‖a' - a‖) ≤ p * E) (hM : ‖c • a‖ ≤ M) :
    w * ‖F.mulV c a' - c • a‖ ≤ (2 * p + M + 1) * E := by
  have hE : 0 ≤ E := hF.u_nonneg.trans huE
  have hM0 : 0 ≤ M := (norm_nonneg _).trans hM
  have na : |c| * ‖a' - a‖ ≤ p := le_of_mul_le_mul_left
    (ha.trans (by rw [mul_comm w]; exact mul_le_mul_of_nonneg_left hEw hp)) hw0
  have h1 : ‖F.mulV c a' - c • a‖ ≤ 2 * (|c| * ‖a' - a‖) + u * M + η := by
    rw [pi_norm_le_iff_of_nonneg (by have := hF.u_nonneg; have := hF.eta_nonneg; positivity)]
    intro i
    have e2 : |c * (a' i - a i)| ≤ |c| * ‖a' - a‖ := by
      rw [abs_mul]
      exact mul_le_mul_of_nonneg_left (by simpa using norm_le_pi_norm (a' - a) i) (abs_nonneg _)
    have e4 : |c * a i| ≤ M := le_trans (by simpa using norm_le_pi_norm (c • a) i) hM
    have e5 : |c * a' i| ≤ |c| * ‖a' - a‖ + M := by
      have : c * a' i = c * (a' i - a i) + c * a i := by ring
      rw [this]
      exact (abs_add_le _ _).trans (by linarith)
    have e1 := hF.mul c (a' i) (e5.trans (by linarith))
    have e6 : u * |c * a' i| ≤ |c| * ‖a' - a‖ + u * M := by
      calc u * |c * a' i| ≤ u * (|c| * ‖a' - a‖ + M) := mul_le_mul_of_nonneg_left e5 hF.u_nonneg
        _ = u * (|c| * ‖a' - a‖) + u * M := by ring
        _ ≤ 1 * (|c| * ‖a' - a‖) + u * M := by gcongr
        _ = _ := by ring
    rw [Real.norm_eq_abs]
    have e7 : (F.mulV c a' - c • a) i = (F.mul c (a' i) - c * a' i) + c * (a' i - a i) := by
      simp only [FlOps.mulV, Pi.sub_apply, Pi.smul_apply, smul_eq_mul]; ring
    rw [e7]
    exact (abs_add_le _ _).trans (by linarith)
  have h2 : w * (u * M) ≤ M * E := by
    calc w * (u * M) ≤ 1 * (E * M) := by
          have := hF.u_nonneg
          have := hw0.le
          gcongr
      _ = M * E := by ring
  have h3 : w * η ≤ 1 * E := mul_le_mul hw1 hηE hF.eta_nonneg zero_le_one
  have h4 := mul_le_mul_of_nonneg_left h1 hw0.le
  nlinarith [h4]

theorem acc_div (hF : FlAccurate F u η Ω) (hu : u ≤ 1) (huE : u ≤ E) (hηE : η ≤ E) (hE1 : E ≤ 1)
    {a' a : Vec n} {c p M : ℝ} (hc : 1 ≤ c) (hp : 0 ≤ p) (hΩ : p + M ≤ Ω)
    (ha : ‖a' - a‖ ≤ p * E) (hM : ‖a‖ ≤ M) :
    ‖F.divV a' c - (1 / c) • a‖ ≤ (2 * p + M + 1) * E := by
  have hE : 0 ≤ E := hF.u_nonneg.trans huE
  have hM0 : 0 ≤ M := (norm_nonneg _).trans hM
  have hc0 : 0 < c := by linarith
  have hdiv : ∀ x : ℝ, |x / c| ≤ |x| := by
    intro x
    rw [abs_div, abs_of_pos hc0]
    exact div_le_self (abs_nonneg _) hc
  have na : ‖a' - a‖ ≤ p := ha.trans (mul_le_of_le_one_right hp hE1)
  have h1 : ‖F.divV a' c - (1 / c) • a‖ ≤ 2 * ‖a' - a‖ + u * M + η := by
    rw [pi_norm_le_iff_of_nonneg (by have := hF.u_nonneg; have := hF.eta_nonneg; positivity)]
    intro i
    have e0 : |a' i - a i| ≤ ‖a' - a‖ := by simpa using norm_le_pi_norm (a' - a) i
    have e2 : |(a' i - a i) / c| ≤ ‖a' - a‖ := (hdiv _).trans e0
    have e4 : |a i / c| ≤ M := (hdiv _).trans (le_trans (by simpa using norm_le_pi_norm a i) hM)
    have e5 : |a' i / c| ≤ ‖a' - a‖ + M := by
      have : a' i / c = (a' i - a i) / c + a i / c := by ring
      rw [this]
      exact (abs_add_le _ _).trans (by linarith)
    have e1 := hF.div (a' i) c hc0.ne' (e5.trans (by linarith))
    have e6 : u * |a' i / c| ≤ ‖a' - a‖ + u * M := by
      calc u * |a' i / c| ≤ u * (‖a' - a‖ + M) := mul_le_mul_of_nonneg_left e5 hF.u_nonneg
        _ = u * ‖a' - a‖ + u * M := by ring
        _ ≤ 1 * ‖a' - a‖ + u * M := by gcongr
        _ = _ := by ring
    rw [Real.norm_eq_abs]
    have e7 : (F.divV a' c - (1 / c) • a) i = (F.div (a' i) c - a' i / c) + (a' i - a i) / c := by
      simp only [FlOps.divV, Pi.sub_apply, Pi.smul_apply, smul_eq_mul]; ring
    rw [e7]
    exact (abs_add_le _ _).trans (by linarith)
  have h2 : u * M ≤ M * E := by rw [mul_comm]; exact mul_le_mul_of_nonneg_left huE hM0
  nlinarith [h1]

theorem mulVr_eq (F : FlOps) (v : Vec n) (c : ℝ) : F.mulVr v c = ({ F with mul := fun a b => F.mul b a } : FlOps).mulV c v := rfl

theorem swap_accurate (hF : FlAccurate F u η Ω) : FlAccurate ({ F with mul := fun a b => F.mul b a } : FlOps) u η Ω :=
  ⟨hF.u_nonneg, hF.eta_nonneg, hF.add, fun a b h => by simpa [mul_comm] using hF.mul b a (by rwa [mul_comm]), hF.div⟩

end op

/-! ### one step -/

/-- `f` is bounded by `B` and Lipschitz with constant `L` within `ρ` of the graph of `Y` over `[t0, T]`; so are `Y` and the times. -/
structure Tube (f : ℝ → Vec n → Vec n) (Y : ℝ → Vec n) (t0 T ρ B L : ℝ) : Prop where
  rho_pos : 0 < ρ
  B_nonneg : 0 ≤ B
  L_nonneg : 0 ≤ L
  time : ∀ s ∈ Set.Icc t0 T, |s| ≤ B
  state : ∀ s ∈ Set.Icc t0 T, ‖Y s‖ ≤ B
  bound : ∀ s ∈ Set.Icc t0 T, ∀ t y, |t - s| < ρ → ‖y - Y s‖ < ρ → ‖f t y‖ ≤ B
  lip : ∀ s ∈ Set.Icc t0 T, ∀ t y t' y', |t - s| < ρ → ‖y - Y s‖ < ρ → |t' - s| < ρ → ‖y' - Y s‖ < ρ →
    ‖f t y - f t' y'‖ ≤ L * (|t - t'| + ‖y - y'‖)

theorem tube_exists {f : ℝ → Vec n → Vec n} {Y : ℝ → Vec n} {t0 T : ℝ} (hY : ∀ t ∈ Set.Icc t0 T, SmoothIVP f 2 t Y) :
    ∃ ρ B L, Tube f Y t0 T ρ B L := by
  have hYc : ∀ t ∈ Set.Icc t0 T, ContinuousAt Y t := fun t ht => (hY t ht).contDiff.continuousAt
  have hx : ∀ t ∈ Set.Icc t0 T, ContinuousAt (fun t => ((t, Y t) : ℝ × Vec n)) t := fun t ht => continuousAt_id.prodMk (hYc t ht)
  obtain ⟨L, ρ1, hL, hρ1, hl⟩ := tube_lipschitz (G := fun q : ℝ × ℝ × (ℝ × Vec n) => q.1 • f q.2.2.1 q.2.2.2)
    (x := fun t => ((t, Y t) : ℝ × Vec n)) (a := t0) (b := T)
    (fun t ht => contDiffAt_fst.smul (ContDiffAt.comp (g := fun p : ℝ × Vec n => f p.1 p.2) (f := fun q : ℝ × ℝ × (ℝ × Vec n) => q.2.2)
      (0, t, (t, Y t)) (hY t ht).smooth (by fun_prop)))
    (fun t x => by simp) hx
  obtain ⟨B1, ρ2, hB1, hρ2, hb⟩ := tube_bound (G := fun q : ℝ × ℝ × (ℝ × Vec n) => q.1 • f q.2.2.1 q.2.2.2)
    (x := fun t => ((t, Y t) : ℝ × Vec n)) (a := t0) (b := T)
    (fun t ht => contDiffAt_fst.smul (ContDiffAt.comp (g := fun p : ℝ × Vec n => f p.1 p.2) (f := fun q : ℝ × ℝ × (ℝ × Vec n) => q.2.2)
      (0, t, (t, Y t)) (hY t ht).smooth (by fun_prop)))
    (fun t x => by simp) hx
  obtain ⟨B2, hB2⟩ := (isCompact_Icc (a := t0) (b := T)).exists_bound_of_continuousOn (f := Y)
    (fun t ht => (hYc t ht).continuousWithinAt)
  obtain ⟨B3, hB3⟩ := (isCompact_Icc (a := t0) (b := T)).exists_bound_of_continuousOn (f := fun t : ℝ => t) continuousOn_id
  have hn : ∀ (s t : ℝ) (y : Vec n) (r : ℝ), |t - s| < r → ‖y - Y s‖ < r → ‖((t, y) : ℝ × Vec n) - (s, Y s)‖ < r := by
    intro s t y r h1 h2
    rw [Prod.mk_sub_mk, Prod.norm_mk, max_lt_iff]
    exact ⟨h1, h2⟩
  refine ⟨min ρ1 ρ2, max B1 (max B2 B3), L, by positivity, le_max_of_le_left hB1, hL, ?_, ?_, ?_, ?_⟩
  · intro s hs
    exact (hB3 s hs).trans ((le_max_right _ _).trans (le_max_right _ _))
  · intro s hs
    exact (hB2 s hs).trans ((le_max_left _ _).trans (le_max_right _ _))
  · intro s hs t y h1 h2
    have h3 : (0 : ℝ) < ρ2 / 2 := by linarith
    have := hb s hs (ρ2 / 2) (t, y) (by rw [abs_of_pos h3]; linarith)
      (hn s t y ρ2 (h1.trans_le (min_le_right _ _)) (h2.trans_le (min_le_right _ _)))
    rw [norm_smul, Real.norm_of_nonneg h3.le, abs_of_pos h3, mul_comm B1] at this
    exact (le_of_mul_le_mul_left this h3).trans (le_max_left _ _)
  · intro s hs t y t' y' h1 h2 h1' h2'
    have h3 : (0 : ℝ) < ρ1 / 2 := by linarith
    have := hl s hs (ρ1 / 2) (t, y) (t', y') (by rw [abs_of_pos h3]; linarith)
      (hn s t y ρ1 (h1.trans_le (min_le_left _ _)) (h2.trans_le (min_le_left _ _)))
      (hn s t' y' ρ1 (h1'.trans_le (min_le_left _ _)) (h2'.trans_le (min_le_left _ _)))
    simp only [← smul_sub] at this
    rw [norm_smul, Real.norm_of_nonneg h3.le, abs_of_pos h3, Prod.mk_sub_mk, Prod.norm_mk] at this
    have h4 : ρ1 / 2 * ‖f t y - f t' y'‖ ≤ ρ1 / 2 * (L * max ‖t - t'‖ ‖y - y'‖) := by linarith
    refine (le_of_mul_le_mul_left h4 h3).trans (mul_le_mul_of_nonneg_left ?_ hL)
    exact max_le (by rw [Real.norm_eq_abs]; linarith [norm_nonneg (y - y')]) (by linarith [abs_nonneg (t - t')])

section step
variable {f fh : ℝ → Vec n → Vec n} {Y : ℝ → Vec n} {t0 T ρ B L u η Ω κ d E dt : ℝ} {F : ℕ → FlOps}

/-- the computed right-hand side `fh` is within `κ` of `f` within `ρ` of the solution -/
def RhsWithin (fh f : ℝ → Vec n → Vec n) (Y : ℝ → Vec n) (t0 T ρ κ : ℝ) : Prop :=
  ∀ s ∈ Set.Icc t0 T, ∀ t y, |t - s| < ρ → ‖y - Y s‖ < ρ → ‖fh t y - f t y‖ ≤ κ

theorem acc_half {G1 G2 G3 : FlOps} (h1 : FlAccurate G1 u η Ω) (h2 : FlAccurate G2 u η Ω) (h3 : FlAccurate G3 u η Ω) (hu : u ≤ 1) (huE : u ≤ E) (hηE : η ≤ E)
    (hE1 : E ≤ 1) (hdt0 : 0 ≤ dt) (hdt1 : dt ≤ 1) {y v v' : Vec n} {g : ℝ} (hg0 : 0 ≤ g) (hΩ : 8 * g + 8 * B + 7 ≤ Ω) (hy : ‖y‖ ≤ B) (hv : ‖v‖ ≤ B) (hg : dt * ‖v' - v‖ ≤ g * E) :
    ‖G1.addV y (G2.divV (G3.mulVr v' dt) 2) - (y + (dt / 2) • v)‖ ≤ (8 * g + 8 * B + 7) * E := by
  have hE : 0 ≤ E := h1.u_nonneg.trans huE
  have hB : 0 ≤ B := (norm_nonneg _).trans hy
  have hdv : ‖dt • v‖ ≤ B := by
    rw [norm_smul, Real.norm_of_nonneg hdt0]
    calc dt * ‖v‖ ≤ 1 * B := mul_le_mul hdt1 hv (norm_nonneg _) zero_le_one
      _ = B := one_mul B
  have e1 := acc_mul (swap_accurate h3) hu huE hηE (w := 1) one_pos le_rfl hE1 (a' := v') (a := v) (c := dt) (p := g) (M := B) hg0 (by linarith)
    (by rw [abs_of_nonneg hdt0, one_mul]; exact hg) hdv
  rw [← mulVr_eq, one_mul] at e1
  have e2 := acc_div h2 hu huE hηE hE1 (c := 2) (by norm_num) (by linarith) (by linarith) e1 hdv
  have e3 : ((1 : ℝ) / 2) • (dt • v) = (dt / 2) • v := by rw [smul_smul]; congr 1; ring
  rw [e3] at e2
  have hdv2 : ‖(dt / 2) • v‖ ≤ B := by
    rw [← e3, norm_smul]
    have : ‖(1 / 2 : ℝ)‖ = 1 / 2 := by norm_num
    rw [this]
    linarith
  have e4 := acc_add h1 hu huE hηE (w := 1) one_pos le_rfl hE1 (a' := y) (a := y) (p := 0) (q := 2 * (2 * g + B + 1) + B + 1) (M := B + B)
    le_rfl (by linarith) (by linarith) (by simp) (by rw [one_mul]; exact e2) ((norm_add_le _ _).trans (add_le_add hy hdv2))
  rw [one_mul] at e4
  refine e4.trans (mul_le_mul_of_nonneg_right ?_ hE)
  linarith

theorem acc_full {G1 G2 : FlOps} (h1 : FlAccurate G1 u η Ω) (h2 : FlAccurate G2 u η Ω) (hu : u ≤ 1) (huE : u ≤ E) (hηE : η ≤ E)
    (hE1 : E ≤ 1) (hdt0 : 0 ≤ dt) (hdt1 : dt ≤ 1) {y v v' : Vec n} {g : ℝ} (hg0 : 0 ≤ g) (hΩ : 8 * g + 8 * B + 7 ≤ Ω) (hy : ‖y‖ ≤ B) (hv : ‖v‖ ≤ B) (hg : dt * ‖v' - v‖ ≤ g * E) :
    ‖G1.addV y (G2.mulVr v' dt) - (y + dt • v)‖ ≤ (8 * g + 8 * B + 7) * E := by
  have hE : 0 ≤ E := h1.u_nonneg.trans huE
  have hB : 0 ≤ B := (norm_nonneg _).trans hy
  have hdv : ‖dt • v‖ ≤ B := by
    rw [norm_smul, Real.norm_of_nonneg hdt0]
    calc dt * ‖v‖ ≤ 1 * B := mul_le_mul hdt1 hv (norm_nonneg _) zero_le_one
      _ = B := one_mul B
  have e1 := acc_mul (swap_accurate h2) hu huE hηE (w := 1) one_pos le_rfl hE1 (a' := v') (a := v) (c := dt) (p := g) (M := B) hg0 (by linarith)
    (by rw [abs_of_nonneg hdt0, one_mul]; exact hg) hdv
  rw [← mulVr_eq] at e1
  have e4 := acc_add h1 hu huE hηE (w := 1) one_pos le_rfl hE1 (a' := y) (a := y) (p := 0) (q := 2 * g + B + 1) (M := B + B)
    le_rfl (by linarith) (by linarith) (by simp) e1 ((norm_add_le _ _).trans (add_le_add hy hdv))
  rw [one_mul] at e4
  refine e4.trans (mul_le_mul_of_nonneg_right ?_ hE)
  linarith

/-- a rounded sum of times -/
theorem acc_time {G : FlOps} (h : FlAccurate G u η Ω) (hu : u ≤ 1) (huE : u ≤ E) (hηE : η ≤ E) {t s x x' : ℝ} (ht : |t - s| ≤ d)
    (hs : |s| ≤ B) (hx : |x| ≤ 1) (hx' : |x' - x| ≤ 2 * E) (hE1 : E ≤ 1) (hd1 : d ≤ 1) (hΩ : B + 4 ≤ Ω) : |G.add t x' - (s + x)| ≤ 2 * d + (B + 6) * E := by
  have hE : 0 ≤ E := h.u_nonneg.trans huE
  have hd : 0 ≤ d := (abs_nonneg _).trans ht
  have h2 : |t + x'| ≤ d + 2 * E + (B + 1) := by
    have : t + x' = (t - s) + (x' - x) + (s + x) := by ring
    rw [this]
    have h3 := abs_add_three (t - s) (x' - x) (s + x)
    have h4 := abs_add_le s x
    linarith
  have h1 := h.add t x' (h2.trans (by linarith))
  have hB : 0 ≤ B := (abs_nonneg _).trans hs
  have h3 : u * |t + x'| ≤ d + 2 * E + (B + 1) * E := by
    calc u * |t + x'| ≤ u * (d + 2 * E + (B + 1)) := mul_le_mul_of_nonneg_left h2 h.u_nonneg
      _ = u * (d + 2 * E) + u * (B + 1) := by ring
      _ ≤ 1 * (d + 2 * E) + E * (B + 1) := by gcongr
      _ = _ := by ring
  have e : G.add t x' - (s + x) = (G.add t x' - (t + x')) + (t - s) + (x' - x) := by ring
  rw [e]
  exact (abs_add_three _ _ _).trans (by linarith)

theorem acc_halfdt {G : FlOps} (h : FlAccurate G u η Ω) (huE : u ≤ E) (hηE : η ≤ E) (hdt0 : 0 ≤ dt) (hdt1 : dt ≤ 1)
    (hΩ : 1 ≤ Ω) :
    |G.div dt 2 - dt / 2| ≤ 2 * E := by
  have h1 := h.div dt 2 (by norm_num) (by rw [abs_of_nonneg (by linarith)]; linarith)
  have h2 : u * |dt / 2| ≤ E * 1 := by
    rw [abs_of_nonneg (by linarith)]
    exact mul_le_mul huE (by linarith) (by linarith) (h.u_nonneg.trans huE)
  linarith

/-- a rounded evaluation of the right-hand side at rounded arguments -/
theorem acc_rhs (hT : Tube f Y t0 T ρ B L) (hf : RhsWithin fh f Y t0 T ρ κ) {s : ℝ} (hs : s ∈ Set.Icc t0 T) (hdt0 : 0 ≤ dt) (hdt1 : dt ≤ 1)
    (hE : 0 ≤ E) (hκd : dt * (κ + d) ≤ E) (hκ : 0 ≤ κ) (hd : 0 ≤ d) {t t' : ℝ} {y y' : Vec n} {c : ℝ} (hc : 0 ≤ c)
    (h1 : |t - s| < ρ) (h2 : ‖y - Y s‖ < ρ) (h1' : |t' - s| < ρ) (h2' : ‖y' - Y s‖ < ρ)
    (ht : |t' - t| ≤ 2 * d + (B + 6) * E) (hy : ‖y' - y‖ ≤ c * E) :
    dt * ‖fh t' y' - f t y‖ ≤ (1 + 2 * L + L * (B + 6 + c)) * E := by
  have e1 := hf s hs t' y' h1' h2'
  have e2 := hT.lip s hs t' y' t y h1' h2' h1 h2
  have hL := hT.L_nonneg
  have hB := hT.B_nonneg
  have e3 : ‖fh t' y' - f t y‖ ≤ κ + L * (2 * d + (B + 6) * E + c * E) := by
    have : fh t' y' - f t y = (fh t' y' - f t' y') + (f t' y' - f t y) := by abel
    rw [this]
    refine (norm_add_le _ _).trans (add_le_add e1 (e2.trans (mul_le_mul_of_nonneg_left ?_ hL)))
    linarith
  have a1 : dt * κ ≤ E := le_trans (mul_le_mul_of_nonneg_left (by linarith) hdt0) hκd
  have a2 : dt * d ≤ E := le_trans (mul_le_mul_of_nonneg_left (by linarith) hdt0) hκd
  have a3 : dt * ((B + 6) * E + c * E) ≤ (B + 6 + c) * E := by
    calc dt * ((B + 6) * E + c * E) ≤ 1 * ((B + 6) * E + c * E) := mul_le_mul_of_nonneg_right hdt1 (by positivity)
      _ = _ := by ring
  calc dt * ‖fh t' y' - f t y‖ ≤ dt * (κ + L * (2 * d + (B + 6) * E + c * E)) := mul_le_mul_of_nonneg_left e3 hdt0
    _ = dt * κ + L * (2 * (dt * d) + dt * ((B + 6) * E + c * E)) := by ring
    _ ≤ E + L * (2 * E + (B + 6 + c) * E) := by gcongr
    _ = _ := by ring

set_option maxHeartbeats 1000000 in
/-- **One step of `rk4` in floating point** is within `c (u + η + dt (κ + d))` of the exact step, `d` being the error of the time. -/
theorem rk4_fl_error (hT : Tube f Y t0 T ρ B L) : ∃ c r : ℝ, 0 ≤ c ∧ 0 < r ∧ ∀ (F : ℕ → FlOps) (u η Ω κ d E dt s t' : ℝ) (y : Vec n)
    (fh : ℝ → Vec n → Vec n), (∀ i, FlAccurate (F i) u η Ω) → RhsWithin fh f Y t0 T ρ κ → s ∈ Set.Icc t0 T → c ≤ Ω → 0 < dt → dt ≤ r → u ≤ 1 →
    u ≤ E → η ≤ E → 0 ≤ κ → dt * (κ + d) ≤ E → E ≤ r * dt → |t' - s| ≤ d → d ≤ r → ‖y - Y s‖ ≤ r →
    ‖rk4KernelFl F fh t' y dt - rk4Kernel f s y dt‖ ≤ c * E := by
  have hL := hT.L_nonneg
  have hB := hT.B_nonneg
  have hρ := hT.rho_pos
  obtain ⟨B', hB'⟩ : ∃ B', B' = B + 1 := ⟨_, rfl⟩
  obtain ⟨c2, hc2⟩ : ∃ c2, c2 = 8 * (1 + L) + 8 * B' + 7 := ⟨_, rfl⟩
  have c2p : 0 ≤ c2 := by rw [hc2, hB']; positivity
  obtain ⟨g2, hg2⟩ : ∃ g2, g2 = 1 + 2 * L + L * (B + 6 + c2) := ⟨_, rfl⟩
  have g2p : 0 ≤ g2 := by rw [hg2]; positivity
  obtain ⟨c3, hc3⟩ : ∃ c3, c3 = 8 * g2 + 8 * B' + 7 := ⟨_, rfl⟩
  have c3p : 0 ≤ c3 := by rw [hc3, hB']; positivity
  obtain ⟨g3, hg3⟩ : ∃ g3, g3 = 1 + 2 * L + L * (B + 6 + c3) := ⟨_, rfl⟩
  have g3p : 0 ≤ g3 := by rw [hg3]; positivity
  obtain ⟨c4, hc4⟩ : ∃ c4, c4 = 8 * g3 + 8 * B' + 7 := ⟨_, rfl⟩
  have c4p : 0 ≤ c4 := by rw [hc4, hB']; positivity
  obtain ⟨g4, hg4⟩ : ∃ g4, g4 = 1 + 2 * L + L * (B + 6 + c4) := ⟨_, rfl⟩
  have g4p : 0 ≤ g4 := by rw [hg4]; positivity
  obtain ⟨g, hg⟩ : ∃ g, g = (1 + L) + g2 + g3 + g4 := ⟨_, rfl⟩
  have hB'p : 0 ≤ B' := by rw [hB']; positivity
  have hgp : 0 ≤ g := by rw [hg]; positivity
  set Q := 4 * (B + 10 + c2 + c3 + c4) with hQ
  have hQp : 0 < Q := by positivity
  refine ⟨464 * g + 459 * B' + 159, min 1 (ρ / Q), by positivity, by positivity, ?_⟩
  intro F u η Ω κ d E dt s t' y fh hF hf hs hΩ hdtp hdtr hu huE hηE hκ hκd hErd htd hdr hy
  have hdt0 := hdtp.le
  have hd : 0 ≤ d := (abs_nonneg _).trans htd
  have hE : 0 ≤ E := (hF 0).u_nonneg.trans huE
  have hdt1 : dt ≤ 1 := hdtr.trans (min_le_left _ _)
  set r := min 1 (ρ / Q) with hr
  have hr1 : r ≤ 1 := min_le_left _ _
  have hr0 : 0 < r := by positivity
  have hEr : E ≤ r := hErd.trans (mul_le_of_le_one_right hr0.le hdt1)
  have hEdt : E ≤ dt := hErd.trans (mul_le_of_le_one_left hdt0 hr1)
  have hE1 : E ≤ 1 := hEr.trans hr1
  have hrQ : r * Q ≤ ρ := by
    have : r ≤ ρ / Q := min_le_right _ _
    rwa [le_div_iff₀ hQp] at this
  have hsmall : ∀ x, x ≤ 4 * (B + 9 + c2 + c3 + c4) → r * x < ρ := by
    intro x hx
    have : r * x < r * Q := mul_lt_mul_of_pos_left (by rw [hQ]; linarith) hr0
    linarith
  have hYs := hT.state s hs
  have hyB : ‖y‖ ≤ B' := by
    have : y = (y - Y s) + Y s := by abel
    rw [this, hB']
    refine (norm_add_le _ _).trans ?_
    linarith
  -- membership in the tube
  have hss := hT.time s hs
  have m0 : ∀ x, 0 ≤ x → x ≤ dt → |s + x - s| < ρ := by
    intro x h0 h1
    rw [add_sub_cancel_left, abs_of_nonneg h0]
    have := hsmall 1 (by linarith)
    linarith
  have m0' : ∀ t x, 0 ≤ x → x ≤ dt → |t - (s + x)| ≤ 2 * d + (B + 6) * E → |t - s| < ρ := by
    intro t x h0 h1 h2
    have : t - s = (t - (s + x)) + x := by ring
    rw [this]
    have h3 := abs_add_le (t - (s + x)) x
    rw [abs_of_nonneg h0] at h3
    have h4 := hsmall (B + 9) (by linarith)
    have h5 : (B + 6) * E ≤ (B + 6) * r := mul_le_mul_of_nonneg_left hEr (by linarith)
    nlinarith [h3, h4, h5]
  have m1 : ∀ (v : Vec n) (x : ℝ), ‖v‖ ≤ B → 0 ≤ x → x ≤ dt → ‖y + x • v - Y s‖ ≤ (1 + B) * r := by
    intro v x hv h0 h1
    have : y + x • v - Y s = (y - Y s) + x • v := by abel
    rw [this]
    have h3 := norm_add_le (y - Y s) (x • v)
    rw [norm_smul, Real.norm_of_nonneg h0] at h3
    have h4 : x * ‖v‖ ≤ r * B := mul_le_mul (h1.trans hdtr) hv (norm_nonneg _) hr0.le
    linarith
  have m2 : ∀ (v v' : Vec n) (c : ℝ), 0 ≤ c → c ≤ c2 + c3 + c4 → ‖v - Y s‖ ≤ (1 + B) * r → ‖v' - v‖ ≤ c * E → ‖v' - Y s‖ < ρ := by
    intro v v' c h0 h1 h2 h3
    have : v' - Y s = (v' - v) + (v - Y s) := by abel
    rw [this]
    have h4 := norm_add_le (v' - v) (v - Y s)
    have h5 : c * E ≤ c * r := mul_le_mul_of_nonneg_left hEr h0
    have h6 := hsmall (1 + B + c) (by linarith)
    nlinarith [h4, h5, h6]
  have mρ : (1 + B) * r < ρ := by
    have := hsmall (1 + B) (by linarith)
    linarith
  -- first evaluation
  have hy0 : ‖y - Y s‖ < ρ := by have := hsmall 1 (by linarith); linarith
  have ht0 : |t' - s| < ρ := by have := hsmall 1 (by linarith); linarith
  have hss0 : |s - s| < ρ := by simpa using hρ
  set f1 := f s y with hf1
  set f1' := fh t' y with hf1'
  have b1 : ‖f1‖ ≤ B := hT.bound s hs s y hss0 hy0
  have e1 : dt * ‖f1' - f1‖ ≤ (1 + L) * E := by
    have a1 := hf s hs t' y ht0 hy0
    have a2 := hT.lip s hs t' y s y ht0 hy0 hss0 hy0
    rw [sub_self, norm_zero, add_zero] at a2
    have a3 : ‖f1' - f1‖ ≤ κ + L * d := by
      have : f1' - f1 = (fh t' y - f t' y) + (f t' y - f s y) := by rw [hf1, hf1']; abel
      rw [this]
      exact (norm_add_le _ _).trans (add_le_add a1 (a2.trans (mul_le_mul_of_nonneg_left htd hL)))
    have a4 : dt * κ ≤ E := le_trans (mul_le_mul_of_nonneg_left (by linarith) hdt0) hκd
    have a5 : dt * d ≤ E := le_trans (mul_le_mul_of_nonneg_left (by linarith) hdt0) hκd
    calc dt * ‖f1' - f1‖ ≤ dt * (κ + L * d) := mul_le_mul_of_nonneg_left a3 hdt0
      _ = dt * κ + L * (dt * d) := by ring
      _ ≤ E + L * E := by gcongr
      _ = _ := by ring
  have hBB : B ≤ B' := by linarith
  have hh0 : 0 ≤ dt / 2 := by linarith
  have hh1 : dt / 2 ≤ dt := by linarith
  have hhx : |dt / 2| ≤ 1 := by rw [abs_of_nonneg hh0]; linarith
  -- second stage
  have q2 := acc_half (hF 2) (hF 3) (hF 4) hu huE hηE hE1 hdt0 hdt1 (by linarith) (by linarith) hyB (b1.trans hBB) e1
  rw [← hc2] at q2
  have t2 := acc_time (hF 0) hu huE hηE htd hss hhx (acc_halfdt (hF 1) huE hηE hdt0 hdt1 (by linarith)) hE1 (hdr.trans hr1) (by linarith)
  set y2 := y + (dt / 2) • f1 with hy2
  set y2' := (F 2).addV y ((F 3).divV ((F 4).mulVr f1' dt) 2) with hy2'
  set τ2 := (F 0).add t' ((F 1).div dt 2) with hτ2
  have n2 := m1 f1 (dt / 2) b1 hh0 hh1
  have e2 := acc_rhs hT hf hs hdt0 hdt1 hE hκd hκ hd c2p (m0 _ hh0 hh1) (n2.trans_lt mρ) (m0' _ _ hh0 hh1 t2)
    (m2 y2 y2' c2 c2p (by linarith) n2 q2) t2 q2
  rw [← hg2] at e2
  have b2 : ‖f (s + dt / 2) y2‖ ≤ B := hT.bound s hs _ _ (m0 _ hh0 hh1) (n2.trans_lt mρ)
  set f2 := f (s + dt / 2) y2 with hf2
  set f2' := fh τ2 y2' with hf2'
  -- third stage
  have q3 := acc_half (hF 7) (hF 8) (hF 9) hu huE hηE hE1 hdt0 hdt1 g2p (by linarith) hyB (b2.trans hBB) e2
  rw [← hc3] at q3
  have t3 := acc_time (hF 5) hu huE hηE htd hss hhx (acc_halfdt (hF 6) huE hηE hdt0 hdt1 (by linarith)) hE1 (hdr.trans hr1) (by linarith)
  set y3 := y + (dt / 2) • f2 with hy3
  set y3' := (F 7).addV y ((F 8).divV ((F 9).mulVr f2' dt) 2) with hy3'
  set τ3 := (F 5).add t' ((F 6).div dt 2) with hτ3
  have n3 := m1 f2 (dt / 2) b2 hh0 hh1
  have e3 := acc_rhs hT hf hs hdt0 hdt1 hE hκd hκ hd c3p (m0 _ hh0 hh1) (n3.trans_lt mρ) (m0' _ _ hh0 hh1 t3)
    (m2 y3 y3' c3 c3p (by linarith) n3 q3) t3 q3
  rw [← hg3] at e3
  have b3 : ‖f (s + dt / 2) y3‖ ≤ B := hT.bound s hs _ _ (m0 _ hh0 hh1) (n3.trans_lt mρ)
  set f3 := f (s + dt / 2) y3 with hf3
  set f3' := fh τ3 y3' with hf3'
  -- fourth stage
  have q4 := acc_full (hF 11) (hF 12) hu huE hηE hE1 hdt0 hdt1 g3p (by linarith) hyB (b3.trans hBB) e3
  rw [← hc4] at q4
  have t4 := acc_time (hF 10) hu huE hηE htd hss (x := dt) (x' := dt) (by rw [abs_of_nonneg hdt0]; exact hdt1) (by simpa using hE) hE1 (hdr.trans hr1)
    (by linarith)
  set y4 := y + dt • f3 with hy4
  set y4' := (F 11).addV y ((F 12).mulVr f3' dt) with hy4'
  set τ4 := (F 10).add t' dt with hτ4
  have n4 := m1 f3 dt b3 hdt0 le_rfl
  have e4 := acc_rhs hT hf hs hdt0 hdt1 hE hκd hκ hd c4p (m0 _ hdt0 le_rfl) (n4.trans_lt mρ) (m0' _ _ hdt0 le_rfl t4)
    (m2 y4 y4' c4 c4p (by linarith) n4 q4) t4 q4
  rw [← hg4] at e4
  have b4 : ‖f (s + dt) y4‖ ≤ B := hT.bound s hs _ _ (m0 _ hdt0 le_rfl) (n4.trans_lt mρ)
  set f4 := f (s + dt) y4 with hf4
  set f4' := fh τ4 y4' with hf4'
  -- common bound
  have up : ∀ (x gi : ℝ), gi ≤ g → x ≤ gi * E → x ≤ g * E := fun x gi h1 h2 => h2.trans (mul_le_mul_of_nonneg_right h1 hE)
  have k1 := up _ _ (by linarith) e1
  have k2 := up _ _ (by linarith) e2
  have k3 := up _ _ (by linarith) e3
  have k4 := up _ _ (by linarith) e4
  have two : |(2 : ℝ)| = 2 := abs_of_pos two_pos
  have ntwo : ∀ v : Vec n, ‖v‖ ≤ B → ‖(2 : ℝ) • v‖ ≤ 2 * B' := by
    intro v hv
    rw [norm_smul, Real.norm_of_nonneg two_pos.le]
    linarith
  have s2 := acc_mul (hF 19) hu huE hηE hdtp hdt1 hEdt (a' := f2') (a := f2) (c := 2) (p := 2 * g) (M := 2 * B') (by linarith) (by linarith)
    (by rw [two]; linarith) (ntwo f2 b2)
  have s3 := acc_mul (hF 20) hu huE hηE hdtp hdt1 hEdt (a' := f3') (a := f3) (c := 2) (p := 2 * g) (M := 2 * B') (by linarith) (by linarith)
    (by rw [two]; linarith) (ntwo f3 b3)
  have bA : ‖f1 + (2 : ℝ) • f2‖ ≤ 3 * B' := (norm_add_le _ _).trans (by have := ntwo f2 b2; linarith)
  have sA := acc_add (hF 18) hu huE hηE hdtp hdt1 hEdt (by linarith) (by linarith) (by linarith) k1 s2 bA
  have bB : ‖f1 + (2 : ℝ) • f2 + (2 : ℝ) • f3‖ ≤ 5 * B' := (norm_add_le _ _).trans (by have := ntwo f3 b3; linarith)
  have sB := acc_add (hF 17) hu huE hηE hdtp hdt1 hEdt (by linarith) (by linarith) (by linarith) sA s3 bB
  have bC : ‖f1 + (2 : ℝ) • f2 + (2 : ℝ) • f3 + f4‖ ≤ 6 * B' := (norm_add_le _ _).trans (by linarith)
  have sC := acc_add (hF 16) hu huE hηE hdtp hdt1 hEdt (by linarith) (by linarith) (by linarith) sB k4 bC
  set S := f1 + (2 : ℝ) • f2 + (2 : ℝ) • f3 + f4 with hS
  have bD : ‖dt • S‖ ≤ 6 * B' := by
    rw [norm_smul, Real.norm_of_nonneg hdt0]
    calc dt * ‖S‖ ≤ 1 * (6 * B') := mul_le_mul hdt1 bC (norm_nonneg _) zero_le_one
      _ = _ := one_mul _
  have sD := acc_mul (hF 15) hu huE hηE (w := 1) one_pos le_rfl hE1 (c := dt) (M := 6 * B')
    (p := 58 * g + 52 * B' + 19) (by linarith) (by linarith) (by rw [abs_of_nonneg hdt0, one_mul]; refine sC.trans (le_of_eq ?_); ring) bD
  rw [one_mul] at sD
  have sE := acc_div (hF 14) hu huE hηE hE1 (c := 6) (by norm_num) (by linarith) (by linarith) sD bD
  have e6 : ((1 : ℝ) / 6) • (dt • S) = (dt / 6) • S := by rw [smul_smul]; congr 1; ring
  rw [e6] at sE
  have bE : ‖y + (dt / 6) • S‖ ≤ 7 * B' := by
    refine (norm_add_le _ _).trans ?_
    rw [← e6, norm_smul]
    have : ‖(1 / 6 : ℝ)‖ = 1 / 6 := by norm_num
    rw [this]
    linarith [norm_nonneg (dt • S)]
  have sF := acc_add (hF 13) hu huE hηE (w := 1) one_pos le_rfl hE1 (a' := y) (a := y) (p := 0) (q := 232 * g + 226 * B' + 79) (M := 7 * B') le_rfl
    (by linarith) (by linarith) (by simp)
    (by rw [one_mul]; refine sE.trans (le_of_eq ?_); ring) bE
  rw [one_mul] at sF
  have fin := sF.trans (mul_le_mul_of_nonneg_right (show _ ≤ 464 * g + 459 * B' + 159 by linarith) hE)
  exact fin

end step

end

end Ormatex.Props
