import Verif.Props.RobustNewton
import Verif.Props.RsConvergeReal

/-!
C121: runs of the implicit methods of `integrate_wrapper_rs` on nonlinear systems.
-/

namespace Ormatex.Props
open Filter Asymptotics Topology Matrix Ormatex.Spec Ormatex.Rs
open scoped Classical NNReal
open scoped Matrix.Norms.Operator

section
variable {n : ℕ} {f : ℝ → Vec n → Vec n} {Y : ℝ → Vec n} {t0 T : ℝ}

/-- uniform Lipschitz constant in a tube, both arguments free -/
theorem LipIVP.tube2 (h : LipIVP f Y t0 T) : ∃ Λ ρ : ℝ, 0 ≤ Λ ∧ 0 < ρ ∧
    ∀ t ∈ Set.Icc t0 T, ∀ t1 t2 y1 y2, |t1 - t| < ρ → |t2 - t| < ρ → ‖y1 - Y t‖ < ρ → ‖y2 - Y t‖ < ρ →
      ‖f t1 y1 - f t2 y2‖ ≤ Λ * (|t1 - t2| + ‖y1 - y2‖) := by
  have key : ∃ Λ ρ : ℝ, 0 ≤ Λ ∧ 0 < ρ ∧
      ∀ t ∈ Set.Icc t0 T, t ∈ Set.Icc t0 T → ∀ t1 t2 y1 y2, |t1 - t| < ρ → |t2 - t| < ρ → ‖y1 - Y t‖ < ρ → ‖y2 - Y t‖ < ρ →
        ‖f t1 y1 - f t2 y2‖ ≤ Λ * (|t1 - t2| + ‖y1 - y2‖) := by
    refine isCompact_Icc.induction_on (p := fun S => ∃ Λ ρ : ℝ, 0 ≤ Λ ∧ 0 < ρ ∧
      ∀ t ∈ S, t ∈ Set.Icc t0 T → ∀ t1 t2 y1 y2, |t1 - t| < ρ → |t2 - t| < ρ → ‖y1 - Y t‖ < ρ → ‖y2 - Y t‖ < ρ →
        ‖f t1 y1 - f t2 y2‖ ≤ Λ * (|t1 - t2| + ‖y1 - y2‖)) ⟨0, 1, le_rfl, one_pos, by simp⟩ ?_ ?_ ?_
    · rintro S S' hss ⟨C, δ, h1, h2, h3⟩
      exact ⟨C, δ, h1, h2, fun t ht => h3 t (hss ht)⟩
    · rintro S S' ⟨C, δ, h1, h2, h3⟩ ⟨C', δ', h1', h2', h3'⟩
      refine ⟨max C C', min δ δ', le_max_of_le_left h1, lt_min h2 h2', ?_⟩
      rintro t (ht | ht) hti t1 t2 y1 y2 e1 e2 e3 e4
      · rw [lt_min_iff] at e1 e2 e3 e4
        exact (h3 t ht hti t1 t2 y1 y2 e1.1 e2.1 e3.1 e4.1).trans (mul_le_mul_of_nonneg_right (le_max_left _ _) (by positivity))
      · rw [lt_min_iff] at e1 e2 e3 e4
        exact (h3' t ht hti t1 t2 y1 y2 e1.2 e2.2 e3.2 e4.2).trans (mul_le_mul_of_nonneg_right (le_max_right _ _) (by positivity))
    · intro s hs
      obtain ⟨Λ, U, hU, hl⟩ := h.lip s hs
      obtain ⟨η, hη, hb⟩ := Metric.mem_nhds_iff.1 hU
      obtain ⟨ε, hε, hc⟩ := Metric.continuousWithinAt_iff.1 (h.cont s hs) (η / 2) (by linarith)
      have hin : ∀ t ∈ Metric.ball s (min (η / 2) ε), t ∈ Set.Icc t0 T → ∀ t' y, |t' - t| < η / 2 → ‖y - Y t‖ < η / 2 →
          ((t', y) : ℝ × Vec n) ∈ Metric.ball ((s, Y s) : ℝ × Vec n) η := by
        intro t ht hti t' y e1 e2
        rw [Metric.mem_ball, lt_min_iff] at ht
        have hY := hc hti ht.2
        rw [Metric.mem_ball, Prod.dist_eq, max_lt_iff]
        constructor
        · calc dist t' s ≤ dist t' t + dist t s := dist_triangle _ _ _
            _ < η := by rw [Real.dist_eq t' t]; linarith [ht.1]
        · calc dist y (Y s) ≤ dist y (Y t) + dist (Y t) (Y s) := dist_triangle _ _ _
            _ < η := by rw [dist_eq_norm y]; linarith
      refine ⟨Metric.ball s (min (η / 2) ε), mem_nhdsWithin_of_mem_nhds (Metric.ball_mem_nhds s (by positivity)), Λ, η / 2, Λ.2, by linarith, ?_⟩
      intro t ht hti t1 t2 y1 y2 e1 e2 e3 e4
      have := hl.dist_le_mul _ (hb (hin t ht hti t1 y1 e1 e3)) _ (hb (hin t ht hti t2 y2 e2 e4))
      rw [dist_eq_norm, Prod.dist_eq, Real.dist_eq, dist_eq_norm] at this
      refine this.trans (mul_le_mul_of_nonneg_left ?_ Λ.2)
      exact max_le (by linarith [norm_nonneg (y1 - y2)]) (by linarith [abs_nonneg (t1 - t2)])
  obtain ⟨Λ, ρ, h1, h2, h3⟩ := key
  exact ⟨Λ, ρ, h1, h2, fun t ht => h3 t ht ht⟩

/-- Near the solution, also at times slightly outside `[t0, T]` (the implicit steps evaluate at `t + 2 dt`), the operator that `fjac`
hands out is a matrix of bounded size.  It need not be the Jacobian matrix. -/
def TameJacsRs (sys : Sys n) (Y : ℝ → Vec n) (t0 T : ℝ) : Prop :=
  ∃ B ρ : ℝ, 0 < ρ ∧ ∀ t ∈ Set.Icc t0 T, ∀ t' y, |t' - t| < ρ → ‖y - Y t‖ < ρ → ∃ J, IsMatrix (sys.fjac t' y) J ∧ ‖J‖ ≤ B

theorem shifted_isMatrix {sys : Sys n} {t : ℝ} {y : Vec n} {J : Mat n} (h : IsMatrix (sys.fjac t y) J) (a : ℝ) :
    IsMatrix (sys.fjacShifted t y (-a) (some 1)) (1 - a • J) := by
  intro v
  simp only [Sys.fjacShifted, shiftedLinOp, LinOp.call]
  rw [h v, sub_mulVec, one_mulVec, smul_mulVec, one_smul, neg_smul]
  abel

/-- the Newton iteration of an implicit step with residual `z - w - a f(s, z)` -/
theorem implicit_core (gmres : Gmres n) {η q B γ a τ s : ℝ} (hη : 0 ≤ η) (hq : 0 ≤ q) (hg : GmresTo η gmres) (sys : Sys n) {y w : Vec n}
    (frhs : ℝ → Vec n → Vec n) (jac : ℝ → Vec n → LinOp n) (Jf : Vec n → Mat n) (ha : 0 ≤ a)
    (hG : ∀ z, frhs τ z = z - w - a • sys.frhs s z) (hj : ∀ z, jac τ z = sys.fjacShifted s z (-a) (some 1))
    (hγ : ‖y - w - a • sys.frhs s y‖ ≤ γ)
    (hJ : ∀ z, ‖z - y‖ ≤ 8 * γ → IsMatrix (sys.fjac s z) (Jf z) ∧ ‖Jf z‖ ≤ B)
    (hlin : ∀ z z', ‖z - y‖ ≤ 8 * γ → ‖z' - y‖ ≤ 8 * γ →
      ‖sys.frhs s z - sys.frhs s z' - Jf z *ᵥ (z - z')‖ ≤ q * ‖z - z'‖)
    (hB : a * B ≤ 1 / 2) (hθ : η + 4 * (a * q) ≤ 1 / 2) (htol : Real.sqrt n * (4 * γ) < 1e-6 * 2 ^ 99) :
    ∃ z, jacNewton gmres τ y frhs jac 1e-6 1e-8 100 1000 = .ok z ∧ ‖z - w - a • sys.frhs s z‖ ≤ (η + 4 * (a * q)) * γ ∧
      ‖z - y‖ ≤ 8 * γ := by
  have hγ' : ‖frhs τ y‖ ≤ γ := by rw [hG]; exact hγ
  have hsub : ∀ z, ‖z - y‖ ≤ 8 * ‖frhs τ y‖ → ‖z - y‖ ≤ 8 * γ := fun z hz => hz.trans (by linarith)
  obtain ⟨z, g1, g2, g3⟩ := C121_newton gmres hη (mul_nonneg ha hq) hθ hg τ frhs jac (fun z => a • Jf z) 1e-6 1e-8 1000 99 y 0
    (by
      intro z hz
      obtain ⟨h1, h2⟩ := hJ z (hsub z hz)
      constructor
      · rw [norm_smul, Real.norm_of_nonneg ha]
        exact (mul_le_mul_of_nonneg_left h2 ha).trans hB
      · rw [hj]; exact shifted_isMatrix h1 a)
    (by
      intro z z' hz hz'
      have h1 := hlin z z' (hsub z hz) (hsub z' hz')
      have e : frhs τ z - frhs τ z' - (1 - a • Jf z) *ᵥ (z - z') = -(a • (sys.frhs s z - sys.frhs s z' - Jf z *ᵥ (z - z'))) := by
        rw [hG, hG, sub_mulVec, one_mulVec, smul_mulVec]; module
      rw [e, norm_neg, norm_smul, Real.norm_of_nonneg ha, mul_assoc]
      exact mul_le_mul_of_nonneg_left h1 ha)
    (lt_of_le_of_lt (mul_le_mul_of_nonneg_left (by linarith) (Real.sqrt_nonneg _)) htol)
  refine ⟨z, g1, ?_, g3.trans (by linarith)⟩
  rw [← hG]
  exact g2.trans (mul_le_mul_of_nonneg_left hγ' (by positivity))

private theorem bindOk {α β : Type} {x : RsM α} {a : α} (h : x = .ok a) (g : α → β) :
    (do let r ← x; pure (g r) : RsM β) = .ok (g a) := by
  rw [h]; rfl

variable {gmres : Gmres n} {η q B γ : ℝ} {sys : Sys n} {s : Bdf n} {y : Vec n} {l : List (Vec n)} {dt : ℝ} {Jf : Vec n → Mat n}

/-- backward Euler step on a nonlinear system -/
theorem step1_newton (hη : 0 ≤ η) (hq : 0 ≤ q) (hg : GmresTo η gmres) (hy : s.yHist = y :: l) (hdt : 0 ≤ dt)
    (hγ : ‖dt • sys.frhs (s.t + 2 * dt) y‖ ≤ γ)
    (hJ : ∀ z, ‖z - y‖ ≤ 8 * γ → IsMatrix (sys.fjac (s.t + 2 * dt) z) (Jf z) ∧ ‖Jf z‖ ≤ B)
    (hlin : ∀ z z', ‖z - y‖ ≤ 8 * γ → ‖z' - y‖ ≤ 8 * γ →
      ‖sys.frhs (s.t + 2 * dt) z - sys.frhs (s.t + 2 * dt) z' - Jf z *ᵥ (z - z')‖ ≤ q * ‖z - z'‖)
    (hB : dt * B ≤ 1 / 2) (hθ : η + 4 * (dt * q) ≤ 1 / 2) (htol : Real.sqrt n * (4 * γ) < 1e-6 * 2 ^ 99) :
    ∃ z, Bdf.stepOrder1 gmres sys s dt = .ok ⟨s.t + dt, dt, z, none⟩ ∧
      ‖z - y - dt • sys.frhs (s.t + 2 * dt) z‖ ≤ (η + 4 * (dt * q)) * γ ∧ ‖z - y‖ ≤ 8 * γ := by
  have et : s.t + dt + dt = s.t + 2 * dt := by ring
  obtain ⟨z, g1, g2, g3⟩ := implicit_core gmres (τ := s.t + dt) (w := y) hη hq hg sys
    (fun (t : ℝ) (z : Vec n) => -(dt • sys.frhs (t + dt) z) - y + z)
    (fun (t : ℝ) (z : Vec n) => sys.fjacShifted (t + dt) z (-dt) (some 1)) Jf hdt
    (by intro z; simp only [et]; abel) (by intro z; simp only [et])
    (by rw [sub_self, zero_sub, norm_neg]; exact hγ) hJ hlin hB hθ htol
  refine ⟨z, ?_, g2, g3⟩
  unfold Bdf.stepOrder1
  rw [hy]
  exact bindOk g1 _

/-- Crank-Nicolson step on a nonlinear system -/
theorem stepCn_newton (hη : 0 ≤ η) (hq : 0 ≤ q) (hg : GmresTo η gmres) (hy : s.yHist = y :: l) (hdt : 0 ≤ dt)
    (hγ : ‖(dt / 2) • sys.frhs (s.t + dt) y + (dt / 2) • sys.frhs (s.t + 2 * dt) y‖ ≤ γ)
    (hJ : ∀ z, ‖z - y‖ ≤ 8 * γ → IsMatrix (sys.fjac (s.t + 2 * dt) z) (Jf z) ∧ ‖Jf z‖ ≤ B)
    (hlin : ∀ z z', ‖z - y‖ ≤ 8 * γ → ‖z' - y‖ ≤ 8 * γ →
      ‖sys.frhs (s.t + 2 * dt) z - sys.frhs (s.t + 2 * dt) z' - Jf z *ᵥ (z - z')‖ ≤ q * ‖z - z'‖)
    (hB : dt * B ≤ 1 / 2) (hB0 : 0 ≤ B) (hθ : η + 4 * (dt * q) ≤ 1 / 2) (htol : Real.sqrt n * (4 * γ) < 1e-6 * 2 ^ 99) :
    ∃ z, Bdf.stepCn gmres sys s dt = .ok ⟨s.t + dt, dt, z, none⟩ ∧
      ‖z - (y + (dt / 2) • sys.frhs (s.t + dt) y) - (dt / 2) • sys.frhs (s.t + 2 * dt) z‖ ≤ (η + 4 * (dt * q)) * γ ∧
      ‖z - y‖ ≤ 8 * γ := by
  have et : s.t + dt + dt = s.t + 2 * dt := by ring
  have e2 : dt * 0.5 = dt / 2 := by norm_num; ring
  have e3 : -0.5 * dt = -(dt / 2) := by norm_num; ring
  have hγ0 : 0 ≤ γ := (norm_nonneg _).trans hγ
  have hdq : 0 ≤ dt * q := mul_nonneg hdt hq
  have hdB : 0 ≤ dt * B := mul_nonneg hdt hB0
  obtain ⟨z, g1, g2, g3⟩ := implicit_core gmres (τ := s.t + dt) (w := y + (dt / 2) • sys.frhs (s.t + dt) y) (a := dt / 2)
    hη hq hg sys
    (fun (t : ℝ) (z : Vec n) => -((dt * 0.5) • sys.frhs (t + dt) z) - (dt * 0.5) • sys.frhs t y - y + z)
    (fun (t : ℝ) (z : Vec n) => sys.fjacShifted (t + dt) z (-0.5 * dt) (some 1)) Jf (by linarith)
    (by intro z; simp only [et, e2]; abel) (by intro z; simp only [et, e3])
    (by
      have e : y - (y + (dt / 2) • sys.frhs (s.t + dt) y) - (dt / 2) • sys.frhs (s.t + 2 * dt) y =
        -((dt / 2) • sys.frhs (s.t + dt) y + (dt / 2) • sys.frhs (s.t + 2 * dt) y) := by abel
      rw [e, norm_neg]; exact hγ) hJ hlin (by linarith) (by linarith) htol
  refine ⟨z, ?_, g2.trans (mul_le_mul_of_nonneg_right (by linarith) hγ0), g3⟩
  unfold Bdf.stepCn
  rw [hy]
  exact bindOk g1 _

/-- BDF2 step on a nonlinear system -/
theorem step2_newton (hη : 0 ≤ η) (hq : 0 ≤ q) (hg : GmresTo η gmres) (ho : s.order = 2) {yp : Vec n} (hy : s.yHist = y :: yp :: l)
    (hdt : 0 ≤ dt) (hγ : ‖(1 / 3 : ℝ) • (y - yp) + (2 * dt / 3) • sys.frhs (s.t + 2 * dt) y‖ ≤ γ)
    (hJ : ∀ z, ‖z - y‖ ≤ 8 * γ → IsMatrix (sys.fjac (s.t + 2 * dt) z) (Jf z) ∧ ‖Jf z‖ ≤ B)
    (hlin : ∀ z z', ‖z - y‖ ≤ 8 * γ → ‖z' - y‖ ≤ 8 * γ →
      ‖sys.frhs (s.t + 2 * dt) z - sys.frhs (s.t + 2 * dt) z' - Jf z *ᵥ (z - z')‖ ≤ q * ‖z - z'‖)
    (hB : dt * B ≤ 1 / 2) (hB0 : 0 ≤ B) (hθ : η + 4 * (dt * q) ≤ 1 / 2) (htol : Real.sqrt n * (4 * γ) < 1e-6 * 2 ^ 99) :
    ∃ z, Bdf.stepOrder2 gmres sys s dt = .ok ⟨s.t + dt, dt, z, none⟩ ∧
      ‖z - ((4 / 3 : ℝ) • y - (1 / 3 : ℝ) • yp) - (2 * dt / 3) • sys.frhs (s.t + 2 * dt) z‖ ≤ (η + 4 * (dt * q)) * γ ∧
      ‖z - y‖ ≤ 8 * γ := by
  have et : s.t + dt + dt = s.t + 2 * dt := by ring
  have e3 : -2 * dt / 3 = -(2 * dt / 3) := by ring
  have hγ0 : 0 ≤ γ := (norm_nonneg _).trans hγ
  have hdq : 0 ≤ dt * q := mul_nonneg hdt hq
  have hdB : 0 ≤ dt * B := mul_nonneg hdt hB0
  have hgfn : ∀ t x, Bdf.nonlinGfn sys s t x dt 2 =
      .ok (x - (4 / 3 : ℝ) • y + (1 / 3 : ℝ) • yp - (2 * dt / 3) • sys.frhs (t + dt) x) := by
    intro t x
    unfold Bdf.nonlinGfn
    rw [hy]
    rfl
  obtain ⟨z, g1, g2, g3⟩ := implicit_core gmres (τ := s.t + dt) (w := (4 / 3 : ℝ) • y - (1 / 3 : ℝ) • yp) (a := 2 * dt / 3)
    hη hq hg sys
    (fun (t : ℝ) (x : Vec n) => x - (4 / 3 : ℝ) • y + (1 / 3 : ℝ) • yp - (2 * dt / 3) • sys.frhs (t + dt) x)
    (fun (t : ℝ) (z : Vec n) => sys.fjacShifted (t + dt) z (-2 * dt / 3) (some 1)) Jf (by linarith)
    (by intro z; simp only [et]; abel) (by intro z; simp only [et, e3])
    (by
      have e : y - ((4 / 3 : ℝ) • y - (1 / 3 : ℝ) • yp) - (2 * dt / 3) • sys.frhs (s.t + 2 * dt) y =
        -((1 / 3 : ℝ) • (y - yp) + (2 * dt / 3) • sys.frhs (s.t + 2 * dt) y) := by module
      rw [e, norm_neg]; exact hγ) hJ hlin (by linarith) (by linarith) htol
  refine ⟨z, ?_, g2.trans (mul_le_mul_of_nonneg_right (by linarith) hγ0), g3⟩
  unfold Bdf.stepOrder2
  rw [ho]
  simp only [hgfn, Bdf.nonlinScale]
  rw [hy]
  exact bindOk g1 _

/-- right-hand side and Jacobian operators near the point `(t, c)` -/
structure ImplBox (sys : Sys n) (t : ℝ) (c : Vec n) (Λ B F ρ : ℝ) : Prop where
  lip : ∀ t1 t2 y1 y2, |t1 - t| < ρ → |t2 - t| < ρ → ‖y1 - c‖ < ρ → ‖y2 - c‖ < ρ →
    ‖sys.frhs t1 y1 - sys.frhs t2 y2‖ ≤ Λ * (|t1 - t2| + ‖y1 - y2‖)
  size : ∀ t' y, |t' - t| < ρ → ‖y - c‖ < ρ → ‖sys.frhs t' y‖ ≤ F
  jac : ∀ t' y, |t' - t| < ρ → ‖y - c‖ < ρ → ∃ J, IsMatrix (sys.fjac t' y) J ∧ ‖J‖ ≤ B

/-- step sizes and solver residuals for which Newton's method contracts -/
structure ImplSmall (n : ℕ) (dt η Λ B F ρ : ℝ) : Prop where
  Λ0 : 0 ≤ Λ
  B0 : 0 ≤ B
  F0 : 0 ≤ F
  η0 : 0 ≤ η
  pos : 0 < dt
  time : 2 * dt < ρ
  ball : 64 * (dt * F) < ρ
  jac : dt * B ≤ 1 / 2
  newton : η + 4 * (dt * (Λ + B)) ≤ 1 / 2
  tol : Real.sqrt n * (16 * (dt * F)) < 1e-6 * 2 ^ 99

/-- constant in the increment estimates -/
noncomputable def implConst (Λ B F : ℝ) : ℝ := 4 * F * (1 + 4 * (Λ + B)) + Λ * (2 + 32 * F)

theorem implConst_nonneg {Λ B F : ℝ} (h1 : 0 ≤ Λ) (h2 : 0 ≤ B) (h3 : 0 ≤ F) : 0 ≤ implConst Λ B F := by unfold implConst; positivity

section
variable {t Λ F ρ : ℝ} {c : Vec n} (hb : ImplBox sys t c Λ B F ρ) (hs : ImplSmall n dt η Λ B F ρ) (hg : GmresTo η gmres)
  (ht : s.t = t) (hy : s.yHist = y :: l) (hyc : ‖y - c‖ < ρ / 2)
include hb hs hg ht hy hyc

omit hg ht hy in
/-- operators chosen in the ball around the current state -/
theorem impl_choice {γ : ℝ} (hγ : 8 * γ < ρ / 2) : ∃ Jf : Vec n → Mat n,
    (∀ z, ‖z - y‖ ≤ 8 * γ → ‖z - c‖ < ρ) ∧
    (∀ z, ‖z - y‖ ≤ 8 * γ → IsMatrix (sys.fjac (t + 2 * dt) z) (Jf z) ∧ ‖Jf z‖ ≤ B) ∧
    ∀ z z', ‖z - y‖ ≤ 8 * γ → ‖z' - y‖ ≤ 8 * γ →
      ‖sys.frhs (t + 2 * dt) z - sys.frhs (t + 2 * dt) z' - Jf z *ᵥ (z - z')‖ ≤ (Λ + B) * ‖z - z'‖ := by
  have h2 : |t + 2 * dt - t| < ρ := by
    rw [add_sub_cancel_left, abs_of_pos (by linarith [hs.pos])]; exact hs.time
  have hin : ∀ z, ‖z - y‖ ≤ 8 * γ → ‖z - c‖ < ρ := by
    intro z hz
    have := norm_add_le (z - y) (y - c)
    rw [sub_add_sub_cancel] at this
    linarith
  have hex : ∀ z, ∃ J : Mat n, ‖z - y‖ ≤ 8 * γ → IsMatrix (sys.fjac (t + 2 * dt) z) J ∧ ‖J‖ ≤ B := by
    intro z
    by_cases hz : ‖z - y‖ ≤ 8 * γ
    · obtain ⟨J, hJ⟩ := hb.jac (t + 2 * dt) z h2 (hin z hz)
      exact ⟨J, fun _ => hJ⟩
    · exact ⟨0, fun h => absurd h hz⟩
  choose Jf hJ using hex
  refine ⟨Jf, hin, hJ, fun z z' hz hz' => ?_⟩
  have h3 := hb.lip (t + 2 * dt) (t + 2 * dt) z z' h2 h2 (hin z hz) (hin z' hz')
  rw [sub_self, abs_zero, zero_add] at h3
  have h4 := Matrix.linfty_opNorm_mulVec (Jf z) (z - z')
  have h5 := mul_le_mul_of_nonneg_right (hJ z hz).2 (norm_nonneg (z - z'))
  have h6 := norm_sub_le (sys.frhs (t + 2 * dt) z - sys.frhs (t + 2 * dt) z') (Jf z *ᵥ (z - z'))
  linarith

omit hg ht hy in
/-- change of the right-hand side over a step -/
theorem impl_change {γ : ℝ} (hγ : 8 * γ < ρ / 2) (hγF : γ ≤ dt * (4 * F)) {z : Vec n} (hz : ‖z - y‖ ≤ 8 * γ) :
    ‖sys.frhs (t + 2 * dt) z - sys.frhs t y‖ ≤ Λ * (2 + 32 * F) * dt := by
  have hdt := hs.pos
  have h2 : |t + 2 * dt - t| < ρ := by
    rw [add_sub_cancel_left, abs_of_pos (by linarith)]; exact hs.time
  have hρ : 0 < ρ := by linarith [hs.time]
  have hzc : ‖z - c‖ < ρ := by
    have := norm_add_le (z - y) (y - c)
    rw [sub_add_sub_cancel] at this
    linarith
  have h := hb.lip (t + 2 * dt) t z y h2 (by simpa using hρ) hzc (by linarith)
  rw [add_sub_cancel_left, abs_of_pos (by linarith : (0 : ℝ) < 2 * dt)] at h
  refine h.trans ?_
  have : 2 * dt + ‖z - y‖ ≤ (2 + 32 * F) * dt := by linarith
  rw [mul_assoc]
  exact mul_le_mul_of_nonneg_left this hs.Λ0

/-- a backward Euler step is an Euler step up to `O(dt (dt + η))` -/
theorem step1_rob : ∃ z, Bdf.stepOrder1 gmres sys s dt = .ok ⟨t + dt, dt, z, none⟩ ∧
    ‖z - y - dt • sys.frhs t y‖ ≤ dt * (implConst Λ B F * (dt + η)) ∧ ‖z - y‖ ≤ 8 * (dt * F) := by
  have hdt := hs.pos
  have hF := hs.F0
  have hdF : 0 ≤ dt * F := by positivity
  have hγ : 8 * (dt * F) < ρ / 2 := by linarith [hs.ball]
  have h2 : |t + 2 * dt - t| < ρ := by
    rw [add_sub_cancel_left, abs_of_pos (by linarith)]; exact hs.time
  obtain ⟨Jf, hin, hJ, hlin⟩ := impl_choice hb hs hyc hγ
  rw [← ht] at hJ hlin
  obtain ⟨z, g1, g2, g3⟩ := step1_newton (Jf := Jf) (γ := dt * F) hs.η0 (add_nonneg hs.Λ0 hs.B0) hg hy hdt.le
    (by
      rw [norm_smul, Real.norm_of_nonneg hdt.le, ht]
      exact mul_le_mul_of_nonneg_left (hb.size _ _ h2 (by linarith [norm_nonneg (y - c)])) hdt.le)
    hJ hlin hs.jac hs.newton (lt_of_le_of_lt (mul_le_mul_of_nonneg_left (by linarith) (Real.sqrt_nonneg _)) hs.tol)
  rw [ht] at g1 g2
  refine ⟨z, g1, ?_, g3⟩
  have h3 := impl_change hb hs hyc hγ (by linarith) g3
  have e : z - y - dt • sys.frhs t y = (z - y - dt • sys.frhs (t + 2 * dt) z) + dt • (sys.frhs (t + 2 * dt) z - sys.frhs t y) := by module
  rw [e]
  have n1 := norm_add_le (z - y - dt • sys.frhs (t + 2 * dt) z) (dt • (sys.frhs (t + 2 * dt) z - sys.frhs t y))
  rw [norm_smul, Real.norm_of_nonneg hdt.le] at n1
  have n2 := mul_le_mul_of_nonneg_left h3 hdt.le
  refine n1.trans ?_
  have hη := hs.η0
  have hΛ := hs.Λ0
  have hB := hs.B0
  unfold implConst
  have p1 : 0 ≤ dt * (dt * F) := by positivity
  have p2 : 0 ≤ dt * (η * F) := by positivity
  have p3 : 0 ≤ dt * (dt * F * (Λ + B)) := by positivity
  have p4 : 0 ≤ dt * (η * F * (Λ + B)) := by positivity
  have p5 : 0 ≤ dt * (η * (Λ * (2 + 32 * F))) := by positivity
  nlinarith

/-- a Crank-Nicolson step is an Euler step up to `O(dt (dt + η))` -/
theorem stepCn_rob : ∃ z, Bdf.stepCn gmres sys s dt = .ok ⟨t + dt, dt, z, none⟩ ∧
    ‖z - y - dt • sys.frhs t y‖ ≤ dt * (implConst Λ B F * (dt + η)) ∧ ‖z - y‖ ≤ 8 * (dt * F) := by
  have hdt := hs.pos
  have hF := hs.F0
  have hdF : 0 ≤ dt * F := by positivity
  have hγ : 8 * (dt * F) < ρ / 2 := by linarith [hs.ball]
  have h1 : |t + dt - t| < ρ := by
    rw [add_sub_cancel_left, abs_of_pos hdt]; linarith [hs.time]
  have h2 : |t + 2 * dt - t| < ρ := by
    rw [add_sub_cancel_left, abs_of_pos (by linarith)]; exact hs.time
  have hyρ : ‖y - c‖ < ρ := by linarith [norm_nonneg (y - c)]
  have hρ : 0 < ρ := by linarith [hs.time]
  obtain ⟨Jf, hin, hJ, hlin⟩ := impl_choice hb hs hyc hγ
  rw [← ht] at hJ hlin
  obtain ⟨z, g1, g2, g3⟩ := stepCn_newton (Jf := Jf) (γ := dt * F) hs.η0 (add_nonneg hs.Λ0 hs.B0) hg hy hdt.le
    (by
      refine (norm_add_le _ _).trans ?_
      rw [norm_smul, norm_smul, Real.norm_of_nonneg (by linarith : 0 ≤ dt / 2), ht]
      have a1 := mul_le_mul_of_nonneg_left (hb.size _ _ h1 hyρ) (by linarith : 0 ≤ dt / 2)
      have a2 := mul_le_mul_of_nonneg_left (hb.size _ _ h2 hyρ) (by linarith : 0 ≤ dt / 2)
      linarith)
    hJ hlin hs.jac hs.B0 hs.newton (lt_of_le_of_lt (mul_le_mul_of_nonneg_left (by linarith) (Real.sqrt_nonneg _)) hs.tol)
  rw [ht] at g1 g2
  refine ⟨z, g1, ?_, g3⟩
  have h3 := impl_change hb hs hyc hγ (by linarith) g3
  have h4 := hb.lip (t + dt) t y y h1 (by simpa using hρ) hyρ hyρ
  rw [add_sub_cancel_left, abs_of_pos hdt, sub_self, norm_zero, add_zero] at h4
  have e : z - y - dt • sys.frhs t y = (z - (y + (dt / 2) • sys.frhs (t + dt) y) - (dt / 2) • sys.frhs (t + 2 * dt) z)
    + (dt / 2) • (sys.frhs (t + 2 * dt) z - sys.frhs t y) + (dt / 2) • (sys.frhs (t + dt) y - sys.frhs t y) := by module
  rw [e]
  have n1 := norm_add_le (z - (y + (dt / 2) • sys.frhs (t + dt) y) - (dt / 2) • sys.frhs (t + 2 * dt) z
    + (dt / 2) • (sys.frhs (t + 2 * dt) z - sys.frhs t y)) ((dt / 2) • (sys.frhs (t + dt) y - sys.frhs t y))
  have n2 := norm_add_le (z - (y + (dt / 2) • sys.frhs (t + dt) y) - (dt / 2) • sys.frhs (t + 2 * dt) z)
    ((dt / 2) • (sys.frhs (t + 2 * dt) z - sys.frhs t y))
  rw [norm_smul, Real.norm_of_nonneg (by linarith : 0 ≤ dt / 2)] at n1 n2
  have n3 := mul_le_mul_of_nonneg_left h3 (by linarith : 0 ≤ dt / 2)
  have n4 := mul_le_mul_of_nonneg_left h4 (by linarith : 0 ≤ dt / 2)
  refine (n1.trans (add_le_add n2 le_rfl)).trans ?_
  have hη := hs.η0
  have hΛ := hs.Λ0
  have hB := hs.B0
  unfold implConst
  have p1 : 0 ≤ dt * (dt * F) := by positivity
  have p2 : 0 ≤ dt * (η * F) := by positivity
  have p3 : 0 ≤ dt * (dt * F * (Λ + B)) := by positivity
  have p4 : 0 ≤ dt * (η * F * (Λ + B)) := by positivity
  have p5 : 0 ≤ dt * (η * (Λ * (2 + 32 * F))) := by positivity
  have p6 : 0 ≤ dt * (dt * Λ) := by positivity
  have p7 : 0 ≤ dt * (dt * Λ * F) := by positivity
  nlinarith

omit hy in
/-- a BDF2 step after a backward Euler step is an Euler step up to `O(dt (dt + η))` -/
theorem step2_rob (ho : s.order = 2) {yp : Vec n} {l : List (Vec n)} (hy : s.yHist = y :: yp :: l) (hyp : ‖y - yp‖ ≤ 8 * (dt * F))
    (hinc : ‖y - yp - dt • sys.frhs (t - dt) yp‖ ≤ dt * (implConst Λ B F * (dt + η))) :
    ∃ z, Bdf.stepOrder2 gmres sys s dt = .ok ⟨t + dt, dt, z, none⟩ ∧
    ‖z - y - dt • sys.frhs t y‖ ≤ dt * (2 * implConst Λ B F * (dt + η)) := by
  have hdt := hs.pos
  have hF := hs.F0
  have hdF : 0 ≤ dt * F := by positivity
  have hγ : 8 * (dt * (4 * F)) < ρ / 2 := by linarith [hs.ball]
  have h1 : |t - dt - t| < ρ := by
    rw [sub_sub_cancel_left, abs_neg, abs_of_pos hdt]; linarith [hs.time]
  have h2 : |t + 2 * dt - t| < ρ := by
    rw [add_sub_cancel_left, abs_of_pos (by linarith)]; exact hs.time
  have hyρ : ‖y - c‖ < ρ := by linarith [norm_nonneg (y - c)]
  have hρ : 0 < ρ := by linarith [hs.time]
  have hypρ : ‖yp - c‖ < ρ := by
    have := norm_add_le (yp - y) (y - c)
    rw [sub_add_sub_cancel, norm_sub_rev yp y] at this
    linarith [hs.ball]
  obtain ⟨Jf, hin, hJ, hlin⟩ := impl_choice hb hs hyc hγ
  rw [← ht] at hJ hlin
  obtain ⟨z, g1, g2, g3⟩ := step2_newton (Jf := Jf) (γ := dt * (4 * F)) hs.η0 (add_nonneg hs.Λ0 hs.B0) hg ho hy hdt.le
    (by
      refine (norm_add_le _ _).trans ?_
      rw [norm_smul, norm_smul, Real.norm_of_nonneg (by linarith : 0 ≤ 2 * dt / 3), Real.norm_of_nonneg (by norm_num : (0 : ℝ) ≤ 1 / 3), ht]
      have a2 := mul_le_mul_of_nonneg_left (hb.size _ _ h2 hyρ) (by linarith : 0 ≤ 2 * dt / 3)
      linarith)
    hJ hlin hs.jac hs.B0 hs.newton (lt_of_le_of_lt (mul_le_mul_of_nonneg_left (by linarith) (Real.sqrt_nonneg _)) hs.tol)
  rw [ht] at g1 g2
  refine ⟨z, g1, ?_⟩
  have h3 := impl_change hb hs hyc hγ le_rfl g3
  have h4 := hb.lip (t - dt) t yp y h1 (by simpa using hρ) hypρ hyρ
  rw [sub_sub_cancel_left, abs_neg, abs_of_pos hdt, norm_sub_rev yp y] at h4
  have h5 : Λ * (dt + ‖y - yp‖) ≤ Λ * (2 + 32 * F) * dt := by
    rw [mul_assoc]
    exact mul_le_mul_of_nonneg_left (by linarith) hs.Λ0
  have e : z - y - dt • sys.frhs t y = (z - ((4 / 3 : ℝ) • y - (1 / 3 : ℝ) • yp) - (2 * dt / 3) • sys.frhs (t + 2 * dt) z)
    + (2 * dt / 3) • (sys.frhs (t + 2 * dt) z - sys.frhs t y) + ((1 / 3 : ℝ) • (y - yp - dt • sys.frhs (t - dt) yp)
    + (dt / 3) • (sys.frhs (t - dt) yp - sys.frhs t y)) := by module
  rw [e]
  have n1 := norm_add_le ((z - ((4 / 3 : ℝ) • y - (1 / 3 : ℝ) • yp) - (2 * dt / 3) • sys.frhs (t + 2 * dt) z)
    + (2 * dt / 3) • (sys.frhs (t + 2 * dt) z - sys.frhs t y)) ((1 / 3 : ℝ) • (y - yp - dt • sys.frhs (t - dt) yp)
    + (dt / 3) • (sys.frhs (t - dt) yp - sys.frhs t y))
  have n2 := norm_add_le (z - ((4 / 3 : ℝ) • y - (1 / 3 : ℝ) • yp) - (2 * dt / 3) • sys.frhs (t + 2 * dt) z)
    ((2 * dt / 3) • (sys.frhs (t + 2 * dt) z - sys.frhs t y))
  have n3 := norm_add_le ((1 / 3 : ℝ) • (y - yp - dt • sys.frhs (t - dt) yp)) ((dt / 3) • (sys.frhs (t - dt) yp - sys.frhs t y))
  rw [norm_smul, Real.norm_of_nonneg (by linarith : 0 ≤ 2 * dt / 3)] at n2
  rw [norm_smul, norm_smul, Real.norm_of_nonneg (by linarith : 0 ≤ dt / 3), Real.norm_of_nonneg (by norm_num : (0 : ℝ) ≤ 1 / 3)] at n3
  have n4 := mul_le_mul_of_nonneg_left h3 (by linarith : 0 ≤ 2 * dt / 3)
  have n5 := mul_le_mul_of_nonneg_left (h4.trans h5) (by linarith : 0 ≤ dt / 3)
  refine (n1.trans (add_le_add n2 n3)).trans ?_
  have hη := hs.η0
  have hΛ := hs.Λ0
  have hB := hs.B0
  have key : (η + 4 * (dt * (Λ + B))) * (dt * (4 * F)) + dt * (Λ * (2 + 32 * F) * dt) ≤ dt * (implConst Λ B F * (dt + η)) := by
    unfold implConst
    have p1 : 0 ≤ dt * (dt * F) := by positivity
    have p2 : 0 ≤ dt * (η * F) := by positivity
    have p3 : 0 ≤ dt * (dt * F * (Λ + B)) := by positivity
    have p4 : 0 ≤ dt * (η * F * (Λ + B)) := by positivity
    have p5 : 0 ≤ dt * (η * (Λ * (2 + 32 * F))) := by positivity
    nlinarith
  have hpos : 0 ≤ dt * (implConst Λ B F * (dt + η)) := (norm_nonneg _).trans hinc
  linarith
end

/-- uniform constants along the solution -/
theorem impl_uniform {sys : Sys n} (h : LipIVP sys.frhs Y t0 T) (hj : TameJacsRs sys Y t0 T) : ∃ Λ B F ρ : ℝ, 0 ≤ Λ ∧ 0 ≤ B ∧ 0 ≤ F ∧ 0 < ρ ∧
    ∀ t ∈ Set.Icc t0 T, ImplBox sys t (Y t) Λ B F ρ := by
  obtain ⟨Λ, ρ1, hΛ, hρ1, hl⟩ := h.tube2
  obtain ⟨M, hM, hMb⟩ := h.bound
  obtain ⟨B, ρ2, hρ2, hJ⟩ := hj
  refine ⟨Λ, max B 0, M + Λ * (min ρ1 ρ2 + min ρ1 ρ2), min ρ1 ρ2, hΛ, le_max_right _ _, by positivity, by positivity, fun t ht => ⟨?_, ?_, ?_⟩⟩
  · intro t1 t2 y1 y2 e1 e2 e3 e4
    rw [lt_min_iff] at e1 e2 e3 e4
    exact hl t ht t1 t2 y1 y2 e1.1 e2.1 e3.1 e4.1
  · intro t' y e1 e2
    have h1 := hl t ht t' t y (Y t) (lt_min_iff.1 e1).1 (by simpa using hρ1) (lt_min_iff.1 e2).1 (by simpa using hρ1)
    have h2 : Λ * (|t' - t| + ‖y - Y t‖) ≤ Λ * (min ρ1 ρ2 + min ρ1 ρ2) := mul_le_mul_of_nonneg_left (by linarith) hΛ
    have h3 := norm_sub_norm_le (sys.frhs t' y) (sys.frhs t (Y t))
    linarith [hMb t ht]
  · intro t' y e1 e2
    rw [lt_min_iff] at e1 e2
    obtain ⟨J, h1, h2⟩ := hJ t ht t' y e1.2 e2.2
    exact ⟨J, h1, h2.trans (le_max_left _ _)⟩

/-- small steps and residuals -/
theorem impl_small (n : ℕ) {Λ B F ρ : ℝ} (hΛ : 0 ≤ Λ) (hB : 0 ≤ B) (hF : 0 ≤ F) (hρ : 0 < ρ) : ∃ δ : ℝ, 0 < δ ∧
    ∀ dt η, 0 < dt → dt ≤ δ → 0 ≤ η → η ≤ δ → ImplSmall n dt η Λ B F ρ := by
  have hn := Real.sqrt_nonneg (n : ℝ)
  refine ⟨min (1 / 4) (min (min (ρ / 4) (ρ / (128 * (F + 1)))) (min (1 / (16 * (Λ + B + 1))) (1 / (16 * (Real.sqrt n * F + 1))))), by positivity, ?_⟩
  intro dt η hdt hd hη hη'
  have d2 : dt ≤ ρ / 4 := hd.trans ((min_le_right _ _).trans ((min_le_left _ _).trans (min_le_left _ _)))
  have d3 : dt ≤ ρ / (128 * (F + 1)) := hd.trans ((min_le_right _ _).trans ((min_le_left _ _).trans (min_le_right _ _)))
  have d4 : dt ≤ 1 / (16 * (Λ + B + 1)) := hd.trans ((min_le_right _ _).trans ((min_le_right _ _).trans (min_le_left _ _)))
  have d5 : dt ≤ 1 / (16 * (Real.sqrt n * F + 1)) := hd.trans ((min_le_right _ _).trans ((min_le_right _ _).trans (min_le_right _ _)))
  have e1 : η ≤ 1 / 4 := hη'.trans (min_le_left _ _)
  rw [le_div_iff₀ (by positivity)] at d3 d4 d5
  have p1 : 0 ≤ dt * Λ := by positivity
  have p2 : 0 ≤ dt * B := by positivity
  have p3 : 0 ≤ dt * F := by positivity
  refine ⟨hΛ, hB, hF, hη, hdt, by linarith, by linarith, by linarith, by linarith, ?_⟩
  have : Real.sqrt n * (16 * (dt * F)) ≤ 1 := by linarith
  refine lt_of_le_of_lt this ?_
  norm_num

/-- the implicit methods of the binding, with the order number of the integrator object -/
def rsImplicit : List (String × ℕ) := [("bdf1", 1), ("backeuler", 1), ("bdf2", 2), ("cn", 3)]

/-- **C121, implicit methods on nonlinear systems.**  Let `Y` solve `y' = f(t, y)` on `[t0, T]` with `f` Lipschitz near the solution,
and let `fjac` hand out matrices of bounded size there, right or wrong.  For each of `bdf1`, `backeuler`, `bdf2` and `cn` there are
`C` and `δ > 0` such that every call of the binding with step size `dt ≤ δ` and a linear solver with relative residual `η ≤ δ`, any
number of steps that stays before `T` and any output interval, succeeds, and every returned state is within `C (dt + η)` of `Y` at
its time. -/
theorem C121_robust (sys : Sys n) (h : LipIVP sys.frhs Y t0 T) (hj : TameJacsRs sys Y t0 T) (split : ℕ → Option (Split ℕ)) (m : String)
    (ord : ℕ) (hm : (m, ord) ∈ rsImplicit) :
    ∃ C δ : ℝ, 0 ≤ C ∧ 0 < δ ∧ ∀ (dt η : ℝ) (N : ℕ) (gmres : Gmres n) (kd : Kwds) (o : RunOpts), 0 < dt → dt ≤ δ → 0 ≤ η → η ≤ δ →
      GmresTo η gmres → t0 + N * dt ≤ T → parseOpts kd = .ok o → o.method = m → 0 < o.osteps →
      ∃ out, integrateWrapperRs gmres split sys (Y t0) t0 dt N kd = .ok out ∧
        RsRunAccurate out t0 dt o.osteps N Y (C * (dt + η)) := by
  obtain ⟨Λ, B, F, ρ, hΛ, hB, hF, hρ, hbox⟩ := impl_uniform h hj
  obtain ⟨δ1, hδ1, hsmall⟩ := impl_small n hΛ hB hF hρ
  have hD1 := implConst_nonneg hΛ hB hF
  obtain ⟨D1, hD1e⟩ : ∃ D1, D1 = implConst Λ B F := ⟨_, rfl⟩
  rw [← hD1e] at hD1
  obtain ⟨C, δ2, hC, hδ2, hmain⟩ := robust_bound h (2 * D1) (ρ / 2) (by positivity) (by positivity)
  refine ⟨C, min δ1 δ2, hC, by positivity, ?_⟩
  intro dt η N gmres kd o hdt hdtδ hη hηδ hg hN hp hom ho
  have hs := hsmall dt η hdt (hdtδ.trans (min_le_left _ _)) hη (hηδ.trans (min_le_left _ _))
  obtain ⟨hsm, -⟩ := hmain dt η N hdt (hdtδ.trans (min_le_right _ _)) hη (hηδ.trans (min_le_right _ _)) hN
  have hsel : selectSolver split t0 (Y t0) o.method o.expmvMethod o.krylovDim o.iom o.tolFdt = .ok (.bdf (Bdf.new t0 (Y t0) ord)) := by
    unfold selectSolver
    rw [hom]
    simp only [rsImplicit, List.mem_cons, List.not_mem_nil, or_false, Prod.mk.injEq] at hm
    rcases hm with ⟨rfl, rfl⟩ | ⟨rfl, rfl⟩ | ⟨rfl, rfl⟩ | ⟨rfl, rfl⟩ <;> simp
  have hord : ord = 1 ∨ ord = 2 ∨ ord = 3 := by
    simp only [rsImplicit, List.mem_cons, List.not_mem_nil, or_false, Prod.mk.injEq] at hm
    omega
  have hin : ∀ k < N, t0 + (k : ℝ) * dt ∈ Set.Icc t0 T := by
    intro k hk
    have h1 : (k : ℝ) ≤ N := by exact_mod_cast hk.le
    have h2 := mul_le_mul_of_nonneg_right h1 hdt.le
    have h3 : 0 ≤ (k : ℝ) * dt := by positivity
    constructor <;> linarith
  have hle : dt * (D1 * (dt + η)) ≤ dt * (2 * D1 * (dt + η)) := by
    have : 0 ≤ dt * (D1 * (dt + η)) := by positivity
    linarith
  set Rel : ℕ → (ℕ → Vec n) → Prop := fun k u => ‖u (k + 1) - u k - dt • sys.frhs (t0 + k * dt) (u k)‖ ≤ dt * (2 * D1 * (dt + η)) ∧
    (k = 0 → ‖u 1 - u 0 - dt • sys.frhs t0 (u 0)‖ ≤ dt * (D1 * (dt + η)) ∧ ‖u 1 - u 0‖ ≤ 8 * (dt * F)) with hRel
  have hb' : ∀ k ≤ N, ∀ u : ℕ → Vec n, u 0 = Y t0 → (∀ j < k, Rel j u) → ∀ j ≤ k, ‖u j - Y (t0 + j * dt)‖ ≤ C * (dt + η) := by
    intro k hk u hu0 hr
    have hkT : t0 + (k : ℝ) * dt ≤ T := by
      have h1 : (k : ℝ) ≤ N := by exact_mod_cast hk
      have h2 := mul_le_mul_of_nonneg_right h1 hdt.le
      linarith
    exact (hmain dt η k hdt (hdtδ.trans (min_le_right _ _)) hη (hηδ.trans (min_le_right _ _)) hkT).2 u hu0 (fun j hj _ => (hr j hj).1)
  have hstep : ∀ (s : Bdf n) (k : ℕ) (l : List (Vec n)) (u : ℕ → Vec n), k < N → ‖u k - Y (t0 + k * dt)‖ < ρ / 2 → (∀ j < k, Rel j u) →
      s.order = ord → s.t = t0 + k * dt → s.yHist = u k :: l → s.yHist.length = k + 1 → (k = 1 → ∃ l', l = u 0 :: l') →
      ∃ z, Bdf.step gmres sys s dt = .ok ⟨t0 + k * dt + dt, dt, z, none⟩ ∧ (u (k + 1) = z → Rel k u) := by
    intro s k l u hk hnear hr e1 e2 e3 e4 e5
    have hbx := hbox _ (hin k hk)
    have h1 := step1_rob hbx hs hg e2 e3 hnear
    have h3 := stepCn_rob hbx hs hg e2 e3 hnear
    rw [← hD1e] at h1 h3
    have fin : ∀ z, ‖z - u k - dt • sys.frhs (t0 + k * dt) (u k)‖ ≤ dt * (D1 * (dt + η)) → ‖z - u k‖ ≤ 8 * (dt * F) →
        (u (k + 1) = z → Rel k u) := by
      rintro z a1 a2 rfl
      refine ⟨a1.trans hle, ?_⟩
      rintro rfl
      rw [Nat.cast_zero, zero_mul, add_zero] at a1
      exact ⟨a1, a2⟩
    rcases hord with rfl | rfl | rfl
    · rw [bdf_step_1 gmres sys s dt e1]
      obtain ⟨z, a1, a2, a3⟩ := h1
      exact ⟨z, a1, fin z a2 a3⟩
    · rw [bdf_step_2 gmres sys s dt e1, e4]
      by_cases hk1 : k = 1
      · rw [if_pos (by omega)]
        obtain ⟨l', rfl⟩ := e5 hk1
        subst hk1
        obtain ⟨r1, r2⟩ := (hr 0 (by omega)).2 rfl
        obtain ⟨z, a1, a2⟩ := step2_rob hbx hs hg e2 hnear e1 e3 r2 (by
          rw [← hD1e, Nat.cast_one, one_mul, add_sub_cancel_right]; exact r1)
        rw [← hD1e] at a2
        exact ⟨z, a1, fun hz => ⟨by rw [hz]; exact a2, fun h => by omega⟩⟩
      · rw [if_neg (by omega)]
        obtain ⟨z, a1, a2, a3⟩ := h1
        exact ⟨z, a1, fin z a2 a3⟩
    · rw [bdf_step_3 gmres sys s dt e1]
      obtain ⟨z, a1, a2, a3⟩ := h3
      exact ⟨z, a1, fin z a2 a3⟩
  obtain ⟨u, g1, g2, g3⟩ := rs_tube (solverIntegrator gmres sys)
    (fun o k u => ∃ s l, o = .bdf s ∧ s.order = ord ∧ s.t = t0 + k * dt ∧ s.yHist = u k :: l ∧ s.yHist.length = k + 1 ∧
      (k = 1 → ∃ l', l = u 0 :: l')) Rel
    (fun k u => (∀ j ≤ k, ‖u j - Y (t0 + j * dt)‖ < ρ / 2) ∧ ∀ j < k, Rel j u) t0 dt (Y t0) N
    (fun k hk u hu0 hr => ⟨fun j hj => (hb' k hk u hu0 hr j hj).trans_lt hsm, hr⟩)
    (by
      rintro o k u hk ⟨hnear, hr⟩ ⟨s, l, rfl, e1, e2, e3, e4, e5⟩
      obtain ⟨z, a1, a2⟩ := hstep s k l u hk (hnear k le_rfl) hr e1 e2 e3 e4 e5
      have e : t0 + ((k + 1 : ℕ) : ℝ) * dt = t0 + k * dt + dt := by push_cast; ring
      refine ⟨_, a1, rfl, e.symm, fun hz => ⟨a2 hz, ?_⟩⟩
      refine ⟨⟨s.order, t0 + k * dt + dt, z :: s.yHist⟩, s.yHist, rfl, e1, e.symm, by rw [hz], ?_, ?_⟩
      · rw [List.length_cons, e4]
      · intro hk1
        have hk0 : k = 0 := by omega
        subst hk0
        exact ⟨l, e3⟩)
    (.bdf (Bdf.new t0 (Y t0) ord)) rfl rfl
    (fun u hu => ⟨Bdf.new t0 (Y t0) ord, [], rfl, rfl, by simp [Bdf.new], by rw [hu]; rfl, rfl, fun h => by omega⟩) o.osteps ho
  refine ⟨_, ?_, rsAccurate_of (hb' N le_rfl u g1 g2)⟩
  unfold integrateWrapperRs
  simp only [hp, hsel, Bind.bind, Except.bind]
  exact g3

end
end Ormatex.Props
