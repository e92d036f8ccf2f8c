import Verif.Props.LejaConvImRun
import Verif.Props.LejaConvDemo

/-!
C116 for runs of `epi3_leja_im`, and concrete cases for the conjugate-pair methods.
-/

namespace Ormatex.Props
open Filter Asymptotics Topology Matrix Ormatex.Spec
open scoped Classical
open scoped Matrix.Norms.Operator

section
variable {n : ℕ} {P : Type} [EmptyCollection P]
set_option linter.unusedSectionVars false

/-- the history of an `epi3_leja_im` object after `k` accepted steps of size `dt` with the states `u` -/
def Epi3Hist (t0 dt : ℝ) (s : ExpLeja n) (k : ℕ) (u : ℕ → Vec n) : Prop :=
  At s.base (t0 + k * dt) (u k) ∧ s.base.method = "epi3_leja_im" ∧ s.base.tHist.maxlen = 3 ∧ s.base.yHist.maxlen = 3 ∧
    (k = 0 → s.base.yHist.items.length = 1) ∧
    (0 < k → 2 ≤ s.base.yHist.items.length ∧ s.base.tHist.get 1 = .ok (t0 + k * dt - dt) ∧ s.base.yHist.get 1 = .ok (u (k - 1)))

theorem epi3Hist_new {t0 dt : ℝ} {y0 : Vec n} {s : ExpLeja n} (h : ExpLeja.new t0 y0 "epi3_leja_im" = .ok s) (u : ℕ → Vec n)
    (hu : u 0 = y0) : Epi3Hist t0 dt s 0 u ∧ s.substepSize = 1 := by
  have e : ExpLeja.new t0 y0 "epi3_leja_im" = .ok (ExpLeja.mk (Base.mk t0 3 "epi3_leja_im" ⟨3, [t0]⟩ ⟨3, [y0]⟩) 1 none 0) := rfl
  rw [e] at h
  cases h
  refine ⟨⟨?_, rfl, rfl, rfl, fun _ => rfl, fun h => absurd h (lt_irrefl 0)⟩, rfl⟩
  have e : t0 + ((0 : ℕ) : ℝ) * dt = t0 := by simp
  rw [e, hu]
  exact ⟨rfl, rfl, rfl⟩

theorem epi3Hist_accept {t0 dt : ℝ} {s s' : ExpLeja n} {k : ℕ} {u u' : ℕ → Vec n} (h : Epi3Hist t0 dt s k u) (hs : s'.base = s.base)
    (r : StepResult (Vec n)) (hr : r.t = t0 + k * dt + dt) (hu : ∀ i ≤ k, u' i = u i) (hn : u' (k + 1) = r.y) :
    Epi3Hist t0 dt (s'.acceptStep r) (k + 1) u' := by
  obtain ⟨g1, g2, g4, g5, -, -⟩ := h
  have e : t0 + ((k + 1 : ℕ) : ℝ) * dt = t0 + k * dt + dt := by push_cast; ring
  have e' : t0 + ((k + 1 : ℕ) : ℝ) * dt - dt = t0 + k * dt := by push_cast; ring
  refine ⟨?_, by show s'.base.method = _; rw [hs]; exact g2, by show s'.base.tHist.maxlen = 3; rw [hs]; exact g4,
    by show s'.base.yHist.maxlen = 3; rw [hs]; exact g5, by intro h; omega, fun _ => ?_⟩
  · have := at_accept (b := s'.base) ⟨by rw [hs, g5]; norm_num, by rw [hs, g4, g5]⟩ r
    rw [e, hn, ← hr]
    exact this
  · rw [Nat.add_sub_cancel, hu k le_rfl, e']
    have ht := g1.tNew
    have hy := g1.yNew
    simp only [Deque.get] at ht hy
    simp only [ExpLeja.acceptStep, Base.acceptStep, Deque.appendleft, hs, g4, g5, Deque.get]
    cases hti : s.base.tHist.items with
    | nil => rw [hti] at ht; cases ht
    | cons a as =>
      cases hyi : s.base.yHist.items with
      | nil => rw [hyi] at hy; cases hy
      | cons b bs =>
        rw [hti] at ht
        rw [hyi] at hy
        simp only [List.getElem?_cons_zero] at ht hy
        refine ⟨by simp, ?_, ?_⟩
        · simpa using ht
        · simpa using hy

theorem epiRel_congr {f : ℝ → Vec n → Vec n} {t0 dt η : ℝ} (k : ℕ) (u u' : ℕ → Vec n) (h : ∀ i ≤ k + 1, u' i = u i)
    (hr : EpiRel f t0 dt η k u) : EpiRel f t0 dt η k u' := by
  unfold EpiRel at hr ⊢
  rw [h (k + 1) le_rfl, h 0 (by omega), h k (by omega), h (k - 1) (by omega)]
  exact hr

/-- one step of `epi3_leja_im` along a run: what a step that returns gives -/
theorem epi3_leja_step (o : LejaOpts) (sys : OdeSys n P) (hj : ExactJacs sys) (s : ExpLeja n) {t0 dt : ℝ} {k : ℕ} {u : ℕ → Vec n}
    (hs : Epi3Hist t0 dt s k u) (hsub : 0 < s.substepSize ∧ s.substepSize ≤ 1) (hdt0 : 0 ≤ dt) (hdt1 : dt ≤ 1) (kw : Option P)
    (r : StepResult (Vec n)) (s' : ExpLeja n) (h : ExpLeja.step o sys s dt kw = .ok (r, s')) {B : ℝ}
    (hF : ‖sys.frhs none (t0 + k * dt) (u k)‖ ≤ B) (hc : ‖dtM (sys.frhs none) (t0 + k * dt, u k)‖ ≤ B)
    (hJ : ‖jacM (sys.frhs none) (t0 + k * dt, u k)‖ ≤ B)
    (hr : 0 < k → ‖remP (sys.frhs none) (dt, t0 + k * dt, (u k, u (k - 1)))‖ ≤ B) {A θ ρ : ℝ}
    (ho : LejaAccurateIm o A θ ρ) {R : ℝ} (hRρ : R ≤ ρ) (hR1 : 1 + 4 * B ≤ R) (hR2 : A * (1 + Real.sqrt (n + 2 : ℕ) * (1 + 4 * B)) ≤ R) :
    r.t = t0 + k * dt + dt ∧ s'.base = s.base ∧ (0 < s'.substepSize ∧ s'.substepSize ≤ 1) ∧
    ∀ u' : ℕ → Vec n, (∀ i ≤ k, u' i = u i) → u' (k + 1) = r.y →
      EpiRel (sys.frhs none) t0 dt (stepConst n R * (o.tol + θ)) k u' ∧ Epi3Hist t0 dt (s'.acceptStep r) (k + 1) u' := by
  obtain ⟨g1, g2, g4, g5, g6, g7⟩ := id hs
  have hget := hj.get (some (kw.getD ∅)) (t0 + k * dt) (u k)
  have eF : (sys.fjac (some (kw.getD ∅)) (t0 + k * dt) (u k)).frhsCached = sys.frhs none (t0 + k * dt) (u k) := hget.1.rhs
  have ec : (sys.fjac (some (kw.getD ∅)) (t0 + k * dt) (u k)).fdt = dtM (sys.frhs none) (t0 + k * dt, u k) := hget.2
  obtain ⟨s1, -, s3, s4⟩ := leja_step_sane o sys s hsub dt kw (r, s') h
  simp only at s1 s3 s4
  have hmain : r.t = t0 + k * dt + dt ∧ ‖r.y - (if k = 0 then
      rosEuler (jacM (sys.frhs none) (t0, u 0)) (u 0) (sys.frhs none t0 (u 0)) (dtM (sys.frhs none) (t0, u 0)) dt 1
    else mapEpi3 (sys.frhs none) (dt, t0 + k * dt, (u k, u (k - 1))))‖ ≤ stepConst n R * (o.tol + θ) := by
    rcases k with _ | k
    · have hl : s.base.yHist.len < 2 := by
        show s.base.yHist.items.length < 2
        rw [g6 rfl]; norm_num
      have := C116_step_im2 o sys s g1 hsub.1 (Or.inr ⟨g2, hl⟩) dt hdt0 hdt1 kw _ hget.1.mat r s' h hJ (by rw [eF]; exact hF)
        (by rw [ec]; exact hc) ho hRρ hR1 hR2
      rw [eF, ec] at this
      rw [if_pos rfl]
      have e : t0 + ((0 : ℕ) : ℝ) * dt = t0 := by simp
      rw [e] at this ⊢
      exact this
    · obtain ⟨q1, q2, q3⟩ := g7 (by omega)
      have := C116_step_im3 o sys s g1 hsub.1 g2 q1 _ _ q2 q3 dt hdt0 hdt1 kw _ hget.1.mat r s' h hJ (by rw [eF]; exact hF)
        (by rw [ec]; exact hc) (by rw [eF, ec]; exact hr (by omega)) ho hRρ hR1 hR2
      rw [eF, ec] at this
      rw [if_neg (by omega)]
      exact this
  refine ⟨hmain.1, s1, ⟨s3, s4⟩, fun u' hu' hn => ⟨?_, epi3Hist_accept hs s1 r hmain.1 hu' hn⟩⟩
  unfold EpiRel
  rw [hn, hu' 0 (by omega), hu' k le_rfl, hu' (k - 1) (by omega)]
  exact hmain.2

/-- **C116, `epi3_leja_im`.**  Every run that returns is accurate to `C (dt^3 + (tol + θ)/dt)`, although its first step is one of the second
order method. -/
theorem C116_converge_im3 (sys : OdeSys n P) (hj : ExactJacs sys) (Y : ℝ → Vec n) (t0 T : ℝ)
    (hY : ∀ t ∈ Set.Icc t0 T, SmoothIVP (sys.frhs none) 5 t Y) (A : ℝ) :
    ∃ C δ ρ : ℝ, 0 ≤ C ∧ 0 < δ ∧ ∀ (o : LejaOpts) (θ dt : ℝ) (nsteps : ℕ) (s : ExpLeja n), LejaAccurateIm o A θ ρ → 0 < dt → dt ≤ δ →
      o.tol + θ ≤ δ * dt → t0 + nsteps * dt ≤ T → ExpLeja.new t0 (Y t0) "epi3_leja_im" = .ok s →
      ∀ {Q W : Type} (before : Option (W → ℝ → Vec n → P × W)) (after : Option (W → ℝ → Vec n → Q × W)) (w : W) l,
        integrateOrmatex (lejaStepper o sys) s (Y t0) t0 dt nsteps before after w = .ok l →
        RunAccurate l t0 dt nsteps Y (C * (dt ^ 3 + (o.tol + θ) / dt)) := by
  set f := sys.frhs none with hf
  obtain ⟨C, δ, B, hC, hδ, hδ1, hB, hcore⟩ := epi3_core hY
  set R := max (1 + 4 * B) (A * (1 + Real.sqrt (n + 2 : ℕ) * (1 + 4 * B))) with hR
  have hR0 : 0 ≤ R := le_trans (by positivity) (le_max_left _ _)
  have hH := stepConst_nonneg n hR0
  set H := stepConst n R with hHdef
  refine ⟨C * (H + 1), δ / (H + 1), R, by positivity, by positivity, ?_⟩
  intro o θ dt N s ho hdt0 hdtδ hsmall hN hnew Q W before after w l hl
  have hd : δ / (H + 1) ≤ δ := div_le_self hδ.le (by linarith)
  have hdt1 : dt ≤ δ := hdtδ.trans hd
  have hs0 : 0 ≤ o.tol + θ := add_nonneg ho.tol_pos.le ho.theta_nonneg
  have hη : H * (o.tol + θ) ≤ δ * dt := by
    have h1 : (H + 1) * (o.tol + θ) ≤ (H + 1) * (δ / (H + 1) * dt) := mul_le_mul_of_nonneg_left hsmall (by linarith)
    have h2 : (H + 1) * (δ / (H + 1) * dt) = δ * dt := by field_simp
    linarith
  set η := H * (o.tol + θ) with hηd
  have hcore' := hcore dt η N hdt0 hdt1 (mul_nonneg hH hs0) hη hN
  obtain ⟨u, g2, g3, g4, g5⟩ := run_tube_ret (lejaStepper o sys)
    (fun (o : ExpLeja n) k u => Epi3Hist t0 dt o k u ∧ (0 < o.substepSize ∧ o.substepSize ≤ 1)) (EpiRel f t0 dt η)
    (fun k u => ‖f (t0 + k * dt) (u k)‖ ≤ B ∧ ‖dtM f (t0 + k * dt, u k)‖ ≤ B ∧ ‖jacM f (t0 + k * dt, u k)‖ ≤ B ∧
          (0 < k → ‖remP f (dt, t0 + k * dt, (u k, u (k - 1)))‖ ≤ B)) t0 dt (Y t0) N before after
    epiRel_congr (fun k hk u hu0 hr => (hcore' k hk u hu0 hr).2)
    (by
      rintro q k u kw r q' hk ⟨b1, b2, b3, b4⟩ ⟨i1, i2⟩ hst
      obtain ⟨c1, c2, c3, c4⟩ := epi3_leja_step o sys hj q i1 i2 hdt0.le (hdt1.trans hδ1) kw r q' hst b1 b2 b3 b4 ho le_rfl (le_max_left _ _)
        (le_max_right _ _)
      refine ⟨c1, fun u' hu' hn => ?_⟩
      obtain ⟨d1, d2⟩ := c4 u' hu' hn
      exact ⟨d1, d2, c3⟩)
    s (fun u hu => by
      obtain ⟨k1, k2⟩ := epi3Hist_new (dt := dt) hnew u hu
      exact ⟨k1, by rw [k2]; norm_num⟩) w l hl
  refine runAccurate_of g2 g3 fun k hk => ((hcore' N le_rfl u g4 g5).1 k hk).trans ?_
  rw [mul_assoc]
  refine mul_le_mul_of_nonneg_left ?_ hC
  have h1 : 0 ≤ dt ^ 3 := by positivity
  have h2 : 0 ≤ (o.tol + θ) / dt := by positivity
  have h3 := mul_nonneg hH h1
  rw [hηd, mul_div_assoc]
  linarith

/-- **C116, `epi3_leja_im`, complete.**  With a given interval `leja_a = a < 0` and enough terms, padded zeros included, the run returns. -/
theorem C116_complete_im3 (sys : OdeSys n P) (hj : ExactJacs sys) (Y : ℝ → Vec n) (t0 T : ℝ)
    (hY : ∀ t ∈ Set.Icc t0 T, SmoothIVP (sys.frhs none) 5 t Y) (a : ℝ) (ha0 : a < 0) :
    ∃ C δ ρ : ℝ, 0 ≤ C ∧ 0 < δ ∧ ∀ (o : LejaOpts) (θ dt : ℝ) (nsteps : ℕ) (s : ExpLeja n), LejaAccurateIm o |a| θ ρ → o.lejaA = some a →
      2 ≤ o.nLeja → 2000 < o.tol * 2 ^ (o.nZeros + o.nLeja - 2) → 0 < dt → dt ≤ δ →
      o.tol + θ ≤ δ * dt → t0 + nsteps * dt ≤ T → ExpLeja.new t0 (Y t0) "epi3_leja_im" = .ok s →
      ∀ {Q W : Type} (before : Option (W → ℝ → Vec n → P × W)) (after : Option (W → ℝ → Vec n → Q × W)) (w : W),
        ∃ l, integrateOrmatex (lejaStepper o sys) s (Y t0) t0 dt nsteps before after w = .ok l ∧
        RunAccurate l t0 dt nsteps Y (C * (dt ^ 3 + (o.tol + θ) / dt)) := by
  set f := sys.frhs none with hf
  obtain ⟨C, δ, B, hC, hδ, hδ1, hB, hcore⟩ := epi3_core hY
  set R := max (1 + 4 * B) (|a| * (1 + Real.sqrt (n + 2 : ℕ) * (1 + 4 * B))) with hR
  have hR1 : 1 + 4 * B ≤ R := le_max_left _ _
  have hR0 : 0 ≤ R := le_trans (by positivity) hR1
  have hH := stepConst_nonneg n hR0
  set H := stepConst n R with hHdef
  set G := 4 * (|a| + Real.sqrt n * (4 * B)) + 1 with hG
  have hG1 : 1 ≤ G := by
    have : 0 ≤ 4 * (|a| + Real.sqrt n * (4 * B)) := by positivity
    linarith
  refine ⟨C * (H + 1), min (δ / (H + 1)) (1 / G), R, by positivity, by positivity, ?_⟩
  intro o θ dt N s ho ha hn2 hterms hdt0 hdtδ hsmall hN hnew Q W before after w
  have hd : δ / (H + 1) ≤ δ := div_le_self hδ.le (by linarith)
  have hdt1 : dt ≤ δ := hdtδ.trans ((min_le_left _ _).trans hd)
  have hdtG : dt * G ≤ 1 := by
    have := hdtδ.trans (min_le_right _ _)
    rwa [le_div_iff₀ (by positivity)] at this
  have hs0 : 0 ≤ o.tol + θ := add_nonneg ho.tol_pos.le ho.theta_nonneg
  have hη : H * (o.tol + θ) ≤ δ * dt := by
    have h0 : o.tol + θ ≤ δ / (H + 1) * dt := hsmall.trans (mul_le_mul_of_nonneg_right (min_le_left _ _) hdt0.le)
    have h1 : (H + 1) * (o.tol + θ) ≤ (H + 1) * (δ / (H + 1) * dt) := mul_le_mul_of_nonneg_left h0 (by linarith)
    have h2 : (H + 1) * (δ / (H + 1) * dt) = δ * dt := by field_simp
    linarith
  have hq : 0 ≤ dt * (Real.sqrt n * (4 * B)) := by positivity
  have hq2 : 0 ≤ dt * |a| := by positivity
  have hGe : dt * G = 4 * (dt * |a|) + 4 * (dt * (Real.sqrt n * (4 * B))) + dt := by rw [hG]; ring
  set η := H * (o.tol + θ) with hηd
  have hcore' := hcore dt η N hdt0 hdt1 (mul_nonneg hH hs0) hη hN
  obtain ⟨l, u, hl, g2, g3, g4, g5⟩ := run_tube (lejaStepper o sys)
    (fun (o : ExpLeja n) k u => Epi3Hist t0 dt o k u ∧ o.substepSize = 1) (EpiRel f t0 dt η)
    (fun k u => ‖f (t0 + k * dt) (u k)‖ ≤ B ∧ ‖dtM f (t0 + k * dt, u k)‖ ≤ B ∧ ‖jacM f (t0 + k * dt, u k)‖ ≤ B ∧
          (0 < k → ‖remP f (dt, t0 + k * dt, (u k, u (k - 1)))‖ ≤ B)) t0 dt (Y t0) N before after
    epiRel_congr (fun k hk u hu0 hr => (hcore' k hk u hu0 hr).2)
    (by
      rintro q k u kw hk ⟨b1, b2, b3, b4⟩ ⟨i1, i2⟩
      obtain ⟨f1, f2, f4, f5, f6, f7⟩ := id i1
      have hget := hj.get (some (kw.getD ∅)) (t0 + k * dt) (u k)
      have eF : (sys.fjac (some (kw.getD ∅)) (t0 + k * dt) (u k)).frhsCached = f (t0 + k * dt) (u k) := hget.1.rhs
      have ec : (sys.fjac (some (kw.getD ∅)) (t0 + k * dt) (u k)).fdt = dtM f (t0 + k * dt, u k) := hget.2
      have hret : ∃ r s', ExpLeja.step o sys q dt kw = .ok (r, s') ∧ s'.substepSize = 1 := by
        unfold ExpLeja.step
        simp only
        rw [f2, if_neg (by decide), if_neg (by decide), if_pos rfl]
        by_cases hk0 : k = 0
        · have hlen : q.base.yHist.items.length = 1 := f6 hk0
          have hlen' : ¬ q.base.yHist.len ≥ 2 := by show ¬ q.base.yHist.items.length ≥ 2; omega
          rw [if_neg hlen']
          exact C116_returns_im o sys q f1 i2 dt hdt0 (hdt1.trans hδ1) (kw.getD ∅) false 0 0 (fun h => by cases h) _ hget.1.mat b3
            (by rw [eF]; exact b1) (by rw [ec]; exact b2) (fun h => by cases h) ho ha ha0 (by linarith) (le_max_right _ _) (by linarith) hn2 hterms
        · obtain ⟨q1, q2, q3⟩ := f7 (by omega)
          have hlen' : q.base.yHist.len ≥ 2 := q1
          rw [if_pos hlen']
          exact C116_returns_im o sys q f1 i2 dt hdt0 (hdt1.trans hδ1) (kw.getD ∅) true _ _ (fun _ => ⟨q2, q3⟩) _ hget.1.mat b3
            (by rw [eF]; exact b1) (by rw [ec]; exact b2) (fun _ => by rw [eF, ec]; exact b4 (by omega)) ho ha ha0 (by linarith)
            (le_max_right _ _) (by linarith) hn2 hterms
      obtain ⟨r, q', hst, hq1⟩ := hret
      obtain ⟨c1, c2, c3, c4⟩ := epi3_leja_step o sys hj q i1 (by rw [i2]; norm_num) hdt0.le (hdt1.trans hδ1) kw r q' hst b1 b2 b3 b4 ho le_rfl
        (le_max_left _ _) (le_max_right _ _)
      refine ⟨r, q', hst, c1, fun u' hu' hn => ?_⟩
      obtain ⟨d1, d2⟩ := c4 u' hu' hn
      exact ⟨d1, d2, hq1⟩)
    s (fun u hu => epi3Hist_new (dt := dt) hnew u hu) w
  refine ⟨l, hl, runAccurate_of g2 g3 fun k hk => ((hcore' N le_rfl u g4 g5).1 k hk).trans ?_⟩
  rw [mul_assoc]
  refine mul_le_mul_of_nonneg_left ?_ hC
  have h1 : 0 ≤ dt ^ 3 := by positivity
  have h2 : 0 ≤ (o.tol + θ) / dt := by positivity
  have h3 := mul_nonneg hH h1
  rw [hηd, mul_div_assoc]
  linarith

end

/-! ### the hypotheses are met -/

theorem exactOpts_accurate_im (tol a ρ : ℝ) (N : ℕ) (h0 : 0 < tol) (h1 : tol ≤ 1) (ha : a ≤ 0) :
    LejaAccurateIm (exactOpts tol a N) |a| 0 ρ where
  tol_pos := h0
  tol_le := h1
  theta_nonneg := le_rfl
  theta_le := by norm_num
  real := rfl
  zeros := by show 2 ≤ _; norm_num
  coeffs M x shift scale _ j _ := by
    have e : (exactOpts tol a N).ddIm M x shift scale j = lejaCoeffsExp (K := ℂ) (fun _ => NormedSpace.exp) M x shift scale 1 j := rfl
    rw [e, sub_self, norm_zero, zero_mul]
  interval := ⟨neg_abs_le a, ha⟩

/-- `epi3_leja_im` has order 3 on `y0' = t, y1' = y1^2` with the tolerance `dt^4` and any number of terms above a bound for it. -/
example : ∃ C δ : ℝ, 0 ≤ C ∧ 0 < δ ∧ ∀ (dt : ℝ) (nsteps : ℕ) (s : ExpLeja 2), 0 < dt → dt ≤ δ → 0 + nsteps * dt ≤ 1 / 2 →
    ExpLeja.new 0 (demoY 0) "epi3_leja_im" = .ok s → ∃ N0, ∀ N ≥ N0,
    ∃ l, integrateOrmatex (lejaStepper (exactOpts (dt ^ 4) (-1) N) (OdeSys.ofFrhs demoF (fun _ _ => matrixLinOp 1))) s (demoY 0) 0 dt nsteps
        (none : Option (Unit → ℝ → Vec 2 → List ℕ × Unit)) (none : Option (Unit → ℝ → Vec 2 → Unit × Unit)) () = .ok l ∧
      RunAccurate l 0 dt nsteps demoY (C * dt ^ 3) := by
  obtain ⟨C, δ, ρ, hC, hδ, h⟩ := C116_complete_im3 (OdeSys.ofFrhs demoF (fun _ _ => matrixLinOp 1))
    (exactJacs_autodiff demoF (fun _ => rfl) _) demoY 0 (1 / 2) (fun t ht => demo_smooth_at _ t (by linarith [ht.2])) (-1) (by norm_num)
  refine ⟨2 * C, min δ 1, by positivity, by positivity, fun dt N s h1 h2 h3 h4 => ?_⟩
  have hd1 : dt ≤ 1 := h2.trans (min_le_right _ _)
  have hdδ : dt ≤ δ := h2.trans (min_le_left _ _)
  have h13 : dt ^ 4 ≤ 1 := pow_le_one₀ h1.le hd1
  have h30 : 0 < dt ^ 4 := by positivity
  obtain ⟨M, hM⟩ := pow_unbounded_of_one_lt (2000 / dt ^ 4) (one_lt_two)
  refine ⟨M + 2, fun N' hN' => ?_⟩
  have := h (exactOpts (dt ^ 4) (-1) N') 0 dt N s (exactOpts_accurate_im _ _ _ _ h30 h13 (by norm_num)) rfl
    (by show 2 ≤ N'; omega)
    (by
      show 2000 < dt ^ 4 * 2 ^ (2 + N' - 2)
      rw [div_lt_iff₀ h30] at hM
      have h5 : (2 : ℝ) ^ M ≤ 2 ^ (2 + N' - 2) := pow_le_pow_right₀ one_le_two (by omega)
      have h6 := mul_le_mul_of_nonneg_right h5 h30.le
      linarith)
    h1 hdδ
    (by
      show dt ^ 4 + 0 ≤ δ * dt
      have h5 : dt ^ 3 ≤ dt := pow_le_of_le_one h1.le hd1 (by norm_num)
      have h6 := mul_le_mul_of_nonneg_right (h5.trans hdδ) h1.le
      calc dt ^ 4 + 0 = dt ^ 3 * dt := by ring
        _ ≤ _ := h6)
    h3 h4 (none : Option (Unit → ℝ → Vec 2 → List ℕ × Unit)) (none : Option (Unit → ℝ → Vec 2 → Unit × Unit)) ()
  have e : C * (dt ^ 3 + ((exactOpts (dt ^ 4) (-1) N').tol + 0) / dt) = 2 * C * dt ^ 3 := by
    show C * (dt ^ 3 + (dt ^ 4 + 0) / dt) = _
    field_simp
    ring
  rw [e] at this
  exact this

end Ormatex.Props
