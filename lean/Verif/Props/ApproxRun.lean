import Verif.Props.ApproxRB

/-!
C103: runs of the Rosenbrock and EPI methods with approximate kernels converge with the order of the method, up to a multiple of
the accuracy of the kernels.
-/

namespace Ormatex.Props
open Filter Asymptotics Topology Matrix Ormatex.Spec
open scoped Classical
open scoped Matrix.Norms.Operator

section
variable {n : ℕ} {P : Type} [EmptyCollection P]
set_option linter.unusedSectionVars false

theorem rb_tube {f : ℝ → Vec n → Vec n} {Y : ℝ → Vec n} {t0 T : ℝ} (hY : ∀ t ∈ Set.Icc t0 T, SmoothIVP f 3 t Y) :
    ∃ B ρ : ℝ, 0 ≤ B ∧ 0 < ρ ∧ ∀ t ∈ Set.Icc t0 T, ∀ (y e : Vec n) (d : Fin 3 → Vec n) (h : ℝ), ‖y - Y t‖ < ρ →
      ‖e - dtM f (t, Y t)‖ < ρ → ‖d‖ < ρ → |h| < ρ →
      ‖f t y‖ ≤ B ∧ ‖dtM f (t, y)‖ ≤ B ∧ ‖jacM f (t, y)‖ ≤ B ∧
        ‖remE f 1 0 (h, t, (y, (e, d)))‖ ≤ B * |h| ∧ ‖remE f (1 / 2) 2 (h, t, (y, (e, d)))‖ ≤ B * |h| := by
  have hYc : ∀ t ∈ Set.Icc t0 T, ContinuousAt Y t := fun t ht => (hY t ht).contDiff.continuousAt
  have hDc : ∀ t ∈ Set.Icc t0 T, ContinuousAt (fun s => dtM f (s, Y s)) t := fun t ht =>
    ContinuousAt.comp (g := dtM f) (f := fun s => (s, Y s)) (dtM_contDiffAt (m := 2) (hY t ht).smooth).continuousAt
      (continuousAt_id.prodMk (hYc t ht))
  have hxc : ∀ t ∈ Set.Icc t0 T, ContinuousAt (fun s => ((Y s, (dtM f (s, Y s), 0)) : Vec n × Aux n)) t := fun t ht =>
    (hYc t ht).prodMk ((hDc t ht).prodMk continuousAt_const)
  obtain ⟨B1, ρ1, hB1, hρ1, b1⟩ := tube_bound0 (g := fun q : ℝ × Vec n => f q.1 q.2) (x := Y) (a := t0) (b := T)
    (fun t ht => (hY t ht).smooth.of_le (by norm_cast)) hYc
  obtain ⟨B2, ρ2, hB2, hρ2, b2⟩ := tube_bound0 (g := dtM f) (x := Y) (a := t0) (b := T)
    (fun t ht => dtM_contDiffAt (m := 2) (hY t ht).smooth) hYc
  obtain ⟨B3, ρ3, hB3, hρ3, b3⟩ := tube_bound0 (g := jacM f) (x := Y) (a := t0) (b := T)
    (fun t ht => jacM_contDiffAt (m := 2) (hY t ht).smooth) hYc
  obtain ⟨B4, ρ4, hB4, hρ4, b4⟩ := tube_bound (G := remE f 1 0) (x := fun s => ((Y s, (dtM f (s, Y s), 0)) : Vec n × Aux n)) (a := t0) (b := T)
    (fun t ht => remE_smooth (m := 2) (hY t ht).smooth _ 1 0) (fun t x => remE_zero _ _ _) hxc
  obtain ⟨B5, ρ5, hB5, hρ5, b5⟩ := tube_bound (G := remE f (1 / 2) 2) (x := fun s => ((Y s, (dtM f (s, Y s), 0)) : Vec n × Aux n)) (a := t0) (b := T)
    (fun t ht => remE_smooth (m := 2) (hY t ht).smooth _ (1 / 2) 2) (fun t x => remE_zero _ _ _) hxc
  refine ⟨B1 + B2 + B3 + B4 + B5, min (min (min ρ1 ρ2) ρ3) (min ρ4 ρ5), by positivity, by positivity, ?_⟩
  intro t ht y e d h hy he hd hh
  have m1 : min (min (min ρ1 ρ2) ρ3) (min ρ4 ρ5) ≤ ρ1 := (min_le_left _ _).trans ((min_le_left _ _).trans (min_le_left _ _))
  have m2 : min (min (min ρ1 ρ2) ρ3) (min ρ4 ρ5) ≤ ρ2 := (min_le_left _ _).trans ((min_le_left _ _).trans (min_le_right _ _))
  have m3 : min (min (min ρ1 ρ2) ρ3) (min ρ4 ρ5) ≤ ρ3 := (min_le_left _ _).trans (min_le_right _ _)
  have m4 : min (min (min ρ1 ρ2) ρ3) (min ρ4 ρ5) ≤ ρ4 := (min_le_right _ _).trans (min_le_left _ _)
  have m5 : min (min (min ρ1 ρ2) ρ3) (min ρ4 ρ5) ≤ ρ5 := (min_le_right _ _).trans (min_le_right _ _)
  have hx : ∀ r, min (min (min ρ1 ρ2) ρ3) (min ρ4 ρ5) ≤ r → ‖((y, (e, d)) : Vec n × Aux n) - (Y t, (dtM f (t, Y t), 0))‖ < r := by
    intro r hr
    rw [Prod.mk_sub_mk, Prod.norm_mk, Prod.mk_sub_mk, Prod.norm_mk, sub_zero]
    exact max_lt (hy.trans_le hr) (max_lt (he.trans_le hr) (hd.trans_le hr))
  have c1 := b1 t ht y (hy.trans_le m1)
  have c2 := b2 t ht y (hy.trans_le m2)
  have c3 := b3 t ht y (hy.trans_le m3)
  have c4 := b4 t ht h (y, (e, d)) (hh.trans_le m4) (hx _ m4)
  have c5 := b5 t ht h (y, (e, d)) (hh.trans_le m5) (hx _ m5)
  simp only at c1
  refine ⟨by linarith, by linarith, by linarith, c4.trans ?_, c5.trans ?_⟩ <;>
    exact mul_le_mul_of_nonneg_right (by linarith) (abs_nonneg h)

/-- **C103, Rosenbrock family.**  In the setting of C91, but with kernels that are only approximately right: there are constants
`C`, `δ > 0` and a norm bound `R`, depending on the problem only, such that for every step size `dt ≤ δ` and any kernels that are
accurate to `κ ≤ δ` for operators of norm at most `R`, `integrate` succeeds and returns at **every** output time a value within
`C (dt^p + ε + κ)` of the solution: errors of the kernels are not amplified by the number of steps. -/
theorem C103_rosenbrock (hasRust : Bool) (sys : OdeSys n P) (hj : ExactJacs sys)
    (m : String) (p : ℕ) (hm : (m, p) ∈ rbOrders) (Y : ℝ → Vec n) (t0 T : ℝ)
    (hY : ∀ t ∈ Set.Icc t0 T, SmoothIVP (sys.frhs none) (p + 2) t Y) :
    ∃ C δ R : ℝ, 0 ≤ C ∧ 0 < δ ∧ ∀ (K : Kernels n) (dt ε κ tol : ℝ) (nsteps : ℕ) (s : ExpRB n), 0 < dt → dt ≤ δ → 0 ≤ ε → ε ≤ δ →
      0 ≤ κ → κ ≤ δ → ApproxFor m K dt R κ →
      t0 + nsteps * dt ≤ T → ExpRB.new hasRust t0 (Y t0) m tol = .ok s →
      ((0 ≤ tol ∧ tol ≤ ε) ∨ (∀ kw t y, (sys.fjac kw t y).fdt = 0) ∨ m ∈ alwaysCorrected) →
      ∀ {Q W : Type} (before : Option (W → ℝ → Vec n → P × W)) (after : Option (W → ℝ → Vec n → Q × W)) (w : W),
      ∃ l, integrateOrmatex (rbStepper hasRust K sys) s (Y t0) t0 dt nsteps before after w = .ok l ∧
        RunAccurate l t0 dt nsteps Y (C * (dt ^ p + ε + κ)) := by
  set f := sys.frhs none with hf
  obtain ⟨hp, -, -, hord⟩ := rbMap_facts (f := f) hm
  have hp2 : 2 ≤ p := by
    simp only [rbOrders, List.mem_cons, List.not_mem_nil, or_false, Prod.mk.injEq] at hm
    omega
  obtain ⟨Kd, rd, hKd, hrd, hlip⟩ := dtM_tube (f := f) (Y := Y) (t0 := t0) (T := T) fun t ht => (hY t ht).mono (by omega)
  obtain ⟨B, ρ, hB, hρ, htube⟩ := rb_tube (f := f) (Y := Y) (t0 := t0) (T := T) fun t ht => (hY t ht).mono (by omega)
  have hsm1 : ∀ t ∈ Set.Icc t0 T, ContDiffAt ℝ (p + 1 : ℕ) (rbMapE m f) (0, t, (Y t, (dtM f (t, Y t), 0))) :=
    fun t ht => rbMapE_smooth (m := p + 1) (hY t ht).smooth _ m
  have hdt : ∀ t ∈ Set.Icc t0 T, ContDiffAt ℝ (p + 1 : ℕ) (fun s => dtM f (s, Y s)) t := fun t ht => by
    have hYc : ContDiffAt ℝ (p + 1 : ℕ) Y t := (hY t ht).contDiff.of_le (by norm_cast; omega)
    exact ContDiffAt.comp (g := dtM f) (f := fun s => (s, Y s)) t (dtM_contDiffAt (hY t ht).smooth) (contDiffAt_id.prodMk hYc)
  obtain ⟨C0, δ0, hC0, hδ0, hdef⟩ := uniform_defect (S := rbMapE m f) (f := f) (Y := Y) (β := fun t _ => ((dtM f (t, Y t), 0) : Aux n))
    (t0 := t0) (T := T) p (p + 2) (by omega) hY hsm1
    (fun t ht => (ContDiffAt.comp (g := fun s => dtM f (s, Y s)) (f := fun q : ℝ × ℝ => q.1) (t, 0) (hdt t ht) contDiffAt_fst).prodMk
      contDiffAt_const)
    (fun t h => by
      simp only [rbMapE_zero_err]
      exact hord t Y (h.mono (by omega)))
  set r1 := min rd (min ρ (ρ / (4 * (Kd + 1)))) with hr1
  have hr10 : 0 < r1 := by positivity
  have hr1d : r1 ≤ rd := min_le_left _ _
  have hr1ρ : r1 ≤ ρ := (min_le_right _ _).trans (min_le_left _ _)
  have hr1K : Kd * r1 ≤ ρ / 4 := by
    have h1 : r1 ≤ ρ / (4 * (Kd + 1)) := (min_le_right _ _).trans (min_le_right _ _)
    rw [le_div_iff₀ (by positivity)] at h1
    nlinarith
  obtain ⟨C, δ, hC, hδ, hmain⟩ := converge_run (S := rbMapE m f) (Y := Y) (a := fun t => ((dtM f (t, Y t), 0) : Aux n)) (t0 := t0) (T := T)
    p hp (fun t ht => (hsm1 t ht).of_le (by norm_cast; omega)) (fun t x => rbMapE_zero m x)
    (fun t ht => (hY t ht).contDiff.continuousAt) (fun t ht => (hdt t ht).continuousAt.prodMk continuousAt_const) Kd C0 r1 hKd hC0 hr10
  set δ' := min (min (min δ (δ0 / 2)) (min 1 (ρ / 4))) (min (δ / (2 * (60 * B + 1))) (ρ / (4 * (B + 1)))) with hδ'
  have hδ'0 : 0 < δ' := by positivity
  have a1 : δ' ≤ δ := (min_le_left _ _).trans ((min_le_left _ _).trans (min_le_left _ _))
  have a2 : δ' ≤ δ0 / 2 := (min_le_left _ _).trans ((min_le_left _ _).trans (min_le_right _ _))
  have a3 : δ' ≤ 1 := (min_le_left _ _).trans ((min_le_right _ _).trans (min_le_left _ _))
  have a4 : δ' ≤ ρ / 4 := (min_le_left _ _).trans ((min_le_right _ _).trans (min_le_right _ _))
  have a5 : δ' * (2 * (60 * B + 1)) ≤ δ := by
    have : δ' ≤ δ / (2 * (60 * B + 1)) := (min_le_right _ _).trans (min_le_left _ _)
    rwa [le_div_iff₀ (by positivity)] at this
  have a6 : δ' * (4 * (B + 1)) ≤ ρ := by
    have : δ' ≤ ρ / (4 * (B + 1)) := (min_le_right _ _).trans (min_le_right _ _)
    rwa [le_div_iff₀ (by positivity)] at this
  refine ⟨C * (60 * B + 1), δ', B, by positivity, hδ'0, ?_⟩
  intro K dt ε κ tol N s hdt0 hdtδ hε hεδ hκ hκδ hK hN hnew htol Q W before after w
  have hr : m = "exprb2_pfd_rs" → hasRust = true := fun h =>
    ((C09_construct_rb hasRust t0 (Y t0) m tol).1.2 ⟨s, hnew⟩).2 (Or.inl h)
  have hin : ∀ k < N, t0 + (k : ℝ) * dt ∈ Set.Icc t0 T := by
    intro k hk
    have h1 : (k : ℝ) ≤ N := by exact_mod_cast hk.le
    have h2 := mul_le_mul_of_nonneg_right h1 hdt0.le
    have h3 : 0 ≤ (k : ℝ) * dt := by positivity
    constructor <;> linarith
  have hκB : κ * (60 * B) ≤ δ' * (60 * B) := mul_le_mul_of_nonneg_right hκδ (by positivity)
  have hκB' : κ * (2 * B) < ρ := by
    have : κ * (2 * B) ≤ δ' * (2 * B) := mul_le_mul_of_nonneg_right hκδ (by positivity)
    nlinarith
  have hεt : ε + κ * (60 * B) ≤ δ := by nlinarith
  obtain ⟨l, hl, hacc⟩ := hmain dt (ε + κ * (60 * B)) N (fun k => (dtM f (t0 + k * dt, Y (t0 + k * dt)), 0)) hdt0 (hdtδ.trans a1)
    (by positivity) hεt hN (by intro k hk; simpa using hδ.le)
    (by
      intro k hk
      have h1 := hdef _ (hin k hk) dt (by rw [abs_of_pos hdt0]; linarith)
      rw [abs_of_pos hdt0] at h1
      have e : t0 + ((k + 1 : ℕ) : ℝ) * dt = t0 + k * dt + dt := by push_cast; ring
      rw [e]; exact h1)
    (rbStepper hasRust K sys) (fun (o : ExpRB n) k u => At o.base (t0 + k * dt) (u k) ∧ o.base.method = m ∧
      o.tolFdt = tol ∧ (Nonempty2 o.base ∧ 0 < o.base.yHist.maxlen ∧ o.base.tHist.maxlen = o.base.yHist.maxlen))
    before after s w
    (by
      intro u hu
      obtain ⟨g1, g2, g3, g4⟩ := rb_new_at hnew
      exact ⟨by simpa [hu] using g1, g2, g3, g4⟩)
    (by
      rintro o k u kw hk - hsmall ⟨g1, g2, g3, g4⟩
      set t := t0 + (k : ℝ) * dt with ht
      have hyk := hsmall k le_rfl
      have hdk := hlip _ (hin k hk) (u k) (hyk.trans_le hr1d)
      have heff := rbEff_sub m tol ε hε (dtM f (t, u k)) (by
        rcases htol with h | h | h
        · exact Or.inl h
        · exact Or.inr (Or.inl (by rw [← (hj.get none _ _).2]; exact h _ _ _))
        · exact Or.inr (Or.inr h))
      have hsub : ‖rbEff m tol (dtM f (t, u k)) - dtM f (t, Y t)‖ ≤ Kd * ‖u k - Y t‖ + ε := by
        calc _ = ‖(rbEff m tol (dtM f (t, u k)) - dtM f (t, u k)) + (dtM f (t, u k) - dtM f (t, Y t))‖ := by congr 1; abel
          _ ≤ _ := norm_add_le _ _
          _ ≤ _ := by linarith
      have hηρ : ‖rbEff m tol (dtM f (t, u k)) - dtM f (t, Y t)‖ < ρ := by
        have := mul_le_mul_of_nonneg_left hyk.le hKd
        linarith
      have hdtρ : |dt| < ρ := by rw [abs_of_pos hdt0]; linarith
      obtain ⟨b1, b2, b3, -, -⟩ := htube t (hin k hk) (u k) _ 0 dt (hyk.trans_le hr1ρ) hηρ (by simpa using hρ) hdtρ
      obtain ⟨d, hd, hst⟩ := rb_step_approx hasRust sys hj o t (u k) g1 kw dt B κ B p m g2 hm hr hK hdt0 (hdtδ.trans a3) hκ b3 b1 b2
        (by
          intro d hd
          rw [g3]
          obtain ⟨-, -, -, b4, b5⟩ := htube t (hin k hk) (u k) _ d dt (hyk.trans_le hr1ρ) hηρ (hd.trans_lt hκB') hdtρ
          rw [abs_of_pos hdt0] at b4 b5
          exact ⟨b4, b5⟩)
      rw [g3] at hst
      refine ⟨StepResult.mk (t + dt) dt (rbMapE m f (dt, t, (u k, (rbEff m tol (dtM f (t, u k)), d)))) (-1), o,
        (rbEff m tol (dtM f (t, u k)), d), ?_, rfl, rfl, ?_, ?_⟩
      · show keep o (ExpRB.step hasRust K sys o dt kw) = _
        rw [hst]; rfl
      · rw [Prod.mk_sub_mk, Prod.norm_mk, sub_zero]
        have h3 := le_maxErr (fun j : ℕ => ‖u j - Y (t0 + j * dt)‖) k k le_rfl
        have h4 := mul_le_mul_of_nonneg_left h3 hKd
        have h5 : 0 ≤ κ * (60 * B) := by positivity
        have h6 : 0 ≤ Kd * ‖u k - Y t‖ := by positivity
        simp only [← ht] at h4
        exact max_le (by linarith) (by linarith)
      · intro u' hu' hn
        refine ⟨?_, g2, g3, accept_nonempty g4 _⟩
        have := at_accept g4.2 (StepResult.mk (t + dt) dt (u' (k + 1)) (-1))
        have e : t0 + ((k + 1 : ℕ) : ℝ) * dt = t + dt := by rw [ht]; push_cast; ring
        rw [e]
        rw [hn] at this ⊢
        exact this)
  refine ⟨l, hl, hacc.1, hacc.2.1, fun i y hi => (hacc.2.2 i y hi).trans ?_⟩
  rw [mul_assoc]
  refine mul_le_mul_of_nonneg_left ?_ hC
  have : 0 ≤ dt ^ p := by positivity
  nlinarith [mul_nonneg hB this, mul_nonneg hB hε]

end
end Ormatex.Props
