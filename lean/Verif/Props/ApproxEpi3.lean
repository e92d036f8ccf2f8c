import Verif.Props.ApproxRun

/-!
C103 for the two-step method `epi3` (with its `exprb3` start) and approximate kernels.
-/

namespace Ormatex.Props
open Filter Asymptotics Topology Matrix Ormatex.Spec
open scoped Classical
open scoped Matrix.Norms.Operator

section
variable {n : ℕ} {P : Type} [EmptyCollection P]
set_option linter.unusedSectionVars false

/-- the remainder of `epi3` at the previous point -/
noncomputable def remP (f : ℝ → Vec n → Vec n) (q : ℝ × ℝ × (Vec n × Vec n)) : Vec n :=
  f (q.2.1 - q.1) q.2.2.2 - f q.2.1 q.2.2.1 - jacM f (q.2.1, q.2.2.1) *ᵥ (q.2.2.2 - q.2.2.1)
    - (q.2.1 - q.1 - q.2.1) • dtM f (q.2.1, q.2.2.1)

/-- one step of `epi3` with error `h d`; the auxiliary argument is the previous state and `d` -/
noncomputable def mapEpi3E (f : ℝ → Vec n → Vec n) (q : ℝ × ℝ × (Vec n × (Vec n × Vec n))) : Vec n :=
  mapEpi3 f (q.1, q.2.1, (q.2.2.1, q.2.2.2.1)) + q.1 • q.2.2.2.2

theorem remP_smooth {f : ℝ → Vec n → Vec n} {m : ℕ} {t : ℝ} {y : Vec n} (hf : ContDiffAt ℝ (m + 1 : ℕ) (fun p : ℝ × Vec n => f p.1 p.2) (t, y)) :
    ContDiffAt ℝ m (remP f) (0, t, (y, y)) := by
  have hz : ContDiffAt ℝ m (fun q : ℝ × ℝ × (Vec n × Vec n) => q.2.2.2 - q.2.2.1) (0, t, (y, y)) := by fun_prop
  have ht : ContDiffAt ℝ m (fun q : ℝ × ℝ × (Vec n × Vec n) => q.2.1 - q.1 - q.2.1) (0, t, (y, y)) := by fun_prop
  have h3 : ContDiffAt ℝ m (fun q : ℝ × ℝ × (Vec n × Vec n) => f (q.2.1 - q.1) q.2.2.2) (0, t, (y, y)) :=
    comp_contDiffAt (hf.of_le (by norm_cast; omega)) (by fun_prop) (by fun_prop) (by simp) rfl
  exact ((h3.sub (smoothF hf y)).sub (mulVec_contDiffAt (smoothJ hf y) hz)).sub (ht.smul (smoothD hf y))

theorem mapEpi3E_smooth {f : ℝ → Vec n → Vec n} {m : ℕ} {t : ℝ} {y : Vec n} (hf : ContDiffAt ℝ (m + 1 : ℕ) (fun p : ℝ × Vec n => f p.1 p.2) (t, y)) :
    ContDiffAt ℝ m (mapEpi3E f) (0, t, (y, (y, 0))) := by
  have h1 : ContDiffAt ℝ m (fun q : ℝ × ℝ × (Vec n × (Vec n × Vec n)) => (q.1, q.2.1, (q.2.2.1, q.2.2.2.1))) (0, t, (y, (y, 0))) := by fun_prop
  have h2 : ContDiffAt ℝ m (fun q : ℝ × ℝ × (Vec n × (Vec n × Vec n)) => q.1 • q.2.2.2.2) (0, t, (y, (y, 0))) := by fun_prop
  exact (ContDiffAt.comp (g := mapEpi3 f) (0, t, (y, (y, 0))) (mapEpi3_smooth hf) h1).add h2

theorem mapEpi3E_zero {f : ℝ → Vec n → Vec n} {t : ℝ} (x : Vec n × (Vec n × Vec n)) : mapEpi3E f (0, t, x) = x.1 := by
  simp [mapEpi3E, mapEpi3_zero]

theorem epi3_approx {K : Kernels n} {sys : OdeSys n P} {s : ExpRB n} {t : ℝ} {y yp : Vec n} {dt R κ B B' : ℝ} {kw : P}
    (hdt : 0 < dt) (hdt1 : dt ≤ 1) (hs : At s.base t y) (hR : ‖jacM (sys.frhs none) (t, y)‖ ≤ R)
    (hF : ‖sys.frhs none t y‖ ≤ B) (hD : ‖dtM (sys.frhs none) (t, y)‖ ≤ B) (hP : ‖remP (sys.frhs none) (dt, t, (y, yp))‖ ≤ B' * dt)
    (hK : ApproxKiops K dt R κ)
    (hj : ExactJac (sys.fjac (some kw) t y) (sys.frhs none) t y (jacM (sys.frhs none) (t, y)))
    (hj2 : (sys.fjac (some kw) t y).fdt = dtM (sys.frhs none) (t, y))
    (htp : s.base.tHist.get 1 = .ok (t - dt)) (hyp : s.base.yHist.get 1 = .ok yp) :
    ∃ d, ‖d‖ ≤ κ * (B + B') ∧ stepEpi3 K sys s dt kw = .ok (StepResult.mk (t + dt) dt
      (mapEpi3E (sys.frhs none) (dt, t, (y, (yp, d)))) (-1)) := by
  have hB : 0 ≤ B := (norm_nonneg _).trans hF
  have hB' : 0 ≤ B' := nonneg_of_mul_nonneg_left ((norm_nonneg _).trans hP) hdt
  set f := sys.frhs none with hf
  set J := jacM f (t, y) with hJ
  set r := remP f (dt, t, (y, yp)) with hr
  set c := dtM f (t, y) with hc
  obtain ⟨w, h1, he1⟩ := hK _ _ hj.mat hR [0, dt • f t y, (dt * (2 / 3)) • r + dt ^ 2 • c] (by simp) (by simp) (dt * (B + B'))
    (by
      intro b hb
      simp only [List.mem_cons, List.not_mem_nil, or_false] at hb
      rcases hb with rfl | rfl | rfl
      · rw [norm_zero]; positivity
      · rw [norm_smul, Real.norm_of_nonneg hdt.le]
        exact mul_le_mul_of_nonneg_left (by linarith) hdt.le
      · refine (norm_add_le _ _).trans ?_
        rw [norm_smul, norm_smul, Real.norm_of_nonneg (by positivity), Real.norm_of_nonneg (by positivity)]
        have h1 : dt ^ 2 * ‖c‖ ≤ dt * B := mul_le_mul (by nlinarith) hD (norm_nonneg _) hdt.le
        have h2 : dt * (2 / 3) * ‖r‖ ≤ dt * B' := mul_le_mul (by nlinarith) (hP.trans (by nlinarith)) (norm_nonneg _) hdt.le
        linarith)
    (by
      show ‖(dt * (2 / 3)) • r + dt ^ 2 • c‖ ≤ _
      refine (norm_add_le _ _).trans ?_
      rw [norm_smul, norm_smul, Real.norm_of_nonneg (by positivity), Real.norm_of_nonneg (by positivity)]
      have h1 : dt ^ 2 * ‖c‖ ≤ dt ^ 2 * B := by gcongr
      have h2 : dt * (2 / 3) * ‖r‖ ≤ dt * 1 * (B' * dt) := by gcongr; norm_num
      nlinarith)
  set W := ∑ j ∈ Finset.range [0, dt • f t y, (dt * (2 / 3)) • r + dt ^ 2 • c].length,
    phiM j (dt • J) *ᵥ [0, dt • f t y, (dt * (2 / 3)) • r + dt ^ 2 • c].getD j 0 with hW
  refine ⟨dt⁻¹ • (w - W), ?_, ?_⟩
  · rw [norm_smul, Real.norm_of_nonneg (by positivity), inv_mul_le_iff₀ hdt]
    linarith
  have er : remf sys s.base (t - dt) yp (f t y) (sys.fjac (some kw) t y).toLinOp c = .ok r := by
    rw [remf_closed sys hs _ _ _ _ _ hj.mat, hr]
    rfl
  unfold stepEpi3
  rw [hs.yNew, hs.time, htp, hyp]
  simp only [Bind.bind, Except.bind, pure, Except.pure, hj.rhs, hj2, er, h1]
  congr 2
  have eW : W = dt • (phiM 1 (dt • J) *ᵥ f t y) + ((dt * (2 / 3)) • (phiM 2 (dt • J) *ᵥ r) + dt ^ 2 • (phiM 2 (dt • J) *ᵥ c)) := by
    rw [hW]; simp [Finset.sum_range_succ, Matrix.mulVec_smul, Matrix.mulVec_add]
  have em : mapEpi3 f (dt, t, (y, yp)) = rosEuler J y (f t y) c dt 1 + (dt * (2 / 3)) • (phiM 2 (dt • J) *ᵥ r) := rfl
  simp only [mapEpi3E, em, rosEuler, one_mul, smul_smul, mul_inv_cancel₀ hdt.ne', one_smul, one_pow]
  rw [eW]
  abel

set_option maxHeartbeats 1600000 in
/-- **C103, epi3.**  The two-step method with its `exprb3` start and kernels accurate to `κ` returns values within
`C (dt^3 + ε + κ)` of the solution. -/
theorem C103_epi3 (hasRust : Bool) (sys : OdeSys n P) (hj : ExactJacs sys)
    (Y : ℝ → Vec n) (t0 T : ℝ) (hY : ∀ t ∈ Set.Icc t0 T, SmoothIVP (sys.frhs none) 5 t Y) :
    ∃ C δ R : ℝ, 0 ≤ C ∧ 0 < δ ∧ ∀ (K : Kernels n) (dt ε κ tol : ℝ) (nsteps : ℕ) (s : ExpRB n), 0 < dt → dt ≤ δ → 0 ≤ ε → ε ≤ δ →
      0 ≤ κ → κ ≤ δ → ApproxFor "epi3" K dt R κ →
      t0 + nsteps * dt ≤ T → ExpRB.new hasRust t0 (Y t0) "epi3" tol = .ok s →
      ((0 ≤ tol ∧ tol ≤ ε) ∨ (∀ kw t y, (sys.fjac kw t y).fdt = 0)) →
      ∀ {Q W : Type} (before : Option (W → ℝ → Vec n → P × W)) (after : Option (W → ℝ → Vec n → Q × W)) (w : W),
      ∃ l, integrateOrmatex (rbStepper hasRust K sys) s (Y t0) t0 dt nsteps before after w = .ok l ∧
        RunAccurate l t0 dt nsteps Y (C * (dt ^ 3 + ε + κ)) := by
  set f := sys.frhs none with hf
  have hYc : ∀ t ∈ Set.Icc t0 T, ContinuousAt Y t := fun t ht => (hY t ht).contDiff.continuousAt
  obtain ⟨B, ρ, hB, hρ, htube⟩ := rb_tube (f := f) (Y := Y) (t0 := t0) (T := T) fun t ht => (hY t ht).mono (by omega)
  have hdtc : ∀ t ∈ Set.Icc t0 T, ContDiffAt ℝ (3 + 1 : ℕ) (fun s => dtM f (s, Y s)) t := fun t ht => by
    have hYc : ContDiffAt ℝ (3 + 1 : ℕ) Y t := (hY t ht).contDiff.of_le (by norm_cast)
    exact ContDiffAt.comp (g := dtM f) (f := fun s => (s, Y s)) t (dtM_contDiffAt (hY t ht).smooth) (contDiffAt_id.prodMk hYc)
  -- the starting step
  have hord : ∀ t, SmoothIVP f 5 t Y → (fun h => rbMapE "exprb3" f (h, t, (Y t, (dtM f (t, Y t), 0))) - Y (t + h)) =O[𝓝 0] fun h => h ^ (3 + 1) := by
    intro t h
    simp only [rbMapE_zero_err]
    exact (rbMap_facts (f := f) (m := "exprb3") (p := 3) (by simp [rbOrders])).2.2.2 t Y (h.mono (by omega))
  have hsmE : ∀ t ∈ Set.Icc t0 T, ContDiffAt ℝ (3 + 1 : ℕ) (rbMapE "exprb3" f) (0, t, (Y t, (dtM f (t, Y t), 0))) :=
    fun t ht => rbMapE_smooth (m := 4) (hY t ht).smooth _ _
  obtain ⟨C1, δ1, hC1, hδ1, hdef1⟩ := uniform_defect (S := rbMapE "exprb3" f) (f := f) (Y := Y) (β := fun t _ => ((dtM f (t, Y t), 0) : Aux n))
    (t0 := t0) (T := T) 3 5 (by omega) hY hsmE
    (fun t ht => (ContDiffAt.comp (g := fun s => dtM f (s, Y s)) (f := fun q : ℝ × ℝ => q.1) (t, 0) (hdtc t ht) contDiffAt_fst).prodMk
      contDiffAt_const) hord
  obtain ⟨Gz, ρz, hGz, hρz, hstart⟩ := tube_bound (G := fun q : ℝ × ℝ × (Vec n × Aux n) => rbMapE "exprb3" f q - q.2.2.1)
    (x := fun s => ((Y s, (dtM f (s, Y s), 0)) : Vec n × Aux n)) (a := t0) (b := T)
    (fun t ht => ((hsmE t ht).of_le (by norm_cast)).sub (by fun_prop))
    (fun t x => by simp [rbMapE_zero]) (fun t ht => (hYc t ht).prodMk ((hdtc t ht).continuousAt.prodMk continuousAt_const))
  obtain ⟨Ls, ρs1, hLs, hρs1, hlips⟩ := tube_lipschitz (G := fun q : ℝ × ℝ × (Vec n × Aux n) => rbMapE "exprb3" f q - q.2.2.1)
    (x := fun s => ((Y s, (dtM f (s, Y s), 0)) : Vec n × Aux n)) (a := t0) (b := T)
    (fun t ht => ((hsmE t ht).of_le (by norm_cast)).sub (by fun_prop))
    (fun t x => by simp [rbMapE_zero]) (fun t ht => (hYc t ht).prodMk ((hdtc t ht).continuousAt.prodMk continuousAt_const))
  set ρs := min ρs1 ρz with hρsd
  have hρs : 0 < ρs := lt_min hρs1 hρz
  have hρss : ρs ≤ ρs1 := min_le_left _ _
  have hρsz : ρs ≤ ρz := min_le_right _ _
  -- the two-step map
  have hsm : ∀ t ∈ Set.Icc t0 T, ContDiffAt ℝ (3 + 1 : ℕ) (mapEpi3E f) (0, t, (Y t, (Y t, 0))) := fun t ht =>
    mapEpi3E_smooth (m := 4) (hY t ht).smooth
  have hYc4 : ∀ t ∈ Set.Icc t0 T, ContDiffAt ℝ (3 + 1 : ℕ) Y t := fun t ht => (hY t ht).contDiff.of_le (by norm_cast)
  obtain ⟨C0, δ0, hC0, hδ0, hdef⟩ := uniform_defect (S := mapEpi3E f) (f := f) (Y := Y) (β := fun t h => ((Y (t - h), 0) : Vec n × Vec n))
    (t0 := t0) (T := T) 3 5 (by norm_num) hY (fun t ht => by simpa using hsm t ht)
    (fun t ht => by
      refine ContDiffAt.prodMk ?_ contDiffAt_const
      refine ContDiffAt.comp (g := Y) (f := fun q : ℝ × ℝ => q.1 - q.2) (t, 0) ?_ (by fun_prop)
      simpa using hYc4 t ht)
    (fun t h => by
      have := epi3_order' (h.mono (by norm_num))
      simpa [mapEpi3E] using this)
  have hrs : ∀ t ∈ Set.Icc t0 T, ContDiffAt ℝ 2 (remP f) (0, t, (Y t, Y t)) := fun t ht =>
    remP_smooth (m := 2) ((hY t ht).mono (by norm_num) : SmoothIVP f 3 t Y).smooth
  obtain ⟨Bl, ρl, hBl, hρl, htl⟩ := tube_lipschitz (G := fun q : ℝ × ℝ × (Vec n × Vec n) => q.1 • remP f q)
    (x := fun s => ((Y s, Y s) : Vec n × Vec n)) (a := t0) (b := T)
    (fun t ht => contDiffAt_fst.smul (hrs t ht)) (fun t x => by simp) (fun t ht => (hYc t ht).prodMk (hYc t ht))
  obtain ⟨Bd, ρd, hBd, hρd, htd⟩ := tube_bound (G := fun q : ℝ × ℝ × Vec n => remP f (q.1, q.2.1, (q.2.2, q.2.2)))
    (x := Y) (a := t0) (b := T)
    (fun t ht => ContDiffAt.comp (g := remP f) (f := fun q : ℝ × ℝ × Vec n => (q.1, q.2.1, (q.2.2, q.2.2))) (0, t, Y t) (hrs t ht) (by fun_prop))
    (fun t x => by simp [remP]) hYc
  obtain ⟨Gs, ρg, hGs, hρg, htg⟩ := tube_bound (G := fun q : ℝ × ℝ × (Vec n × (Vec n × Vec n)) => mapEpi3E f q - q.2.2.1)
    (x := fun s => ((Y s, (Y s, 0)) : Vec n × (Vec n × Vec n))) (a := t0) (b := T)
    (fun t ht => ((hsm t ht).of_le (by norm_cast)).sub (by fun_prop)) (fun t x => by simp [mapEpi3E_zero])
    (fun t ht => (hYc t ht).prodMk ((hYc t ht).prodMk continuousAt_const))
  set Bp := Bl * (Gz + Gs) + Bd with hBpd
  have hBp : 0 ≤ Bp := by positivity
  set ρp := min ρl (min ρd ρg) with hρpd
  have hρp : 0 < ρp := by positivity
  have hρpl : ρp ≤ ρl := min_le_left _ _
  have hρpdd : ρp ≤ ρd := (min_le_right _ _).trans (min_le_left _ _)
  have hρpg : ρp ≤ ρg := (min_le_right _ _).trans (min_le_right _ _)
  obtain ⟨By, ρy, hBy, hρy, hty⟩ := tube_bound (G := fun q : ℝ × ℝ × Vec n => Y (q.2.1 - q.1) - Y q.2.1)
    (x := Y) (a := t0) (b := T)
    (fun t ht => by
      have h2 : ContDiffAt ℝ 2 Y t := (hYc4 t ht).of_le (by norm_cast)
      refine ContDiffAt.sub (ContDiffAt.comp (g := Y) (f := fun q : ℝ × ℝ × Vec n => q.2.1 - q.1) (0, t, Y t) ?_ (by fun_prop))
        (ContDiffAt.comp (g := Y) (f := fun q : ℝ × ℝ × Vec n => q.2.1) (0, t, Y t) h2 (by fun_prop))
      simpa using h2) (fun t x => by simp) hYc
  set r1 := min ρ (ρp / 2) with hr1
  have hr10 : 0 < r1 := by positivity
  obtain ⟨C, δ, hC, hδ, hmain⟩ := converge_run (S := mapEpi3E f) (Y := Y) (a := fun t => ((Y t, 0) : Vec n × Vec n)) (t0 := t0) (T := T)
    3 (by norm_num) (fun t ht => (hsm t ht).of_le (by norm_cast)) (fun t x => mapEpi3E_zero x) hYc
    (fun t ht => (hYc t ht).prodMk continuousAt_const) 1 C0 r1 zero_le_one hC0 hr10
  -- constants
  set D := C0 + C1 + 1 + Ls * (1 + 60 * B) + (B + Bp) with hD
  have hD1 : 1 ≤ D := by have : 0 ≤ Ls * (1 + 60 * B) := by positivity
                         linarith
  obtain ⟨δ', hδ'0, a1, a2, a3, a4, a5, a6, a7, a8, a9, a10⟩ : ∃ δ' : ℝ, 0 < δ' ∧ δ' ≤ δ ∧ δ' ≤ 1 ∧ δ' < δ0 ∧ δ' < δ1 ∧ δ' < ρ ∧
      δ' * (1 + 60 * B) < ρs ∧ δ' < ρs ∧ δ' < ρp ∧ (By * δ' ≤ δ ∧ By * δ' ≤ ρp / 4 ∧ δ' < ρy) ∧
      (δ' * (3 * D) ≤ δ ∧ δ' * (2 * B) < ρ ∧ δ' * (B + Bp) < ρp) := by
    set X := 1 + 60 * B + By + 3 * D + 2 * B with hX
    have hX1 : 1 ≤ X := by linarith
    set μ := min (min (min δ 1) (min δ0 δ1)) (min (min ρ ρs) (min (ρp / 4) ρy)) with hμ
    have hμ0 : 0 < μ := by positivity
    have n1 : μ ≤ δ := (min_le_left _ _).trans ((min_le_left _ _).trans (min_le_left _ _))
    have n2 : μ ≤ 1 := (min_le_left _ _).trans ((min_le_left _ _).trans (min_le_right _ _))
    have n3 : μ ≤ δ0 := (min_le_left _ _).trans ((min_le_right _ _).trans (min_le_left _ _))
    have n4 : μ ≤ δ1 := (min_le_left _ _).trans ((min_le_right _ _).trans (min_le_right _ _))
    have n5 : μ ≤ ρ := (min_le_right _ _).trans ((min_le_left _ _).trans (min_le_left _ _))
    have n6 : μ ≤ ρs := (min_le_right _ _).trans ((min_le_left _ _).trans (min_le_right _ _))
    have n7 : μ ≤ ρp / 4 := (min_le_right _ _).trans ((min_le_right _ _).trans (min_le_left _ _))
    have n8 : μ ≤ ρy := (min_le_right _ _).trans ((min_le_right _ _).trans (min_le_right _ _))
    have key : ∀ z, 0 ≤ z → z ≤ X → μ / (2 * X) * z < μ := by
      intro z hz0 hz
      rw [div_mul_eq_mul_div, div_lt_iff₀ (by positivity)]
      nlinarith
    have k1 := key 1 zero_le_one hX1
    rw [mul_one] at k1
    have k2 := key (1 + 60 * B) (by positivity) (by linarith)
    have k3 := key By hBy (by linarith)
    have k4 := key (3 * D) (by linarith) (by linarith)
    have k5 := key (2 * B) (by positivity) (by linarith)
    have k6 := key (B + Bp) (by positivity) (by linarith [show 0 ≤ Ls * (1 + 60 * B) by positivity])
    refine ⟨μ / (2 * X), by positivity, ?_, ?_, ?_, ?_, ?_, ?_, ?_, ?_, ⟨?_, ?_, ?_⟩, ?_, ?_, ?_⟩ <;> linarith
  refine ⟨C * (1 + D), δ', B, by positivity, hδ'0, ?_⟩
  intro K dt ε κ tol N s hdt0 hdtδ hε hεδ hκ hκδ hK hN hnew htol Q W before after w
  have hs : s = ExpRB.mk (Base.mk t0 3 "epi3" ⟨3, [t0]⟩ ⟨3, [Y t0]⟩) tol := by
    have : ExpRB.new hasRust t0 (Y t0) "epi3" tol = .ok (ExpRB.mk (Base.mk t0 3 "epi3" ⟨3, [t0]⟩ ⟨3, [Y t0]⟩) tol) := by
      cases hasRust <;> rfl
    rw [this] at hnew
    cases hnew
    rfl
  have habs : |dt| = dt := abs_of_pos hdt0
  have hdt1 : dt ≤ 1 := hdtδ.trans a2
  have hin : ∀ k < N, t0 + (k : ℝ) * dt ∈ Set.Icc t0 T := by
    intro k hk
    have h1 : (k : ℝ) ≤ N := by exact_mod_cast hk.le
    have h2 := mul_le_mul_of_nonneg_right h1 hdt0.le
    have h3 : 0 ≤ (k : ℝ) * dt := by positivity
    constructor <;> linarith
  have hpw : dt ^ 3 ≤ dt := by
    calc dt ^ 3 ≤ dt ^ 1 := pow_le_pow_of_le_one hdt0.le hdt1 (by norm_num)
      _ = dt := pow_one dt
  have hdt3 : 0 ≤ dt ^ 3 := by positivity
  set E := D * (dt ^ 3 + ε + κ) with hE
  have hE0 : 0 ≤ E := by positivity
  have hEδ : E ≤ δ := by
    have h1 : dt ^ 3 + ε + κ ≤ 3 * δ' := by linarith
    have := mul_le_mul_of_nonneg_left h1 (by linarith : 0 ≤ D)
    calc E ≤ D * (3 * δ') := this
      _ = δ' * (3 * D) := by ring
      _ ≤ δ := a10.1
  have hκB' : κ * (2 * B) < ρ := (mul_le_mul_of_nonneg_right hκδ (by positivity)).trans_lt a10.2.1
  have hBydt : By * dt ≤ By * δ' := mul_le_mul_of_nonneg_left hdtδ hBy
  have hback : ∀ k < N, ‖Y (t0 + k * dt - dt) - Y (t0 + k * dt)‖ ≤ By * dt := by
    intro k hk
    have := hty _ (hin k hk) dt (Y (t0 + k * dt)) (by rw [habs]; linarith [a9.2.2]) (by simpa using hρy)
    rwa [habs] at this
  have hdefk : ∀ k < N, ‖mapEpi3E f (dt, t0 + k * dt, (Y (t0 + k * dt), (Y (t0 + k * dt - dt), 0))) - Y (t0 + k * dt + dt)‖ ≤ C0 * dt ^ (3 + 1) := by
    intro k hk
    have h1 := hdef _ (hin k hk) dt (by rw [habs]; linarith)
    rwa [habs] at h1
  obtain ⟨l, hl, hacc⟩ := hmain dt E N (fun k => (Y (t0 + k * dt - dt), 0)) hdt0 (hdtδ.trans a1) hE0 hEδ hN
    (by
      intro k hk
      rw [Prod.mk_sub_mk, Prod.norm_mk, sub_self, norm_zero]
      exact max_le ((hback k hk).trans (by linarith [a9.1])) hδ.le)
    (by
      intro k hk
      have e : t0 + ((k + 1 : ℕ) : ℝ) * dt = t0 + k * dt + dt := by push_cast; ring
      rw [e]
      exact hdefk k hk)
    (rbStepper hasRust K sys) (fun (o : ExpRB n) k u => At o.base (t0 + k * dt) (u k) ∧
      o.base.method = "epi3" ∧ o.tolFdt = tol ∧ o.base.tHist.maxlen = 3 ∧ o.base.yHist.maxlen = 3 ∧
      (k = 0 → o.base.yHist.items.length = 1) ∧
      (0 < k → 2 ≤ o.base.yHist.items.length ∧ o.base.tHist.get 1 = .ok (t0 + k * dt - dt) ∧ o.base.yHist.get 1 = .ok (u (k - 1)) ∧
        ‖u k - u (k - 1)‖ ≤ (Gz + Gs) * dt))
    before after s w
    (by
      intro u hu
      rw [hs]
      refine ⟨?_, rfl, rfl, rfl, rfl, fun _ => rfl, fun h => absurd h (lt_irrefl 0)⟩
      have e : t0 + ((0 : ℕ) : ℝ) * dt = t0 := by simp
      rw [e, hu]
      exact ⟨rfl, rfl, rfl⟩)
    (by
      rintro o k u kw hk hu0 hsmall ⟨g1, g2, g3, g4, g5, g6, g7⟩
      have hacc : ∀ y, At (o.acceptStep (StepResult.mk (t0 + k * dt + dt) dt y (-1))).base (t0 + ((k + 1 : ℕ) : ℝ) * dt) y := by
        intro y
        have := at_accept (b := o.base) ⟨by rw [g5]; norm_num, by rw [g4, g5]⟩ (StepResult.mk (t0 + k * dt + dt) dt y (-1))
        have e : t0 + ((k + 1 : ℕ) : ℝ) * dt = t0 + k * dt + dt := by push_cast; ring
        rw [e]
        exact this
      have hget : ∀ y, 2 ≤ (o.acceptStep (StepResult.mk (t0 + k * dt + dt) dt y (-1))).base.yHist.items.length ∧
          (o.acceptStep (StepResult.mk (t0 + k * dt + dt) dt y (-1))).base.tHist.get 1 = .ok (t0 + ((k + 1 : ℕ) : ℝ) * dt - dt) ∧
          (o.acceptStep (StepResult.mk (t0 + k * dt + dt) dt y (-1))).base.yHist.get 1 = .ok (u k) := by
        intro y
        have ht := g1.tNew
        have hy := g1.yNew
        simp only [Deque.get] at ht hy
        have e : t0 + ((k + 1 : ℕ) : ℝ) * dt - dt = t0 + k * dt := by push_cast; ring
        rw [e]
        simp only [ExpRB.acceptStep, Base.acceptStep, Deque.appendleft, g4, g5, Deque.get]
        cases hti : o.base.tHist.items with
        | nil => rw [hti] at ht; cases ht
        | cons a as =>
          cases hyi : o.base.yHist.items with
          | nil => rw [hyi] at hy; cases hy
          | cons b bs =>
            rw [hti] at ht
            rw [hyi] at hy
            simp only [List.getElem?_cons_zero] at ht hy
            refine ⟨by simp, ?_, ?_⟩
            · simpa using ht
            · simpa using hy
      have hinv : ∀ y, ‖y - u k‖ ≤ (Gz + Gs) * dt → ∀ (u' : ℕ → Vec n), (∀ i ≤ k, u' i = u i) → u' (k + 1) = y →
          At (o.acceptStep (StepResult.mk (t0 + k * dt + dt) dt y (-1))).base (t0 + ((k + 1 : ℕ) : ℝ) * dt) (u' (k + 1)) ∧
          o.base.method = "epi3" ∧ o.tolFdt = tol ∧ o.base.tHist.maxlen = 3 ∧ o.base.yHist.maxlen = 3 ∧
          (k + 1 = 0 → (o.acceptStep (StepResult.mk (t0 + k * dt + dt) dt y (-1))).base.yHist.items.length = 1) ∧
          (0 < k + 1 → 2 ≤ (o.acceptStep (StepResult.mk (t0 + k * dt + dt) dt y (-1))).base.yHist.items.length ∧
            (o.acceptStep (StepResult.mk (t0 + k * dt + dt) dt y (-1))).base.tHist.get 1 = .ok (t0 + ((k + 1 : ℕ) : ℝ) * dt - dt) ∧
            (o.acceptStep (StepResult.mk (t0 + k * dt + dt) dt y (-1))).base.yHist.get 1 = .ok (u' (k + 1 - 1)) ∧
            ‖u' (k + 1) - u' (k + 1 - 1)‖ ≤ (Gz + Gs) * dt) := by
        intro y hyu u' hu' hn
        refine ⟨by rw [hn]; exact hacc y, g2, g3, g4, g5, by intro h; omega, fun _ => ?_⟩
        rw [Nat.add_sub_cancel, hu' k le_rfl, hn]
        exact ⟨(hget y).1, (hget y).2.1, (hget y).2.2, hyu⟩
      obtain ⟨hj1, hj2⟩ := hj.get (some (kw.getD ∅)) (t0 + k * dt) (u k)
      have hyk := hsmall k le_rfl
      have hykρ : ‖u k - Y (t0 + k * dt)‖ < ρ := hyk.trans_le (min_le_left _ _)
      have hykp : ‖u k - Y (t0 + k * dt)‖ < ρp / 2 := hyk.trans_le (min_le_right _ _)
      have hdtρ : |dt| < ρ := by rw [habs]; linarith
      obtain ⟨b1, b2, b3, -, -⟩ := htube _ (hin k hk) (u k) (dtM f (t0 + k * dt, Y (t0 + k * dt))) 0 dt hykρ (by simpa using hρ) (by simpa using hρ) hdtρ
      rcases k with _ | k
      · -- first step
        have e0 : t0 + ((0 : ℕ) : ℝ) * dt = t0 := by simp
        rw [e0] at hj1 hj2 hyk hykρ b1 b2 b3 g1
        have ht0 := hin 0 hk
        rw [e0] at ht0
        rw [hu0] at hj1 hj2 b1 b2 b3 g1
        have heff : ‖effFdt tol (dtM f (t0, Y t0)) - dtM f (t0, Y t0)‖ ≤ ε := by
          have := rbEff_sub "exprb3" tol ε hε (dtM f (t0, Y t0)) (by
            rcases htol with h | h
            · exact Or.inl h
            · exact Or.inr (Or.inl (by rw [← (hj.get none _ _).2]; exact h _ _ _)))
          simpa [rbEff, alwaysCorrected] using this
        have hερ : ‖effFdt tol (dtM f (t0, Y t0)) - dtM f (t0, Y t0)‖ < ρ := by linarith
        obtain ⟨d3, hd3, hst⟩ := exprb3_approx (K := K) (sys := sys) (s := o) (kw := kw.getD ∅) (R := B) hdt0 hdt1 hκ g1 b3 b1 b2
          (by simpa using hK.linop (by decide)) hj1 hj2
          (by
            intro d hd
            rw [g3]
            have := (htube _ ht0 (Y t0) _ d dt (by simpa using hρ) hερ (hd.trans_lt hκB') hdtρ).2.2.2.1
            rwa [habs] at this)
        rw [g3] at hst
        rw [← hf] at hst
        set z := mapE3 f (dt, t0, (Y t0, (effFdt tol (dtM f (t0, Y t0)), d3))) with hz
        set m0 := mapEpi3 f (dt, t0, (Y t0, Y (t0 - dt))) with hm0
        have hsm : ε + κ * (60 * B) < ρs := by
          have := mul_le_mul_of_nonneg_right hκδ (by positivity : 0 ≤ 60 * B)
          linarith
        have hz0 : ‖z - u 0‖ ≤ (Gz + Gs) * dt := by
          have h2 := hstart _ ht0 dt (Y t0, (effFdt tol (dtM f (t0, Y t0)), d3)) (by rw [habs]; linarith) (by
            rw [Prod.mk_sub_mk, Prod.norm_mk, Prod.mk_sub_mk, Prod.norm_mk, sub_self, norm_zero, sub_zero]
            have : 0 ≤ κ * (60 * B) := by positivity
            exact max_lt hρz (max_lt (by linarith) (by linarith)))
          rw [habs] at h2
          have h3 : z = rbMapE "exprb3" f (dt, t0, (Y t0, (effFdt tol (dtM f (t0, Y t0)), d3))) := by simp [hz, rbMapE]
          rw [hu0, h3]
          exact h2.trans (mul_le_mul_of_nonneg_right (le_add_of_nonneg_right hGs) hdt0.le)
        have hzY : ‖z - Y (t0 + dt)‖ ≤ dt * (C1 * dt ^ 3 + Ls * (ε + κ * (60 * B))) := by
          have h1 := hdef1 _ ht0 dt (by rw [habs]; linarith)
          have hpair : ‖((Y t0, (effFdt tol (dtM f (t0, Y t0)), d3)) : Vec n × Aux n) - (Y t0, (dtM f (t0, Y t0), 0))‖ ≤ ε + κ * (60 * B) := by
            rw [Prod.mk_sub_mk, Prod.norm_mk, Prod.mk_sub_mk, Prod.norm_mk, sub_self, norm_zero, sub_zero]
            have : 0 ≤ κ * (60 * B) := by positivity
            exact max_le (by positivity) (max_le (by linarith) (by linarith))
          have h2 := hlips _ ht0 dt (Y t0, (effFdt tol (dtM f (t0, Y t0)), d3)) (Y t0, (dtM f (t0, Y t0), 0)) (by rw [habs]; linarith)
            (hpair.trans_lt (hsm.trans_le hρss)) (by simpa using hρs1)
          rw [habs] at h1 h2
          simp only [sub_sub_sub_cancel_right] at h2
          have h3 : z = rbMapE "exprb3" f (dt, t0, (Y t0, (effFdt tol (dtM f (t0, Y t0)), d3))) := by simp [hz, rbMapE]
          rw [← h3] at h2
          have h4 : Ls * dt * ‖((Y t0, (effFdt tol (dtM f (t0, Y t0)), d3)) : Vec n × Aux n) - (Y t0, (dtM f (t0, Y t0), 0))‖ ≤ Ls * dt * (ε + κ * (60 * B)) :=
            mul_le_mul_of_nonneg_left hpair (by positivity)
          calc ‖z - Y (t0 + dt)‖ = ‖(z - rbMapE "exprb3" f (dt, t0, (Y t0, (dtM f (t0, Y t0), 0)))) + (rbMapE "exprb3" f (dt, t0, (Y t0, (dtM f (t0, Y t0), 0))) - Y (t0 + dt))‖ := by congr 1; abel
            _ ≤ _ := norm_add_le _ _
            _ ≤ Ls * dt * (ε + κ * (60 * B)) + C1 * dt ^ (3 + 1) := by linarith
            _ = _ := by ring
        have hm0Y : ‖m0 - Y (t0 + dt)‖ ≤ dt * (C0 * dt ^ 3) := by
          have := hdefk 0 hk
          rw [e0] at this
          simp only [mapEpi3E, smul_zero, add_zero] at this
          calc _ ≤ _ := this
            _ = _ := by ring
        refine ⟨StepResult.mk (t0 + ((0 : ℕ) : ℝ) * dt + dt) dt z (-1), o, (Y (t0 - dt), dt⁻¹ • (z - m0)), ?_, rfl, ?_, ?_, hinv z hz0⟩
        · show keep o (ExpRB.step hasRust K sys o dt kw) = _
          unfold ExpRB.step
          have hl' : ¬ o.base.yHist.len ≥ 2 := by
            show ¬ o.base.yHist.items.length ≥ 2
            rw [g6 rfl]; omega
          simp only [g2, String.reduceEq, if_true, if_false, hl']
          rw [hst, e0]
          rfl
        · rw [e0, hu0]
          simp only [mapEpi3E, smul_smul, mul_inv_cancel₀ hdt0.ne', one_smul, ← hm0]
          abel
        · rw [e0, Prod.mk_sub_mk, Prod.norm_mk, sub_self, norm_zero, sub_zero, max_eq_right (norm_nonneg _), norm_smul,
            Real.norm_of_nonneg (by positivity), inv_mul_le_iff₀ hdt0]
          have h1 : ‖z - m0‖ ≤ ‖z - Y (t0 + dt)‖ + ‖m0 - Y (t0 + dt)‖ := by
            calc ‖z - m0‖ = ‖(z - Y (t0 + dt)) - (m0 - Y (t0 + dt))‖ := by congr 1; abel
              _ ≤ _ := norm_sub_le _ _
          have h2 : 0 ≤ maxErr (fun j : ℕ => ‖u j - Y (t0 + j * dt)‖) 0 :=
            (norm_nonneg _).trans (le_maxErr (fun j : ℕ => ‖u j - Y (t0 + j * dt)‖) 0 0 le_rfl)
          have h3 : C1 * dt ^ 3 + Ls * (ε + κ * (60 * B)) + C0 * dt ^ 3 ≤ E := by
            rw [hE, hD]
            have p1 : 0 ≤ Ls * dt ^ 3 := by positivity
            have p2 : 0 ≤ Ls * B * dt ^ 3 := by positivity
            have p3 : 0 ≤ Ls * B * ε := by positivity
            have p4 : 0 ≤ Ls * κ := by positivity
            have p5 : 0 ≤ (C0 + C1 + 1 + (B + Bp)) * ε := by positivity
            have p6 : 0 ≤ (C0 + C1 + 1 + (B + Bp)) * κ := by positivity
            have p7 : 0 ≤ (1 + (B + Bp)) * dt ^ 3 := by positivity
            linarith
          have h4 : dt * (C1 * dt ^ 3 + Ls * (ε + κ * (60 * B)) + C0 * dt ^ 3) ≤ dt * E := mul_le_mul_of_nonneg_left h3 hdt0.le
          have h5 : 0 ≤ dt * maxErr (fun j : ℕ => ‖u j - Y (t0 + j * dt)‖) 0 := by positivity
          linarith
      · obtain ⟨q1, q2, q3, q4⟩ := g7 (by omega)
        rw [Nat.add_sub_cancel] at q3 q4
        set t := t0 + ((k + 1 : ℕ) : ℝ) * dt with ht
        have etk : t - dt = t0 + k * dt := by rw [ht]; push_cast; ring
        have hbk := hback (k + 1) hk
        have hprev := hsmall k (by omega)
        have hprevp : ‖u k - Y (t - dt)‖ < ρp / 2 := by rw [etk]; exact hprev.trans_le (min_le_right _ _)
        have hukp : ‖u k - Y t‖ < ρp := by
          calc ‖u k - Y t‖ = ‖(u k - Y (t - dt)) + (Y (t - dt) - Y t)‖ := by congr 1; abel
            _ ≤ _ := norm_add_le _ _
            _ < ρp := by linarith [a9.2.1]
        have hrp : ‖remP f (dt, t, (u (k + 1), u k))‖ ≤ Bp * dt := by
          have h1 := htl t (hin _ hk) dt (u (k + 1), u k) (u (k + 1), u (k + 1)) (by rw [habs]; linarith) (by
            rw [Prod.mk_sub_mk, Prod.norm_mk]
            exact max_lt (by linarith) (by linarith)) (by
            rw [Prod.mk_sub_mk, Prod.norm_mk]
            exact max_lt (by linarith) (by linarith))
          have h2 := htd t (hin _ hk) dt (u (k + 1)) (by rw [habs]; linarith) (by linarith)
          simp only [Prod.mk_sub_mk, sub_self, Prod.norm_mk, norm_zero] at h1 h2
          rw [← smul_sub, norm_smul, Real.norm_of_nonneg hdt0.le, habs, max_eq_right (norm_nonneg _), mul_comm Bl dt, mul_assoc] at h1
          rw [habs] at h2
          have h3 := le_of_mul_le_mul_left h1 hdt0
          rw [norm_sub_rev (u k)] at h3
          have h4 := h3.trans (mul_le_mul_of_nonneg_left q4 hBl)
          calc ‖remP f (dt, t, (u (k + 1), u k))‖
              = ‖(remP f (dt, t, (u (k + 1), u k)) - remP f (dt, t, (u (k + 1), u (k + 1)))) + remP f (dt, t, (u (k + 1), u (k + 1)))‖ := by congr 1; abel
            _ ≤ _ := norm_add_le _ _
            _ ≤ Bl * ((Gz + Gs) * dt) + Bd * dt := add_le_add h4 h2
            _ = Bp * dt := by rw [hBpd]; ring
        obtain ⟨d, hdn, hst⟩ := epi3_approx (K := K) (sys := sys) (s := o) (kw := kw.getD ∅) (R := B) hdt0 hdt1 g1 b3 b1 b2 hrp
          (hK.kiops (by decide)) hj1 hj2 q2 q3
        rw [← hf] at hst
        have hstep : ‖mapEpi3E f (dt, t, (u (k + 1), (u k, d))) - u (k + 1)‖ ≤ (Gz + Gs) * dt := by
          have h1 := htg t (hin _ hk) dt (u (k + 1), (u k, d)) (by rw [habs]; linarith) (by
            rw [Prod.mk_sub_mk, Prod.norm_mk, Prod.mk_sub_mk, Prod.norm_mk, sub_zero]
            have h2 : κ * (B + Bp) ≤ δ' * (B + Bp) := mul_le_mul_of_nonneg_right hκδ (by positivity)
            exact max_lt (by linarith) (max_lt (by linarith) (by linarith [a10.2.2])))
          rw [habs] at h1
          exact h1.trans (mul_le_mul_of_nonneg_right (le_add_of_nonneg_left hGz) hdt0.le)
        refine ⟨StepResult.mk (t + dt) dt (mapEpi3E f (dt, t, (u (k + 1), (u k, d)))) (-1), o, (u k, d), ?_, rfl, rfl, ?_, hinv _ hstep⟩
        · show keep o (ExpRB.step hasRust K sys o dt kw) = _
          unfold ExpRB.step
          have hl' : o.base.yHist.len ≥ 2 := q1
          simp only [g2, String.reduceEq, if_true, if_false, hl']
          rw [hst]
          rfl
        · rw [Prod.mk_sub_mk, Prod.norm_mk, sub_zero, one_mul]
          have h1 := le_maxErr (fun j : ℕ => ‖u j - Y (t0 + j * dt)‖) (k + 1) k (by omega)
          simp only [← etk] at h1
          have h2 : κ * (B + Bp) ≤ E := by
            rw [hE, hD]
            have p1 : 0 ≤ (C0 + C1 + 1 + Ls * (1 + 60 * B)) * κ := by positivity
            have p2 : 0 ≤ (C0 + C1 + 1 + Ls * (1 + 60 * B) + (B + Bp)) * (dt ^ 3 + ε) := by positivity
            linarith
          have h3 : 0 ≤ maxErr (fun j : ℕ => ‖u j - Y (t0 + j * dt)‖) (k + 1) := (norm_nonneg _).trans (le_maxErr (fun j : ℕ => ‖u j - Y (t0 + j * dt)‖) (k + 1) 0 (by omega))
          exact max_le (by linarith) (by linarith))
  refine ⟨l, hl, hacc.1, hacc.2.1, fun i y hi => (hacc.2.2 i y hi).trans ?_⟩
  rw [mul_assoc]
  refine mul_le_mul_of_nonneg_left ?_ hC
  rw [hE]
  have : 0 ≤ D * (ε + κ) := by positivity
  have : 0 ≤ ε + κ := by positivity
  linarith

end
end Ormatex.Props
