import Verif.Props.RsArnoldi
import Verif.Props.LinExact
import Verif.Props.Equil

/-!
C75, C76: the exponential integrators of the Rust crate, compared with the Python ones, on affine and forced systems, and
at equilibria.
-/

namespace Ormatex.Props
open Matrix Ormatex.Spec Ormatex.Rs
open scoped Classical
variable {n : ℕ}

/-- newest history entries of a Rust exponential integrator -/
structure AtRs (s : Epirk n) (t : ℝ) (y : Vec n) : Prop where
  time : s.t = t
  tNew : rsGet s.tHist 0 = .ok t
  yNew : rsGet s.yHist 0 = .ok y

/-- the difference quotient of the right-hand side in time used by the Rust methods -/
noncomputable def rsFdt (sys : Sys n) (t : ℝ) (y : Vec n) : Vec n :=
  fun i => (sys.frhs (t + 1e-8) y i - sys.frhs t y i) / 1e-8

theorem fphi2V_closed {K : Kern n} (hK : ExactKern K) (sys : Sys n) (s : Epirk n) {t : ℝ} {y : Vec n} (hs : AtRs s t y)
    (jac : LinOp n) (J : Mat n) (hJ : IsMatrix jac J) (dt : ℝ) :
    Epirk.fphi2V K sys s (sys.frhs t y) jac dt =
      .ok (dt ^ 2 • (phiM 2 (dt • J) *ᵥ effFdt s.tolFdt (rsFdt sys t y)), if s.tolFdt < 0 then 0 else rsFdt sys t y) := by
  unfold Epirk.fphi2V effFdt
  by_cases h : s.tolFdt < 0
  · rw [if_pos h, if_neg (by intro h'; linarith [h'.1]), if_pos h]
    simp
  · rw [if_neg h, if_neg h]
    have hv : Epirk.frhsFdt sys s (sys.frhs t y) 1e-8 = .ok (rsFdt sys t y) := by
      unfold Epirk.frhsFdt
      rw [hs.yNew, hs.time]
      rfl
    rw [hv]
    show (if ‖rsFdt sys t y‖ > s.tolFdt then _ else _) = _
    by_cases h2 : ‖rsFdt sys t y‖ > s.tolFdt
    · have hne : rsFdt sys t y ≠ 0 := by
        intro h0
        rw [h0, norm_zero] at h2
        exact h h2
      rw [if_pos h2, if_pos ⟨not_lt.1 h, h2⟩, hK.phi jac J hJ _ _ _ hne]
      rfl
    · rw [if_neg h2, if_neg (fun h' => h2 h'.2)]
      simp [pure, Except.pure]

theorem rsOrder2_closed {K : Kern n} (hK : ExactKern K) (sys : Sys n) (s : Epirk n) {t : ℝ} {y : Vec n} (hs : AtRs s t y)
    (J : Mat n) (hJ : IsMatrix (sys.fjac t y) J) (dt : ℝ) (hdt : dt ≠ 0) (hf : sys.frhs t y ≠ 0) :
    Epirk.stepOrder2 K sys s dt =
      .ok ⟨t + dt, dt, rosEuler J y (sys.frhs t y) (effFdt s.tolFdt (rsFdt sys t y)) dt 1, none⟩ := by
  unfold Epirk.stepOrder2
  rw [hs.yNew, hs.time]
  simp only [bind, Except.bind, pure, Except.pure, fphi2V_closed hK sys s hs _ J hJ,
    hK.phi _ J hJ dt (dt • sys.frhs t y) 1 (smul_ne_zero hdt hf)]
  congr 2
  unfold rosEuler
  rw [one_mul, Matrix.mulVec_smul, one_pow, one_mul]
  abel

theorem rsRemf_closed (sys : Sys n) (s : Epirk n) {t : ℝ} {y : Vec n} (hs : AtRs s t y) (tr : ℝ) (yr F : Vec n)
    (L : LinOp n) (J : Mat n) (hJ : IsMatrix L J) (v : Vec n) :
    Epirk.remf sys s tr yr F L (some v) = .ok (sys.frhs tr yr - F - J *ᵥ (yr - y) - (tr - t) • v) := by
  unfold Epirk.remf LinOp.call
  rw [hs.tNew, hs.yNew]
  simp only [bind, Except.bind, pure, Except.pure, hJ (yr - y), Option.getD_some]

theorem rsExprb32_closed {K : Kern n} (hK : ExactKern K) (sys : Sys n) (s : Epirk n) {t : ℝ} {y : Vec n} (hs : AtRs s t y)
    (J : Mat n) (hJ : IsMatrix (sys.fjac t y) J) (dt : ℝ) (hdt : dt ≠ 0) (hf : sys.frhs t y ≠ 0) :
    let v := if s.tolFdt < 0 then 0 else rsFdt sys t y
    let y2 := rosEuler J y (sys.frhs t y) (effFdt s.tolFdt (rsFdt sys t y)) dt 1
    let r2 := sys.frhs (t + dt) y2 - sys.frhs t y - J *ᵥ (y2 - y) - dt • v
    r2 ≠ 0 → ∃ err, Epirk.stepExprb32 K sys s dt = .ok ⟨t + dt, dt, y2 + (2 * dt) • (phiM 3 (dt • J) *ᵥ r2), some err⟩ := by
  intro v y2 r2 hr
  have e2 : y + dt ^ 2 • (phiM 2 (dt • J) *ᵥ effFdt s.tolFdt (rsFdt sys t y)) + phiM 1 (dt • J) *ᵥ (dt • sys.frhs t y) = y2 := by
    show _ = rosEuler _ _ _ _ _ _
    unfold rosEuler
    rw [one_mul, Matrix.mulVec_smul, one_pow, one_mul]
    abel
  unfold Epirk.stepExprb32
  rw [hs.yNew, hs.time]
  simp only [bind, Except.bind, pure, Except.pure, fphi2V_closed hK sys s hs _ J hJ,
    hK.phi _ J hJ dt (dt • sys.frhs t y) 1 (smul_ne_zero hdt hf), e2, rsRemf_closed sys s hs _ _ _ _ J hJ,
    add_sub_cancel_left]
  have hp := hK.phi _ J hJ dt r2 3 hr
  simp only [r2, v] at hp ⊢
  rw [hp]
  exact ⟨_, rfl⟩

theorem rsOrder3_closed {K : Kern n} (hK : ExactKern K) (sys : Sys n) (s : Epirk n) {t : ℝ} {y : Vec n} (hs : AtRs s t y)
    (J : Mat n) (hJ : IsMatrix (sys.fjac t y) J) (dt tp : ℝ) (yp : Vec n) (htp : rsGet s.tHist 1 = .ok tp)
    (hyp : rsGet s.yHist 1 = .ok yp) :
    let v := if s.tolFdt < 0 then 0 else rsFdt sys t y
    let rn := sys.frhs tp yp - sys.frhs t y - J *ᵥ (yp - y) - (tp - t) • v
    Epirk.stepOrder3 K sys s dt = .ok ⟨t + dt, dt,
      rosEuler J y (sys.frhs t y) (effFdt s.tolFdt (rsFdt sys t y)) dt 1 + (dt * (2 / 3)) • (phiM 2 (dt • J) *ᵥ rn), none⟩ := by
  intro v rn
  unfold Epirk.stepOrder3
  rw [hs.yNew, hs.time, hyp, htp]
  simp only [bind, Except.bind, pure, Except.pure, fphi2V_closed hK sys s hs _ J hJ, rsRemf_closed sys s hs _ _ _ _ J hJ,
    hK.kiops _ J hJ _ [_, _, _] (by simp)]
  simp only [rn, v]
  generalize sys.frhs tp yp - sys.frhs t y - J *ᵥ (yp - y) -
    (tp - t) • (if s.tolFdt < 0 then (0 : Vec n) else rsFdt sys t y) = w
  congr 2
  unfold rosEuler
  simp [Finset.sum_range_succ, Matrix.mulVec_smul, mul_div_assoc]
  abel

/-! ### C75: agreement with the Python methods -/

/-- The same autonomous system given to both implementations: equal right-hand sides, independent of time, Jacobian
operators that apply the same matrix at every state, and the Python Jacobian object caches the right-hand side and has no
time derivative (as the default autodiff object does). -/
structure SameSys {P : Type} (sys : Sys n) (py : OdeSys n P) (J : Vec n → Mat n) : Prop where
  auto : ∀ t t' y, sys.frhs t y = sys.frhs t' y
  frhs : ∀ kw t y, py.frhs kw t y = sys.frhs t y
  jacRs : ∀ t y, IsMatrix (sys.fjac t y) (J y)
  jacPy : ∀ kw t y, IsMatrix (py.fjac kw t y).toLinOp (J y)
  cached : ∀ kw t y, (py.fjac kw t y).frhsCached = sys.frhs t y
  fdt : ∀ kw t y, (py.fjac kw t y).fdt = 0

section same
variable {P : Type} [EmptyCollection P] {K : Kern n} (hK : ExactKern K) {Kp : Kernels n} (hKp : ExactKernels Kp)
  {sys : Sys n} {py : OdeSys n P} {J : Vec n → Mat n} (hsame : SameSys sys py J)
include hK hKp hsame

omit [EmptyCollection P] hK hKp in
theorem rsFdt_auto (t : ℝ) (y : Vec n) : rsFdt sys t y = 0 := by
  funext i
  unfold rsFdt
  rw [hsame.auto (t + 1e-8) t y]
  simp

omit [EmptyCollection P] hK hKp hsame in
theorem effFdt_zero (tol : ℝ) : effFdt tol (0 : Vec n) = 0 := by
  unfold effFdt
  split <;> rfl

/-- C75: a step of `epi2_rs` or `exprb2_rs` (and the first step of `epi3_rs`) returns the state of the Python `exprb2` and
`epi2` steps from the same time and state. -/
theorem C75_order2 (s : Epirk n) (sp : ExpRB n) (t : ℝ) (y : Vec n) (hs : AtRs s t y) (hsp : At sp.base t y) (dt : ℝ)
    (hdt : dt ≠ 0) (hf : sys.frhs t y ≠ 0) (kw : P)
    (hm : s.method = "epi2" ∨ s.method = "exprb2" ∨ (s.method = "epi3" ∧ s.yHist.length < 2)) :
    ∃ r r' r'', Epirk.step K sys s dt = .ok r ∧ stepExprb2 Kp py sp dt kw = .ok r' ∧ stepEpi2 Kp py sp dt kw = .ok r'' ∧
      r.t = r'.t ∧ r.y = r'.y ∧ r.t = r''.t ∧ r.y = r''.y := by
  have h1 := rsOrder2_closed hK sys s hs (J y) (hsame.jacRs t y) dt hdt hf
  have h2 := exprb2_closed hKp py sp hsp dt kw (J y) (hsame.jacPy _ t y)
  have h3 := epi2_closed hKp py sp hsp dt kw (J y) (hsame.jacPy _ t y)
  rw [rsFdt_auto hsame, effFdt_zero] at h1
  rw [hsame.cached, hsame.fdt, effFdt_zero] at h2
  rw [hsame.cached, hsame.fdt] at h3
  have hstep : Epirk.step K sys s dt = Epirk.stepOrder2 K sys s dt := by
    unfold Epirk.step
    rcases hm with h | h | ⟨h, hl⟩
    · rw [if_pos (Or.inl h)]
    · rw [if_pos (Or.inr h)]
    · rw [if_neg (by rw [h]; decide), if_pos h, if_neg (by omega)]
  exact ⟨_, _, _, hstep.trans h1, h2, h3, rfl, rfl, rfl, rfl⟩

/-- C75 for `exprb3_rs`. The crate's step needs a nonzero remainder (see C76). -/
theorem C75_exprb3 (s : Epirk n) (sp : ExpRB n) (t : ℝ) (y : Vec n) (hs : AtRs s t y) (hsp : At sp.base t y) (dt : ℝ)
    (hdt : dt ≠ 0) (hf : sys.frhs t y ≠ 0) (kw : P) (hm : s.method = "exprb3")
    (hr : let y2 := rosEuler (J y) y (sys.frhs t y) 0 dt 1
      sys.frhs t y2 - sys.frhs t y - J y *ᵥ (y2 - y) ≠ 0) :
    ∃ r r', Epirk.step K sys s dt = .ok r ∧ stepExprb3 Kp py sp dt kw = .ok r' ∧ r.t = r'.t ∧ r.y = r'.y := by
  have h1 := rsExprb32_closed hK sys s hs (J y) (hsame.jacRs t y) dt hdt hf
  have h2 := exprb3_closed hKp py sp hsp dt kw (J y) (hsame.jacPy _ t y)
  simp only [rsFdt_auto hsame, effFdt_zero, ite_self, smul_zero, sub_zero, hsame.auto (t + dt) t] at h1
  obtain ⟨err, h1⟩ := h1 hr
  simp only [hsame.cached, hsame.fdt, effFdt_zero, hsame.frhs, hsame.auto (t + dt) t, smul_zero, sub_zero] at h2
  have hstep : Epirk.step K sys s dt = Epirk.stepExprb32 K sys s dt := by
    unfold Epirk.step
    rw [if_neg (by rw [hm]; decide), if_neg (by rw [hm]; decide), if_pos hm]
  exact ⟨_, _, hstep.trans h1, h2, rfl, rfl⟩

/-- C75 for `epi3_rs` after its first step: the same state as the Python `epi3` step with the same two newest states. -/
theorem C75_epi3 (s : Epirk n) (sp : ExpRB n) (t tp : ℝ) (y yp : Vec n) (hs : AtRs s t y) (hsp : At sp.base t y)
    (htp : rsGet s.tHist 1 = .ok tp) (hyp : rsGet s.yHist 1 = .ok yp) (htp' : sp.base.tHist.get 1 = .ok tp)
    (hyp' : sp.base.yHist.get 1 = .ok yp) (dt : ℝ) (kw : P) (hm : s.method = "epi3") (hl : 2 ≤ s.yHist.length) :
    ∃ r r', Epirk.step K sys s dt = .ok r ∧ stepEpi3 Kp py sp dt kw = .ok r' ∧ r.t = r'.t ∧ r.y = r'.y := by
  have h1 := rsOrder3_closed hK sys s hs (J y) (hsame.jacRs t y) dt tp yp htp hyp
  have h2 := epi3_closed hKp py sp hsp dt kw (J y) (hsame.jacPy _ t y) tp yp htp' hyp'
  simp only [rsFdt_auto hsame, effFdt_zero, ite_self, smul_zero, sub_zero, hsame.auto tp t] at h1
  simp only [hsame.cached, hsame.fdt, hsame.frhs, hsame.auto tp t, smul_zero, sub_zero] at h2
  have hstep : Epirk.step K sys s dt = Epirk.stepOrder3 K sys s dt := by
    unfold Epirk.step
    rw [if_neg (by rw [hm]; decide), if_pos hm, if_pos hl]
  exact ⟨_, _, hstep.trans h1, h2, rfl, rfl⟩

end same

/-! ### C75: affine and forced systems -/

/-- The system `y' = A y + t c + b` with a Jacobian operator that applies `A`. -/
structure ForcedRs (sys : Sys n) (A : Mat n) (b c : Vec n) : Prop where
  frhs : ∀ t y, sys.frhs t y = A *ᵥ y + t • c + b
  fjac : ∀ t y, IsMatrix (sys.fjac t y) A

theorem rsFdt_forced {sys : Sys n} {A : Mat n} {b c : Vec n} (h : ∀ t y, sys.frhs t y = A *ᵥ y + t • c + b) (t : ℝ) (y : Vec n) :
    rsFdt sys t y = c := by
  funext i
  unfold rsFdt
  have hd : (1e-8 : ℝ) ≠ 0 := by norm_num
  generalize (1e-8 : ℝ) = d at hd
  rw [h, h]
  simp only [Pi.add_apply, Pi.smul_apply, smul_eq_mul]
  field_simp
  ring

/-- The step on the forced system, with a Jacobian operator that is known only at the current point. -/
theorem forced_step_at {K : Kern n} (hK : ExactKern K) {sys : Sys n} {A : Mat n} {b c : Vec n}
    (hfr : ∀ t y, sys.frhs t y = A *ᵥ y + t • c + b)
    {Y : ℝ → Vec n} (hY : Solves A b c Y) (s : Epirk n) (t : ℝ) (hJt : IsMatrix (sys.fjac t (Y t)) A) (hs : AtRs s t (Y t))
    (hlen : s.yHist.length ≤ s.tHist.length) (dt : ℝ) (hdt : dt ≠ 0)
    (hm : s.method = "epi2" ∨ s.method = "exprb2" ∨ s.method = "epi3")
    (hc : c = 0 ∨ (0 ≤ s.tolFdt ∧ s.tolFdt < ‖c‖))
    (hf : (s.method = "epi3" ∧ 2 ≤ s.yHist.length) ∨ A *ᵥ Y t + t • c + b ≠ 0) :
    ∃ r, Epirk.step K sys s dt = .ok r ∧ r.t = t + dt ∧ r.y = Y (t + dt) := by
  have hflow := rosEuler_flow hY t dt 1
  rw [one_mul] at hflow
  by_cases h3 : s.method = "epi3" ∧ 2 ≤ s.yHist.length
  · obtain ⟨h3, hl⟩ := h3
    obtain ⟨yp, hyp⟩ : ∃ yp, rsGet s.yHist 1 = .ok yp := by
      unfold rsGet
      rw [List.getElem?_eq_getElem (show 1 < s.yHist.length by omega)]
      exact ⟨_, rfl⟩
    obtain ⟨tp, htp⟩ : ∃ tp, rsGet s.tHist 1 = .ok tp := by
      unfold rsGet
      rw [List.getElem?_eq_getElem (show 1 < s.tHist.length by omega)]
      exact ⟨_, rfl⟩
    have h1 := rsOrder3_closed hK sys s hs A (hJt) dt tp yp htp hyp
    have hstep : Epirk.step K sys s dt = Epirk.stepOrder3 K sys s dt := by
      unfold Epirk.step
      rw [if_neg (by rw [h3]; decide), if_pos h3, if_pos hl]
    have hv : (if s.tolFdt < 0 then (0 : Vec n) else c) = c := by
      rcases hc with h | h
      · rw [h]; simp
      · rw [if_neg (by linarith [h.1])]
    simp only [rsFdt_forced hfr, effFdt_active hc, hv, hfr, remainder_zero, mulVec_zero, smul_zero, add_zero,
      hflow] at h1
    exact ⟨_, hstep.trans h1, rfl, rfl⟩
  · have hf' : sys.frhs t (Y t) ≠ 0 := by
      rw [hfr]
      exact hf.resolve_left h3
    have h1 := rsOrder2_closed hK sys s hs A (hJt) dt hdt hf'
    have hstep : Epirk.step K sys s dt = Epirk.stepOrder2 K sys s dt := by
      unfold Epirk.step
      rcases hm with h | h | h
      · rw [if_pos (Or.inl h)]
      · rw [if_pos (Or.inr h)]
      · rw [if_neg (by rw [h]; decide), if_pos h, if_neg (by intro h'; exact h3 ⟨h, h'⟩)]
    rw [rsFdt_forced hfr, effFdt_active hc, hfr, hflow] at h1
    exact ⟨_, hstep.trans h1, rfl, rfl⟩

/-- C75: on `y' = A y + t c + b` with exact products, one step of `epi2_rs`, `exprb2_rs` and `epi3_rs` from a point of the
solution ends on the solution, if the time correction is active (`c = 0`, or `0 <= tol_fdt < |c|`) and, for a step of the
second-order formula, the right-hand side is not zero. -/
theorem C75_forced_step {K : Kern n} (hK : ExactKern K) {sys : Sys n} {A : Mat n} {b c : Vec n} (hsys : ForcedRs sys A b c)
    {Y : ℝ → Vec n} (hY : Solves A b c Y) (s : Epirk n) (t : ℝ) (hs : AtRs s t (Y t))
    (hlen : s.yHist.length ≤ s.tHist.length) (dt : ℝ) (hdt : dt ≠ 0)
    (hm : s.method = "epi2" ∨ s.method = "exprb2" ∨ s.method = "epi3")
    (hc : c = 0 ∨ (0 ≤ s.tolFdt ∧ s.tolFdt < ‖c‖))
    (hf : (s.method = "epi3" ∧ 2 ≤ s.yHist.length) ∨ A *ᵥ Y t + t • c + b ≠ 0) :
    ∃ r, Epirk.step K sys s dt = .ok r ∧ r.t = t + dt ∧ r.y = Y (t + dt) :=
  forced_step_at hK hsys.frhs hY s t (hsys.fjac t _) hs hlen dt hdt hm hc hf

/-- A solution of an affine system that is not an equilibrium at one time is at none. -/
theorem never_equilibrium {A : Mat n} {b : Vec n} {Y : ℝ → Vec n} (hY : Solves A b 0 Y) {t0 : ℝ}
    (h : A *ᵥ Y t0 + b ≠ 0) (t : ℝ) : A *ᵥ Y t + b ≠ 0 := by
  intro h0
  have hZ : Solves A 0 0 (fun s => A *ᵥ Y s + b) := by
    intro s
    have h1 : HasDerivAt Y (A *ᵥ Y s + b) s := by simpa using hY s
    have h2 : HasDerivAt (fun s => A *ᵥ Y s) (A *ᵥ (A *ᵥ Y s + b)) s :=
      (LinearMap.toContinuousLinearMap (Matrix.mulVecLin A)).hasFDerivAt.comp_hasDerivAt s h1
    simpa using h2.add_const b
  have := homogeneous_flow hZ t (t0 - t)
  simp only [h0, mulVec_zero, add_sub_cancel] at this
  exact h this.symm

/-- The runs, with a Jacobian operator that is known only along the solution. -/
theorem affine_run_at {K : Kern n} (hK : ExactKern K) {sys : Sys n} {A : Mat n} {b : Vec n} (hfr : ∀ t y, sys.frhs t y = A *ᵥ y + b)
    {Y : ℝ → Vec n} (hY : Solves A b 0 Y) (hJ : ∀ t, IsMatrix (sys.fjac t (Y t)) A) (t0 : ℝ) (hne : A *ᵥ Y t0 + b ≠ 0) (dt : ℝ) (hdt : dt ≠ 0) (m : String)
    (hm : m = "epi2" ∨ m = "exprb2" ∨ m = "epi3") (s0 : Epirk n) (hs0 : Epirk.new t0 (Y t0) m = .ok s0) :
    let I := Epirk.integrator K sys
    ∃ S : ℕ → Epirk n, S 0 = s0 ∧ ∀ N, I.Stepping dt N S ∧ I.time (S N) = t0 + N * dt ∧
      I.state (S N) = .ok (Y (t0 + N * dt)) := by
  intro I
  have hF : ∀ t y, sys.frhs t y = A *ᵥ y + t • (0 : Vec n) + b := fun t y => by rw [hfr]; simp
  have h00 : s0.method = m ∧ AtRs s0 t0 (Y t0) ∧ s0.yHist.length ≤ s0.tHist.length := by
    unfold Epirk.new at hs0
    rcases hm with h | h | h <;>
    · subst h
      simp [bind, Except.bind, pure, Except.pure] at hs0
      rw [← hs0]
      exact ⟨rfl, ⟨rfl, rfl, rfl⟩, le_rfl⟩
  let nxt : Epirk n → Epirk n := fun s => match I.step s dt with
    | .ok r => I.accept s r
    | .error _ => s
  let S : ℕ → Epirk n := fun i => nxt^[i] s0
  have key : ∀ i, (S i).method = m ∧ AtRs (S i) (t0 + i * dt) (Y (t0 + i * dt)) ∧ (S i).yHist.length ≤ (S i).tHist.length ∧
      ∃ r, I.step (S i) dt = .ok r ∧ S (i + 1) = I.accept (S i) r ∧ r.t = t0 + i * dt + dt ∧
        r.y = Y (t0 + i * dt + dt) := by
    have hstep : ∀ i, (S i).method = m → AtRs (S i) (t0 + i * dt) (Y (t0 + i * dt)) →
        (S i).yHist.length ≤ (S i).tHist.length →
        ∃ r, I.step (S i) dt = .ok r ∧ S (i + 1) = I.accept (S i) r ∧ r.t = t0 + i * dt + dt ∧
          r.y = Y (t0 + i * dt + dt) := by
      intro i h1 h2 h3
      obtain ⟨r, hr, ht, hy⟩ := forced_step_at hK hF hY (S i) _ (hJ _) h2 h3 dt hdt (by rw [h1]; exact hm) (Or.inl rfl)
        (Or.inr (by rw [smul_zero, add_zero]; exact never_equilibrium hY hne _))
      refine ⟨r, hr, ?_, ht, hy⟩
      show nxt^[i + 1] s0 = _
      rw [Function.iterate_succ_apply']
      show (match I.step (S i) dt with | .ok r => I.accept (S i) r | .error _ => S i) = _
      rw [show I.step (S i) dt = .ok r from hr]
    intro i
    induction i with
    | zero =>
      have e : (t0 + ((0 : ℕ) : ℝ) * dt) = t0 := by simp
      have a : AtRs (S 0) (t0 + ((0 : ℕ) : ℝ) * dt) (Y (t0 + ((0 : ℕ) : ℝ) * dt)) := by rw [e]; exact h00.2.1
      exact ⟨h00.1, a, h00.2.2, hstep 0 h00.1 a h00.2.2⟩
    | succ i ih =>
      obtain ⟨h1, h2, h3, r, hr, hn, ht, hy⟩ := ih
      have e : t0 + ((i + 1 : ℕ) : ℝ) * dt = t0 + i * dt + dt := by push_cast; ring
      have b1 : (S (i + 1)).method = m := by rw [hn]; exact h1
      have b2 : AtRs (S (i + 1)) (t0 + ((i + 1 : ℕ) : ℝ) * dt) (Y (t0 + ((i + 1 : ℕ) : ℝ) * dt)) := by
        rw [hn, e, ← ht]
        refine ⟨rfl, rfl, ?_⟩
        show Except.ok r.y = _
        rw [hy, ht]
      have b3 : (S (i + 1)).yHist.length ≤ (S (i + 1)).tHist.length := by
        rw [hn]
        show (r.y :: _).length ≤ (r.t :: _).length
        simpa using h3
      exact ⟨b1, b2, b3, hstep (i + 1) b1 b2 b3⟩
  refine ⟨S, rfl, fun N => ⟨fun i _ => ?_, ?_, ?_⟩⟩
  · obtain ⟨_, _, _, r, hr, hn, _⟩ := key i
    exact ⟨r, hr, hn⟩
  · exact (key N).2.1.time
  · exact (key N).2.1.yNew

/-- C75, runs: an object created at a point of a solution of `y' = A y + b` that is not an equilibrium takes any number of
steps without failing, and every state it reports is on the solution. -/
theorem C75_run {K : Kern n} (hK : ExactKern K) {sys : Sys n} {A : Mat n} {b : Vec n} (hsys : AffineSys sys A b)
    {Y : ℝ → Vec n} (hY : Solves A b 0 Y) (t0 : ℝ) (hne : A *ᵥ Y t0 + b ≠ 0) (dt : ℝ) (hdt : dt ≠ 0) (m : String)
    (hm : m = "epi2" ∨ m = "exprb2" ∨ m = "epi3") (s0 : Epirk n) (hs0 : Epirk.new t0 (Y t0) m = .ok s0) :
    let I := Epirk.integrator K sys
    ∃ S : ℕ → Epirk n, S 0 = s0 ∧ ∀ N, I.Stepping dt N S ∧ I.time (S N) = t0 + N * dt ∧
      I.state (S N) = .ok (Y (t0 + N * dt)) :=
  affine_run_at hK hsys.frhs hY (fun t => hsys.fjac t _) t0 hne dt hdt m hm s0 hs0

/-- Non-vacuity: decay towards an equilibrium, started away from it. -/
example : ∃ Y : ℝ → Vec 1, Solves (-1) (fun _ => 1) 0 Y ∧ (-1 : Mat 1) *ᵥ Y 0 + (fun _ => 1) ≠ 0 := by
  obtain ⟨Y, hY, h0⟩ := solves_exists (-1 : Mat 1) (fun _ => 1) 0 (fun _ => 5) 0
  refine ⟨Y, hY, fun h => ?_⟩
  have := congrFun h 0
  rw [h0] at this
  simp [mulVec, dotProduct] at this
  norm_num at this

/-! ### C76: equilibria -/

/-- the phi product of the crate fails on the zero vector -/
theorem applyPhi_zero (Kr : KrylovExpm) (hd : 0 < Kr.krylovDim) (hn : 0 < n) (A : LinOp n) (dt : ℝ) (k : ℕ) :
    Kr.applyPhiLinop A dt 0 k = .error .nan := by
  unfold KrylovExpm.applyPhiLinop
  rw [(C78_zero A 1 Kr.krylovDim Kr.iom).2 hn hd]
  rfl

/-- C76 is refuted: at every equilibrium of every autonomous system, with the products of the crate, whatever dense kernel,
Krylov dimension and step size, a step of `epi2_rs`, `exprb2_rs`, `exprb3_rs` and the first step of `epi3_rs` ends in a
division by zero instead of returning the state. -/
theorem C76_false (Kr : KrylovExpm) (hd : 0 < Kr.krylovDim) (hn : 0 < n) (sys : Sys n)
    (hauto : ∀ t t' y, sys.frhs t y = sys.frhs t' y) (t0 : ℝ) (y : Vec n) (heq : sys.frhs t0 y = 0) (m : String)
    (s : Epirk n) (hs : Epirk.new t0 y m = .ok s) (tol : ℝ) (s' : Epirk n) (hs' : s.withOpt "tol_fdt" tol = .ok s')
    (dt : ℝ) : Epirk.step (Kr.kern n) sys s' dt = .error .nan := by
  have hnew : (m = "epi2" ∨ m = "exprb2" ∨ m = "epi3" ∨ m = "exprb3") ∧
      s'.method = m ∧ s'.t = t0 ∧ s'.yHist = [y] ∧ s'.tolFdt = tol := by
    unfold Epirk.withOpt at hs'
    rw [if_pos rfl] at hs'
    cases hs'
    unfold Epirk.new at hs
    by_cases h1 : m = "epi2" ∨ m = "exprb2"
    · simp [h1, bind, Except.bind, pure, Except.pure] at hs
      rw [← hs]
      exact ⟨by tauto, rfl, rfl, rfl, rfl⟩
    · by_cases h2 : m = "epi3" ∨ m = "exprb3"
      · simp [h1, h2, bind, Except.bind, pure, Except.pure] at hs
        rw [← hs]
        exact ⟨by tauto, rfl, rfl, rfl, rfl⟩
      · simp [h1, h2, bind, Except.bind] at hs
  obtain ⟨hm, e1, e2, e3, e4⟩ := hnew
  have hyN : rsGet s'.yHist 0 = .ok y := by rw [e3]; rfl
  have hfd : ∀ jac, ∃ v, Epirk.fphi2V (Kr.kern n) sys s' (sys.frhs t0 y) jac dt = .ok (0, v) := by
    intro jac
    unfold Epirk.fphi2V
    by_cases h : s'.tolFdt < 0
    · rw [if_pos h]; exact ⟨_, rfl⟩
    · rw [if_neg h]
      unfold Epirk.frhsFdt
      rw [hyN, e2]
      have : (fun i => (sys.frhs (t0 + 1e-8) y i - sys.frhs t0 y i) / 1e-8) = (0 : Vec n) := by
        funext i
        rw [hauto (t0 + 1e-8) t0 y]
        simp
      simp only [bind, Except.bind, pure, Except.pure, this, norm_zero]
      rw [if_neg (by simpa using h)]
      exact ⟨_, rfl⟩
  obtain ⟨v, hfd⟩ := hfd (sys.fjac t0 y)
  have hz : ∀ k, (Kr.kern n).phi (sys.fjac t0 y) dt (dt • sys.frhs t0 y) k = .error .nan := by
    intro k
    rw [heq, smul_zero]
    exact applyPhi_zero Kr hd hn _ dt k
  have h2 : Epirk.stepOrder2 (Kr.kern n) sys s' dt = .error .nan := by
    unfold Epirk.stepOrder2
    rw [hyN, e2]
    simp only [bind, Except.bind, hfd, hz]
  have h3 : Epirk.stepExprb32 (Kr.kern n) sys s' dt = .error .nan := by
    unfold Epirk.stepExprb32
    rw [hyN, e2]
    simp only [bind, Except.bind, hfd, hz]
  unfold Epirk.step
  rw [e1]
  rcases hm with h | h | h | h
  · rw [if_pos (Or.inl h), h2]
  · rw [if_pos (Or.inr h), h2]
  · rw [if_neg (by rw [h]; decide), if_pos h, if_neg (by rw [e3]; simp), h2]
  · rw [if_neg (by rw [h]; decide), if_neg (by rw [h]; decide), if_pos h, h3]

/-- C76: worse, `exprb3_rs` cannot take a single step on any affine system, from any state and with any history, because its
remainder is exactly zero. -/
theorem C76_exprb3_affine_fails (Kr : KrylovExpm) (hd : 0 < Kr.krylovDim) (hn : 0 < n) {sys : Sys n} {A : Mat n} {b : Vec n}
    (hsys : AffineSys sys A b) (s : Epirk n) (t : ℝ) (y : Vec n) (hs : AtRs s t y) (hm : s.method = "exprb3") (dt : ℝ) :
    ∃ e, Epirk.step (Kr.kern n) sys s dt = .error e := by
  have hstep : Epirk.step (Kr.kern n) sys s dt = Epirk.stepExprb32 (Kr.kern n) sys s dt := by
    unfold Epirk.step
    rw [if_neg (by rw [hm]; decide), if_neg (by rw [hm]; decide), if_pos hm]
  rw [hstep]
  cases h : Epirk.stepExprb32 (Kr.kern n) sys s dt with
  | error e => exact ⟨e, rfl⟩
  | ok r =>
    exfalso
    unfold Epirk.stepExprb32 at h
    rw [hs.yNew, hs.time] at h
    obtain ⟨y', hy', h⟩ := bind_ok' h
    cases hy'
    obtain ⟨pv, hpv, h⟩ := bind_ok' h
    obtain ⟨p2, v⟩ := pv
    have hv : v = 0 := by
      unfold Epirk.fphi2V at hpv
      split_ifs at hpv with h0
      · cases hpv; rfl
      · obtain ⟨w, hw, hpv⟩ := bind_ok' hpv
        have hw0 : w = 0 := by
          unfold Epirk.frhsFdt at hw
          rw [hs.yNew, hs.time] at hw
          have := Except.ok.inj hw
          rw [← this]
          funext i
          rw [hsys.frhs, hsys.frhs]
          simp
        split_ifs at hpv with h1
        · obtain ⟨p, hp, hpv⟩ := bind_ok' hpv
          cases hpv
          exact hw0
        · cases hpv
          exact hw0
    subst hv
    obtain ⟨p1, hp1, h⟩ := bind_ok' h
    obtain ⟨r2, hr2, h⟩ := bind_ok' h
    obtain ⟨p3, hp3, h⟩ := bind_ok' h
    rw [rsRemf_closed sys s hs _ _ _ _ A (hsys.fjac t y)] at hr2
    have hz : r2 = 0 := by
      rw [← Except.ok.inj hr2, hsys.frhs, hsys.frhs, smul_zero, mulVec_sub]
      abel
    rw [hz] at hp3
    have : Kr.applyPhiLinop (sys.fjac t y) dt 0 3 = .ok p3 := hp3
    rw [applyPhi_zero Kr hd hn] at this
    cases this

/-- C76, the part that holds: `epi3_rs` with two states in its history returns an equilibrium `y` unchanged if the previous
state has no remainder there (in particular if it is `y` too). -/
theorem C76_epi3_partial {K : Kern n} (hK : ExactKern K) (sys : Sys n) (hauto : ∀ t t' y, sys.frhs t y = sys.frhs t' y)
    (s : Epirk n) (t : ℝ) (y : Vec n) (hs : AtRs s t y) (J : Mat n) (hJ : IsMatrix (sys.fjac t y) J) (dt tp : ℝ) (yp : Vec n)
    (htp : rsGet s.tHist 1 = .ok tp) (hyp : rsGet s.yHist 1 = .ok yp) (hm : s.method = "epi3") (hl : 2 ≤ s.yHist.length)
    (heq : sys.frhs t y = 0) (hrem : sys.frhs t yp = J *ᵥ (yp - y)) :
    Epirk.step K sys s dt = .ok ⟨t + dt, dt, y, none⟩ := by
  have hz : rsFdt sys t y = 0 := by
    funext i
    unfold rsFdt
    rw [hauto (t + 1e-8) t y]
    simp
  have h1 := rsOrder3_closed hK sys s hs J hJ dt tp yp htp hyp
  have hstep : Epirk.step K sys s dt = Epirk.stepOrder3 K sys s dt := by
    unfold Epirk.step
    rw [if_neg (by rw [hm]; decide), if_pos hm, if_pos hl]
  rw [hstep, h1]
  simp only [hz, effFdt_zero, ite_self, smul_zero, sub_zero, hauto tp t, heq, hrem, sub_self, mulVec_zero, add_zero,
    rosEuler]

/-- Non-vacuity: an object with the equilibrium twice in its history. -/
example : let s : Epirk 1 := ⟨3, "epi3", 1, -1, [0, 0], [1, 0]⟩
    AtRs s 1 0 ∧ rsGet s.tHist 1 = .ok 0 ∧ rsGet s.yHist 1 = .ok 0 ∧ 2 ≤ s.yHist.length := by
  refine ⟨⟨rfl, rfl, rfl⟩, rfl, rfl, by simp⟩

/-- Non-vacuity of `C75`: the Rust and Python forms of an affine system are the same system. -/
example (A : Mat n) (b : Vec n) (fl : ℝ → Vec n → LinOp n) : SameSys (affineSys A b)
    (OdeSys.ofFrhs (P := List ℕ) (fun _ t y => A *ᵥ y + t • (0 : Vec n) + b) fl) (fun _ => A) := by
  have h := forcedSys_autodiff (P := List ℕ) A b 0 fl
  refine ⟨fun _ _ _ => rfl, fun kw t y => ?_, fun t y => (affineSys_affine A b).fjac t y, fun kw t y => h.jacMat kw t y,
    fun kw t y => ?_, fun kw t y => h.jacFdt kw t y⟩
  · rw [h.frhs, (affineSys_affine A b).frhs]; simp
  · rw [h.jacRhs, (affineSys_affine A b).frhs]; simp

end Ormatex.Props
