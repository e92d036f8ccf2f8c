import Verif.Spec.Exact
import Verif.Spec.Client
import Verif.Props.Callbacks

/-!
Closed forms of one step of every method with exact phi kernels, for a Jacobian operator given by a matrix.  Used by the
exactness (C33-C36) and order (C37, C38) theorems.
-/

namespace Ormatex.Props
open Matrix Ormatex.Spec
open scoped Classical

section
variable {n : ℕ} {P : Type} [EmptyCollection P]
set_option linter.unusedSectionVars false

/-- the newest history entry is `(t, y)` and `t` is the current time -/
structure At (b : Base (Vec n)) (t : ℝ) (y : Vec n) : Prop where
  time : b.t = t
  tNew : b.tHist.get 0 = .ok t
  yNew : b.yHist.get 0 = .ok y

/-- the time derivative used by the correction of `_phi2v_nonauto`: dropped when the check is disabled or its max norm is
at most the tolerance -/
noncomputable def effFdt (tol : ℝ) (c : Vec n) : Vec n := if 0 ≤ tol ∧ tol < ‖c‖ then c else 0

theorem phi2v_closed {K : Kernels n} (hK : ExactKernels K) (tol : ℝ) (jac : SysJac n) (J : Mat n)
    (hJ : IsMatrix jac.toLinOp J) (dt cc : ℝ) :
    phi2vNonauto K tol jac dt cc
      = .ok ((cc ^ 2 * dt ^ 2) • (phiM 2 ((cc * dt) • J) *ᵥ effFdt tol jac.fdt), effFdt tol jac.fdt) := by
  unfold phi2vNonauto effFdt
  by_cases h1 : tol ≥ 0
  · by_cases h2 : ‖jac.fdt‖ > tol
    · simp only [h1, h2, if_true, hK.phiLinop _ J hJ]
      rfl
    · have h : ¬ (0 ≤ tol ∧ tol < ‖jac.fdt‖) := fun h => h2 h.2
      simp only [h1, h2, h, if_true, if_false]
      simp [pure, Except.pure]
  · have h : ¬ (0 ≤ tol ∧ tol < ‖jac.fdt‖) := fun h => h1 h.1
    simp only [h1, h, if_false]
    simp [pure, Except.pure]

theorem remf_closed (sys : OdeSys n P) {b : Base (Vec n)} {t : ℝ} {y : Vec n} (hb : At b t y) (tr : ℝ) (yr F : Vec n)
    (L : LinOp n) (J : Mat n) (hJ : IsMatrix L J) (v : Vec n) :
    remf sys b tr yr F L v = .ok (sys.frhs none tr yr - F - J *ᵥ (yr - y) - (tr - t) • v) := by
  unfold remf LinOp.call
  rw [hb.tNew, hb.yNew]
  simp only [bind, Except.bind, pure, Except.pure, hJ (yr - y)]

theorem remfSplit_closed (sys : OdeSys n P) {b : Base (Vec n)} {t : ℝ} {y : Vec n} (hb : At b t y) (tr : ℝ) (yr F : Vec n)
    (L : LinOp n) (J : Mat n) (hJ : IsMatrix L J) :
    remfSplit sys b tr yr F L = .ok (sys.frhs none tr yr - F - J *ᵥ (yr - y)) := by
  unfold remfSplit LinOp.call
  rw [hb.yNew]
  simp only [bind, Except.bind, pure, Except.pure, hJ (yr - y)]

/-! ### Rosenbrock family -/

/-- update of the exponential Rosenbrock-Euler stage over the fraction `cc` of the step -/
noncomputable def rosEuler (J : Mat n) (y F e : Vec n) (dt cc : ℝ) : Vec n :=
  y + (cc * dt) • (phiM 1 ((cc * dt) • J) *ᵥ F) + (cc ^ 2 * dt ^ 2) • (phiM 2 ((cc * dt) • J) *ᵥ e)

section rb
variable {K : Kernels n} (hK : ExactKernels K) (sys : OdeSys n P) (s : ExpRB n) {t : ℝ} {y : Vec n}
  (hb : At s.base t y) (dt : ℝ)
include hK hb

theorem exprb2_closed (kw : P) (J : Mat n) (hJ : IsMatrix (sys.fjac (some kw) t y).toLinOp J) :
    stepExprb2 K sys s dt kw = .ok (StepResult.mk (t + dt) dt
      (rosEuler J y (sys.fjac (some kw) t y).frhsCached (effFdt s.tolFdt (sys.fjac (some kw) t y).fdt) dt 1) (-1)) := by
  unfold stepExprb2
  rw [hb.yNew, hb.time]
  simp only [bind, Except.bind, pure, Except.pure, phi2v_closed hK _ _ J hJ, hK.phiLinop _ J hJ]
  congr 2
  unfold rosEuler
  rw [one_mul, Matrix.mulVec_smul]

theorem epi2_closed (kw : P) (J : Mat n) (hJ : IsMatrix (sys.fjac (some kw) t y).toLinOp J) :
    stepEpi2 K sys s dt kw = .ok (StepResult.mk (t + dt) dt
      (rosEuler J y (sys.fjac (some kw) t y).frhsCached (sys.fjac (some kw) t y).fdt dt 1) (-1)) := by
  unfold stepEpi2
  rw [hb.yNew, hb.time]
  simp only [bind, Except.bind, pure, Except.pure, hK.kiops _ J hJ _ [_, _, _] (by simp)]
  congr 2
  unfold rosEuler
  simp [Finset.sum_range_succ, Matrix.mulVec_smul, add_assoc]

theorem exprb3_closed (kw : P) (J : Mat n) (hJ : IsMatrix (sys.fjac (some kw) t y).toLinOp J) :
    stepExprb3 K sys s dt kw =
      let F := (sys.fjac (some kw) t y).frhsCached
      let e := effFdt s.tolFdt (sys.fjac (some kw) t y).fdt
      let y2 := rosEuler J y F e dt 1
      let r2 := sys.frhs none (t + dt) y2 - F - J *ᵥ (y2 - y) - dt • e
      .ok (StepResult.mk (t + dt) dt (y2 + (2 * dt) • (phiM 3 (dt • J) *ᵥ r2)) (-1)) := by
  unfold stepExprb3
  rw [hb.yNew, hb.time]
  simp only [bind, Except.bind, pure, Except.pure, phi2v_closed hK _ _ J hJ, hK.phiLinop _ J hJ,
    remf_closed sys hb _ _ _ _ J hJ]
  simp only [rosEuler, one_mul, add_sub_cancel_left]

theorem pexprb4_closed (kw : P) (J : Mat n) (hJ : IsMatrix (sys.fjac (some kw) t y).toLinOp J) :
    stepPexprb4 K sys s dt kw =
      let F := (sys.fjac (some kw) t y).frhsCached
      let e := effFdt s.tolFdt (sys.fjac (some kw) t y).fdt
      let y2 := rosEuler J y F e dt (1 / 2)
      let r2 := sys.frhs none (t + 1 / 2 * dt) y2 - F - J *ᵥ (y2 - y) - (1 / 2 * dt) • e
      let y3 := rosEuler J y F e dt 1
      let r3 := sys.frhs none (t + dt) y3 - F - J *ᵥ (y3 - y) - dt • e
      .ok (StepResult.mk (t + dt) dt (y3 + (phiM 3 (dt • J) *ᵥ (dt • ((16 : ℝ) • r2 - (2 : ℝ) • r3))
        + phiM 4 (dt • J) *ᵥ (dt • ((-48 : ℝ) • r2 + (12 : ℝ) • r3)))) (-1)) := by
  unfold stepPexprb4 fUn2 fUn3 pexprb4Final
  rw [hb.yNew, hb.time]
  simp only [bind, Except.bind, pure, Except.pure, phi2v_closed hK _ _ J hJ, hK.phiLinop _ J hJ,
    remf_closed sys hb _ _ _ _ J hJ, hK.kiops _ J hJ _ [_, _, _, _, _] (by simp)]
  simp [rosEuler, add_sub_cancel_left, Finset.sum_range_succ, Matrix.mulVec_smul, add_assoc]

theorem epi3_closed (kw : P) (J : Mat n) (hJ : IsMatrix (sys.fjac (some kw) t y).toLinOp J) (tp : ℝ) (yp : Vec n)
    (htp : s.base.tHist.get 1 = .ok tp) (hyp : s.base.yHist.get 1 = .ok yp) :
    stepEpi3 K sys s dt kw =
      let F := (sys.fjac (some kw) t y).frhsCached
      let c := (sys.fjac (some kw) t y).fdt
      let rn := sys.frhs none tp yp - F - J *ᵥ (yp - y) - (tp - t) • c
      .ok (StepResult.mk (t + dt) dt (rosEuler J y F c dt 1
        + (dt * (2 / 3)) • (phiM 2 (dt • J) *ᵥ rn)) (-1)) := by
  unfold stepEpi3
  rw [hb.yNew, hb.time, htp, hyp]
  simp only [bind, Except.bind, pure, Except.pure, remf_closed sys hb _ _ _ _ J hJ,
    hK.kiops _ J hJ _ [_, _, _] (by simp)]
  congr 2
  unfold rosEuler
  simp [Finset.sum_range_succ, Matrix.mulVec_smul, Matrix.mulVec_add]
  abel

theorem exprb2Dense_closed (J : Mat n) (hJ : (sys.fjac none t y).dense = .ok J) :
    stepExprb2Dense K sys s dt = .ok (StepResult.mk (t + dt) dt
      (rosEuler J y (sys.fjac none t y).frhsCached (sys.fjac none t y).fdt dt 1) (-1)) := by
  unfold stepExprb2Dense
  rw [hb.yNew, hb.time]
  simp only [bind, Except.bind, pure, Except.pure, hJ, hK.phiSqAll _ 2 (by norm_num), pyGet]
  simp [List.range_succ, rosEuler, smul_smul, add_assoc, Matrix.smul_mulVec, sq]

theorem exprb2Pfd_closed (kw : P) (J : Mat n) (hJ : (sys.fjac (some kw) t y).dense = .ok J) :
    stepExprb2Pfd K sys s dt kw = .ok (StepResult.mk (t + dt) dt
      (rosEuler J y (sys.fjac (some kw) t y).frhsCached (effFdt s.tolFdt (sys.fjac (some kw) t y).fdt) dt 1) (-1)) := by
  unfold stepExprb2Pfd
  rw [hb.yNew, hb.time]
  simp only [bind, Except.bind, hJ, hK.phiPfd]
  unfold effFdt
  by_cases h1 : s.tolFdt ≥ 0
  · by_cases h2 : ‖(sys.fjac (some kw) t y).fdt‖ > s.tolFdt
    · have h : 0 ≤ s.tolFdt ∧ s.tolFdt < ‖(sys.fjac (some kw) t y).fdt‖ := ⟨h1, h2⟩
      simp [h1, h2, rosEuler, smul_smul, add_assoc, sq, pure, Except.pure]
    · have h : ¬ (0 ≤ s.tolFdt ∧ s.tolFdt < ‖(sys.fjac (some kw) t y).fdt‖) := fun h => h2 h.2
      simp only [h1, h2, h, if_true, if_false]
      simp [rosEuler, pure, Except.pure]
  · have h : ¬ (0 ≤ s.tolFdt ∧ s.tolFdt < ‖(sys.fjac (some kw) t y).fdt‖) := fun h => h1 h.1
    simp only [h1, h, if_false]
    simp [rosEuler, pure, Except.pure]

theorem exprb2PfdRs_closed (J : Mat n) (hJ : (sys.fjac none t y).dense = .ok J) :
    stepExprb2PfdRs K sys s dt = .ok (StepResult.mk (t + dt) dt
      (rosEuler J y (sys.fjac none t y).frhsCached (effFdt s.tolFdt (sys.fjac none t y).fdt) dt 1) (-1)) := by
  unfold stepExprb2PfdRs
  rw [hb.yNew, hb.time]
  simp only [bind, Except.bind, hJ, hK.phikvRs]
  unfold effFdt
  by_cases h1 : s.tolFdt ≥ 0
  · by_cases h2 : ‖(sys.fjac none t y).fdt‖ > s.tolFdt
    · have h : 0 ≤ s.tolFdt ∧ s.tolFdt < ‖(sys.fjac none t y).fdt‖ := ⟨h1, h2⟩
      simp [h1, h2, rosEuler, smul_smul, add_assoc, sq, pure, Except.pure]
    · have h : ¬ (0 ≤ s.tolFdt ∧ s.tolFdt < ‖(sys.fjac none t y).fdt‖) := fun h => h2 h.2
      simp only [h1, h2, h, if_true, if_false]
      simp [rosEuler, pure, Except.pure]
  · have h : ¬ (0 ≤ s.tolFdt ∧ s.tolFdt < ‖(sys.fjac none t y).fdt‖) := fun h => h1 h.1
    simp only [h1, h, if_false]
    simp [rosEuler, pure, Except.pure]

theorem expPfd_closed (kw : P) (J : Mat n) (hJ : (sys.fjac (some kw) t y).dense = .ok J) :
    stepExpPfd K sys s dt kw = .ok (StepResult.mk (t + dt) dt (phiM 0 (dt • J) *ᵥ y) (-1)) := by
  unfold stepExpPfd
  rw [hb.yNew, hb.time]
  simp only [bind, Except.bind, pure, Except.pure, hJ, hK.phiPfd]

theorem expPfdRs_closed (J : Mat n) (hJ : (sys.fjac none t y).dense = .ok J) :
    stepExpPfdRs K sys s dt = .ok (StepResult.mk (t + dt) dt (phiM 0 (dt • J) *ᵥ y) (-1)) := by
  unfold stepExpPfdRs
  rw [hb.yNew, hb.time]
  simp only [bind, Except.bind, pure, Except.pure, hJ, hK.phikvRs]

end rb

/-! ### splitting family -/

section split
variable {K : Kernels n} (hK : ExactKernels K) (sys : OdeSys n P) (s : ExpSplit n) {t : ℝ} {y : Vec n}
  (hb : At s.base t y) (dt : ℝ) (L : Mat n)
include hK hb

theorem exp1_closed (hL : IsMatrix (sys.fl t y) L) :
    stepExp1 K sys s dt = .ok (StepResult.mk (t + dt) dt
      (y + dt • (phiM 1 (dt • L) *ᵥ sys.frhs none t y)) (-1)) := by
  unfold stepExp1
  rw [hb.yNew, hb.time]
  simp only [bind, Except.bind, pure, Except.pure, hK.phiLinop _ L hL, Matrix.mulVec_smul]

/-- the two-stage splitting update with node `cc` -/
noncomputable def exp2Update (f : ℝ → Vec n → Vec n) (L : Mat n) (t : ℝ) (y : Vec n) (dt cc : ℝ) : Vec n :=
  let F := f t y
  let y2 := y + (cc * dt) • (phiM 1 ((cc * dt) • L) *ᵥ F)
  let r2 := f (t + cc * dt) y2 - F - L *ᵥ (y2 - y)
  y + dt • (phiM 1 (dt • L) *ᵥ F) + (dt / cc) • (phiM 2 (dt • L) *ᵥ r2)

theorem exp2_closed (hL : IsMatrix (sys.fl t y) L) :
    stepExp2 K sys s dt = .ok (StepResult.mk (t + dt) dt (exp2Update (sys.frhs none) L t y dt 1) (-1)) := by
  unfold stepExp2
  rw [hb.yNew, hb.time]
  simp only [bind, Except.bind, pure, Except.pure, hK.phiLinop _ L hL, Matrix.mulVec_smul,
    remfSplit_closed sys hb _ _ _ _ L hL]
  simp [exp2Update]

/-- the three-stage splitting update -/
noncomputable def exp3Update (f : ℝ → Vec n → Vec n) (L : Mat n) (t : ℝ) (y : Vec n) (dt : ℝ) : Vec n :=
  let F := f t y
  let h := 2 / 3 * dt
  let y2 := y + h • (phiM 1 (h • L) *ᵥ F)
  let r2 := f (t + h) y2 - F - L *ᵥ (y2 - y)
  let y3 := y2 + h • (phiM 2 (h • L) *ᵥ r2)
  let r3 := f (t + h) y3 - F - L *ᵥ (y3 - y)
  y + dt • (phiM 1 (dt • L) *ᵥ F) + (3 / 2 * dt) • (phiM 2 (dt • L) *ᵥ r3)

theorem exp3_closed (hL : IsMatrix (sys.fl t y) L) :
    stepExp3 K sys s dt = .ok (StepResult.mk (t + dt) dt (exp3Update (sys.frhs none) L t y dt) (-1)) := by
  unfold stepExp3
  rw [hb.yNew, hb.time]
  simp only [bind, Except.bind, pure, Except.pure, hK.phiLinop _ L hL, Matrix.mulVec_smul,
    remfSplit_closed sys hb _ _ _ _ L hL]
  have e1 : dt * (2 / 3) = 2 / 3 * dt := by ring
  have e2 : dt * (4 / 9 / (2 / 3)) = 2 / 3 * dt := by ring
  have e3 : dt * (3 / 2) = 3 / 2 * dt := by ring
  simp only [exp3Update, e1, e2, e3]

/-- With exact kernels the dictionary filled for a dense method holds `phi_k(dt c L)` under every key it asks for. -/
theorem fill_closed (L : Mat n) (m : String) :
    ∃ d, fillPhiLs K dt L (cksOf m) (fun _ => none) = .ok d ∧ d (1, 1) = some (phiM 1 (dt • L)) ∧
      (m ≠ "exp1_dense" → d (1, 2) = some (phiM 2 (dt • L)) ∧ d (2 / 3, 1) = some (phiM 1 ((2 / 3 * dt) • L))) ∧
      (m ≠ "exp1_dense" → m ≠ "exp2_dense" → d (2 / 3, 2) = some (phiM 2 ((2 / 3 * dt) • L))) := by
  have hne : (2 / 3 : ℝ) ≠ 1 := by norm_num
  have e : dt * (2 / 3) = 2 / 3 * dt := mul_comm _ _
  unfold cksOf
  split
  · rename_i hm
    refine ⟨_, by
      simp only [fillPhiLs, listMax, List.foldl, hK.phiSqAll _ (max 0 1) (by norm_num), bind, Except.bind, pure, Except.pure,
        List.foldlM, pyGet]
      rfl, ?_, ?_, ?_⟩
    · simp
    · intro h; exact absurd hm h
    · intro h; exact absurd hm h
  · split
    · rename_i hm
      refine ⟨_, by
        simp only [fillPhiLs, listMax, List.foldl, hK.phiSqAll _ (max 0 1) (by norm_num),
          hK.phiSqAll _ (max (max 0 1) 2) (by norm_num), bind, Except.bind, pure, Except.pure,
          List.foldlM, pyGet, e]
        rfl, ?_, ?_, ?_⟩
      · simp
      · intro _; simp [Function.update_apply, hne]
      · intro _ h; exact absurd hm h
    · refine ⟨_, by
        simp only [fillPhiLs, listMax, List.foldl, hK.phiSqAll _ (max 0 1) (by norm_num),
          hK.phiSqAll _ (max (max 0 1) 2) (by norm_num), bind, Except.bind, pure, Except.pure,
          List.foldlM, pyGet, e]
        rfl, ?_, ?_, ?_⟩
      · simp
      · intro _; simp [Function.update_apply, hne]
      · intro _ _; simp [Function.update_apply, hne]

/-- the cache after `_update_dense_phiLs`, from any coherent cache -/
theorem update_closed (lop : LinOp n) (hl : ∀ t y, sys.fl t y = lop) (hd : lop.dense = .ok L)
    (hs : Coherent K lop s) :
    ∃ s', updateDensePhiLs K sys s dt (cksOf s.base.method) = .ok s' ∧ s'.base = s.base ∧ s'.cachedSysLop = some lop ∧
      ∃ d, s'.cachedPhiLs = some d ∧ d (1, 1) = some (phiM 1 (dt • L)) ∧
      (s.base.method ≠ "exp1_dense" → d (1, 2) = some (phiM 2 (dt • L)) ∧ d (2 / 3, 1) = some (phiM 1 ((2 / 3 * dt) • L))) ∧
      (s.base.method ≠ "exp1_dense" → s.base.method ≠ "exp2_dense" → d (2 / 3, 2) = some (phiM 2 ((2 / 3 * dt) • L))) := by
  rw [update_cold K sys lop hl s hs dt y hb.yNew]
  obtain ⟨d, h1, h2⟩ := fill_closed hK s hb dt L s.base.method
  have hcold : ¬ cacheHit (cold s).cachedDt dt := id
  refine ⟨ExpSplit.mk s.base (some dt) (some lop) (some d), ?_, rfl, rfl, d, rfl, h2⟩
  unfold updateDensePhiLs
  rw [if_neg hcold]
  simp only [cold, hb.yNew, hl, hd, h1, bind, Except.bind, pure, Except.pure]

theorem exp1Dense_closed (lop : LinOp n) (hl : ∀ t y, sys.fl t y = lop) (hd : lop.dense = .ok L)
    (hs : Coherent K lop s) (hm : s.base.method = "exp1_dense") :
    ∃ s', stepExp1Dense K sys s dt = .ok (StepResult.mk (t + dt) dt
      (y + dt • (phiM 1 (dt • L) *ᵥ sys.frhs none t y)) (-1), s') ∧ s'.base = s.base := by
  obtain ⟨s', hu, hbs, hlop, d, hd', k1, _, _⟩ := update_closed hK sys s hb dt L lop hl hd hs
  have hu' : updateDensePhiLs K sys s dt [(1, [1])] = .ok s' := by simpa [cksOf, hm] using hu
  refine ⟨s', ?_, hbs⟩
  unfold stepExp1Dense
  rw [hb.yNew, hb.time]
  simp only [hu', hd', optGet, dictGet, k1, bind, Except.bind, pure, Except.pure, Matrix.smul_mulVec]

theorem exp2Dense_closed (lop : LinOp n) (hl : ∀ t y, sys.fl t y = lop) (hd : lop.dense = .ok L) (hL : IsMatrix lop L)
    (hs : Coherent K lop s) (hm : s.base.method = "exp2_dense") :
    ∃ s', stepExp2Dense K sys s dt = .ok (StepResult.mk (t + dt) dt
      (exp2Update (sys.frhs none) L t y dt (2 / 3)) (-1), s') ∧ s'.base = s.base := by
  obtain ⟨s', hu, hbs, hlop, d, hd', k1, k2, _⟩ := update_closed hK sys s hb dt L lop hl hd hs
  obtain ⟨k2, k3⟩ := k2 (by rw [hm]; decide)
  have hu' : updateDensePhiLs K sys s dt [((2 : ℝ) / 3, [1]), (1, [1, 2])] = .ok s' := by simpa [cksOf, hm] using hu
  refine ⟨s', ?_, hbs⟩
  unfold stepExp2Dense
  rw [hb.yNew, hb.time]
  simp only [hu', hd', hlop, optGet, dictGet, k1, k2, k3, bind, Except.bind, pure, Except.pure, Matrix.smul_mulVec,
    LinOp.call, hL _, exp2Update]
  rw [smul_add, smul_smul, ← add_assoc, show dt * (1 / (2 / 3)) = dt / (2 / 3) by ring]

theorem exp3Dense_closed (lop : LinOp n) (hl : ∀ t y, sys.fl t y = lop) (hd : lop.dense = .ok L) (hL : IsMatrix lop L)
    (hs : Coherent K lop s) (hm : s.base.method = "exp3_dense") :
    ∃ s', stepExp3Dense K sys s dt = .ok (StepResult.mk (t + dt) dt
      (exp3Update (sys.frhs none) L t y dt) (-1), s') ∧ s'.base = s.base := by
  obtain ⟨s', hu, hbs, hlop, d, hd', k1, k2, k4⟩ := update_closed hK sys s hb dt L lop hl hd hs
  obtain ⟨k2, k3⟩ := k2 (by rw [hm]; decide)
  have k4 := k4 (by rw [hm]; decide) (by rw [hm]; decide)
  have hu' : updateDensePhiLs K sys s dt [((2 : ℝ) / 3, [1]), ((2 : ℝ) / 3, [1, 2]), (1, [1, 2])] = .ok s' := by
    simpa [cksOf, hm] using hu
  refine ⟨s', ?_, hbs⟩
  unfold stepExp3Dense
  rw [hb.yNew, hb.time]
  simp only [hu', hd', hlop, optGet, dictGet, k1, k2, k3, k4, bind, Except.bind, pure, Except.pure, Matrix.smul_mulVec,
    LinOp.call, hL _, exp3Update]
  have e1 : (2 / 3 / (2 / 3) : ℝ) = 1 := by norm_num
  simp only [smul_add, smul_smul, ← add_assoc, e1, mul_one, show dt * (3 / 2) = 3 / 2 * dt by ring]

end split

end
end Ormatex.Props
