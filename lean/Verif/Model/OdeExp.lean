import Verif.Model.Integrate
import Verif.Model.LinOp
import Mathlib.Analysis.SpecialFunctions.Pow.Real

/-!
`ExpRBIntegrator`, `ExpSplitIntegrator` from `/repo/ormatex_py/ode_exp.py` and `RKIntegrator` from
`/repo/ormatex_py/ode_explicit.py`.

The phi-function kernels called by the steps are a parameter `Kernels n`; `Verif/Model/Krylov.lean` and
`Verif/Model/Phi.lean` model the kernels of the package, and `Verif/Model/Krylov.lean` (`realKernels`) puts them together.
`P` is the type of user parameter dictionaries, `∅ : P` the empty dictionary.
-/

namespace Ormatex
open Matrix
open scoped Classical

/-- The phi-function routines a step function calls, with `max_krylov_dim` and `iom` (constant attributes of the
integrator, ode_exp.py:60-62, 639-640) already applied. -/
structure Kernels (n : ℕ) where
  /-- `phi_linop(a_lo, dt, v, k, max_krylov_dim, iom)` -/
  phiLinop : LinOp n → ℝ → Vec n → ℕ → Py (Vec n)
  /-- `kiops_fixedsteps(a_lo, dt, vb, max_krylov_dim, iom)` -/
  kiops : LinOp n → ℝ → List (Vec n) → Py (Vec n)
  /-- `f_phi_k_sq_all(z, k)` -/
  phiSqAll : Mat n → ℕ → Py (List (Mat n))
  /-- `f_phi_k_pfd(z, b, k, pfd_method)` -/
  phiPfd : Mat n → Vec n → ℕ → Py (Vec n)
  /-- `DensePhikvEvalRs.eval(J, dt, v, k)` of the Rust bindings -/
  phikvRs : Mat n → ℝ → Vec n → ℕ → Vec n

/-- `l[i]` on a Python list -/
def pyGet {α : Type*} (l : List α) (i : ℕ) : Py α :=
  match l[i]? with
  | some x => .ok x
  | none => .error .index

variable {n : ℕ} {P : Type} [EmptyCollection P]

/-! ### ExpRBIntegrator -/

/-- `ExpRBIntegrator._valid_methods`, ode_exp.py:39-41. -/
def ExpRB.validMethods : List (String × ℕ) :=
  [("exprb2", 2), ("exprb3", 3), ("pexprb4", 4), ("epi2", 2), ("epi3", 3),
   ("exprb2_dense", 2), ("exprb2_pfd", 2), ("exp_pfd", 1),
   ("exprb2_pfd_rs", 2), ("exp_pfd_rs", 1)]

/-- Attributes of an `ExpRBIntegrator` that change or are read by the steps (kernels carry the rest). -/
structure ExpRB (n : ℕ) where
  base : Base (Vec n)
  tolFdt : ℝ

/-- substring test `"pfd_rs" in method`, ode_exp.py:50 -/
def hasPfdRs (m : String) : Prop := "pfd_rs".toList <:+: m.toList

instance (m : String) : Decidable (hasPfdRs m) := by unfold hasPfdRs; infer_instance

/-- `ExpRBIntegrator.__init__`, ode_exp.py:43-66; `hasRust` is `HAS_ORMATEX_RUST`. -/
def ExpRB.new (hasRust : Bool) (t0 : ℝ) (y0 : Vec n) (method : String) (tolFdt : ℝ) : Py (ExpRB n) :=
  match ExpRB.validMethods.lookup method with
  | none => .error .attribute
  | some order =>
    if hasPfdRs method ∧ ¬ hasRust then .error .attribute
    else do
      let b ← Base.init t0 y0 order method
      pure { base := b, tolFdt := tolFdt }

/-- `IntegrateSys._remf`, ode_sys.py:566-577: note that the RHS is evaluated *without* keyword arguments. -/
def remf (sys : OdeSys n P) (b : Base (Vec n)) (tr : ℝ) (yr : Vec n) (frhsYt : Vec n)
    (jac : LinOp n) (v : Vec n) : Py (Vec n) := do
  let t ← b.tHist.get 0
  let yt ← b.yHist.get 0
  let dt := tr - t
  let frhsYr := sys.frhs none tr yr
  let jacYd := jac.call (yr - yt)
  pure (frhsYr - frhsYt - jacYd - dt • v)

/-- `ExpRBIntegrator._phi2v_nonauto`, ode_exp.py:71-90.  The scalar zeros returned when the correction is off are
zero vectors here.  The max norm of a vector is the norm of `Fin n → ℝ`. -/
noncomputable def phi2vNonauto (K : Kernels n) (tolFdt : ℝ) (jac : SysJac n) (dt : ℝ) (c : ℝ) :
    Py (Vec n × Vec n) :=
  if tolFdt ≥ 0 then
    let fytt := jac.fdt
    if ‖fytt‖ > tolFdt then do
      let p ← K.phiLinop jac.toLinOp (c * dt) fytt 2
      pure ((c ^ 2 * dt ^ 2) • p, fytt)
    else pure (0, 0)
  else pure (0, 0)

/-- `_step_exprb2`, ode_exp.py:92-110. -/
noncomputable def stepExprb2 (K : Kernels n) (sys : OdeSys n P) (s : ExpRB n) (dt : ℝ) (kw : P) :
    Py (StepResult (Vec n)) := do
  let t := s.base.t
  let yt ← s.base.yHist.get 0
  let jac := sys.fjac (some kw) t yt
  let fyt := jac.frhsCached
  let (phi2v, _) ← phi2vNonauto K s.tolFdt jac dt 1
  let p ← K.phiLinop jac.toLinOp dt (dt • fyt) 1
  pure { t := t + dt, dt := dt, y := yt + p + phi2v, err := -1 }

/-- `_step_epi2`, ode_exp.py:114-139. -/
noncomputable def stepEpi2 (K : Kernels n) (sys : OdeSys n P) (s : ExpRB n) (dt : ℝ) (kw : P) :
    Py (StepResult (Vec n)) := do
  let t := s.base.t
  let yt ← s.base.yHist.get 0
  let jac := sys.fjac (some kw) t yt
  let fyt := jac.frhsCached
  let fytt := jac.fdt
  let yUpdate ← K.kiops jac.toLinOp dt [0, dt • fyt, dt ^ 2 • fytt]
  pure { t := t + dt, dt := dt, y := yt + yUpdate, err := -1 }

/-- `_step_epi3`, ode_exp.py:141-172. -/
noncomputable def stepEpi3 (K : Kernels n) (sys : OdeSys n P) (s : ExpRB n) (dt : ℝ) (kw : P) :
    Py (StepResult (Vec n)) := do
  let t := s.base.t
  let yt ← s.base.yHist.get 0
  let yp ← s.base.yHist.get 1
  let tp ← s.base.tHist.get 1
  let jac := sys.fjac (some kw) t yt
  let fyt := jac.frhsCached
  let fytt := jac.fdt
  let rn ← remf sys s.base tp yp fyt jac.toLinOp fytt
  let yUpdate ← K.kiops jac.toLinOp dt [0, dt • fyt, (dt * (2 / 3)) • rn + dt ^ 2 • fytt]
  pure { t := t + dt, dt := dt, y := yt + yUpdate, err := -1 }

/-- `_step_exprb3`, ode_exp.py:174-209. -/
noncomputable def stepExprb3 (K : Kernels n) (sys : OdeSys n P) (s : ExpRB n) (dt : ℝ) (kw : P) :
    Py (StepResult (Vec n)) := do
  let t := s.base.t
  let yt ← s.base.yHist.get 0
  let jac := sys.fjac (some kw) t yt
  let fyt := jac.frhsCached
  let (phi2v, v) ← phi2vNonauto K s.tolFdt jac dt 1
  let t2 := t + dt
  let p1 ← K.phiLinop jac.toLinOp dt fyt 1
  let y2 := yt + dt • p1 + phi2v
  let r2 ← remf sys s.base t2 y2 fyt jac.toLinOp v
  let p3 ← K.phiLinop jac.toLinOp dt r2 3
  pure { t := t + dt, dt := dt, y := y2 + (2 * dt) • p3, err := -1 }

/-- Stage task `f_u_n2` of `_step_pexprb4`, ode_exp.py:243-250. -/
noncomputable def fUn2 (K : Kernels n) (sys : OdeSys n P) (s : ExpRB n) (dt : ℝ) (yt : Vec n)
    (jac : SysJac n) (fyt : Vec n) : Py (Vec n) := do
  let c2 : ℝ := 1 / 2
  let t2 := s.base.t + c2 * dt
  let (phi2v2, v2) ← phi2vNonauto K s.tolFdt jac dt c2
  let p1 ← K.phiLinop jac.toLinOp (c2 * dt) fyt 1
  let y2 := yt + (c2 * dt) • p1 + phi2v2
  remf sys s.base t2 y2 fyt jac.toLinOp v2

/-- Stage task `f_u_n3` of `_step_pexprb4`, ode_exp.py:253-260. -/
noncomputable def fUn3 (K : Kernels n) (sys : OdeSys n P) (s : ExpRB n) (dt : ℝ) (yt : Vec n)
    (jac : SysJac n) (fyt : Vec n) : Py (Vec n × Vec n) := do
  let c3 : ℝ := 1
  let t3 := s.base.t + c3 * dt
  let (phi2v, v) ← phi2vNonauto K s.tolFdt jac dt c3
  let p1 ← K.phiLinop jac.toLinOp (c3 * dt) fyt 1
  let y3 := yt + (c3 * dt) • p1 + phi2v
  let r3 ← remf sys s.base t3 y3 fyt jac.toLinOp v
  pure (y3, r3)

/-- Final update of `_step_pexprb4` from the two stage results, ode_exp.py:268-276. -/
noncomputable def pexprb4Final (K : Kernels n) (t dt : ℝ) (jac : SysJac n)
    (r2 : Vec n) (y3 r3 : Vec n) : Py (StepResult (Vec n)) := do
  let b2b3 ← K.kiops jac.toLinOp dt
    [0, 0, 0, dt • ((16 : ℝ) • r2 - (2 : ℝ) • r3), dt • ((-48 : ℝ) • r2 + (12 : ℝ) • r3)]
  pure { t := t + dt, dt := dt, y := y3 + b2b3, err := -1 }

/-- `_step_pexprb4`, ode_exp.py:211-276, with the two futures evaluated one after the other
(`Verif/Props/Threads.lean` shows that any schedule gives the same result; an exception in a task is re-raised by
`.result()`, first the one of task 2). -/
noncomputable def stepPexprb4 (K : Kernels n) (sys : OdeSys n P) (s : ExpRB n) (dt : ℝ) (kw : P) :
    Py (StepResult (Vec n)) := do
  let t := s.base.t
  let yt ← s.base.yHist.get 0
  let jac := sys.fjac (some kw) t yt
  let fyt := jac.frhsCached
  let r2 ← fUn2 K sys s dt yt jac fyt
  let (y3, r3) ← fUn3 K sys s dt yt jac fyt
  pexprb4Final K t dt jac r2 y3 r3

/-- `_step_exprb2_dense` with its jitted kernel, ode_exp.py:278-305 (the Jacobian is requested without keywords). -/
noncomputable def stepExprb2Dense (K : Kernels n) (sys : OdeSys n P) (s : ExpRB n) (dt : ℝ) :
    Py (StepResult (Vec n)) := do
  let t := s.base.t
  let yt ← s.base.yHist.get 0
  let jac := sys.fjac none t yt
  let fyt := jac.frhsCached
  let fytt := jac.fdt
  let J ← jac.dense
  let phis ← K.phiSqAll (dt • J) 2
  let phi1J ← pyGet phis 1
  let phi2J ← pyGet phis 2
  pure { t := t + dt, dt := dt, y := yt + dt • (phi1J *ᵥ fyt + dt • phi2J *ᵥ fytt), err := -1 }

/-- `_step_exprb2_pfd`, ode_exp.py:307-336. -/
noncomputable def stepExprb2Pfd (K : Kernels n) (sys : OdeSys n P) (s : ExpRB n) (dt : ℝ) (kw : P) :
    Py (StepResult (Vec n)) := do
  let t := s.base.t
  let yt ← s.base.yHist.get 0
  let jac := sys.fjac (some kw) t yt
  let fyt := jac.frhsCached
  let J ← jac.dense
  let phi2Jfytt ←
    if s.tolFdt ≥ 0 then
      if ‖jac.fdt‖ > s.tolFdt then K.phiPfd (dt • J) jac.fdt 2 else pure 0
    else pure 0
  let phi1Jfyt ← K.phiPfd (dt • J) fyt 1
  pure { t := t + dt, dt := dt, y := yt + dt • (phi1Jfyt + dt • phi2Jfytt), err := -1 }

/-- `_step_exprb2_pfd_rs`, ode_exp.py:338-367. -/
noncomputable def stepExprb2PfdRs (K : Kernels n) (sys : OdeSys n P) (s : ExpRB n) (dt : ℝ) :
    Py (StepResult (Vec n)) := do
  let t := s.base.t
  let yt ← s.base.yHist.get 0
  let jac := sys.fjac none t yt
  let fyt := jac.frhsCached
  let J ← jac.dense
  let phi2Jfytt :=
    if s.tolFdt ≥ 0 then
      if ‖jac.fdt‖ > s.tolFdt then K.phikvRs J dt jac.fdt 2 else 0
    else 0
  let phi1Jfyt := K.phikvRs J dt fyt 1
  pure { t := t + dt, dt := dt, y := yt + dt • (phi1Jfyt + dt • phi2Jfytt), err := -1 }

/-- `_step_exp_pfd_rs`, ode_exp.py:369-383. -/
noncomputable def stepExpPfdRs (K : Kernels n) (sys : OdeSys n P) (s : ExpRB n) (dt : ℝ) :
    Py (StepResult (Vec n)) := do
  let t := s.base.t
  let yt ← s.base.yHist.get 0
  let J ← (sys.fjac none t yt).dense
  pure { t := t + dt, dt := dt, y := K.phikvRs J dt yt 0, err := -1 }

/-- `_step_exp_pfd`, ode_exp.py:385-400. -/
noncomputable def stepExpPfd (K : Kernels n) (sys : OdeSys n P) (s : ExpRB n) (dt : ℝ) (kw : P) :
    Py (StepResult (Vec n)) := do
  let t := s.base.t
  let yt ← s.base.yHist.get 0
  let J ← (sys.fjac (some kw) t yt).dense
  let y ← K.phiPfd (dt • J) yt 0
  pure { t := t + dt, dt := dt, y := y, err := -1 }

/-- `ExpRBIntegrator.step`, ode_exp.py:402-427.  `kw = none` is the call `step(dt)` (default `frhs_kwargs={}`). -/
noncomputable def ExpRB.step (hasRust : Bool) (K : Kernels n) (sys : OdeSys n P) (s : ExpRB n) (dt : ℝ)
    (kw : Option P) : Py (StepResult (Vec n)) :=
  let d : P := kw.getD ∅
  let m := s.base.method
  if m = "exprb2" then stepExprb2 K sys s dt d
  else if m = "exprb3" then stepExprb3 K sys s dt d
  else if m = "pexprb4" then stepPexprb4 K sys s dt d
  else if m = "epi2" then stepEpi2 K sys s dt d
  else if m = "epi3" then
    if s.base.yHist.len ≥ 2 then stepEpi3 K sys s dt d else stepExprb3 K sys s dt d
  else if m = "exprb2_dense" then stepExprb2Dense K sys s dt
  else if m = "exprb2_pfd" then stepExprb2Pfd K sys s dt d
  else if m = "exp_pfd" then stepExpPfd K sys s dt d
  else if m = "exprb2_pfd_rs" ∧ hasRust then stepExprb2PfdRs K sys s dt
  else if m = "exp_pfd_rs" ∧ hasRust then stepExpPfdRs K sys s dt
  else .error .notImplemented

/-- `ExpRBIntegrator.reset_ic`, ode_exp.py:68-69. -/
def ExpRB.resetIc (s : ExpRB n) (t0 : ℝ) (y0 : Vec n) : ExpRB n :=
  { s with base := s.base.resetIc t0 y0 }

/-- `ExpRBIntegrator.accept_step`, ode_exp.py:429-432. -/
def ExpRB.acceptStep (s : ExpRB n) (r : StepResult (Vec n)) : ExpRB n :=
  { s with base := s.base.acceptStep r }

/-! ### ExpSplitIntegrator -/

/-- `ExpSplitIntegrator._valid_methods`, ode_exp.py:629-630. -/
def ExpSplit.validMethods : List (String × ℕ) :=
  [("exp1", 1), ("exp2", 2), ("exp3", 3), ("exp1_dense", 1), ("exp2_dense", 2), ("exp3_dense", 3)]

/-- The dictionary `_cached_phiLs`, keyed by `(c, k)`. -/
abbrev PhiDict (n : ℕ) := ℝ × ℕ → Option (Mat n)

/-- `d[(c,k)]`, `KeyError` if absent -/
def dictGet (d : PhiDict n) (ck : ℝ × ℕ) : Py (Mat n) :=
  match d ck with
  | some x => .ok x
  | none => .error .key

/-- Attributes of an `ExpSplitIntegrator`, ode_exp.py:632-643; `cachedSysLop` and `cachedPhiLs` do not exist before the
first dense step (`none`). -/
structure ExpSplit (n : ℕ) where
  base : Base (Vec n)
  cachedDt : Option ℝ
  cachedSysLop : Option (LinOp n)
  cachedPhiLs : Option (PhiDict n)

/-- `ExpSplitIntegrator.__init__`, ode_exp.py:632-643. -/
def ExpSplit.new (t0 : ℝ) (y0 : Vec n) (method : String) : Py (ExpSplit n) :=
  match ExpSplit.validMethods.lookup method with
  | none => .error .attribute
  | some order => do
    let b ← Base.init t0 y0 order method
    pure { base := b, cachedDt := none, cachedSysLop := none, cachedPhiLs := none }

/-- `ExpSplitIntegrator.reset_ic`, ode_exp.py:645-647. -/
def ExpSplit.resetIc (s : ExpSplit n) (t0 : ℝ) (y0 : Vec n) : ExpSplit n :=
  { s with base := s.base.resetIc t0 y0, cachedDt := none }

/-- `ExpSplitIntegrator.accept_step`, ode_exp.py:887-890. -/
def ExpSplit.acceptStep (s : ExpSplit n) (r : StepResult (Vec n)) : ExpSplit n :=
  { s with base := s.base.acceptStep r }

/-- `ExpSplitIntegrator._remf`, ode_exp.py:649-659. -/
def remfSplit (sys : OdeSys n P) (b : Base (Vec n)) (tr : ℝ) (yr : Vec n) (frhsYt : Vec n)
    (L : LinOp n) : Py (Vec n) := do
  let yt ← b.yHist.get 0
  pure (sys.frhs none tr yr - frhsYt - L.call (yr - yt))

/-- `_step_exp1`, ode_exp.py:661-676. -/
noncomputable def stepExp1 (K : Kernels n) (sys : OdeSys n P) (s : ExpSplit n) (dt : ℝ) :
    Py (StepResult (Vec n)) := do
  let t := s.base.t
  let yt ← s.base.yHist.get 0
  let L := sys.fl t yt
  let fyt := sys.frhs none t yt
  let p ← K.phiLinop L dt (dt • fyt) 1
  pure { t := t + dt, dt := dt, y := yt + p, err := -1 }

/-- `_step_exp2`, ode_exp.py:678-707. -/
noncomputable def stepExp2 (K : Kernels n) (sys : OdeSys n P) (s : ExpSplit n) (dt : ℝ) :
    Py (StepResult (Vec n)) := do
  let t := s.base.t
  let yt ← s.base.yHist.get 0
  let L := sys.fl t yt
  let fyt := sys.frhs none t yt
  let c2 : ℝ := 1
  let t2 := t + c2 * dt
  let p1 ← K.phiLinop L (c2 * dt) ((c2 * dt) • fyt) 1
  let y2 := yt + p1
  let r2 ← remfSplit sys s.base t2 y2 fyt L
  let p2 ← K.phiLinop L dt ((dt / c2) • r2) 2
  pure { t := t + dt, dt := dt, y := y2 + p2, err := -1 }

/-- `_step_exp3`, ode_exp.py:709-745. -/
noncomputable def stepExp3 (K : Kernels n) (sys : OdeSys n P) (s : ExpSplit n) (dt : ℝ) :
    Py (StepResult (Vec n)) := do
  let t := s.base.t
  let yt ← s.base.yHist.get 0
  let L := sys.fl t yt
  let fyt := sys.frhs none t yt
  let c2 : ℝ := 2 / 3
  let t2 := t + c2 * dt
  let p1 ← K.phiLinop L (dt * c2) ((dt * c2) • fyt) 1
  let y2 := yt + p1
  let r2 ← remfSplit sys s.base t2 y2 fyt L
  let t3 := t + (2 / 3) * dt
  let p2 ← K.phiLinop L (dt * (2 / 3)) ((dt * (4 / 9 / c2)) • r2) 2
  let y3 := y2 + p2
  let r3 ← remfSplit sys s.base t3 y3 fyt L
  let q1 ← K.phiLinop L dt (dt • fyt) 1
  let q2 ← K.phiLinop L dt ((dt * (3 / 2)) • r3) 2
  pure { t := t + dt, dt := dt, y := yt + q1 + q2, err := -1 }

/-- Python truth value of `_cached_dt` conjoined with the equality test, ode_exp.py:749: `None` and `0.0` are falsy. -/
def cacheHit (cachedDt : Option ℝ) (dt : ℝ) : Prop :=
  match cachedDt with
  | none => False
  | some c => c ≠ 0 ∧ c = dt

/-- `max(ks)` of a nonempty list -/
def listMax (ks : List ℕ) : ℕ := ks.foldl max 0

/-- Filling of `_cached_phiLs`, ode_exp.py:755-761. -/
noncomputable def fillPhiLs (K : Kernels n) (dt : ℝ) (L : Mat n) :
    List (ℝ × List ℕ) → PhiDict n → Py (PhiDict n)
  | [], d => .ok d
  | (c, ks) :: rest, d => do
    let phikLs ← K.phiSqAll ((dt * c) • L) (listMax ks)
    let d' ← ks.foldlM (fun d k => do
      let x ← pyGet phikLs k
      pure (Function.update d (c, k) (some x))) d
    fillPhiLs K dt L rest d'

/-- `_update_dense_phiLs`, ode_exp.py:748-764: the cache test looks at `dt` only. -/
noncomputable def updateDensePhiLs (K : Kernels n) (sys : OdeSys n P) (s : ExpSplit n) (dt : ℝ)
    (cks : List (ℝ × List ℕ)) : Py (ExpSplit n) :=
  if cacheHit s.cachedDt dt then .ok s
  else do
    let y ← s.base.yHist.get 0
    let lop := sys.fl s.base.t y
    let L ← lop.dense
    let d ← fillPhiLs K dt L cks (fun _ => none)
    pure { s with cachedSysLop := some lop, cachedPhiLs := some d, cachedDt := some dt }

/-- reading `self._cached_phiLs` / `self._cached_sys_lop`: `AttributeError` if never assigned -/
def optGet {α : Type*} (o : Option α) : Py α :=
  match o with
  | some x => .ok x
  | none => .error .attribute

/-- `_step_exp1_dense` with its kernel, ode_exp.py:766-789. -/
noncomputable def stepExp1Dense (K : Kernels n) (sys : OdeSys n P) (s : ExpSplit n) (dt : ℝ) :
    Py (StepResult (Vec n) × ExpSplit n) := do
  let t := s.base.t
  let yt ← s.base.yHist.get 0
  let s' ← updateDensePhiLs K sys s dt [(1, [1])]
  let phiLs ← optGet s'.cachedPhiLs
  let fyt := sys.frhs none t yt
  let m11 ← dictGet phiLs (1, 1)
  pure ({ t := t + dt, dt := dt, y := yt + (dt • m11) *ᵥ fyt, err := -1 }, s')

/-- `_step_exp2_dense` with its kernel, ode_exp.py:791-824. -/
noncomputable def stepExp2Dense (K : Kernels n) (sys : OdeSys n P) (s : ExpSplit n) (dt : ℝ) :
    Py (StepResult (Vec n) × ExpSplit n) := do
  let t := s.base.t
  let yt ← s.base.yHist.get 0
  let c2 : ℝ := 2 / 3
  let s' ← updateDensePhiLs K sys s dt [(c2, [1]), (1, [1, 2])]
  let phiLs ← optGet s'.cachedPhiLs
  let lop ← optGet s'.cachedSysLop
  let fyt := sys.frhs none t yt
  let t2 := t + c2 * dt
  let mc1 ← dictGet phiLs (c2, 1)
  let y2 := yt + ((c2 * dt) • mc1) *ᵥ fyt
  let r2 := sys.frhs none t2 y2 - fyt - lop.call (y2 - yt)
  let m11 ← dictGet phiLs (1, 1)
  let m12 ← dictGet phiLs (1, 2)
  pure ({ t := t + dt, dt := dt, y := yt + dt • (m11 *ᵥ fyt + ((1 / c2) • m12) *ᵥ r2), err := -1 }, s')

/-- `_step_exp3_dense` with its kernel, ode_exp.py:826-869. -/
noncomputable def stepExp3Dense (K : Kernels n) (sys : OdeSys n P) (s : ExpSplit n) (dt : ℝ) :
    Py (StepResult (Vec n) × ExpSplit n) := do
  let t := s.base.t
  let yt ← s.base.yHist.get 0
  let c2 : ℝ := 2 / 3
  let c3 : ℝ := 2 / 3
  let s' ← updateDensePhiLs K sys s dt [(c2, [1]), (c3, [1, 2]), (1, [1, 2])]
  let phiLs ← optGet s'.cachedPhiLs
  let lop ← optGet s'.cachedSysLop
  let fyt := sys.frhs none t yt
  let t2 := t + c2 * dt
  let mc1 ← dictGet phiLs (c2, 1)
  let y2 := yt + ((c2 * dt) • mc1) *ᵥ fyt
  let r2 := sys.frhs none t2 y2 - fyt - lop.call (y2 - yt)
  let t3 := t + c3 * dt
  let m31 ← dictGet phiLs (c3, 1)
  let m32 ← dictGet phiLs (c3, 2)
  let y3 := yt + (c3 * dt) • (m31 *ᵥ fyt + ((2 / 3 / c2) • m32) *ᵥ r2)
  let r3 := sys.frhs none t3 y3 - fyt - lop.call (y3 - yt)
  let m11 ← dictGet phiLs (1, 1)
  let m12 ← dictGet phiLs (1, 2)
  pure ({ t := t + dt, dt := dt, y := yt + dt • (m11 *ᵥ fyt + ((3 / 2 : ℝ) • m12) *ᵥ r3), err := -1 }, s')

/-- a step that does not change the object -/
def keep {σ α : Type*} (s : σ) (r : Py α) : Py (α × σ) := r.map (fun a => (a, s))

/-- `ExpSplitIntegrator.step`, ode_exp.py:871-885: `frhs_kwargs` is accepted and ignored. -/
noncomputable def ExpSplit.step (K : Kernels n) (sys : OdeSys n P) (s : ExpSplit n) (dt : ℝ)
    (_kw : Option P) : Py (StepResult (Vec n) × ExpSplit n) :=
  let m := s.base.method
  if m = "exp1" then keep s (stepExp1 K sys s dt)
  else if m = "exp2" then keep s (stepExp2 K sys s dt)
  else if m = "exp3" then keep s (stepExp3 K sys s dt)
  else if m = "exp1_dense" then stepExp1Dense K sys s dt
  else if m = "exp2_dense" then stepExp2Dense K sys s dt
  else if m = "exp3_dense" then stepExp3Dense K sys s dt
  else .error .notImplemented

/-! ### RKIntegrator -/

/-- `RKIntegrator._valid_methods`, ode_explicit.py:24. -/
def RK.validMethods : List (String × ℕ) := [("rk4", 4)]

/-- `RKIntegrator.__init__`, ode_explicit.py:26-31. -/
def RK.new (t0 : ℝ) (y0 : Vec n) (method : String) : Py (Base (Vec n)) :=
  match RK.validMethods.lookup method with
  | none => .error .attribute
  | some order => Base.init t0 y0 order method

/-- `_step_rk4_jit`, ode_explicit.py:33-47. -/
noncomputable def rk4Kernel (f : ℝ → Vec n → Vec n) (t : ℝ) (yt : Vec n) (dt : ℝ) : Vec n :=
  let f1 := f t yt
  let f2 := f (t + dt / 2) (yt + (dt / 2) • f1)
  let f3 := f (t + dt / 2) (yt + (dt / 2) • f2)
  let f4 := f (t + dt) (yt + dt • f3)
  yt + (dt / 6) • (f1 + (2 : ℝ) • f2 + (2 : ℝ) • f3 + f4)

/-- `_step_rk4`, ode_explicit.py:49-58. -/
noncomputable def stepRk4 (sys : OdeSys n P) (s : Base (Vec n)) (dt : ℝ) : Py (StepResult (Vec n)) := do
  let t := s.t
  let yt ← s.yHist.get 0
  pure { t := t + dt, dt := dt, y := rk4Kernel (sys.frhs none) t yt dt, err := -1 }

/-- `RKIntegrator.step`, ode_explicit.py:60-64.  The signature is `step(self, dt)`: a call with `frhs_kwargs=` raises
`TypeError` before the body runs. -/
noncomputable def RK.step (sys : OdeSys n P) (s : Base (Vec n)) (dt : ℝ) (kw : Option P) :
    Py (StepResult (Vec n)) :=
  match kw with
  | some _ => .error .type
  | none => if s.method = "rk4" then stepRk4 sys s dt else .error .notImplemented

end Ormatex
