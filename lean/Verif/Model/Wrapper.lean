import Verif.Model.OdeExp

/-!
`integrate`, `integrate_ormatex`, `integrate_diffrax` from `/repo/ormatex_py/integrate_wrapper.py`.
-/

namespace Ormatex

/-- What `integrate_ormatex` uses of an integrator object: `step` (with or without `frhs_kwargs=`) and `accept_step`.
`step` returns the result together with the object after the call (some integrators update caches). -/
structure Stepper (σ P Y : Type) where
  step : σ → ℝ → Option P → Py (StepResult Y × σ)
  accept : σ → StepResult Y → σ

/-- Local variables of the loop of `integrate_ormatex`: integrator object, `t_res`, `y_res`, the two callback logs, and
the state `W` of the world that the (possibly stateful) callbacks act on. -/
structure LoopState (σ P Q W Y : Type) where
  obj : σ
  tRes : List ℝ
  yRes : List Y
  cbBefore : List P
  cbAfter : List Q
  world : W

variable {σ P Q W Y : Type}

/-- integrate_wrapper.py:177-182: if there is a before-callback, call it at the latest entry, log its value and hand it to
the step; otherwise `step(dt)` is called without keyword. -/
def callBefore (before : Option (W → ℝ → Y → P × W)) (w : W) (t : ℝ) (y : Y) (log : List P) :
    Option P × List P × W :=
  match before with
  | some cb => (some (cb w t y).1, log ++ [(cb w t y).1], (cb w t y).2)
  | none => (none, log, w)

/-- integrate_wrapper.py:190-192 -/
def callAfter (after : Option (W → ℝ → Y → Q × W)) (w : W) (t : ℝ) (y : Y) (log : List Q) : List Q × W :=
  match after with
  | some cb => (log ++ [(cb w t y).1], (cb w t y).2)
  | none => (log, w)

/-- Body of the loop in `integrate_ormatex`, integrate_wrapper.py:176-192.  `before`/`after` are `none` when the keyword
is absent (or not callable). `t0 y0` are only used as the default of `t_res[-1]`, which is never empty. -/
def loopBody (I : Stepper σ P Y) (t0 : ℝ) (y0 : Y) (dt : ℝ)
    (before : Option (W → ℝ → Y → P × W)) (after : Option (W → ℝ → Y → Q × W))
    (l : LoopState σ P Q W Y) : Py (LoopState σ P Q W Y) := do
  let cb := callBefore before l.world (l.tRes.getLastD t0) (l.yRes.getLastD y0) l.cbBefore
  let ro ← I.step l.obj dt cb.1
  -- :184-188
  let tRes := l.tRes ++ [ro.1.t]
  let yRes := l.yRes ++ [ro.1.y]
  let obj := I.accept ro.2 ro.1
  let ca := callAfter after cb.2.2 (tRes.getLastD t0) (yRes.getLastD y0) l.cbAfter
  pure { obj := obj, tRes := tRes, yRes := yRes, cbBefore := cb.2.1, cbAfter := ca.1, world := ca.2 }

/-- `for i in range(nsteps)` -/
def loopN (I : Stepper σ P Y) (t0 : ℝ) (y0 : Y) (dt : ℝ)
    (before : Option (W → ℝ → Y → P × W)) (after : Option (W → ℝ → Y → Q × W)) :
    ℕ → LoopState σ P Q W Y → Py (LoopState σ P Q W Y)
  | 0, l => .ok l
  | k + 1, l => do
    let l' ← loopBody I t0 y0 dt before after l
    loopN I t0 y0 dt before after k l'

/-- `integrate_ormatex`, integrate_wrapper.py:167-193.  (`callback_after_step_reject` is read and never used.) -/
def integrateOrmatex (I : Stepper σ P Y) (obj : σ) (y0 : Y) (t0 dt : ℝ) (nsteps : ℕ)
    (before : Option (W → ℝ → Y → P × W)) (after : Option (W → ℝ → Y → Q × W)) (w : W) :
    Py (LoopState σ P Q W Y) :=
  loopN I t0 y0 dt before after nsteps
    { obj := obj, tRes := [t0], yRes := [y0], cbBefore := [], cbAfter := [], world := w }

/-! ### Dispatch -/

/-- The integrator family an ORMATEX call is routed to. -/
inductive Family where
  | rb | leja | split | rk | rust (name : String) | diffrax
  deriving DecidableEq, Repr

/-- `ExpLejaIntegrator._valid_methods`, ode_exp.py:437. -/
def ExpLeja.validMethods : List (String × ℕ) :=
  [("epi2_leja_re", 2), ("epi2_leja_im", 2), ("epi3_leja_im", 3)]

/-- list of Rust methods, integrate_wrapper.py:63-64 -/
def rsMethods : List String :=
  ["exprb2_rs", "exprb3_rs", "epi2_rs", "epi3_rs", "bdf2_rs", "bdf1_rs", "backeuler_rs", "cn_rs"]

/-- keys of `method_dict`, integrate_wrapper.py:118-129 -/
def diffraxMethods : List String :=
  ["euler", "heun", "midpoint", "bosh3", "dopri5", "implicit_euler", "implicit_esdirk3", "implicit_esdirk4"]

/-- `method in d.keys()` -/
def inKeys (d : List (String × ℕ)) (m : String) : Bool := (d.map Prod.fst).contains m

/-- Routing in `integrate`, integrate_wrapper.py:58-106 and the check of integrate_wrapper.py:131-132 (whose
`AttributeError` is re-raised as `AttributeError`, :99-101).  `hasRust` is `HAS_ORMATEX_RUST`.  `str(method[0:-3])` is
the Rust name. -/
def dispatch (hasRust : Bool) (method : String) : Py Family :=
  let isRs := rsMethods.contains method
  let isRb := inKeys ExpRB.validMethods method
  let isLeja := inKeys ExpLeja.validMethods method
  let isSplit := inKeys ExpSplit.validMethods method
  let isRk := inKeys RK.validMethods method
  if isRb || isSplit || isRk || isLeja then
    if isRb then .ok .rb
    else if isLeja then .ok .leja
    else if isSplit then .ok .split
    else .ok .rk
  else if isRs then
    if hasRust then .ok (.rust (String.ofList (method.toList.dropLast.dropLast.dropLast)))
    else .error .importErr
  else if diffraxMethods.contains method then .ok .diffrax
  else .error .attribute

/-- The arguments `integrate_diffrax` hands to `diffrax.diffeqsolve`, integrate_wrapper.py:153-162. -/
structure DiffraxCall where
  t0 : ℝ
  t1 : ℝ
  dt0 : ℝ
  maxSteps : ℕ

/-- integrate_wrapper.py:153-162: `tf = dt * nsteps`. -/
def diffraxCall (t0 dt : ℝ) (nsteps : ℕ) : DiffraxCall :=
  { t0 := t0, t1 := dt * nsteps, dt0 := dt, maxSteps := nsteps }

end Ormatex
