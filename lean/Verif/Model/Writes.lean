import Verif.Model.ExpLeja

/-!
The attribute writes of each public call of the integrator classes, in program order: which states an object goes through during
a call.  A Python exception does not undo them, so an exception raised inside a call leaves the object in the last state
reached, and an asynchronous exception (`KeyboardInterrupt`, a signal handler, a `MemoryError`) leaves it in any of them.

Every list starts with the state before the call.
-/

namespace Ormatex
open scoped Classical

/-- `IntegrateSys.accept_step`, ode_sys.py:562-564 (and the identical overrides ode_exp.py:430-432, 622-624, 888-890,
ode_explicit.py:67-69): three writes. -/
def Base.acceptWrites {Y : Type} (b : Base Y) (r : StepResult Y) : List (Base Y) :=
  [b,
   { b with t := r.t },
   { b with t := r.t, tHist := b.tHist.appendleft r.t },
   { b with t := r.t, tHist := b.tHist.appendleft r.t, yHist := b.yHist.appendleft r.y }]

/-- `IntegrateSys.reset_ic`, ode_sys.py:538-543: five writes. -/
def Base.resetWrites {Y : Type} (b : Base Y) (t0 : ℝ) (y0 : Y) : List (Base Y) :=
  [b,
   { b with t := t0 },
   { b with t := t0, tHist := b.tHist.clear },
   { b with t := t0, tHist := b.tHist.clear, yHist := b.yHist.clear },
   { b with t := t0, tHist := b.tHist.clear.appendleft t0, yHist := b.yHist.clear },
   { b with t := t0, tHist := b.tHist.clear.appendleft t0, yHist := b.yHist.clear.appendleft y0 }]

variable {n : ℕ} {P : Type} [EmptyCollection P]

/-! ### ExpSplitIntegrator -/

/-- Inner loop `for k in ks` of ode_exp.py:760-761: the dictionaries it goes through and whether it completes. -/
noncomputable def insertWrites (c : ℝ) (phikLs : List (Mat n)) : List ℕ → PhiDict n → List (PhiDict n) × Bool
  | [], d => ([d], true)
  | k :: ks, d =>
    match pyGet phikLs k with
    | .error _ => ([d], false)
    | .ok x =>
      let r := insertWrites c phikLs ks (Function.update d (c, k) (some x))
      (d :: r.1, r.2)

/-- Outer loop of ode_exp.py:756-761: the dictionaries it goes through and whether it completes. -/
noncomputable def fillWrites (K : Kernels n) (dt : ℝ) (L : Mat n) : List (ℝ × List ℕ) → PhiDict n → List (PhiDict n) × Bool
  | [], d => ([d], true)
  | (c, ks) :: rest, d =>
    match K.phiSqAll ((dt * c) • L) (listMax ks) with
    | .error _ => ([d], false)
    | .ok phikLs =>
      let r := insertWrites c phikLs ks d
      if r.2 then
        let r' := fillWrites K dt L rest (r.1.getLastD d)
        (r.1 ++ r'.1, r'.2)
      else r

/-- `_update_dense_phiLs`, ode_exp.py:748-764: `_cached_sys_lop` is assigned before `dense()` is called, `_cached_phiLs` is
filled in place, `_cached_dt` is assigned last. -/
noncomputable def updateWrites (K : Kernels n) (sys : OdeSys n P) (s : ExpSplit n) (dt : ℝ) (cks : List (ℝ × List ℕ)) :
    List (ExpSplit n) :=
  if cacheHit s.cachedDt dt then [s]
  else
    match s.base.yHist.get 0 with
    | .error _ => [s]
    | .ok y =>
      let lop := sys.fl s.base.t y
      match lop.dense with
      | .error _ => [s, { s with cachedSysLop := some lop }]
      | .ok L =>
        let r := fillWrites K dt L cks (fun _ => none)
        [s, { s with cachedSysLop := some lop }] ++
          (r.1.map fun d => { s with cachedSysLop := some lop, cachedPhiLs := some d }) ++
          (if r.2 then [{ s with cachedSysLop := some lop, cachedPhiLs := some (r.1.getLastD fun _ => none), cachedDt := some dt }] else [])

/-- The coefficient list each dense method asks for, ode_exp.py:779, 802-803, 838-840. -/
noncomputable def cksOf (m : String) : List (ℝ × List ℕ) :=
  if m = "exp1_dense" then [(1, [1])]
  else if m = "exp2_dense" then [((2 : ℝ) / 3, [1]), (1, [1, 2])]
  else [((2 : ℝ) / 3, [1]), ((2 : ℝ) / 3, [1, 2]), (1, [1, 2])]

/-- `ExpSplitIntegrator.step`: the matrix-free methods write nothing, the dense methods update the cache before anything else. -/
noncomputable def ExpSplit.stepWrites (K : Kernels n) (sys : OdeSys n P) (s : ExpSplit n) (dt : ℝ) : List (ExpSplit n) :=
  let m := s.base.method
  if m = "exp1_dense" ∨ m = "exp2_dense" ∨ m = "exp3_dense" then updateWrites K sys s dt (cksOf m) else [s]

/-- `ExpSplitIntegrator.reset_ic`, ode_exp.py:645-647: the cache key is cleared last. -/
def ExpSplit.resetWrites (s : ExpSplit n) (t0 : ℝ) (y0 : Vec n) : List (ExpSplit n) :=
  ((s.base.resetWrites t0 y0).map fun b => { s with base := b }) ++ [s.resetIc t0 y0]

/-! ### ExpLejaIntegrator -/

/-- Second vector handed to `build_a_tilde`, ode_exp.py:495 and 560-567. -/
noncomputable def lejaB2 (sys : OdeSys n P) (s : ExpLeja n) (dt : ℝ) (jac : SysJac n) (third : Bool) : Py (Vec n) :=
  if third then do
    let yp ← s.base.yHist.get 1
    let tp ← s.base.tHist.get 1
    let rn ← remf sys s.base tp yp jac.frhsCached jac.toLinOp jac.fdt
    pure ((dt * (2 / 3)) • rn + dt ^ 2 • jac.fdt)
  else pure (dt ^ 2 • jac.fdt)

/-- The eigenvector stored by a step (ode_exp.py:502-504, 577-579) before the polynomial evaluation: `none` when the step raises
earlier, otherwise the new value of `_leja_bk`. -/
noncomputable def lejaStored (o : LejaOpts) (sys : OdeSys n P) (s : ExpLeja n) (dt : ℝ) (kw : P) (third : Bool) :
    Option (Option (Vec (n + 2))) :=
  match s.base.yHist.get 0 with
  | .error _ => none
  | .ok yt =>
    let jac := sys.fjac (some kw) s.base.t yt
    match lejaB2 sys s dt jac third with
    | .error _ => none
    | .ok b2 =>
      match buildATilde3 jac.toLinOp dt 0 (dt • jac.frhsCached) b2 with
      | .error _ => none
      | .ok (aT, _) =>
        match o.lejaA with
        | none => some (some (lejaShiftScale aT o.maxPowerIter s.bk (o.bRand (n + 2)) o.maxReEigScale).2.2.2.1)
        | some _ => some s.bk

/-- whether the step uses the third order formula, ode_exp.py:613-617 -/
def lejaThird (s : ExpLeja n) : Bool := s.base.method = "epi3_leja_im" ∧ s.base.yHist.len ≥ 2

/-- `ExpLejaIntegrator.step`: the eigenvector is stored before the evaluation and before the convergence check
(ode_exp.py:502, 520, 577, 595); the counter and then the substep size are written after it. -/
noncomputable def ExpLeja.stepWrites (o : LejaOpts) (sys : OdeSys n P) (s : ExpLeja n) (dt : ℝ) (kw : Option P) : List (ExpLeja n) :=
  let m := s.base.method
  if m = "epi2_leja_re" ∨ m = "epi2_leja_im" ∨ m = "epi3_leja_im" then
    match lejaStored o sys s dt (kw.getD ∅) (lejaThird s) with
    | none => [s]
    | some bk =>
      [s, { s with bk := bk }] ++
        (match ExpLeja.step o sys s dt kw with
          | .error _ => []
          | .ok (_, s') => [{ s with bk := bk, istep := s'.istep }, s'])
  else [s]

end Ormatex
