import Verif.Model.OdeExp

/-!
`_step_pexprb4` on a thread pool, `/repo/ormatex_py/ode_exp.py:211-276` with `self.executor` (ode_exp.py:66): the main
thread submits the two stage closures and waits for their futures; at most `workers` closures run at a time, taken from
the queue in submission order; statements of different threads interleave arbitrarily.  Every statement is one atomic
action.  The closures only read shared objects (`self`, `sys_jac_lop`, `yt`, `fyt`, `dt`), so the shared data are
parameters.
-/

namespace Ormatex
open Matrix
open scoped Classical

variable {n : ℕ} {P : Type}

/-- Program counter and local variables of `f_u_n2`, ode_exp.py:243-250. -/
inductive Task2 (n : ℕ) where
  | absent                                   -- not submitted yet
  | queued
  | started
  | havePhi2 (phi2v v : Vec n)               -- after the call of `_phi2v_nonauto`
  | havePhi1 (phi2v v p1 : Vec n)            -- after `phi_linop`
  | haveY (v y2 : Vec n)                     -- after the assignment of `y_2`
  | done (r : Py (Vec n))

/-- Program counter and local variables of `f_u_n3`, ode_exp.py:253-260. -/
inductive Task3 (n : ℕ) where
  | absent
  | queued
  | started
  | havePhi2 (phi2v v : Vec n)
  | havePhi1 (phi2v v p1 : Vec n)
  | haveY (v y3 : Vec n)
  | haveR (y3 r3 : Vec n)
  | done (r : Py (Vec n × Vec n))

/-- Program counter of the main thread, ode_exp.py:263-276. -/
inductive Main (n : ℕ) where
  | begin
  | submitted2
  | waiting2
  | waiting3 (r2 : Vec n)
  | combine (r2 y3 r3 : Vec n)
  | returned (r : Py (StepResult (Vec n)))

/-- All threads. -/
structure Config (n : ℕ) where
  main : Main n
  t2 : Task2 n
  t3 : Task3 n

/-- Who moves next: the main thread, the pool (a free worker takes the oldest queued closure), or the thread running one
of the closures. -/
inductive Actor where
  | main | pool | run2 | run3

/-- 1 if the closure occupies a worker -/
def Task2.busy : Task2 n → ℕ
  | .started | .havePhi2 .. | .havePhi1 .. | .haveY .. => 1
  | _ => 0

/-- 1 if the closure occupies a worker -/
def Task3.busy : Task3 n → ℕ
  | .started | .havePhi2 .. | .havePhi1 .. | .haveY .. | .haveR .. => 1
  | _ => 0

/-- next statement of `f_u_n2` (an exception ends the closure and is stored in the future) -/
noncomputable def Task2.next (K : Kernels n) (sys : OdeSys n P) (s : ExpRB n) (dt : ℝ) (yt : Vec n) (jac : SysJac n)
    (fyt : Vec n) : Task2 n → Task2 n
  | .started => match phi2vNonauto K s.tolFdt jac dt (1 / 2) with
    | .ok (p, v) => .havePhi2 p v
    | .error e => .done (.error e)
  | .havePhi2 p v => match K.phiLinop jac.toLinOp (1 / 2 * dt) fyt 1 with
    | .ok p1 => .havePhi1 p v p1
    | .error e => .done (.error e)
  | .havePhi1 p v p1 => .haveY v (yt + ((1 / 2 : ℝ) * dt) • p1 + p)
  | .haveY v y2 => .done (remf sys s.base (s.base.t + 1 / 2 * dt) y2 fyt jac.toLinOp v)
  | c => c

/-- next statement of `f_u_n3` -/
noncomputable def Task3.next (K : Kernels n) (sys : OdeSys n P) (s : ExpRB n) (dt : ℝ) (yt : Vec n) (jac : SysJac n)
    (fyt : Vec n) : Task3 n → Task3 n
  | .started => match phi2vNonauto K s.tolFdt jac dt 1 with
    | .ok (p, v) => .havePhi2 p v
    | .error e => .done (.error e)
  | .havePhi2 p v => match K.phiLinop jac.toLinOp (1 * dt) fyt 1 with
    | .ok p1 => .havePhi1 p v p1
    | .error e => .done (.error e)
  | .havePhi1 p v p1 => .haveY v (yt + ((1 : ℝ) * dt) • p1 + p)
  | .haveY v y3 => match remf sys s.base (s.base.t + 1 * dt) y3 fyt jac.toLinOp v with
    | .ok r3 => .haveR y3 r3
    | .error e => .done (.error e)
  | .haveR y3 r3 => .done (.ok (y3, r3))
  | c => c

/-- One scheduling decision.  A move that is not possible leaves the configuration unchanged. -/
noncomputable def Config.act (workers : ℕ) (K : Kernels n) (sys : OdeSys n P) (s : ExpRB n) (dt : ℝ) (yt : Vec n)
    (jac : SysJac n) (fyt : Vec n) (c : Config n) : Actor → Config n
  | .main => match c.main with
    | .begin => { c with main := .submitted2, t2 := .queued }
    | .submitted2 => { c with main := .waiting2, t3 := .queued }
    | .waiting2 => match c.t2 with
      | .done (.ok r2) => { c with main := .waiting3 r2 }
      | .done (.error e) => { c with main := .returned (.error e) }
      | _ => c
    | .waiting3 r2 => match c.t3 with
      | .done (.ok (y3, r3)) => { c with main := .combine r2 y3 r3 }
      | .done (.error e) => { c with main := .returned (.error e) }
      | _ => c
    | .combine r2 y3 r3 => { c with main := .returned (pexprb4Final K s.base.t dt jac r2 y3 r3) }
    | .returned _ => c
  | .pool =>
    if c.t2.busy + c.t3.busy < workers then
      match c.t2, c.t3 with
      | .queued, _ => { c with t2 := .started }
      | _, .queued => { c with t3 := .started }
      | _, _ => c
    else c
  | .run2 => { c with t2 := c.t2.next K sys s dt yt jac fyt }
  | .run3 => { c with t3 := c.t3.next K sys s dt yt jac fyt }

/-- Before the submissions. -/
def Config.start (n : ℕ) : Config n := { main := .begin, t2 := .absent, t3 := .absent }

/-- The configuration after a schedule. -/
noncomputable def Config.schedule (workers : ℕ) (K : Kernels n) (sys : OdeSys n P) (s : ExpRB n) (dt : ℝ) (yt : Vec n)
    (jac : SysJac n) (fyt : Vec n) (c : Config n) (l : List Actor) : Config n :=
  l.foldl (Config.act workers K sys s dt yt jac fyt) c

end Ormatex
