import Verif.Model.RsWrapper
import Verif.Model.Wrapper

/-!
The path from Python's `integrate` to the Rust integrators: `OdeSysNp` and `PySysWrapped` (ormatex_py/ode_sys.py, src/ormatex_rspy.rs),
the keyword dictionary, and the NumPy post-processing of the returned lists (ormatex_py/integrate_wrapper.py:85-92).

Not modelled: element types (the crate unwraps an array of 64-bit floats and panics on any other), printing and timing.
-/

namespace Ormatex
open Ormatex.Rs
open scoped Classical

/-- A NumPy array of floats: shape and entries in row-major order. -/
structure NdArr where
  shape : List ℕ
  data : List ℝ

namespace NdArr
/-- `a.squeeze()`: every axis of length one is removed. -/
def squeeze (a : NdArr) : NdArr := ⟨a.shape.filter (· ≠ 1), a.data⟩
/-- `len(a)`: the length of the first axis; a `TypeError` for an array without axes -/
def len (a : NdArr) : Py ℕ :=
  match a.shape with
  | [] => .error .type
  | m :: _ => .ok m
/-- `a[i]`, `i ≥ 0`: the sub-array along the first axis; an `IndexError` when out of range or without axes -/
def index (a : NdArr) (i : ℕ) : Py NdArr :=
  match a.shape with
  | [] => .error .index
  | m :: sh => if i < m then .ok ⟨sh, (a.data.drop (i * sh.prod)).take sh.prod⟩ else .error .index
end NdArr

variable {n : ℕ} {P : Type}

/-- `np.asarray(ys)` for a nonempty list of arrays of shape `(n, 1)` -/
def stackColumns (ys : List (Vec n)) : NdArr := ⟨[ys.length, n, 1], ys.flatMap List.ofFn⟩

/-- `PySysWrapped(OdeSysNp(ode_sys))` as seen by the crate: `OdeSysNp`, ode_sys.py:478-495, flattens the column it is given and calls the
system without keyword arguments; `matvec_npcompat`, ode_sys.py:51-52, is `_matvec`; `PySysWrapped::{frhs, fjac}` and
`PyJaxJacLinOp::apply`, ormatex_rspy.rs:99-205.  A Python exception in the system is a panic and is not modelled. -/
def pySysWrapped (sys : OdeSys n P) : Rs.Sys n where
  frhs t x := sys.frhs none t x
  fjac t x := (sys.fjac none t x).toLinOp

/-- What ends a call of `integrate` with a Rust method: a Python exception, or a panic of the crate (or NaN results). -/
inductive BridgeErr where
  | py (e : PyErr)
  | rs (e : RsErr)

/-- `integrate(ode_sys, y0, t0, dt, nsteps, method, **kwargs)` for a method routed to the crate, integrate_wrapper.py:63-64, 85-92: the
fields `t` and `y` of the result.  `kwargs` cannot hold the key "method", which is a parameter of `integrate`. -/
noncomputable def integrateRs (hasRust : Bool) (gmres : Gmres n) (split : ℕ → Option (Split ℕ)) (sys : OdeSys n P) (y0 : Vec n)
    (t0 dt : ℝ) (nsteps : ℕ) (method : String) (kwargs : Kwds) : Except BridgeErr (List ℝ × NdArr) :=
  match dispatch hasRust method with
  | .ok (.rust name) =>
    match integrateWrapperRs gmres split (pySysWrapped sys) y0 t0 dt nsteps (Function.update kwargs "method" (some (.str name))) with
    | .ok (ys, ts) => .ok (ts, (stackColumns ys).squeeze)
    | .error e => .error (.rs e)
  | .ok _ => .error (.py .attribute)
  | .error e => .error (.py e)

/-- `self.phikv_dense_rs.eval(J, dt, v.reshape(-1,1), k).flatten()`, ode_exp.py:358-361 and 380, for an evaluator of the crate.  A panic of the
evaluator, which would end the step with an exception, is not modelled (the value is then the zero vector); the evaluators considered return. -/
noncomputable def evalRs (E : DenseRs) (a : Mat n) (dt : ℝ) (v : Vec n) (k : ℕ) : Vec n :=
  match E n a dt v k with
  | .ok x => x
  | .error _ => 0

end Ormatex
