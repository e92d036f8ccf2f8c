import Verif.Model.Progression

/-!
Assembly of the 1-D advection-diffusion system, `/repo/ormatex_py/progression/advection_diffusion_1d.py`.  `skfem` is third
party; what is used of it is stated at the definitions `assembleForm`, `enforceMat` (assembly by quadrature over the elements,
`fem.enforce`).
-/

namespace Ormatex
open Matrix Polynomial

noncomputable section

/-- quadrature points and weights on the reference interval `[0, 1]` -/
structure Quad (q : ℕ) where
  x : Fin q → ℝ
  w : Fin q → ℝ

/-- `quad = el_nodal.GLL_quad()(self.p + 1)`, advection_diffusion_1d.py:166 (`KeyError` for orders without a table) -/
def semQuad (p : ℕ) : Py (Quad (p + 1)) :=
  match gllQuad (p + 1) with
  | .error e => .error e
  | .ok (X, W) => .ok (Quad.mk (fun k => X.getD k 0) (fun k => W.getD k 0))

/-- The shape functions, advection_diffusion_1d.py:159-164: `ElementLineP1`, `ElementLineP2` and `ElementLinePp_nodal(p)` are the
Lagrange polynomials of the quadrature points (vertices first). -/
def shape {q : ℕ} (Q : Quad q) (a : Fin q) : ℝ[X] := Lagrange.basis Finset.univ Q.x a

/-- A line mesh with `ne` elements, `N` degrees of freedom and `q = p + 1` local nodes per element: lengths, and
`basis.element_dofs` (local node 0 is the left end, 1 the right end).  The numbering is `skfem`'s. -/
structure LineMesh (ne N q : ℕ) where
  h : Fin ne → ℝ
  dof : Fin ne → Fin q → Fin N

/-- `w_ext`, advection_diffusion_1d.py:180-194: the parameters `nu`, `vel`, `tau` at the quadrature points (numbers, or nodal
fields of those names interpolated). -/
structure SemFields (ne q : ℕ) where
  nu : Fin ne → Fin q → ℝ
  vel : Fin ne → Fin q → ℝ
  tau : Fin ne → Fin q → ℝ

/-- value and gradient of a trial or test function at a quadrature point -/
structure Jet where
  val : ℝ
  grad : ℝ

/-- `tau_upwind_f`, advection_diffusion_1d.py:47-52 (`vel_f`, 35-45, is the velocity).  In the code a zero velocity gives `nan`
or `inf`; see `semAssemble`. -/
def tauUpwind (tau h vel : ℝ) : ℝ := tau * h / (2 * vel)

/-- `adv_diff_cons_supg`, advection_diffusion_1d.py:81-97 -/
def advDiffConsSupg (nu vel tau h : ℝ) (u v : Jet) : ℝ :=
  (nu * (u.grad * v.grad) - vel * u.val * v.grad) + tauUpwind tau h vel * vel * v.grad * (vel * u.grad)

/-- `mass_supg`, advection_diffusion_1d.py:129-134 -/
def massSupg (vel tau h : ℝ) (u v : Jet) : ℝ := u.val * v.val + tauUpwind tau h vel * vel * v.grad * u.val

/-- `src_f`, advection_diffusion_1d.py:24-33 -/
def srcF (_x : ℝ) : ℝ := 0

/-- `rhs_supg`, advection_diffusion_1d.py:115-123, at the point `x` -/
def rhsSupg (x vel tau h : ℝ) (v : Jet) : ℝ := srcF x * v.val - tauUpwind tau h vel * vel * v.grad * srcF x

/-- shape function `a` of element `e` at quadrature point `k`: value and physical gradient -/
def jetOf {ne N q : ℕ} (m : LineMesh ne N q) (Q : Quad q) (e : Fin ne) (k a : Fin q) : Jet :=
  Jet.mk ((shape Q a).eval (Q.x k)) ((derivative (shape Q a)).eval (Q.x k) / m.h e)

/-- `BilinearForm.assemble(basis)`: the sum over the elements and local pairs of the quadrature sums with weights `w_k h_e`. -/
def assembleForm {ne N q : ℕ} (m : LineMesh ne N q) (Q : Quad q) (form : Fin ne → Fin q → Jet → Jet → ℝ) : Mat N := fun i j =>
  ∑ e, ∑ a, ∑ b, if m.dof e a = i ∧ m.dof e b = j then ∑ k, Q.w k * m.h e * form e k (jetOf m Q e k b) (jetOf m Q e k a) else 0

/-- `LinearForm.assemble(basis)` -/
def assembleLoad {ne N q : ℕ} (m : LineMesh ne N q) (Q : Quad q) (form : Fin ne → Fin q → Jet → ℝ) : Vec N := fun i =>
  ∑ e, ∑ a, if m.dof e a = i then ∑ k, Q.w k * m.h e * form e k (jetOf m Q e k a) else 0

/-- The two ends of a mesh that is not periodic: their degrees of freedom and the velocities there. -/
structure Ends (N : ℕ) where
  left : Fin N
  right : Fin N
  velL : ℝ
  velR : ℝ

/-- `robin.assemble(basis_f)`, advection_diffusion_1d.py:99-105: `vel · n u v` at the two end points, with normals `-1` and `1`;
at a vertex only its own shape function differs from zero. -/
def robinMat {N : ℕ} (b : Ends N) : Mat N := fun i j =>
  (if i = b.left ∧ j = b.left then b.velL * (-1) else 0) + (if i = b.right ∧ j = b.right then b.velR * 1 else 0)

/-- `fem.enforce(A, D=D, overwrite=True)`: the rows in `D` become rows of the identity. -/
def enforceMat {N : ℕ} (A : Mat N) (D : List (Fin N)) : Mat N := fun i j =>
  if i ∈ D then (if i = j then 1 else 0) else A i j

/-- `b[D] = 0`, done by `fem.enforce(A, b, D=D, overwrite=True)` -/
def enforceVec {N : ℕ} (b : Vec N) (D : List (Fin N)) : Vec N := fun i => if i ∈ D then 0 else b i

/-- `self.dirichlet_bd`, advection_diffusion_1d.py:169-172 and 245-248: the left vertex, or nothing on a periodic mesh -/
def dirichletBd {N : ℕ} (bd : Option (Ends N)) : List (Fin N) :=
  match bd with
  | none => []
  | some b => [b.left]

/-- the stiffness matrix before `enforce`, advection_diffusion_1d.py:203-206 -/
def semStiff {ne N q : ℕ} (m : LineMesh ne N q) (Q : Quad q) (F : SemFields ne q) (bd : Option (Ends N)) : Mat N :=
  let A := assembleForm m Q fun e k => advDiffConsSupg (F.nu e k) (F.vel e k) (F.tau e k) (m.h e)
  match bd with
  | none => A
  | some b => A + robinMat b

/-- the mass matrix before `enforce`, advection_diffusion_1d.py:211 -/
def semMass {ne N q : ℕ} (m : LineMesh ne N q) (Q : Quad q) (F : SemFields ne q) : Mat N :=
  assembleForm m Q fun e k => massSupg (F.vel e k) (F.tau e k) (m.h e)

/-- the load vector before `enforce`, advection_diffusion_1d.py:210 -/
def semLoadVec {ne N q : ℕ} (m : LineMesh ne N q) (Q : Quad q) (F : SemFields ne q) : Vec N :=
  assembleLoad m Q fun e k => rhsSupg (Q.x k) (F.vel e k) (F.tau e k) (m.h e)

/-- `AdDiffSEM.assemble`, advection_diffusion_1d.py:196-229 (`conservative` is the constant `True`): `(A, Ml, b)`.  With a zero
velocity at a quadrature point `tau_upwind_f` divides by zero (`0/0` even if `tau` is 0) and the `nan` reaches all three
arrays: no result.  A periodic mesh has no boundary dofs (`basis.get_dofs()` is empty). -/
def semAssemble {ne N q : ℕ} (m : LineMesh ne N q) (Q : Quad q) (F : SemFields ne q) (bd : Option (Ends N)) :
    Option (Mat N × Vec N × Vec N) :=
  open scoped Classical in
  if ∃ e k, F.vel e k = 0 then none
  else
    let D := dirichletBd bd
    let A := enforceMat (semStiff m Q F bd) D
    let M := enforceMat (semMass m Q F) D
    some (A, M *ᵥ (fun _ => 1), enforceVec (semLoadVec m Q F) D)

end
end Ormatex
