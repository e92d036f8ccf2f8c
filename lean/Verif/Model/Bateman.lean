import Verif.Model.LinOp
import Mathlib.Analysis.SpecialFunctions.Exp
import Mathlib.Algebra.BigOperators.Group.List.Basic

/-!
Bateman decay systems, from `/repo/ormatex_py/progression/bateman_sys.py`.
-/

namespace Ormatex
open Matrix

/-- A value of the decay library (bateman_sys.py:19-40): `(child, lambda)` or a tuple of such pairs.  Which of the two it
is, the code decides by `isinstance(entry[0], tuple)`. -/
inductive LibEntry where
  | single (child : String) (lam : ℝ)
  | branches (bs : List (String × ℝ))

/-- a Python dict from species names to library entries -/
abbrev BatemanLib := String → Option LibEntry

/-- `keydict = dict([(k, i) for i, k in enumerate(keymap)])`, bateman_sys.py:67: a later duplicate overwrites. -/
def keydict (keymap : List String) : String → Option (Fin keymap.length) :=
  (List.finRange keymap.length).foldl (fun D i => Function.update D (keymap.get i) (some i)) (fun _ => none)

/-- `a[r, c] += x` on a 2-d array -/
def matAdd {d : ℕ} (M : Mat d) (r c : Fin d) (x : ℝ) : Mat d :=
  fun i j => if i = r ∧ j = c then M i j + x else M i j

/-- One (child, lambda) pair of species `i`: the loop body, bateman_sys.py:73-81 and (same statements) :84-92. -/
noncomputable def addBranch (keymap : List String) (i : Fin keymap.length) (M : Mat keymap.length)
    (pair : String × ℝ) : Py (Mat keymap.length) :=
  let childSpecies := pair.1
  let decayConst := pair.2
  if childSpecies = "none" then
    .ok (matAdd M i i (-decayConst))
  else match keydict keymap childSpecies with
    | none => .error .key
    | some dest => .ok (matAdd (matAdd M dest i decayConst) i i (-decayConst))

/-- The body of the loop over species, bateman_sys.py:70-92.  An empty tuple fails at `bateman_lib[key][0]`. -/
noncomputable def addSpecies (keymap : List String) (lib : BatemanLib) (M : Mat keymap.length)
    (i : Fin keymap.length) : Py (Mat keymap.length) :=
  match lib (keymap.get i) with
  | none => .error .key
  | some (.branches []) => .error .index
  | some (.branches (b :: bs)) => (b :: bs).foldlM (addBranch keymap i) M
  | some (.single c l) => addBranch keymap i M (c, l)

/-- `gen_bateman_matrix`, bateman_sys.py:42-93. -/
noncomputable def genBatemanMatrix (keymap : List String) (lib : BatemanLib) : Py (Mat keymap.length) :=
  (List.finRange keymap.length).foldlM (addSpecies keymap lib) 0

/-- `gen_transmute_matrix`, bateman_sys.py:96-116. -/
noncomputable def genTransmuteMatrix (keymap : List String) (lib : BatemanLib) (phi : ℝ := 1) :
    Py (Mat keymap.length) := do
  let m ← genBatemanMatrix keymap lib
  return (-phi) • m

/-- `np.allclose(a, b)` with the default tolerances `rtol=1e-5, atol=1e-8`: `|a - b| <= atol + rtol |b|` entrywise. -/
def npAllclose (ab : List (ℝ × ℝ)) : Prop := ∀ p ∈ ab, |p.1 - p.2| ≤ 1e-8 + 1e-5 * |p.2|

/-- `lmbd_prod`, bateman_sys.py:160-163: `for i in range(n-1): lmbd_prod *= lmbd[i]` (`i >= 0` always holds). -/
def lmbdProd (lmbd : ℕ → ℝ) (n : ℕ) : ℝ :=
  (List.range (n - 1)).foldl (fun p i => p * lmbd i) 1

/-- `prod_l`, bateman_sys.py:166-170. -/
def prodL (lmbd : ℕ → ℝ) (n i : ℕ) : ℝ :=
  (List.range n).foldl (fun p j => if j = i then p else p * (lmbd j - lmbd i)) 1

/-- `sum_k`, bateman_sys.py:164-171, at one time `t`. -/
noncomputable def sumK (lmbd : ℕ → ℝ) (n : ℕ) (t : ℝ) : ℝ :=
  (List.range n).foldl (fun s i => s + Real.exp (-lmbd i * t) / prodL lmbd n i) 0

open scoped Classical in
/-- `analytic_bateman_single_parent`, bateman_sys.py:119-173, at one time `t` (the code does all times at once, row by
row); the square shape is by type.  Entries of `lmbd` beyond the matrix are never read. -/
noncomputable def analyticBateman {d : ℕ} (t : ℝ) (M : Mat d) (n0 : ℝ) : Py (Vec d) :=
  let diag : ℕ → ℝ := fun i => if h : i < d then M ⟨i, h⟩ ⟨i, h⟩ else 0
  let sdiag : ℕ → ℝ := fun i => if h : i + 1 < d then M ⟨i + 1, h⟩ ⟨i, by omega⟩ else 0
  if npAllclose ((List.range (d - 1)).map fun i => (sdiag i, -1.0 * diag i)) then
    let lmbd := fun i => -1.0 * diag i
    .ok fun k : Fin d => n0 * lmbdProd lmbd (k.val + 1) * sumK lmbd (k.val + 1) t
  else .error .assertion

/-- `TestBatemanSysJac`, bateman_sys.py:271-295: the linear decay system with a matrix Jacobian whose time derivative is
supplied as zero, split by the same matrix. -/
noncomputable def batemanSys {n : ℕ} {P : Type} (M : Mat n) (eps : ℝ) : OdeSys n P where
  frhs _ _ u := M *ᵥ u
  fjac _ t u := customJac (fun _ u => M *ᵥ u) t u M (some 0) eps
  fl _ _ := matrixLinOp M

end Ormatex
