import Verif.Model.Bateman
import Mathlib.Analysis.SpecialFunctions.Pow.Real
import Mathlib.Analysis.SpecialFunctions.Trigonometric.Basic
import Mathlib.Analysis.SpecialFunctions.Trigonometric.Deriv
import Mathlib.Analysis.SpecialFunctions.Sqrt
import Mathlib.LinearAlgebra.Lagrange
import Mathlib.Algebra.Order.Floor.Ring
import Mathlib.Data.Matrix.Mul

/-!
The systems of `/repo/ormatex_py/progression` and `/repo/ormatex_py/ode_utils.py`.  Finite-element assembly (`skfem`) is
third-party: the assembled arrays `A`, `Ml`, `b` and the index set of Dirichlet points are inputs.
-/

namespace Ormatex
open Matrix

noncomputable section

/-! ### species_source_sink.py -/

/-- `rgas`, species_source_sink.py:11 -/
def rgas : ℝ := 83145 / 10000

/-- `mxf_liq_vapor_lin`, species_source_sink.py:14-29 -/
def mxfLin (uA uG k kG kA a : ℝ) : ℝ := k * a * (kG * uG - kA * uA)

/-- `mxf_liq_vapor_nonlin`, species_source_sink.py:32-46 (`jnp.clip(u_g, 1e-16, None)` is `max u_g 1e-16`) -/
def mxfNonlin (uA uG k kG kA : ℝ) (kS : ℝ := 1 / 10 ^ 12) : ℝ :=
  k * ((max uG (1 / 10 ^ 16)) ^ ((2 : ℝ) / 3) + kS) * (kG * uG - kA * uA)

/-- `bubble_surface_area`, species_source_sink.py:88-115.  (For a negative volume the Python power is `nan`; the theorems
speak about nonnegative volumes only.) -/
def bubbleArea (uG cvol alphaG nb : ℝ) (aK : ℝ := 1 / 10) (T : ℝ := 900) (P : ℝ := 101300) : ℝ :=
  let vgCarrier := cvol * alphaG
  let vg1cb := vgCarrier / nb
  let patm := P * (1 / 10 ^ 6)
  let vg := (cvol * uG / patm) * rgas * T
  let vg1b := aK * vg / nb
  let vgTot := vg1cb + vg1b
  let radius := ((3 / 4) * vgTot / Real.pi) ^ ((1 : ℝ) / 3)
  nb * 4 * Real.pi * radius ^ (2 : ℝ)

/-- `mxf_liq_vapor_bubble_ig`, species_source_sink.py:49-84 -/
def mxfBubble (uA uG cvol : ℝ) (alphaG : ℝ := 1 / 100) (k : ℝ := 1 / 100) (h : ℝ := 1 / 10 ^ 4) (nb : ℝ := 10)
    (T : ℝ := 900) : ℝ :=
  let aB := bubbleArea uG cvol alphaG nb (T := T)
  k * aB * ((uG / alphaG) * h * rgas * T - uA / (1 - alphaG))

/-- `mxf_diffusion_sorption`, species_source_sink.py:119-128 -/
def mxfSorption (uA uS alphaS k a : ℝ) : ℝ := -k * a * (uA - uS / alphaS)

/-- `mxf_arrhenius`, species_source_sink.py:132-146 -/
def mxfArrhenius (uA uB e apre mA mB T : ℝ) : ℝ := uA ^ mA * uB ^ mB * apre * Real.exp (-e / (rgas * T))

/-! ### bateman_nonlin_sys.py -/

/-- `src.at[i].set(x)` -/
def atSet {n : ℕ} (src : Vec n) (i : Fin n) (x : ℝ) : Vec n := Function.update src i x

/-- `srcf_xe_av`, bateman_nonlin_sys.py:88-100 -/
def srcfXeAv {n : ℕ} (u : Vec n) (iA iG : Fin n) (alphaG : ℝ := 5 / 100) (tankVol : ℝ := 100) : Vec n :=
  let s := mxfBubble (u iA) (u iG) tankVol alphaG (k := 1 / 100)
  atSet (atSet 0 iA s) iG (-s)

/-- `NonlinearBateman._frhs`, bateman_nonlin_sys.py:125-131.  `tank_vol` is an attribute of the class but is not handed to
`srcf_xe_av`. -/
def nonlinBatemanRhs {n : ℕ} (bat trans : Mat n) (fis : Vec n) (nPhi : ℝ) (_tankVol : ℝ) (iA iG : Fin n) (u : Vec n) : Vec n :=
  bat *ᵥ u + nPhi • (trans *ᵥ u) + nPhi • fis + srcfXeAv u iA iG

/-- `NonlinearBateman`, bateman_nonlin_sys.py:104-134: autodiff Jacobian, split by the decay matrix. -/
def nonlinBateman {n : ℕ} {P : Type} (bat trans : Mat n) (fis : Vec n) (nPhi tankVol : ℝ) (iA iG : Fin n) : OdeSys n P :=
  OdeSys.ofFrhs (fun _ _ u => nonlinBatemanRhs bat trans fis nPhi tankVol iA iG u) fun _ _ => matrixLinOp bat

/-! ### ode_utils.py -/

/-- `flatten_u(u) = u.reshape((-1,), order='F')`, ode_utils.py:25-27, rad_1d_2s.py:58-60: entry `j*N + i` of the result is
`u[i, j]`. -/
def flattenU {N n : ℕ} (u : Matrix (Fin N) (Fin n) ℝ) : Vec (n * N) :=
  fun k => u (finProdFinEquiv.symm k).2 (finProdFinEquiv.symm k).1

/-- `stack_u(u, n) = u.reshape((-1, n), order='F')`, ode_utils.py:22-23, rad_1d_2s.py:55-56.  The number of rows is
`len(u) / n`; a length that is not a multiple of `n` (or `n = 0`) is refused (the exception class depends on the array
library). -/
def stackU {L : ℕ} (u : Vec L) (n : ℕ) : Py (Σ N : ℕ, Matrix (Fin N) (Fin n) ℝ) :=
  if h : 0 < n ∧ n ∣ L then
    .ok ⟨L / n, fun i j => u ⟨j * (L / n) + i, by
      calc (j : ℕ) * (L / n) + i < j * (L / n) + L / n := Nat.add_lt_add_left i.2 _
        _ = (j + 1) * (L / n) := by ring
        _ ≤ n * (L / n) := Nat.mul_le_mul_right _ j.2
        _ = L := Nat.mul_div_cancel' h.2⟩⟩
  else .error .type

/-- `stack_u(u, n)` for a vector whose length is `n * N` by construction (see `stackU_eq`). -/
def unflat {N n : ℕ} (u : Vec (n * N)) : Matrix (Fin N) (Fin n) ℝ := fun i j => u (finProdFinEquiv (j, i))

/-- `jnp.kron(a, b)`: entry `(i*rb + k, j*cb + l)` is `a[i,j] * b[k,l]` -/
def kron {n N : ℕ} (a : Mat n) (b : Mat N) : Mat (n * N) :=
  fun r c => a (finProdFinEquiv.symm r).1 (finProdFinEquiv.symm c).1 * b (finProdFinEquiv.symm r).2 (finProdFinEquiv.symm c).2

/-! ### advection_diffusion_1d.py -/

/-- `f.at[idx].set(x)` for an index array -/
def atSetMany {N : ℕ} (f : Vec N) (idx : List (Fin N)) (x : ℝ) : Vec N := fun i => if i ∈ idx then x else f i

/-- `AffineLinearSEM._frhs`, advection_diffusion_1d.py:264-268 -/
def semRhs {N : ℕ} (A : Mat N) (Ml b : Vec N) (dir : List (Fin N)) (u : Vec N) : Vec N :=
  atSetMany (fun i => (b i - (A *ᵥ u) i) / Ml i) dir 0

/-- `-A / Ml[:, None]` -/
def negAOverM {N : ℕ} (A : Mat N) (Ml : Vec N) : Mat N := fun i j => -A i j / Ml i

/-- `AffineLinearSEM`, advection_diffusion_1d.py:238-275 -/
def affineSEM {N : ℕ} {P : Type} (A : Mat N) (Ml b : Vec N) (dir : List (Fin N)) : OdeSys N P :=
  OdeSys.ofFrhs (fun _ _ u => semRhs A Ml b dir u) fun _ _ => matrixLinOp (negAOverM A Ml)

/-- `NonautonomousSEM`, advection_diffusion_1d.py:278-300; `g'` is `dirichlet_dt`. -/
def nonautSEM {N : ℕ} {P : Type} (A : Mat N) (Ml b : Vec N) (dir : List (Fin N)) (g' : ℝ → ℝ) : OdeSys N P :=
  OdeSys.ofFrhs (fun _ t u => atSetMany (fun i => (b i - (A *ᵥ u) i) / Ml i) dir (g' t))
    fun _ _ => matrixLinOp (negAOverM A Ml)

/-- `torus_distance`, advection_diffusion_1d.py:302-305; `x % 1` is the fractional part. -/
def torusDistance (x xp : ℝ) : ℝ :=
  let dx := |Int.fract x - Int.fract xp|
  if dx > 1 / 2 then 1 - dx else dx

/-! ### rad_1d_2s.py, rad_1d_3s.py, rad_1d_9s.py -/

/-- an `N × n` array, one column per species -/
abbrev Arr (N n : ℕ) := Matrix (Fin N) (Fin n) ℝ

/-- `s.at[:, j].add(x)` -/
def colAdd {N n : ℕ} (s : Arr N n) (j : Fin n) (x : Vec N) : Arr N n := fun i c => if c = j then s i c + x i else s i c

/-- `RAD_SEM._source_poly`, rad_1d_2s.py:89-95 -/
def sourcePoly {N : ℕ} (un : Arr N 2) : Arr N 2 :=
  let transfer : Vec N := fun i => -(1 / 2) * |un i 0 ^ 3|
  colAdd (colAdd 0 0 transfer) 1 (-transfer)

/-- `RAD_SEM._source_nonlin_evap`, rad_1d_2s.py:97-107 -/
def sourceEvap2 {N : ℕ} (un : Arr N 2) : Arr N 2 :=
  let transfer : Vec N := fun i => mxfNonlin (un i 0) (un i 1) 2 1 1
  colAdd (colAdd 0 0 transfer) 1 (-transfer)

/-- `RAD_SEM._nonlin_evap`, rad_1d_9s.py:156-167 -/
def nonlinEvap9 {N : ℕ} (un : Arr N 9) : Arr N 9 :=
  let xe : Vec N := fun i => mxfNonlin (un i 5) (un i 7) 10000 1 1
  let cs : Vec N := fun i => mxfNonlin (un i 6) (un i 8) 900 1 1
  colAdd (colAdd (colAdd (colAdd 0 5 xe) 7 (-xe)) 6 cs) 8 (-cs)

/-- the off-gas profile of `_gas_purify`, rad_1d_9s.py:174-180, with width `w = 0.4` and centre `c = 4` -/
def offgasProfile (x : ℝ) : ℝ :=
  Real.tanh ((x - (4 - 4 / 10 / 2)) * 10) * (-Real.tanh ((x - (4 + 4 / 10 / 2)) * 10)) / 2 + 1 / 2

/-- `RAD_SEM._gas_purify`, rad_1d_9s.py:169-185 -/
def gasPurify {N : ℕ} (xs : Vec N) (un : Arr N 9) : Arr N 9 :=
  let eff : ℝ := 4 / 10 * (4 / 10)
  let xe : Vec N := fun i => eff * un i 7 * offgasProfile (xs i)
  let cs : Vec N := fun i => eff * un i 8 * offgasProfile (xs i)
  colAdd (colAdd 0 7 (-xe)) 8 (-cs)

/-- `flux_profile(1.0, xs, region_rx)`, rad_1d_9s.py:101-109 with the region `0 <= x <= 1` of rad_1d_9s.py:137-138 -/
def fluxProfile (x : ℝ) : ℝ := if 0 ≤ x ∧ x ≤ 1 then Real.cos (Real.pi * (x - 1 / 2) / 1) else 0

/-- `RAD_SEM._fission_src`, rad_1d_9s.py:142-147 -/
def fissionSrc {N : ℕ} (fis : Mat 9) (xs : Vec N) : Arr N 9 :=
  fun i j => fluxProfile (xs i) * (Matrix.of (fun _ _ => 1 : Fin N → Fin 9 → ℝ) * fisᵀ) i j

/-- `RAD_SEM._transmute`, rad_1d_9s.py:149-154 -/
def transmuteSrc {N : ℕ} (trans : Mat 9) (xs : Vec N) (un : Arr N 9) : Arr N 9 :=
  fun i j => fluxProfile (xs i) * (un * transᵀ) i j

/-- `udot.at[dirichlet_bd, :].set(0.)` -/
def rowsZero {N n : ℕ} (un : Arr N n) (dir : List (Fin N)) : Arr N n := fun i j => if i ∈ dir then 0 else un i j

/-- `RAD_SEM._frhs`, rad_1d_2s.py:110-121, rad_1d_3s.py:78-88, rad_1d_9s.py:188-206, for the source term `src` of the file. -/
def radRhs {N n : ℕ} (src : Arr N n → Arr N n) (bat : Mat n) (A : Mat N) (Ml : Vec N) (dir : List (Fin N)) (u : Vec (n * N)) :
    Vec (n * N) :=
  let un := unflat u
  flattenU (rowsZero (fun i j => (un * batᵀ) i j + src un i j - (A * un) i j / Ml i) dir)

/-- `RAD_SEM._fl`: `kron(eye(n), -A/Ml)`, rad_1d_2s.py:124-136, rad_1d_3s.py:91-103, rad_1d_9s.py:209-221 -/
def radL {N : ℕ} (n : ℕ) (A : Mat N) (Ml : Vec N) : LinOp (n * N) := matrixLinOp (kron (1 : Mat n) (negAOverM A Ml))

/-- `RAD_SEM` with a given source term: autodiff Jacobian. -/
def radSys {N n : ℕ} {P : Type} (src : Arr N n → Arr N n) (bat : Mat n) (A : Mat N) (Ml : Vec N) (dir : List (Fin N)) :
    OdeSys (n * N) P :=
  OdeSys.ofFrhs (fun _ _ u => radRhs src bat A Ml dir u) fun _ _ => radL n A Ml

/-- the nine-species source term, rad_1d_9s.py:191-202 -/
def src9 {N : ℕ} (fis trans : Mat 9) (xs : Vec N) (un : Arr N 9) : Arr N 9 :=
  fissionSrc fis xs + transmuteSrc trans xs un + nonlinEvap9 un + gasPurify xs un

/-! ### element_line_pp_nodal.py -/

/-- exchange of the entries at positions `1` and `-1`: `Xt[[1,-1]] = Xt[[-1,1]]`, element_line_pp_nodal.py:27-28 -/
def swap1Last (l : List ℝ) : List ℝ :=
  (l.set 1 (l.getD (l.length - 1) 0)).set (l.length - 1) (l.getD 1 0)

/-- the literal tables, element_line_pp_nodal.py:16-21 -/
def gllRaw : ℕ → Option (List ℝ × List ℝ)
  | 2 => some ([-1, 1], [1, 1])
  | 3 => some ([-1, 0, 1], [1 / 3, 4 / 3, 1 / 3])
  | 4 => some ([-1, -1 / Real.sqrt 5, 1 / Real.sqrt 5, 1], [1 / 6, 5 / 6, 5 / 6, 1 / 6])
  | 5 => some ([-1, -Real.sqrt (3 / 7), 0, Real.sqrt (3 / 7), 1], [1 / 10, 49 / 90, 32 / 45, 49 / 90, 1 / 10])
  | _ => none

/-- `GLL_quad()(pp)`, element_line_pp_nodal.py:14-32: nodes and weights on `[0, 1]`. -/
def gllQuad (pp : ℕ) : Py (List ℝ × List ℝ) :=
  match gllRaw pp with
  | none => .error .key
  | some (X, W) => .ok (swap1Last (X.map fun x => (1 + x) / 2), swap1Last (W.map fun w => w / 2))

/-- The cached attributes `P`, `dP` of `ElementLinePp_nodal`: number of columns, and rows of basis values and derivatives. -/
structure BasisCache where
  cols : ℕ
  P : List (List ℝ)
  dP : List (List ℝ)

/-- `self.P = np.zeros((0, 0))`, element_line_pp_nodal.py:52-53 -/
def BasisCache.init : BasisCache := BasisCache.mk 0 [] []

/-- `_reval_legendre`, element_line_pp_nodal.py:59-67: row `i` holds the `i`-th Lagrange basis polynomial of the nodes (and its
derivative) at the points; scipy's barycentric interpolator of the unit vectors is modelled by the exact polynomials. -/
def revalBasis {m : ℕ} (nodes : Fin m → ℝ) (X : List ℝ) : BasisCache :=
  BasisCache.mk X.length
    (List.ofFn fun i => X.map fun x => (Lagrange.basis Finset.univ nodes i).eval x)
    (List.ofFn fun i => X.map fun x => (Polynomial.derivative (Lagrange.basis Finset.univ nodes i)).eval x)

/-- `lbasis(X, i)`, element_line_pp_nodal.py:69-74: recompute only when the number of points differs from the number of cached
columns.  Returns the two rows and the object after the call. -/
def lbasis {m : ℕ} (nodes : Fin m → ℝ) (c : BasisCache) (X : List ℝ) (i : ℕ) : Py (List ℝ × List ℝ) × BasisCache :=
  let c' := if c.cols ≠ X.length then revalBasis nodes X else c
  (match c'.P[i]?, c'.dP[i]? with
    | some r, some d => .ok (r, d)
    | _, _ => .error .index, c')

/-! ### lotka_volterra.py -/

/-- `LotkaVolterra._frhs`, lotka_volterra.py:40-43 -/
def lvRhs (al be de ga : ℝ) (x : Vec 2) : Vec 2 := ![al * x 0 - be * x 0 * x 1, de * x 0 * x 1 - ga * x 1]

/-- the matrix of `LotkaVolterra._fjac`, lotka_volterra.py:48-51 -/
def lvJac (al be de ga : ℝ) (x : Vec 2) : Mat 2 := !![al - be * x 1, -be * x 0; de * x 1, de * x 0 - ga]

/-- `LotkaVolterra`, lotka_volterra.py:26-62 -/
def lotkaVolterra {P : Type} (al be de ga eps : ℝ) : OdeSys 2 P where
  frhs _ _ x := lvRhs al be de ga x
  fjac _ t x := customJac (fun _ x => lvRhs al be de ga x) t x (lvJac al be de ga x) (some 0) eps
  fl _ _ := matrixLinOp !![al - be * 2, 0; 0, -ga]

/-- `f_pred_hunt`, lotka_volterra.py:65-66 -/
def predHunt (t : ℝ) : ℝ := 4 / 10 * (Real.sin (t * (2 / 10)) + 1)

/-- `f_pred_hunt_dt`, lotka_volterra.py:70-71 -/
def predHuntDt (t : ℝ) : ℝ := 4 / 10 * (2 / 10) * Real.cos (t * (2 / 10))

/-- `LotkaVolterraNonauto._frhs`, lotka_volterra.py:87-91 -/
def lvnRhs (al be de ga t : ℝ) (x : Vec 2) : Vec 2 :=
  ![al * x 0 - be * x 0 * x 1, de * x 0 * x 1 - ga * x 1 - predHunt t * x 1]

/-- the matrix of `LotkaVolterraNonauto._fjac`, lotka_volterra.py:96-100 -/
def lvnJac (al be de ga t : ℝ) (x : Vec 2) : Mat 2 :=
  !![al - be * x 1, -be * x 0; de * x 1, de * x 0 - ga - predHunt t]

/-- `LotkaVolterraNonauto`, lotka_volterra.py:73-112 -/
def lotkaVolterraNonauto {P : Type} (al be de ga eps : ℝ) : OdeSys 2 P where
  frhs _ t x := lvnRhs al be de ga t x
  fjac _ t x := customJac (fun t x => lvnRhs al be de ga t x) t x (lvnJac al be de ga t x)
    (some ![0, -predHuntDt t * x 1]) eps
  fl _ _ := matrixLinOp !![al - be * 2, 0; 0, -ga]

end
end Ormatex
