import Verif.Props.Layout
import Verif.Props.LinExact
import Verif.Props.InvariantRun

/-!
C60: Dirichlet entries of the finite-element systems.
-/

namespace Ormatex.Props
open Matrix Ormatex.Spec

noncomputable section
variable {N n : ℕ} {P : Type} [EmptyCollection P]
set_option linter.unusedSectionVars false

/-- **Specification.** What `skfem.enforce` does to the assembled matrix at the Dirichlet points: the rows are rows of a diagonal
matrix (for `enforce` the diagonal entry is 1; only the zero off-diagonal entries matter here). -/
def Enforced (A : Mat N) (dir : List (Fin N)) : Prop := ∀ d ∈ dir, ∀ j, j ≠ d → A d j = 0

/-- **C60, right-hand sides.** The right-hand sides vanish at the Dirichlet points, for every state, source term and matrix. -/
theorem C60_rhs (A : Mat N) (Ml b : Vec N) (dir : List (Fin N)) (src : Arr N n → Arr N n) (bat : Mat n) {d : Fin N} (hd : d ∈ dir) :
    (∀ u, semRhs A Ml b dir u d = 0) ∧
    (∀ (u : Vec (n * N)) (j : Fin n) (h : j * N + d < n * N), radRhs src bat A Ml dir u ⟨j * N + d, h⟩ = 0) := by
  refine ⟨fun u => if_pos hd, fun u j h => ?_⟩
  unfold radRhs
  rw [C59_position]
  exact if_pos hd

theorem negAOverM_row {A : Mat N} {dir : List (Fin N)} (hA : Enforced A dir) (Ml : Vec N) {d : Fin N} (hd : d ∈ dir) (v : Vec N) :
    (negAOverM A Ml *ᵥ v) d = -A d d / Ml d * v d := by
  unfold Matrix.mulVec dotProduct negAOverM
  rw [Finset.sum_eq_single d]
  · intro j _ hj
    show -A d j / Ml d * v j = 0
    rw [hA d hd j hj]; simp
  · intro h; exact absurd (Finset.mem_univ d) h

/-- **C60, advection-diffusion.** With the splitting operator of the class, every family of methods leaves every Dirichlet entry
of `AffineLinearSEM` at its initial value, for all step sizes, numbers of steps, Krylov and Leja parameters and callbacks. -/
theorem C60_sem_frozen {Q W : Type} (hasRust : Bool) (expm : ∀ m, Mat m → Mat m) (tab : Pfd) (maxDim iom : ℕ) (o : LejaOpts)
    (A : Mat N) (Ml b : Vec N) (dir : List (Fin N)) (hA : Enforced A dir) {d : Fin N} (hd : d ∈ dir)
    (rs : Mat N → ℝ → Vec N → ℕ → Vec N)
    (hrs : ∀ J dt b k, (∀ v, v d = 0 → (J *ᵥ v) d = 0) → b d = 0 → rs J dt b k d = 0)
    (y0 : Vec N) (t0 : ℝ) (m : String) (tol dt : ℝ) (nsteps : ℕ) (before : Option (W → ℝ → Vec N → P × W))
    (after : Option (W → ℝ → Vec N → Q × W)) (w : W) :
    (∀ s, ExpRB.new hasRust t0 y0 m tol = .ok s → m ≠ "exp_pfd" → m ≠ "exp_pfd_rs" →
      ∀ l, integrateOrmatex (rbStepper hasRust (realKernels N expm tab rs maxDim iom) (affineSEM A Ml b dir)) s y0
        t0 dt nsteps before after w = .ok l → ∀ y ∈ l.yRes, y d = y0 d) ∧
    (∀ s, ExpSplit.new t0 y0 m = .ok s →
      ∀ l, integrateOrmatex (splitStepper (realKernels N expm tab rs maxDim iom) (affineSEM A Ml b dir)) s y0 t0 dt nsteps before
        after w = .ok l → ∀ y ∈ l.yRes, y d = y0 d) ∧
    (∀ s, RK.new t0 y0 m = .ok s →
      ∀ l, integrateOrmatex (rkStepper (affineSEM A Ml b dir)) s y0 t0 dt nsteps before after w = .ok l →
        ∀ y ∈ l.yRes, y d = y0 d) ∧
    (∀ s, ExpLeja.new t0 y0 m = .ok s →
      ∀ l, integrateOrmatex (lejaStepper o (affineSEM A Ml b dir)) s y0 t0 dt nsteps before after w = .ok l →
        ∀ y ∈ l.yRes, y d = y0 d) := by
  have hz : ∀ v : Vec N, v d = 0 → (negAOverM A Ml *ᵥ v) d = 0 := fun v hv => by rw [negAOverM_row hA Ml hd, hv, mul_zero]
  exact C67_frozen hasRust expm tab maxDim iom o d (fun _ _ u => semRhs A Ml b dir u) (fun _ _ u => if_pos hd)
    (fun _ _ => matrixLinOp (negAOverM A Ml)) (fun _ _ v hv => hz v hv) (fun _ _ D hD v hv => by cases hD; exact hz v hv) rs hrs
    y0 t0 m tol dt nsteps before after w

/-- **C60, reaction systems.** The same for every species of the two-, three- and nine-species systems, whatever the source
term. -/
theorem C60_rad_frozen {Q W : Type} (hasRust : Bool) (expm : ∀ m, Mat m → Mat m) (tab : Pfd) (maxDim iom : ℕ) (o : LejaOpts)
    (src : Arr N n → Arr N n) (bat : Mat n) (A : Mat N) (Ml : Vec N) (dir : List (Fin N)) (hA : Enforced A dir) {d : Fin N}
    (hd : d ∈ dir) (j : Fin n) (h : j * N + d < n * N) (rs : Mat (n * N) → ℝ → Vec (n * N) → ℕ → Vec (n * N))
    (hrs : ∀ J dt b k, (∀ v, v ⟨j * N + d, h⟩ = 0 → (J *ᵥ v) ⟨j * N + d, h⟩ = 0) → b ⟨j * N + d, h⟩ = 0 →
      rs J dt b k ⟨j * N + d, h⟩ = 0)
    (y0 : Vec (n * N)) (t0 : ℝ) (m : String) (tol dt : ℝ) (nsteps : ℕ) (before : Option (W → ℝ → Vec (n * N) → P × W))
    (after : Option (W → ℝ → Vec (n * N) → Q × W)) (w : W) :
    (∀ s, ExpRB.new hasRust t0 y0 m tol = .ok s → m ≠ "exp_pfd" → m ≠ "exp_pfd_rs" →
      ∀ l, integrateOrmatex (rbStepper hasRust (realKernels (n * N) expm tab rs maxDim iom) (radSys src bat A Ml dir)) s y0
        t0 dt nsteps before after w = .ok l → ∀ y ∈ l.yRes, y ⟨j * N + d, h⟩ = y0 ⟨j * N + d, h⟩) ∧
    (∀ s, ExpSplit.new t0 y0 m = .ok s →
      ∀ l, integrateOrmatex (splitStepper (realKernels (n * N) expm tab rs maxDim iom) (radSys src bat A Ml dir)) s y0 t0 dt nsteps
        before after w = .ok l → ∀ y ∈ l.yRes, y ⟨j * N + d, h⟩ = y0 ⟨j * N + d, h⟩) ∧
    (∀ s, RK.new t0 y0 m = .ok s →
      ∀ l, integrateOrmatex (rkStepper (radSys src bat A Ml dir)) s y0 t0 dt nsteps before after w = .ok l →
        ∀ y ∈ l.yRes, y ⟨j * N + d, h⟩ = y0 ⟨j * N + d, h⟩) ∧
    (∀ s, ExpLeja.new t0 y0 m = .ok s →
      ∀ l, integrateOrmatex (lejaStepper o (radSys src bat A Ml dir)) s y0 t0 dt nsteps before after w = .ok l →
        ∀ y ∈ l.yRes, y ⟨j * N + d, h⟩ = y0 ⟨j * N + d, h⟩) := by
  have hz : ∀ v : Vec (n * N), v ⟨j * N + d, h⟩ = 0 → (radL n A Ml).matvec v ⟨j * N + d, h⟩ = 0 := fun v hv => by
    rw [C59_radL]
    refine (C59_position _ d j h).trans ?_
    have e : (A * unflat v) d j = A d d * v ⟨j * N + d, h⟩ := by
      rw [Matrix.mul_apply, Finset.sum_eq_single d]
      · have := C59_position (unflat v) d j h
        rw [flattenU_unflat] at this
        rw [this]
      · intro c _ hc
        rw [hA d hd c hc, zero_mul]
      · intro h; exact absurd (Finset.mem_univ d) h
    show -((A * unflat v) d j) / Ml d = 0
    rw [e, hv]; simp
  exact C67_frozen hasRust expm tab maxDim iom o ⟨j * N + d, h⟩ (fun _ _ u => radRhs src bat A Ml dir u)
    (fun _ _ u => (C60_rhs A Ml 0 dir src bat hd).2 u j h)
    (fun _ _ => radL n A Ml) (fun _ _ v hv => hz v hv) (fun _ _ D hD v hv => by cases hD; exact hz v hv) rs hrs
    y0 t0 m tol dt nsteps before after w

/-! ### exactness of the affine system -/

/-- the Jacobian of `AffineLinearSEM`: `-A/Ml` with the Dirichlet rows set to zero -/
def semJac (A : Mat N) (Ml : Vec N) (dir : List (Fin N)) : Mat N := fun i j => if i ∈ dir then 0 else -A i j / Ml i

/-- the inhomogeneity of `AffineLinearSEM` -/
def semLoad (Ml b : Vec N) (dir : List (Fin N)) : Vec N := fun i => if i ∈ dir then 0 else b i / Ml i

theorem semRhs_affine (A : Mat N) (Ml b : Vec N) (dir : List (Fin N)) (u : Vec N) :
    semRhs A Ml b dir u = semJac A Ml dir *ᵥ u + semLoad Ml b dir := by
  funext i
  unfold semRhs atSetMany semLoad
  by_cases h : i ∈ dir
  · have : (semJac A Ml dir *ᵥ u) i = 0 := by
      unfold Matrix.mulVec dotProduct semJac
      simp [h]
    simp [h, this]
  · have : (semJac A Ml dir *ᵥ u) i = -(A *ᵥ u) i / Ml i := by
      unfold Matrix.mulVec dotProduct semJac
      simp only [h, if_false]
      rw [← Finset.sum_neg_distrib, Finset.sum_div]
      exact Finset.sum_congr rfl fun k _ => by ring
    simp only [h, if_false, Pi.add_apply, this]
    ring

/-- **C60, the system is affine** with the exact Jacobian `semJac`, whatever the matrix. -/
theorem C60_affine (A : Mat N) (Ml b : Vec N) (dir : List (Fin N)) :
    ForcedSys (affineSEM (P := P) A Ml b dir) (semJac A Ml dir) (semLoad Ml b dir) 0 := by
  have h := forcedSys_autodiff (P := P) (semJac A Ml dir) (semLoad Ml b dir) 0 (fun _ _ => matrixLinOp (negAOverM A Ml))
  have e : (fun (_ : Option P) (t : ℝ) (y : Vec N) => semJac A Ml dir *ᵥ y + t • (0 : Vec N) + semLoad Ml b dir)
      = fun _ _ u => semRhs A Ml b dir u := by
    funext _ t u
    rw [semRhs_affine, smul_zero, add_zero]
  rw [e] at h
  exact h

/-- **C60, splitting operator against Jacobian.** The two agree on every increment that vanishes at the Dirichlet points, and the
result vanishes there too; on other vectors they differ exactly in the Dirichlet entries. -/
theorem C60_operator (A : Mat N) (Ml : Vec N) (dir : List (Fin N)) (hA : Enforced A dir) (v : Vec N) :
    ((∀ d ∈ dir, v d = 0) → negAOverM A Ml *ᵥ v = semJac A Ml dir *ᵥ v ∧ ∀ d ∈ dir, (negAOverM A Ml *ᵥ v) d = 0) ∧
    (∀ d ∈ dir, (semJac A Ml dir *ᵥ v) d = 0 ∧ (negAOverM A Ml *ᵥ v) d = -A d d / Ml d * v d) ∧
    (∀ i ∉ dir, (semJac A Ml dir *ᵥ v) i = (negAOverM A Ml *ᵥ v) i) := by
  have h2 : ∀ d ∈ dir, (semJac A Ml dir *ᵥ v) d = 0 := fun d hd => by
    unfold Matrix.mulVec dotProduct semJac
    simp [hd]
  have h3 : ∀ i ∉ dir, (semJac A Ml dir *ᵥ v) i = (negAOverM A Ml *ᵥ v) i := fun i hi => by
    unfold Matrix.mulVec dotProduct semJac negAOverM
    simp [hi]
  refine ⟨fun h => ?_, fun d hd => ⟨h2 d hd, negAOverM_row hA Ml hd v⟩, h3⟩
  have h4 : ∀ d ∈ dir, (negAOverM A Ml *ᵥ v) d = 0 := fun d hd => by rw [negAOverM_row hA Ml hd, h d hd, mul_zero]
  refine ⟨?_, h4⟩
  funext i
  by_cases hi : i ∈ dir
  · rw [h4 i hi, h2 i hi]
  · exact (h3 i hi).symm

/-- A one-cell example with a Dirichlet point where the two operators do differ. -/
example : Enforced (!![1, 0; -2, 3] : Mat 2) [0] ∧ negAOverM !![1, 0; -2, 3] ![1, 1] ≠ semJac !![1, 0; -2, 3] ![1, 1] [0] := by
  constructor
  · intro d hd j hj
    fin_cases d <;> fin_cases j <;> simp_all
  · intro h
    have := congrFun (congrFun h 0) 0
    simp [negAOverM, semJac] at this

/-- **C60, Rosenbrock and EPI methods are exact on the advection-diffusion system** (with exact kernels): the output is the
solution of the semidiscrete equation at every output time. -/
theorem C60_rb_exact {K : Kernels N} (hK : ExactKernels K) {Q W : Type} (hasRust : Bool) (A : Mat N) (Ml b : Vec N)
    (dir : List (Fin N)) {Y : ℝ → Vec N} (hY : ∀ s, HasDerivAt Y (semRhs A Ml b dir (Y s)) s) (t0 : ℝ) (m : String) (tol : ℝ)
    (s : ExpRB N) (hnew : ExpRB.new hasRust t0 (Y t0) m tol = .ok s) (hm : m ∈ rosMethods) (dt : ℝ) (nsteps : ℕ)
    (before : Option (W → ℝ → Vec N → P × W)) (after : Option (W → ℝ → Vec N → Q × W)) (w : W) :
    ∃ l, integrateOrmatex (rbStepper hasRust K (affineSEM A Ml b dir)) s (Y t0) t0 dt nsteps before after w = .ok l ∧
      l.tRes = (List.range (nsteps + 1)).map (fun i : ℕ => t0 + i * dt) ∧
      l.yRes = (List.range (nsteps + 1)).map (fun i : ℕ => Y (t0 + i * dt)) :=
  C36_run hK hasRust _ (C60_affine A Ml b dir)
    (fun s => (hY s).congr_deriv (by rw [semRhs_affine, smul_zero, add_zero])) t0 m tol s hnew hm (Or.inl rfl) dt nsteps _ _ _

section agree
variable {V : Submodule ℝ (Vec N)} {L J : Mat N}

theorem phiM_agree (hJ : Maps V J) (h : ∀ v ∈ V, L *ᵥ v = J *ᵥ v) (k : ℕ) (c : ℝ) {v : Vec N} (hv : v ∈ V) :
    phiM k (c • L) *ᵥ v = phiM k (c • J) *ᵥ v ∧ phiM k (c • J) *ᵥ v ∈ V := by
  have hp : ∀ j : ℕ, (c • L) ^ j *ᵥ v = (c • J) ^ j *ᵥ v ∧ (c • J) ^ j *ᵥ v ∈ V := by
    intro j
    induction j with
    | zero => simp [hv]
    | succ j ih =>
      rw [pow_succ', pow_succ', ← Matrix.mulVec_mulVec, ← Matrix.mulVec_mulVec, ih.1, Matrix.smul_mulVec, Matrix.smul_mulVec,
        h _ ih.2]
      exact ⟨rfl, V.smul_mem _ (hJ _ ih.2)⟩
  have hs : ∀ M : Mat N, HasSum (fun j : ℕ => ((Nat.factorial (j + k) : ℝ)⁻¹) • (M ^ j *ᵥ v)) (phiM k M *ᵥ v) := by
    intro M
    have hc : Continuous fun X : Mat N => X *ᵥ v := by fun_prop
    have := (phiM_hasSum k M).map (⟨⟨fun X : Mat N => X *ᵥ v, Matrix.zero_mulVec v⟩, fun X Y => Matrix.add_mulVec X Y v⟩ :
      Mat N →+ Vec N) hc
    have e : (fun j : ℕ => ((Nat.factorial (j + k) : ℝ)⁻¹) • (M ^ j *ᵥ v))
        = (⟨⟨fun X : Mat N => X *ᵥ v, Matrix.zero_mulVec v⟩, fun X Y => Matrix.add_mulVec X Y v⟩ : Mat N →+ Vec N)
          ∘ fun j : ℕ => ((Nat.factorial (j + k) : ℝ)⁻¹) • M ^ j := by
      funext j
      exact (Matrix.smul_mulVec _ _ _).symm
    rw [e]
    exact this
  have hL := hs (c • L)
  simp only [(hp _).1] at hL
  refine ⟨hL.unique (hs (c • J)), ?_⟩
  exact (Submodule.closed_of_finiteDimensional V).mem_of_tendsto (hs (c • J))
    (Filter.Eventually.of_forall fun F => V.sum_mem fun j _ => V.smul_mem _ (hp j).2)

/-- the two- and three-stage updates cannot tell `L` from `J` -/
theorem exp2Update_agree (hJ : Maps V J) (h : ∀ v ∈ V, L *ᵥ v = J *ᵥ v) {f : ℝ → Vec N → Vec N} (hf : ∀ t y, f t y ∈ V) (t : ℝ)
    (y : Vec N) (dt cc : ℝ) : exp2Update f L t y dt cc = exp2Update f J t y dt cc := by
  unfold exp2Update
  simp only
  have p := fun k c v (hv : v ∈ V) => phiM_agree hJ h k c hv
  rw [(p 1 (cc * dt) _ (hf t y)).1, (p 1 dt _ (hf t y)).1]
  have m1 : y + (cc * dt) • (phiM 1 ((cc * dt) • J) *ᵥ f t y) - y ∈ V := by
    rw [add_sub_cancel_left]
    exact V.smul_mem _ (p 1 (cc * dt) _ (hf t y)).2
  rw [h _ m1]
  generalize y + (cc * dt) • (phiM 1 ((cc * dt) • J) *ᵥ f t y) = y2 at m1 ⊢
  rw [(p 2 dt _ (V.sub_mem (V.sub_mem (hf (t + cc * dt) y2) (hf t y)) (hJ _ m1))).1]

theorem exp3Update_agree (hJ : Maps V J) (h : ∀ v ∈ V, L *ᵥ v = J *ᵥ v) {f : ℝ → Vec N → Vec N} (hf : ∀ t y, f t y ∈ V) (t : ℝ)
    (y : Vec N) (dt : ℝ) : exp3Update f L t y dt = exp3Update f J t y dt := by
  unfold exp3Update
  simp only
  have p := fun k c v (hv : v ∈ V) => phiM_agree hJ h k c hv
  rw [(p 1 (2 / 3 * dt) _ (hf t y)).1, (p 1 dt _ (hf t y)).1]
  have m1 : y + (2 / 3 * dt) • (phiM 1 ((2 / 3 * dt) • J) *ᵥ f t y) - y ∈ V := by
    rw [add_sub_cancel_left]
    exact V.smul_mem _ (p 1 (2 / 3 * dt) _ (hf t y)).2
  rw [h _ m1]
  generalize y + (2 / 3 * dt) • (phiM 1 ((2 / 3 * dt) • J) *ᵥ f t y) = y2 at m1 ⊢
  have m2 := V.sub_mem (V.sub_mem (hf (t + 2 / 3 * dt) y2) (hf t y)) (hJ _ m1)
  rw [(p 2 (2 / 3 * dt) _ m2).1]
  have m3 : y2 + (2 / 3 * dt) • (phiM 2 ((2 / 3 * dt) • J) *ᵥ (f (t + 2 / 3 * dt) y2 - f t y - J *ᵥ (y2 - y))) - y ∈ V := by
    rw [add_sub_right_comm]
    exact V.add_mem m1 (V.smul_mem _ (p 2 (2 / 3 * dt) _ m2).2)
  rw [h _ m3]
  generalize y2 + (2 / 3 * dt) • (phiM 2 ((2 / 3 * dt) • J) *ᵥ (f (t + 2 / 3 * dt) y2 - f t y - J *ᵥ (y2 - y))) = y3 at m3 ⊢
  rw [(p 2 dt _ (V.sub_mem (V.sub_mem (hf (t + 2 / 3 * dt) y3) (hf t y)) (hJ _ m3))).1]
end agree

/-- vectors that vanish at the Dirichlet points -/
def vanishOn (dir : List (Fin N)) : Submodule ℝ (Vec N) where
  carrier := {v | ∀ d ∈ dir, v d = 0}
  add_mem' h1 h2 d hd := by rw [Pi.add_apply, h1 d hd, h2 d hd, add_zero]
  zero_mem' _ _ := rfl
  smul_mem' c v h d hd := by rw [Pi.smul_apply, h d hd, smul_zero]

/-- **C60, the splitting methods are exact on the advection-diffusion system** (with exact kernels), although their operator
differs from the Jacobian on the Dirichlet rows: "all schemes should be exact". -/
theorem C60_split_exact {K : Kernels N} (hK : ExactKernels K) {Q W : Type} (A : Mat N) (Ml b : Vec N)
    (dir : List (Fin N)) (hA : Enforced A dir) {Y : ℝ → Vec N} (hY : ∀ s, HasDerivAt Y (semRhs A Ml b dir (Y s)) s) (t0 : ℝ)
    (m : String) (s : ExpSplit N) (hnew : ExpSplit.new t0 (Y t0) m = .ok s) (dt : ℝ) (nsteps : ℕ)
    (before : Option (W → ℝ → Vec N → P × W)) (after : Option (W → ℝ → Vec N → Q × W)) (w : W) :
    ∃ l, integrateOrmatex (splitStepper K (affineSEM A Ml b dir)) s (Y t0) t0 dt nsteps before after w = .ok l ∧
      l.tRes = (List.range (nsteps + 1)).map (fun i : ℕ => t0 + i * dt) ∧
      l.yRes = (List.range (nsteps + 1)).map (fun i : ℕ => Y (t0 + i * dt)) := by
  set J := semJac A Ml dir with hJdef
  set L := negAOverM A Ml with hLdef
  set c := semLoad Ml b dir with hcdef
  have hY' : Solves J c 0 Y := fun s => (hY s).congr_deriv (by rw [semRhs_affine, smul_zero, add_zero])
  have hLJ : ∀ v ∈ vanishOn dir, L *ᵥ v = J *ᵥ v := fun v hv => ((C60_operator A Ml dir hA v).1 hv).1
  have hJV : Maps (vanishOn dir) J := fun v hv d hd => ((C60_operator A Ml dir hA v).2.1 d hd).1
  set sys : OdeSys N P := affineSEM A Ml b dir with hsys
  have hf : ∀ t y, sys.frhs none t y ∈ vanishOn dir := fun t y d hd => if_pos hd
  have hfr : sys.frhs none = fun t y => J *ᵥ y + t • (0 : Vec N) + c := by
    funext t y
    exact (C60_affine A Ml b dir).frhs none t y
  have hl : ∀ t y, sys.fl t y = matrixLinOp L := fun _ _ => rfl
  have hd : (matrixLinOp L).dense = .ok L := rfl
  have hLm : IsMatrix (matrixLinOp L) L := fun _ => rfl
  have stepExact : ∀ (s : ExpSplit N) (t : ℝ), At s.base t (Y t) → Coherent K (matrixLinOp L) s → ∀ kw : Option P,
      s.base.method ∈ ["exp1", "exp2", "exp3", "exp1_dense", "exp2_dense", "exp3_dense"] →
      ∃ r s', ExpSplit.step K sys s dt kw = .ok (r, s') ∧ s'.base = s.base ∧ r.t = t + dt ∧ r.y = Y (t + dt) := by
    intro s t hs hco kw hm
    have hflow := rosEuler_flow hY' t dt 1
    rw [one_mul] at hflow
    have h1 : Y t + dt • (phiM 1 (dt • L) *ᵥ sys.frhs none t (Y t)) = Y (t + dt) := by
      rw [(phiM_agree hJV hLJ 1 dt (hf t (Y t))).1, ← hflow, hfr]
      simp [rosEuler]
    have h2 : ∀ cc : ℝ, cc ≠ 0 → exp2Update (sys.frhs none) L t (Y t) dt cc = Y (t + dt) := fun cc hcc => by
      rw [exp2Update_agree hJV hLJ hf, hfr]
      exact exp2_flow hY' t dt cc hcc
    have h3 : exp3Update (sys.frhs none) L t (Y t) dt = Y (t + dt) := by
      rw [exp3Update_agree hJV hLJ hf, hfr]
      exact exp3_flow hY' t dt
    unfold ExpSplit.step
    simp only
    simp only [List.mem_cons, List.not_mem_nil, or_false] at hm
    rcases hm with hm | hm | hm | hm | hm | hm <;> rw [hm] <;> simp only [String.reduceEq, if_true, if_false]
    · rw [exp1_closed hK sys s hs dt L (hLm)]
      exact ⟨_, s, rfl, rfl, rfl, h1⟩
    · rw [exp2_closed hK sys s hs dt L (hLm)]
      exact ⟨_, s, rfl, rfl, rfl, h2 1 one_ne_zero⟩
    · rw [exp3_closed hK sys s hs dt L (hLm)]
      exact ⟨_, s, rfl, rfl, rfl, h3⟩
    · obtain ⟨s', h, hb'⟩ := exp1Dense_closed hK sys s hs dt L _ hl hd hco hm
      exact ⟨_, s', h, hb', rfl, h1⟩
    · obtain ⟨s', h, hb'⟩ := exp2Dense_closed hK sys s hs dt L _ hl hd hLm hco hm
      exact ⟨_, s', h, hb', rfl, h2 (2 / 3) (by norm_num)⟩
    · obtain ⟨s', h, hb'⟩ := exp3Dense_closed hK sys s hs dt L _ hl hd hLm hco hm
      exact ⟨_, s', h, hb', rfl, h3⟩
  obtain ⟨a1, a2, _⟩ := C09_construct_others (n := N) t0 (Y t0) m
  have hm := a1.1 ⟨s, hnew⟩
  refine run_follow _ (fun (o : ExpSplit N) t => At o.base t (Y t) ∧ o.base.method = m ∧ Coherent K (matrixLinOp L) o ∧
    (Nonempty2 o.base ∧ 0 < o.base.yHist.maxlen ∧ o.base.tHist.maxlen = o.base.yHist.maxlen)) Y dt ?_ s t0 ?_ nsteps _ _ _
  · rintro o t kw ⟨h1, h2, h3, h4⟩
    obtain ⟨r, o', e1, hb', e2, e3⟩ := stepExact o t h1 h3 kw (by rw [h2]; exact hm)
    rw [← hb'] at h4
    refine ⟨r, o', e1, e2, e3, ?_, by rw [← h2, ← hb']; rfl, ?_, accept_nonempty h4 r⟩
    · have := at_accept h4.2 r
      rwa [e2, e3] at this
    · have := dense_step_coherent K sys (matrixLinOp L) hl o o' h3 dt kw r e1
      exact this
  · have hco : Coherent K (matrixLinOp L) s := new_coherent K _ hnew
    have hmm := (a2 s hnew).1
    unfold ExpSplit.new at hnew
    split at hnew
    · cases hnew
    · rename_i o _
      cases hb : Base.init t0 (Y t0) o m with
      | error e => rw [hb] at hnew; cases hnew
      | ok bb =>
        rw [hb] at hnew
        cases hnew
        exact ⟨at_init hb, hmm, hco, init_nonempty hb⟩

/-- The hypotheses of the exactness theorems are met for every initial value: the semidiscrete equation has a solution. -/
theorem sem_solution_exists (A : Mat N) (Ml b y0 : Vec N) (dir : List (Fin N)) (t0 : ℝ) :
    ∃ Y : ℝ → Vec N, (∀ s, HasDerivAt Y (semRhs A Ml b dir (Y s)) s) ∧ Y t0 = y0 := by
  obtain ⟨Y, hY, h0⟩ := solves_exists (semJac A Ml dir) (semLoad Ml b dir) 0 y0 t0
  exact ⟨Y, fun s => (hY s).congr_deriv (by rw [semRhs_affine, smul_zero, add_zero]), h0⟩

end
end Ormatex.Props
