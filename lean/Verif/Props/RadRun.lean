import Verif.Props.RadSys
import Verif.Props.SemRun

/-!
C119: runs and solutions of the reaction-advection-diffusion systems.
-/

namespace Ormatex.Props
open Matrix Ormatex.Spec

noncomputable section
variable {N n ne r : ℕ} {P : Type} [EmptyCollection P]
set_option linter.unusedSectionVars false

theorem flat_at (f : Fin N → Fin n → ℝ) (i : Fin N) (j : Fin n) : flattenU f (finProdFinEquiv (j, i)) = f i j := flattenU_apply f j i

theorem unflat_flat (f : Fin N → Fin n → ℝ) : (unflat (flattenU f) : Fin N → Fin n → ℝ) = f := unflat_flattenU f

/-! ### conservation -/

theorem sem_cols {m : LineMesh ne N (r + 2)} {Q : Quad (r + 2)} (hq : semQuad (r + 1) = .ok Q)
    {F : SemFields ne (r + 2)} {A : Mat N} {Ml b : Vec N} (h : semAssemble m Q F none = some (A, Ml, b)) (k : Fin N) :
    ∑ i, A i k = 0 := by
  have hQ := goodQuad hq
  obtain ⟨hv, hA, hM, hb⟩ := semAssemble_some h
  have h1 : (fun _ : Fin N => (1 : ℝ)) ⬝ᵥ (A *ᵥ Pi.single k 1) = 0 := by
    rw [hA, enforce_pair _ _ _ _ (fun d hd => by simp [dirichletBd] at hd), stiff_pair m Q F hv]
    refine Finset.sum_eq_zero fun e _ => Finset.sum_eq_zero fun k _ => ?_
    rw [onElem_const m hQ]
    simp
  simpa [dotProduct] using h1

/-- **Specification.** The weighted total of the species over the mesh. -/
def speciesTotal (cw : Fin n → ℝ) (Ml : Vec N) (u : Vec (n * N)) : ℝ := ∑ i, Ml i * ∑ j, cw j * unflat u i j

theorem total_dot (cw : Fin n → ℝ) (Ml : Vec N) (u : Vec (n * N)) :
    (fun k => cw (finProdFinEquiv.symm k).1 * Ml (finProdFinEquiv.symm k).2) ⬝ᵥ u = speciesTotal cw Ml u := by
  unfold speciesTotal dotProduct
  rw [← finProdFinEquiv.sum_comp, Fintype.sum_prod_type, Finset.sum_comm]
  refine Finset.sum_congr rfl fun i _ => ?_
  rw [Finset.mul_sum]
  refine Finset.sum_congr rfl fun j _ => ?_
  simp only [Equiv.symm_apply_apply]
  unfold unflat
  ring

theorem total_radL {A : Mat N} (hA : ∀ k, ∑ i, A i k = 0) {Ml : Vec N} (hMl : ∀ i, Ml i ≠ 0) (cw : Fin n → ℝ) (u : Vec (n * N)) :
    speciesTotal cw Ml ((radL n A Ml).matvec u) = 0 := by
  rw [C59_radL]
  unfold speciesTotal
  rw [unflat_flat fun i j => -((A * unflat u) i j) / Ml i]
  have e : ∀ i, Ml i * ∑ j, cw j * (-((A * unflat u) i j) / Ml i) = -∑ j, cw j * ∑ k, A i k * unflat u k j := by
    intro i
    rw [Finset.mul_sum, ← Finset.sum_neg_distrib]
    refine Finset.sum_congr rfl fun j _ => ?_
    rw [Matrix.mul_apply]
    field_simp [hMl i]
  simp only [e]
  rw [Finset.sum_neg_distrib, Finset.sum_comm, neg_eq_zero]
  refine Finset.sum_eq_zero fun j _ => ?_
  rw [← Finset.mul_sum, Finset.sum_comm]
  simp only [← Finset.sum_mul, hA]
  simp

theorem rad_split (src : Arr N n → Arr N n) (bat : Mat n) (A : Mat N) (Ml : Vec N) (u : Vec (n * N)) :
    radRhs src bat A Ml [] u = flattenU (fun i j => (unflat u * batᵀ) i j + src (unflat u) i j) + (radL n A Ml).matvec u := by
  rw [C59_radL]
  funext k
  obtain ⟨⟨j, i⟩, rfl⟩ := finProdFinEquiv.surjective k
  rw [radRhs_apply, if_neg (by simp), Pi.add_apply, flat_at fun i j => (unflat u * batᵀ) i j + src (unflat u) i j,
    flat_at fun i j => -((A * unflat u) i j) / Ml i]
  ring

theorem total_add (cw : Fin n → ℝ) (Ml : Vec N) (u v : Vec (n * N)) :
    speciesTotal cw Ml (u + v) = speciesTotal cw Ml u + speciesTotal cw Ml v := by
  rw [← total_dot, ← total_dot, ← total_dot, dotProduct_add]

/-- how the weighted total changes along the right-hand side -/
theorem total_rhs (src : Arr N n → Arr N n) (bat : Mat n) {A : Mat N} (hA : ∀ k, ∑ i, A i k = 0) {Ml : Vec N}
    (hMl : ∀ i, Ml i ≠ 0) (cw : Fin n → ℝ) (u : Vec (n * N)) :
    speciesTotal cw Ml (radRhs src bat A Ml [] u)
      = ∑ i, Ml i * (∑ c, (∑ j, cw j * bat j c) * unflat u i c + ∑ j, cw j * src (unflat u) i j) := by
  rw [rad_split, total_add, total_radL hA hMl, add_zero]
  unfold speciesTotal
  rw [unflat_flat fun i j => (unflat u * batᵀ) i j + src (unflat u) i j]
  refine Finset.sum_congr rfl fun i _ => ?_
  congr 1
  simp only [mul_add, Finset.sum_add_distrib]
  congr 1
  simp only [Matrix.mul_apply, Matrix.transpose_apply, Finset.mul_sum, Finset.sum_mul]
  rw [Finset.sum_comm]
  exact Finset.sum_congr rfl fun c _ => Finset.sum_congr rfl fun j _ => by ring

/-- **C119, conservation.** On every periodic mesh, with any fields, for every decay matrix and source term that leave a weighted
total of the species unchanged pointwise, every run of every family of methods keeps the weighted total over the mesh, for all
step sizes and kernel parameters. -/
theorem C119_conserve {Q' W : Type} {m : LineMesh ne N (r + 2)} {Q : Quad (r + 2)} (hq : semQuad (r + 1) = .ok Q)
    {F : SemFields ne (r + 2)} {A : Mat N} {Ml b : Vec N} (h : semAssemble m Q F none = some (A, Ml, b)) (hMl : ∀ i, Ml i ≠ 0)
    (src : Arr N n → Arr N n) (bat : Mat n) (cw : Fin n → ℝ) (hbat : ∀ c, ∑ j, cw j * bat j c = 0)
    (hsrc : ∀ un i, ∑ j, cw j * src un i j = 0)
    (hasRust : Bool) (expm : ∀ m, Mat m → Mat m) (tab : Pfd) (maxDim iom : ℕ) (o : LejaOpts)
    (rs : Mat (n * N) → ℝ → Vec (n * N) → ℕ → Vec (n * N))
    (hrs : ∀ J dt b k, (∀ v, speciesTotal cw Ml v = 0 → speciesTotal cw Ml (J *ᵥ v) = 0) → speciesTotal cw Ml b = 0 →
      speciesTotal cw Ml (rs J dt b k) = 0)
    (y0 : Vec (n * N)) (t0 : ℝ) (method : String) (tol dt : ℝ) (nsteps : ℕ) (before : Option (W → ℝ → Vec (n * N) → P × W))
    (after : Option (W → ℝ → Vec (n * N) → Q' × W)) (w : W) :
    (∀ s, ExpRB.new hasRust t0 y0 method tol = .ok s → method ≠ "exp_pfd" → method ≠ "exp_pfd_rs" →
      ∀ l, integrateOrmatex (rbStepper hasRust (realKernels (n * N) expm tab rs maxDim iom) (radSys src bat A Ml [])) s y0
        t0 dt nsteps before after w = .ok l → ∀ y ∈ l.yRes, speciesTotal cw Ml y = speciesTotal cw Ml y0) ∧
    (∀ s, ExpSplit.new t0 y0 method = .ok s →
      ∀ l, integrateOrmatex (splitStepper (realKernels (n * N) expm tab rs maxDim iom) (radSys src bat A Ml [])) s y0 t0 dt nsteps
        before after w = .ok l → ∀ y ∈ l.yRes, speciesTotal cw Ml y = speciesTotal cw Ml y0) ∧
    (∀ s, RK.new t0 y0 method = .ok s →
      ∀ l, integrateOrmatex (rkStepper (radSys src bat A Ml [])) s y0 t0 dt nsteps before after w = .ok l →
        ∀ y ∈ l.yRes, speciesTotal cw Ml y = speciesTotal cw Ml y0) ∧
    (∀ s, ExpLeja.new t0 y0 method = .ok s →
      ∀ l, integrateOrmatex (lejaStepper o (radSys src bat A Ml [])) s y0 t0 dt nsteps before after w = .ok l →
        ∀ y ∈ l.yRes, speciesTotal cw Ml y = speciesTotal cw Ml y0) := by
  have hA := sem_cols hq h
  have := C67_conservation (P := P) (Q := Q') hasRust expm tab maxDim iom o
    (fun k => cw (finProdFinEquiv.symm k).1 * Ml (finProdFinEquiv.symm k).2) (fun _ _ u => radRhs src bat A Ml [] u)
    (fun kw t u => ?_) (fun _ _ => radL n A Ml) (fun _ _ v _ => ?_) (fun _ _ D hD v _ => ?_) rs
    (by simp only [total_dot]; exact hrs) y0 t0 method tol dt nsteps before after w
  · simp only [total_dot] at this
    exact this
  · rw [total_dot, total_rhs src bat hA hMl]
    simp [hbat, hsrc]
  · rw [total_dot, total_radL hA hMl]
  · cases hD
    rw [total_dot]
    exact total_radL hA hMl cw v

/-- **C119, totals decrease.** If decay and source terms never add to the weighted total of nonnegative concentrations, then
along every nonnegative solution on a periodic mesh the weighted total over the mesh never increases. -/
theorem C119_total {m : LineMesh ne N (r + 2)} {Q : Quad (r + 2)} (hq : semQuad (r + 1) = .ok Q)
    {F : SemFields ne (r + 2)} {A : Mat N} {Ml b : Vec N} (h : semAssemble m Q F none = some (A, Ml, b)) (hMl : ∀ i, 0 < Ml i)
    {src : Arr N n → Arr N n} {bat : Mat n} {cw : Fin n → ℝ} (hbat : ∀ c, ∑ j, cw j * bat j c ≤ 0)
    (hsrc : ∀ un : Arr N n, (∀ i j, 0 ≤ un i j) → ∀ i, ∑ j, cw j * src un i j ≤ 0) {U : ℝ → Vec (n * N)} {t0 t1 : ℝ}
    (hU : ∀ t ∈ Set.Icc t0 t1, HasDerivAt U (radRhs src bat A Ml [] (U t)) t) (hpos : ∀ t ∈ Set.Icc t0 t1, ∀ k, 0 ≤ U t k)
    {s t : ℝ} (hs : s ∈ Set.Icc t0 t1) (ht : t ∈ Set.Icc t0 t1) (hst : s ≤ t) :
    speciesTotal cw Ml (U t) ≤ speciesTotal cw Ml (U s) := by
  have hA := sem_cols hq h
  have hd : ∀ x ∈ Set.Icc t0 t1, HasDerivAt (fun x => speciesTotal cw Ml (U x))
      (speciesTotal cw Ml (radRhs src bat A Ml [] (U x))) x := by
    intro x hx
    simp only [← total_dot]
    unfold dotProduct
    exact HasDerivAt.fun_sum fun k _ => (hasDerivAt_pi.1 (hU x hx) k).const_mul _
  have hanti : AntitoneOn (fun x => speciesTotal cw Ml (U x)) (Set.Icc t0 t1) := by
    refine antitoneOn_of_deriv_nonpos (convex_Icc t0 t1) (fun x hx => (hd x hx).continuousAt.continuousWithinAt)
      (fun x hx => (hd x (interior_subset hx)).differentiableAt.differentiableWithinAt) (fun x hx => ?_)
    rw [(hd x (interior_subset hx)).deriv, total_rhs src bat hA (fun i => (hMl i).ne')]
    have hp : ∀ i j, 0 ≤ unflat (U x) i j := fun i j => hpos x (interior_subset hx) _
    refine Finset.sum_nonpos fun i _ => mul_nonpos_of_nonneg_of_nonpos (hMl i).le (add_nonpos ?_ (hsrc _ hp i))
    exact Finset.sum_nonpos fun c _ => mul_nonpos_of_nonpos_of_nonneg (hbat c) (hp i c)
  exact hanti hs ht hst

/-! ### systems without source terms: exact runs -/

/-- the matrix of the system without source terms -/
def radMat (bat : Mat n) (A : Mat N) (Ml : Vec N) (dir : List (Fin N)) : Mat (n * N) :=
  fun k q => if (finProdFinEquiv.symm k).2 ∈ dir then 0 else (kron bat (1 : Mat N) + kron (1 : Mat n) (negAOverM A Ml)) k q

theorem radRhs_linear (bat : Mat n) (A : Mat N) (Ml : Vec N) (dir : List (Fin N)) (u : Vec (n * N)) :
    radRhs (fun _ => 0) bat A Ml dir u = radMat bat A Ml dir *ᵥ u := by
  funext k
  have hk := (C59_kron bat (negAOverM A Ml) (unflat u))
  rw [flattenU_unflat] at hk
  obtain ⟨⟨j, i⟩, rfl⟩ := finProdFinEquiv.surjective k
  rw [radRhs_apply]
  have hrow : (radMat bat A Ml dir *ᵥ u) (finProdFinEquiv (j, i)) = if i ∈ dir then 0 else
      ((kron bat (1 : Mat N) + kron (1 : Mat n) (negAOverM A Ml)) *ᵥ u) (finProdFinEquiv (j, i)) := by
    unfold radMat Matrix.mulVec dotProduct
    simp only [Equiv.symm_apply_apply]
    by_cases h : i ∈ dir <;> simp [h]
  rw [hrow]
  by_cases h : i ∈ dir
  · simp [h]
  · rw [if_neg h, if_neg h, Matrix.add_mulVec, hk.1, hk.2.1, Pi.add_apply, flattenU_apply, flattenU_apply]
    simp only [Matrix.zero_apply, add_zero, Matrix.mul_apply, negAOverM]
    rw [sub_eq_add_neg, Finset.sum_div, ← Finset.sum_neg_distrib]
    congr 1
    exact Finset.sum_congr rfl fun k _ => by ring

/-- the three-species system (`src = 0`) is the linear system with this matrix and its Jacobian -/
theorem radSys_forced (bat : Mat n) (A : Mat N) (Ml : Vec N) (dir : List (Fin N)) :
    ForcedSys (radSys (P := P) (fun _ => 0) bat A Ml dir) (radMat bat A Ml dir) 0 0 := by
  have h := forcedSys_autodiff (P := P) (radMat bat A Ml dir) 0 0 (fun _ _ => radL n A Ml)
  have e : (fun (_ : Option P) (t : ℝ) (y : Vec (n * N)) => radMat bat A Ml dir *ᵥ y + t • (0 : Vec (n * N)) + 0)
      = fun _ _ u => radRhs (fun _ => 0) bat A Ml dir u := by
    funext _ t y
    rw [radRhs_linear]
    simp
  rw [e] at h
  exact h

/-- **C119, separation.** Transport of one profile times the decay of one inventory solves the system without source terms (the
profile being zero at Dirichlet points): the analytic solution the three-species benchmark compares with. -/
theorem C119_separable (bat : Mat n) (A : Mat N) (Ml : Vec N) (dir : List (Fin N)) {Wp : ℝ → Vec N} {Nv : ℝ → Vec n}
    (hW : ∀ t, HasDerivAt Wp (semRhs A Ml 0 dir (Wp t)) t) (hN : ∀ t, HasDerivAt Nv (bat *ᵥ Nv t) t) {t0 : ℝ}
    (h0 : ∀ d ∈ dir, Wp t0 d = 0) (t : ℝ) :
    HasDerivAt (fun t => flattenU fun i j => Wp t i * Nv t j) (radRhs (fun _ => 0) bat A Ml dir (flattenU fun i j => Wp t i * Nv t j)) t := by
  have hz : ∀ d ∈ dir, ∀ t, Wp t d = 0 := by
    intro d hd t
    have hc : ∀ s, HasDerivAt (fun s => Wp s d) 0 s := by
      intro s
      have := hasDerivAt_pi.1 (hW s) d
      unfold semRhs atSetMany at this
      rwa [if_pos hd] at this
    have := is_const_of_deriv_eq_zero (f := fun s => Wp s d) (fun s => (hc s).differentiableAt) (fun s => (hc s).deriv) t t0
    rw [this, h0 d hd]
  rw [hasDerivAt_pi]
  intro k
  obtain ⟨⟨j, i⟩, rfl⟩ := finProdFinEquiv.surjective k
  rw [radRhs_apply]
  have eU : (unflat (flattenU fun i j => Wp t i * Nv t j) : Arr N n) = Matrix.of fun i j => Wp t i * Nv t j :=
    unflat_flat fun i j => Wp t i * Nv t j
  have eF : (fun x => flattenU (fun i j => Wp x i * Nv x j) (finProdFinEquiv (j, i))) = fun x => Wp x i * Nv x j :=
    funext fun x => flat_at (fun i j => Wp x i * Nv x j) i j
  rw [eU, eF]
  have h1 := (hasDerivAt_pi.1 (hW t) i).mul (hasDerivAt_pi.1 (hN t) j)
  refine h1.congr_deriv ?_
  by_cases hi : i ∈ dir
  · rw [if_pos hi, hz i hi t]
    unfold semRhs atSetMany
    rw [if_pos hi]
    ring
  · rw [if_neg hi]
    unfold semRhs atSetMany
    rw [if_neg hi]
    simp only [Matrix.mul_apply, Matrix.mulVec, dotProduct, Matrix.transpose_apply, Pi.zero_apply, Matrix.zero_apply, Matrix.of_apply]
    have e1 : ∑ x, Wp t i * Nv t x * bat j x = Wp t i * ∑ x, bat j x * Nv t x := by
      rw [Finset.mul_sum]
      exact Finset.sum_congr rfl fun x _ => by ring
    have e2 : ∑ x, A i x * (Wp t x * Nv t j) = (∑ x, A i x * Wp t x) * Nv t j := by
      rw [Finset.sum_mul]
      exact Finset.sum_congr rfl fun x _ => by ring
    rw [e1, e2]
    ring

/-- **C119, the benchmark.** For a linear decay chain with distinct constants on any assembled mesh, the Rosenbrock and EPI methods
with exact kernels return, at every output time and for every step size, the transported profile times the values of
`analytic_bateman_single_parent`. -/
theorem C119_benchmark {K : Kernels (n * N)} (hK : ExactKernels K) {Q W : Type} (hasRust : Bool) {bat : Mat n} {l : Fin n → ℝ}
    (hM : IsChain bat l) (hl : Function.Injective l) (n0 : ℝ) (A : Mat N) (Ml : Vec N) (dir : List (Fin N)) (w0 : Vec N)
    (h0 : ∀ d ∈ dir, w0 d = 0) (t0 : ℝ) (method : String) (tol : ℝ) (s : ExpRB (n * N))
    (hnew : ExpRB.new hasRust t0 (flattenU fun i j => w0 i * (if j.val = 0 then n0 else 0)) method tol = .ok s)
    (hm : method ∈ rosMethods) (dt : ℝ) (nsteps : ℕ)
    (before : Option (W → ℝ → Vec (n * N) → P × W)) (after : Option (W → ℝ → Vec (n * N) → Q × W)) (w : W) :
    ∃ (Wp : ℝ → Vec N) (Nv : ℝ → Vec n), Wp t0 = w0 ∧ (∀ t, HasDerivAt Wp (semRhs A Ml 0 dir (Wp t)) t) ∧
      (∀ t, analyticBateman t bat n0 = .ok (Nv t)) ∧
      ∃ L, integrateOrmatex (rbStepper hasRust K (radSys (fun _ => 0) bat A Ml dir)) s
          (flattenU fun i j => w0 i * (if j.val = 0 then n0 else 0)) t0 dt nsteps before after w = .ok L ∧
        L.tRes = (List.range (nsteps + 1)).map (fun i : ℕ => t0 + i * dt) ∧
        L.yRes = (List.range (nsteps + 1)).map (fun k : ℕ => flattenU fun i j => Wp (t0 + k * dt) i * Nv (k * dt) j) := by
  obtain ⟨Nv, hn1, hn2, hn3⟩ := C57 hM hl n0
  obtain ⟨Wp, hw2, hw1⟩ := sem_solution_exists A Ml 0 w0 dir t0
  refine ⟨Wp, Nv, hw1, hw2, hn1, ?_⟩
  have hN' : ∀ t, HasDerivAt (fun t => Nv (t - t0)) (bat *ᵥ Nv (t - t0)) t := fun t => (hn2 (t - t0)).comp_sub_const t t0
  obtain ⟨Y, hY⟩ : ∃ Y : ℝ → Vec (n * N), Y = fun t => flattenU fun i j => Wp t i * Nv (t - t0) j := ⟨_, rfl⟩
  have hsol : Solves (radMat bat A Ml dir) 0 0 Y := by
    intro t
    have := C119_separable bat A Ml dir hw2 hN' (t0 := t0) (by rw [hw1]; exact h0) t
    rw [hY]
    refine this.congr_deriv ?_
    rw [radRhs_linear]
    simp
  have hY0 : Y t0 = flattenU fun i j => w0 i * (if j.val = 0 then n0 else 0) := by
    rw [hY]
    simp only [sub_self, hw1]
    rw [show Nv 0 = fun j => if j.val = 0 then n0 else 0 from funext hn3]
  rw [← hY0] at hnew ⊢
  obtain ⟨L, a1, a2, a3⟩ := C36_run (P := P) (Q := Q) hK hasRust _ (radSys_forced bat A Ml dir) hsol t0 method tol s hnew hm (Or.inl rfl) dt nsteps
    before after w
  refine ⟨L, a1, a2, ?_⟩
  rw [a3]
  refine List.map_congr_left fun k _ => ?_
  rw [hY]
  simp only [add_sub_cancel_left]

end
end Ormatex.Props
