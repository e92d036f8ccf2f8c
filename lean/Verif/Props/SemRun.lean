import Verif.Props.Sem

/-!
C118: what the assembled systems do over time.
-/

namespace Ormatex.Props
open Matrix Ormatex.Spec Polynomial

noncomputable section
variable {ne N n r : ℕ} {P : Type} [EmptyCollection P]
set_option linter.unusedSectionVars false

/-- **Specification.** The elements, taken in some order, form a chain of vertices from `s` to `t`; a periodic mesh is a chain
with `t = s`. -/
def Chain (m : LineMesh (n + 1) N (r + 2)) (s t : Fin N) : Prop :=
  ∃ (σ : Equiv.Perm (Fin (n + 1))) (v : Fin (n + 2) → Fin N), v 0 = s ∧ v (Fin.last (n + 1)) = t ∧
    ∀ i, m.dof (σ i) 0 = v i.castSucc ∧ m.dof (σ i) 1 = v i.succ

theorem chain_sum {m : LineMesh (n + 1) N (r + 2)} {s t : Fin N} (h : Chain m s t) (g : Vec N) :
    ∑ e, (g (m.dof e 1) - g (m.dof e 0)) = g t - g s := by
  obtain ⟨σ, v, h0, h1, hv⟩ := h
  rw [← Equiv.sum_comp σ]
  simp only [(hv _).1, (hv _).2]
  rw [Finset.sum_sub_distrib]
  have e1 := Fin.sum_univ_succ fun i => g (v i)
  have e2 := Fin.sum_univ_castSucc fun i => g (v i)
  rw [h0] at e1
  rw [h1] at e2
  linarith

/-- **Specification.** The mesh and its boundary data: a closed chain, or a chain between the two ends with the velocity of the
interior. -/
def MeshOk (m : LineMesh (n + 1) N (r + 2)) (vel : ℝ) (bd : Option (Ends N)) : Prop :=
  match bd with
  | none => ∃ s, Chain m s s
  | some b => Chain m b.left b.right ∧ b.velL = vel ∧ b.velR = vel

theorem ends_eval {m : LineMesh ne N (r + 2)} {Q : Quad (r + 2)} (hQ : GoodQuad Q) (g : Vec N) (e : Fin ne) :
    (onElem m Q g e).eval 0 = g (m.dof e 0) ∧ (onElem m Q g e).eval 1 = g (m.dof e 1) := by
  have h0 := onElem_node m hQ g e 0
  have h1 := onElem_node m hQ g e 1
  rw [hQ.x0] at h0
  rw [hQ.x1] at h1
  exact ⟨h0, h1⟩

theorem int_deriv (p : ℝ[X]) : ∫ x in (0 : ℝ)..1, (derivative p).eval x = p.eval 1 - p.eval 0 :=
  intervalIntegral.integral_eq_sub_of_hasDerivAt (fun x _ => p.hasDerivAt x) ((derivative p).continuous.intervalIntegrable _ _)

theorem int_self (p : ℝ[X]) : ∫ x in (0 : ℝ)..1, p.eval x * (derivative p).eval x = (p.eval 1 ^ 2 - p.eval 0 ^ 2) / 2 := by
  have h := int_deriv (p * p)
  have e : (fun x : ℝ => (derivative (p * p)).eval x) = fun x => 2 * (p.eval x * (derivative p).eval x) := by
    funext x
    simp only [derivative_mul, eval_add, eval_mul]
    ring
  rw [e, intervalIntegral.integral_const_mul, eval_mul, eval_mul] at h
  linarith

/-! ### constants -/

theorem weak_const {m : LineMesh (n + 1) N (r + 2)} {Q : Quad (r + 2)} (hQ : GoodQuad Q) (nu tau : Fin (n + 1) → ℝ) (vel c : ℝ)
    (bd : Option (Ends N)) (hm : MeshOk m vel bd) (g : Vec N) (hg : ∀ d ∈ dirichletBd bd, g d = 0) :
    weakForm m Q nu (fun _ => vel) tau g (fun _ => c) + outflow bd g (fun _ => c) = 0 := by
  have e : ∀ e, (∫ x in (0 : ℝ)..1, (onElem m Q (fun _ => c) e).eval x * (derivative (onElem m Q g e)).eval x)
      = c * (g (m.dof e 1) - g (m.dof e 0)) := by
    intro e
    rw [onElem_const m hQ]
    simp only [eval_C]
    rw [intervalIntegral.integral_const_mul, int_deriv, (ends_eval hQ g e).1, (ends_eval hQ g e).2]
  have hw : weakForm m Q nu (fun _ => vel) tau g (fun _ => c) = -vel * c * ∑ e, (g (m.dof e 1) - g (m.dof e 0)) := by
    unfold weakForm
    rw [Finset.mul_sum]
    refine Finset.sum_congr rfl fun e' _ => ?_
    rw [e e', onElem_const m hQ]
    simp
    ring
  rw [hw]
  cases bd with
  | none =>
    obtain ⟨s, hs⟩ := hm
    rw [chain_sum hs]
    simp [outflow]
  | some b =>
    obtain ⟨hc, _, hr⟩ := hm
    rw [chain_sum hc, hg b.left (by simp [dirichletBd])]
    show _ + b.velR * c * g b.right = 0
    rw [hr]
    ring

theorem row_zero {A : Mat N} {D : List (Fin N)} {u : Vec N} (h : ∀ g : Vec N, (∀ d ∈ D, g d = 0) → g ⬝ᵥ (A *ᵥ u) = 0) {i : Fin N}
    (hi : i ∉ D) : (A *ᵥ u) i = 0 := by
  have := h (Pi.single i 1) (fun d hd => by
    rw [Pi.single_apply, if_neg]
    rintro rfl
    exact hi hd)
  rwa [single_one_dotProduct] at this

/-- **C118, constants are steady** with a constant velocity, on every chain of elements, periodic or not, and with every
diffusion and stabilization. -/
theorem C118_constant {m : LineMesh (n + 1) N (r + 2)} {Q : Quad (r + 2)} (hq : semQuad (r + 1) = .ok Q) (hh : ∀ e, 0 < m.h e)
    {nu tau : Fin (n + 1) → ℝ} {vel : ℝ} {bd : Option (Ends N)} (hm : MeshOk m vel bd) {A : Mat N} {Ml b : Vec N}
    (h : semAssemble m Q (elemFields nu (fun _ => vel) tau) bd = some (A, Ml, b)) (c : ℝ) :
    semRhs A Ml b (dirichletBd bd) (fun _ => c) = 0 := by
  obtain ⟨hb, hA, _, _⟩ := C118_weak hq hh h
  funext i
  unfold semRhs atSetMany
  by_cases hi : i ∈ dirichletBd bd
  · rw [if_pos hi]; rfl
  · rw [if_neg hi, hb]
    show (0 - (A *ᵥ fun _ => c) i) / Ml i = 0
    rw [row_zero (fun g hg => by rw [hA g _ hg, weak_const (goodQuad hq) nu tau vel c bd hm g hg]) hi]
    simp

/-! ### conservation -/

theorem negAOverM_apply (A : Mat N) (Ml : Vec N) (v : Vec N) (i : Fin N) : (negAOverM A Ml *ᵥ v) i = -(A *ᵥ v) i / Ml i := by
  unfold negAOverM Matrix.mulVec dotProduct
  rw [← Finset.sum_neg_distrib, Finset.sum_div]
  exact Finset.sum_congr rfl fun j _ => by ring

/-- **C118, conservation on periodic meshes.** Whatever the mesh and the (variable) diffusion, velocity and stabilization fields,
every run of every family of methods keeps the total mass `sum_i Ml_i u_i`, for all step sizes and kernel parameters. -/
theorem C118_conserve {Q' W : Type} {m : LineMesh ne N (r + 2)} {Q : Quad (r + 2)} (hq : semQuad (r + 1) = .ok Q)
    {F : SemFields ne (r + 2)} {A : Mat N} {Ml b : Vec N} (h : semAssemble m Q F none = some (A, Ml, b)) (hMl : ∀ i, Ml i ≠ 0)
    (hasRust : Bool) (expm : ∀ m, Mat m → Mat m) (tab : Pfd) (maxDim iom : ℕ) (o : LejaOpts)
    (rs : Mat N → ℝ → Vec N → ℕ → Vec N)
    (hrs : ∀ J dt b k, (∀ v, Ml ⬝ᵥ v = 0 → Ml ⬝ᵥ J *ᵥ v = 0) → Ml ⬝ᵥ b = 0 → Ml ⬝ᵥ rs J dt b k = 0)
    (y0 : Vec N) (t0 : ℝ) (method : String) (tol dt : ℝ) (nsteps : ℕ) (before : Option (W → ℝ → Vec N → P × W))
    (after : Option (W → ℝ → Vec N → Q' × W)) (w : W) :
    (∀ s, ExpRB.new hasRust t0 y0 method tol = .ok s → method ≠ "exp_pfd" → method ≠ "exp_pfd_rs" →
      ∀ l, integrateOrmatex (rbStepper hasRust (realKernels N expm tab rs maxDim iom) (affineSEM A Ml b [])) s y0
        t0 dt nsteps before after w = .ok l → ∀ y ∈ l.yRes, ∑ i, Ml i * y i = ∑ i, Ml i * y0 i) ∧
    (∀ s, ExpSplit.new t0 y0 method = .ok s →
      ∀ l, integrateOrmatex (splitStepper (realKernels N expm tab rs maxDim iom) (affineSEM A Ml b [])) s y0 t0 dt nsteps before
        after w = .ok l → ∀ y ∈ l.yRes, ∑ i, Ml i * y i = ∑ i, Ml i * y0 i) ∧
    (∀ s, RK.new t0 y0 method = .ok s →
      ∀ l, integrateOrmatex (rkStepper (affineSEM A Ml b [])) s y0 t0 dt nsteps before after w = .ok l →
        ∀ y ∈ l.yRes, ∑ i, Ml i * y i = ∑ i, Ml i * y0 i) ∧
    (∀ s, ExpLeja.new t0 y0 method = .ok s →
      ∀ l, integrateOrmatex (lejaStepper o (affineSEM A Ml b [])) s y0 t0 dt nsteps before after w = .ok l →
        ∀ y ∈ l.yRes, ∑ i, Ml i * y i = ∑ i, Ml i * y0 i) := by
  have hQ := goodQuad hq
  obtain ⟨hv, hA, hM, hb⟩ := semAssemble_some h
  have hcol : ∀ u, ∑ i, (A *ᵥ u) i = 0 := by
    intro u
    have h1 : (fun _ : Fin N => (1 : ℝ)) ⬝ᵥ (A *ᵥ u) = 0 := by
      rw [hA, enforce_pair _ _ _ _ (fun d hd => by simp [dirichletBd] at hd), stiff_pair m Q F hv]
      refine Finset.sum_eq_zero fun e _ => Finset.sum_eq_zero fun k _ => ?_
      rw [onElem_const m hQ]
      simp
    simpa [dotProduct] using h1
  have hop : ∀ v, Ml ⬝ᵥ (negAOverM A Ml *ᵥ v) = 0 := by
    intro v
    have h1 : ∀ i, Ml i * (negAOverM A Ml *ᵥ v) i = -(A *ᵥ v) i := by
      intro i
      rw [negAOverM_apply]
      field_simp [hMl i]
    show ∑ i, Ml i * (negAOverM A Ml *ᵥ v) i = 0
    simp only [h1]
    rw [Finset.sum_neg_distrib, hcol, neg_zero]
  have := C67_conservation (P := P) (Q := Q') hasRust expm tab maxDim iom o Ml (fun _ _ u => semRhs A Ml b [] u) (fun kw t u => ?_)
    (fun _ _ => matrixLinOp (negAOverM A Ml)) (fun _ _ v _ => hop v) (fun _ _ D hD v _ => by cases hD; exact hop v) rs hrs y0 t0
    method tol dt nsteps before after w
  · exact this
  · have h1 : ∀ i, Ml i * semRhs A Ml b [] u i = -(A *ᵥ u) i := by
      intro i
      unfold semRhs atSetMany
      rw [if_neg (by simp), hb]
      show Ml i * ((0 - (A *ᵥ u) i) / Ml i) = _
      field_simp [hMl i]
      ring
    show ∑ i, Ml i * semRhs A Ml b [] u i = 0
    simp only [h1]
    rw [Finset.sum_neg_distrib, hcol, neg_zero]

/-! ### energy -/

theorem weak_energy {m : LineMesh (n + 1) N (r + 2)} {Q : Quad (r + 2)} (hQ : GoodQuad Q) (hh : ∀ e, 0 < m.h e)
    (nu tau : Fin (n + 1) → ℝ) (vel : ℝ) (hd : ∀ e, 0 ≤ nu e + tau e * m.h e * vel / 2)
    (bd : Option (Ends N)) (hm : MeshOk m vel bd) (hvel : bd ≠ none → 0 ≤ vel) (u : Vec N) (hu : ∀ d ∈ dirichletBd bd, u d = 0) :
    0 ≤ weakForm m Q nu (fun _ => vel) tau u u + outflow bd u u := by
  have hw : weakForm m Q nu (fun _ => vel) tau u u = (∑ e, (nu e + tau e * m.h e * vel / 2) / m.h e
      * (∫ x in (0 : ℝ)..1, (derivative (onElem m Q u e)).eval x * (derivative (onElem m Q u e)).eval x))
      - vel / 2 * ∑ e, ((fun i => u i ^ 2) (m.dof e 1) - (fun i => u i ^ 2) (m.dof e 0)) := by
    unfold weakForm
    rw [Finset.mul_sum, ← Finset.sum_sub_distrib]
    refine Finset.sum_congr rfl fun e _ => ?_
    rw [int_self, (ends_eval hQ u e).1, (ends_eval hQ u e).2]
    ring
  have hdiff : 0 ≤ ∑ e, (nu e + tau e * m.h e * vel / 2) / m.h e
      * (∫ x in (0 : ℝ)..1, (derivative (onElem m Q u e)).eval x * (derivative (onElem m Q u e)).eval x) :=
    Finset.sum_nonneg fun e _ => mul_nonneg (div_nonneg (hd e) (hh e).le)
      (intervalIntegral.integral_nonneg zero_le_one fun x _ => mul_self_nonneg _)
  rw [hw]
  cases bd with
  | none =>
    obtain ⟨s, hs⟩ := hm
    rw [chain_sum hs (fun i => u i ^ 2)]
    simpa [outflow] using hdiff
  | some b =>
    obtain ⟨hc, _, hr⟩ := hm
    rw [chain_sum hc (fun i => u i ^ 2)]
    show 0 ≤ _ - vel / 2 * (u b.right ^ 2 - u b.left ^ 2) + b.velR * u b.right * u b.right
    rw [hr, hu b.left (by simp [dirichletBd])]
    have := mul_nonneg (hvel (by simp)) (sq_nonneg (u b.right))
    nlinarith

theorem sem_frozen {A : Mat N} {Ml b : Vec N} {D : List (Fin N)} {Y : ℝ → Vec N} (hY : ∀ s, HasDerivAt Y (semRhs A Ml b D (Y s)) s)
    {d : Fin N} (hd : d ∈ D) (s t : ℝ) : Y s d = Y t d := by
  have h1 : ∀ s, HasDerivAt (fun s => Y s d) 0 s := fun s => by
    have := hasDerivAt_pi.1 (hY s) d
    rwa [show semRhs A Ml b D (Y s) d = 0 from if_pos hd] at this
  exact is_const_of_deriv_eq_zero (fun s => (h1 s).differentiableAt) (fun s => (h1 s).deriv) s t

/-- **C118, stability.** With a constant velocity and a diffusion that is nonnegative with the stabilization, the energy
`sum_i Ml_i u_i^2` never grows along solutions of the semidiscrete equation: on periodic meshes for every state and either sign
of the velocity; between two ends for a rightward velocity and zero inflow. -/
theorem C118_energy {m : LineMesh (n + 1) N (r + 2)} {Q : Quad (r + 2)} (hq : semQuad (r + 1) = .ok Q) (hh : ∀ e, 0 < m.h e)
    {nu tau : Fin (n + 1) → ℝ} {vel : ℝ} (hd : ∀ e, 0 ≤ nu e + tau e * m.h e * vel / 2)
    {bd : Option (Ends N)} (hm : MeshOk m vel bd) (hvel : bd ≠ none → 0 ≤ vel) {A : Mat N} {Ml b : Vec N}
    (h : semAssemble m Q (elemFields nu (fun _ => vel) tau) bd = some (A, Ml, b)) (hMl : ∀ i, 0 < Ml i)
    {Y : ℝ → Vec N} (hY : ∀ s, HasDerivAt Y (semRhs A Ml b (dirichletBd bd) (Y s)) s)
    {t1 t2 : ℝ} (hin : ∀ d ∈ dirichletBd bd, Y t1 d = 0) (ht : t1 ≤ t2) :
    ∑ i, Ml i * Y t2 i ^ 2 ≤ ∑ i, Ml i * Y t1 i ^ 2 := by
  have h0 : ∀ s, ∀ d ∈ dirichletBd bd, Y s d = 0 := fun s d hd' => by rw [sem_frozen hY hd' s t1, hin d hd']
  obtain ⟨hb, hA, _, _⟩ := C118_weak hq hh h
  have hder : ∀ s, HasDerivAt (fun s => ∑ i, Ml i * Y s i ^ 2) (-2 * (Y s ⬝ᵥ (A *ᵥ Y s))) s := by
    intro s
    have h1 : ∀ i, HasDerivAt (fun s => Ml i * Y s i ^ 2) (Ml i * (2 * Y s i * semRhs A Ml b (dirichletBd bd) (Y s) i)) s := by
      intro i
      have := ((hasDerivAt_pi.1 (hY s) i).pow 2).const_mul (Ml i)
      simpa using this
    have h2 := HasDerivAt.fun_sum (u := Finset.univ) fun i _ => h1 i
    refine h2.congr_deriv ?_
    unfold dotProduct
    rw [Finset.mul_sum]
    refine Finset.sum_congr rfl fun i _ => ?_
    unfold semRhs atSetMany
    by_cases hi : i ∈ dirichletBd bd
    · rw [if_pos hi, h0 s i hi]; simp
    · rw [if_neg hi, hb]
      show Ml i * (2 * Y s i * ((0 - (A *ᵥ Y s) i) / Ml i)) = _
      field_simp [(hMl i).ne']
      ring
  refine antitone_of_hasDerivAt_nonpos (fun s => hder s) (fun s => ?_) ht
  have := weak_energy (goodQuad hq) hh nu tau vel hd bd hm hvel (Y s) (h0 s)
  rw [← hA _ _ (h0 s)] at this
  show -2 * (Y s ⬝ᵥ (A *ᵥ Y s)) ≤ 0
  linarith

/-! ### linear elements: the maximum principle -/

theorem quad1 {Q : Quad 2} (hQ : GoodQuad (r := 0) Q) : Q.w 0 = 1 / 2 ∧ Q.w 1 = 1 / 2 := by
  have h1 : ∑ k : Fin 2, Q.w k * (C (1 : ℝ)).eval (Q.x k) = ∫ x in (0 : ℝ)..1, (C (1 : ℝ)).eval x := hQ.exact (C 1) (by simp)
  have h2 : ∑ k : Fin 2, Q.w k * (X : ℝ[X]).eval (Q.x k) = ∫ x in (0 : ℝ)..1, (X : ℝ[X]).eval x := hQ.exact X (by simp)
  rw [Fin.sum_univ_two] at h1 h2
  simp only [eval_C, eval_X] at h1 h2
  have e0 : Q.x 0 = 0 := hQ.x0
  have e1 : Q.x 1 = 1 := hQ.x1
  rw [e0, e1] at h2
  simp at h1 h2
  constructor <;> linarith

theorem shape1 {Q : Quad 2} (hQ : GoodQuad (r := 0) Q) : shape Q 0 = 1 - X ∧ shape Q 1 = X := by
  have e0 : Q.x 0 = 0 := hQ.x0
  have e1 : Q.x 1 = 1 := hQ.x1
  constructor
  · rw [shape, Lagrange.basis, show (Finset.univ : Finset (Fin 2)).erase 0 = {1} from by decide, Finset.prod_singleton,
      Lagrange.basisDivisor, e0, e1]
    simp
  · rw [shape, Lagrange.basis, show (Finset.univ : Finset (Fin 2)).erase 1 = {0} from by decide, Finset.prod_singleton,
      Lagrange.basisDivisor, e0, e1]
    simp

/-- **C118, sign of the couplings.** With linear elements the couplings between different nodes have the right sign as soon as the
element Péclet numbers are at most 2 (with the stabilization counted as diffusion): always for `tau = 1`, `vel > 0`. -/
theorem C118_couplings {m : LineMesh ne N 2} {Q : Quad 2} (hq : semQuad 1 = .ok Q) (hh : ∀ e, 0 < m.h e)
    {nu vel tau : Fin ne → ℝ} (hpe : ∀ e, |vel e| * m.h e ≤ 2 * nu e + tau e * m.h e * vel e)
    {bd : Option (Ends N)} {A : Mat N} {Ml b : Vec N}
    (h : semAssemble m Q (elemFields nu vel tau) bd = some (A, Ml, b)) {i j : Fin N} (hij : i ≠ j) : A i j ≤ 0 := by
  have hQ : GoodQuad (r := 0) Q := goodQuad (r := 0) hq
  obtain ⟨hv, hA, _, _⟩ := semAssemble_some h
  have key : semStiff m Q (elemFields nu vel tau) none i j ≤ 0 := by
    unfold semStiff assembleForm
    refine Finset.sum_nonpos fun e _ => Finset.sum_nonpos fun a _ => Finset.sum_nonpos fun b' _ => ?_
    split_ifs with hab
    swap
    · exact le_rfl
    have hne : a ≠ b' := fun hh' => hij (by rw [← hab.1, ← hab.2, hh'])
    have hpos := hh e
    have hp := hpe e
    have hv' : vel e ≠ 0 := hv e 0
    have e0 : Q.x 0 = 0 := hQ.x0
    have e1 : Q.x 1 = 1 := hQ.x1
    obtain ⟨w0, w1⟩ := quad1 hQ
    obtain ⟨s0, s1⟩ := shape1 hQ
    have habs := abs_le.1 (show |vel e| ≤ (2 * nu e + tau e * m.h e * vel e) / m.h e from by rwa [le_div_iff₀ hpos])
    have hsplit : (2 * nu e + tau e * m.h e * vel e) / m.h e = 2 * nu e / m.h e + tau e * vel e := by
      field_simp
    rw [hsplit] at habs
    fin_cases a <;> fin_cases b'
    · exact absurd rfl hne
    · simp only [Fin.sum_univ_two, jetOf, advDiffConsSupg, tauUpwind, elemFields, Fin.zero_eta, Fin.mk_one, s0, s1, w0, w1, e0, e1,
        eval_sub, eval_one, eval_X, derivative_sub, derivative_one, derivative_X, eval_zero]
      have h1 := habs.2
      rw [show (2 * nu e / m.h e + tau e * vel e) = 2 * (nu e / m.h e + tau e * vel e / 2) by ring] at h1
      refine le_of_eq_of_le (b := vel e / 2 - (nu e / m.h e + tau e * vel e / 2)) ?_ (by linarith)
      field_simp
      ring
    · simp only [Fin.sum_univ_two, jetOf, advDiffConsSupg, tauUpwind, elemFields, Fin.zero_eta, Fin.mk_one, s0, s1, w0, w1, e0, e1,
        eval_sub, eval_one, eval_X, derivative_sub, derivative_one, derivative_X, eval_zero]
      have h1 := habs.1
      rw [show (2 * nu e / m.h e + tau e * vel e) = 2 * (nu e / m.h e + tau e * vel e / 2) by ring] at h1
      refine le_of_eq_of_le (b := -(vel e / 2) - (nu e / m.h e + tau e * vel e / 2)) ?_ (by linarith)
      field_simp
      ring
    · exact absurd rfl hne
  rw [hA]
  unfold enforceMat
  split_ifs
  · exact le_rfl
  · cases bd with
    | none => exact key
    | some b' =>
      show semStiff m Q (elemFields nu vel tau) none i j + robinMat b' i j ≤ 0
      have : robinMat b' i j = 0 := by
        unfold robinMat
        rw [if_neg, if_neg, add_zero]
        · rintro ⟨h1, h2⟩; exact hij (h1.trans h2.symm)
        · rintro ⟨h1, h2⟩; exact hij (h1.trans h2.symm)
      rw [this, add_zero]
      exact key

/-- **C118, maximum principle.** With linear elements, a constant velocity and element Péclet numbers at most 2, solutions of the
semidiscrete equation stay between the bounds of their initial state: no oscillations appear. -/
theorem C118_maximum {m : LineMesh (n + 1) N 2} {Q : Quad 2} (hq : semQuad 1 = .ok Q) (hh : ∀ e, 0 < m.h e)
    {nu tau : Fin (n + 1) → ℝ} {vel : ℝ} (hpe : ∀ e, |vel| * m.h e ≤ 2 * nu e + tau e * m.h e * vel)
    {bd : Option (Ends N)} (hm : MeshOk (r := 0) m vel bd) {A : Mat N} {Ml b : Vec N}
    (h : semAssemble m Q (elemFields nu (fun _ => vel) tau) bd = some (A, Ml, b)) (hMl : ∀ i, 0 < Ml i)
    {Y : ℝ → Vec N} (hY : ∀ s, HasDerivAt Y (semRhs A Ml b (dirichletBd bd) (Y s)) s) {t1 t2 lo hi : ℝ} (ht : t1 ≤ t2)
    (h0 : ∀ i, lo ≤ Y t1 i ∧ Y t1 i ≤ hi) (i : Fin N) : lo ≤ Y t2 i ∧ Y t2 i ≤ hi := by
  have hb : b = 0 := (semAssemble_some h).2.2.2
  have hc := fun c => C118_constant (r := 0) hq hh hm h c
  have hl : semLoad Ml b (dirichletBd bd) = 0 := by
    funext i
    unfold semLoad
    rw [hb]
    simp
  have haff : ∀ u, semRhs A Ml b (dirichletBd bd) u = semJac A Ml (dirichletBd bd) *ᵥ u := fun u => by
    rw [semRhs_affine, hl, add_zero]
  have hJ : ∀ i j, i ≠ j → 0 ≤ semJac A Ml (dirichletBd bd) i j := fun i j hij => by
    unfold semJac
    split_ifs
    · exact le_rfl
    · exact div_nonneg (neg_nonneg.2 (C118_couplings hq hh hpe h hij)) (hMl i).le
  have hlo : Solves (semJac A Ml (dirichletBd bd)) 0 0 (fun s => Y s - fun _ => lo) := fun s => by
    have := (hY s).sub_const (fun _ => lo)
    refine this.congr_deriv ?_
    rw [smul_zero, add_zero, add_zero, Matrix.mulVec_sub, ← haff, ← haff, hc lo, sub_zero]
  have hhi : Solves (semJac A Ml (dirichletBd bd)) 0 0 (fun s => (fun _ => hi) - Y s) := fun s => by
    have := (hY s).const_sub (fun _ => hi)
    refine this.congr_deriv ?_
    rw [smul_zero, add_zero, add_zero, Matrix.mulVec_sub, ← haff, ← haff, hc hi, zero_sub]
  have a1 := C56_positive hJ hlo ht (fun i => sub_nonneg.2 (h0 i).1) i
  have a2 := C56_positive hJ hhi ht (fun i => sub_nonneg.2 (h0 i).2) i
  exact ⟨sub_nonneg.1 a1, sub_nonneg.1 a2⟩

/-! ### runs -/

/-- **C118, runs.** With exact kernels every Rosenbrock, EPI and splitting run on the assembled system inherits both: the energy
never grows from one output to a later one, whatever the step size, and with linear elements and Péclet numbers at most 2 all
outputs lie between the bounds of the initial state. -/
theorem C118_runs {K : Kernels N} (hK : ExactKernels K) {Q' W : Type} (hasRust : Bool) {m : LineMesh (n + 1) N (r + 2)}
    {Q : Quad (r + 2)} (hq : semQuad (r + 1) = .ok Q) (hh : ∀ e, 0 < m.h e) {nu tau : Fin (n + 1) → ℝ} {vel : ℝ}
    {bd : Option (Ends N)} (hm : MeshOk m vel bd) {A : Mat N} {Ml b : Vec N}
    (h : semAssemble m Q (elemFields nu (fun _ => vel) tau) bd = some (A, Ml, b)) (hMl : ∀ i, 0 < Ml i)
    (y0 : Vec N) (t0 : ℝ) (method : String) (tol dt : ℝ) (hdt : 0 ≤ dt) (nsteps : ℕ)
    (before : Option (W → ℝ → Vec N → P × W)) (after : Option (W → ℝ → Vec N → Q' × W)) (w : W) (ys : List (Vec N))
    (hl : (∃ s l, ExpRB.new hasRust t0 y0 method tol = .ok s ∧ method ∈ rosMethods ∧ ys = l.yRes ∧
        integrateOrmatex (rbStepper hasRust K (affineSEM A Ml b (dirichletBd bd))) s y0 t0 dt nsteps before after w = .ok l) ∨
      (∃ s l, ExpSplit.new t0 y0 method = .ok s ∧ ys = l.yRes ∧
        integrateOrmatex (splitStepper K (affineSEM A Ml b (dirichletBd bd))) s y0 t0 dt nsteps before after w = .ok l)) :
    ((∀ e, 0 ≤ nu e + tau e * m.h e * vel / 2) → (bd ≠ none → 0 ≤ vel) → (∀ d ∈ dirichletBd bd, y0 d = 0) →
      ys.Pairwise fun y y' => ∑ i, Ml i * y' i ^ 2 ≤ ∑ i, Ml i * y i ^ 2) ∧
    (∀ lo hi, r = 0 → (∀ e, |vel| * m.h e ≤ 2 * nu e + tau e * m.h e * vel) → (∀ i, lo ≤ y0 i ∧ y0 i ≤ hi) →
      ∀ y ∈ ys, ∀ i, lo ≤ y i ∧ y i ≤ hi) := by
  obtain ⟨Y, hY, hY0⟩ := sem_solution_exists A Ml b y0 (dirichletBd bd) t0
  have hE : Enforced A (dirichletBd bd) := by
    intro d hd j hj
    rw [(semAssemble_some h).2.1]
    unfold enforceMat
    rw [if_pos hd, if_neg (Ne.symm hj)]
  have hy : ys = (List.range (nsteps + 1)).map (fun i : ℕ => Y (t0 + i * dt)) := by
    rcases hl with ⟨s, l, h1, h2, rfl, h3⟩ | ⟨s, l, h1, rfl, h3⟩
    · obtain ⟨l', g1, _, g2⟩ := C60_rb_exact hK hasRust A Ml b (dirichletBd bd) hY t0 method tol s (by rw [hY0]; exact h1) h2 dt nsteps
        before after w
      rw [hY0, h3] at g1
      cases g1
      exact g2
    · obtain ⟨l', g1, _, g2⟩ := C60_split_exact hK A Ml b (dirichletBd bd) hE hY t0 method s (by rw [hY0]; exact h1) dt nsteps
        before after w
      rw [hY0, h3] at g1
      cases g1
      exact g2
  have hmono : ∀ i j : ℕ, i ≤ j → t0 + i * dt ≤ t0 + j * dt := fun i j hij => by
    have : (i : ℝ) * dt ≤ j * dt := mul_le_mul_of_nonneg_right (by exact_mod_cast hij) hdt
    linarith
  constructor
  · intro h1 h2 h3
    rw [hy, List.pairwise_map]
    refine (List.pairwise_lt_range (n := nsteps + 1)).imp fun {i j} hij => ?_
    refine C118_energy hq hh h1 hm h2 h hMl hY (fun d hd => ?_) (hmono i j hij.le)
    rw [sem_frozen hY hd _ t0, hY0, h3 d hd]
  · intro lo hi hr hp h0 y hyl
    subst hr
    rw [hy, List.mem_map] at hyl
    obtain ⟨i, _, rfl⟩ := hyl
    have := hmono 0 i (Nat.zero_le i)
    rw [Nat.cast_zero, zero_mul, add_zero] at this
    exact C118_maximum hq hh hp hm h hMl hY this (by rw [hY0]; exact h0)

/-! ### the lumped masses -/

/-- **C118, positive masses.** Without stabilization the lumped masses are positive on every mesh and for every order; with it as
long as `tau` stays below twice the quadrature weight of the end points (which is 1 for linear elements). -/
theorem C118_mass_pos {m : LineMesh ne N (r + 2)} {Q : Quad (r + 2)} (hq : semQuad (r + 1) = .ok Q) (hh : ∀ e, 0 < m.h e)
    {nu vel tau : Fin ne → ℝ} {bd : Option (Ends N)} {A : Mat N} {Ml b : Vec N}
    (h : semAssemble m Q (elemFields nu vel tau) bd = some (A, Ml, b)) (hτ : ∀ e, |tau e| < 2 * Q.w 0 ∧ |tau e| < 2 * Q.w 1)
    (hcov : ∀ i, ∃ e k, m.dof e k = i) (i : Fin N) : 0 < Ml i := by
  have hQ := goodQuad hq
  obtain ⟨_, _, hD, hM⟩ := C118_weak hq hh h
  by_cases hi : i ∈ dirichletBd bd
  · rw [(hD i hi).1]; exact one_pos
  rw [hM i hi]
  have hterm : ∀ e, (∑ k, Q.w k * (if m.dof e k = i then 1 else 0)
      + tau e / 2 * ((if m.dof e 1 = i then 1 else 0) - (if m.dof e 0 = i then 1 else 0)))
      = ∑ k, (Q.w k + tau e / 2 * ((if k = 1 then 1 else 0) - (if k = 0 then 1 else 0))) * (if m.dof e k = i then 1 else 0) := by
    intro e
    simp only [add_mul, Finset.sum_add_distrib]
    congr 1
    have : ∀ k : Fin (r + 2), tau e / 2 * ((if k = 1 then 1 else 0) - (if k = 0 then 1 else 0)) * (if m.dof e k = i then (1 : ℝ) else 0)
        = (if k = 1 then tau e / 2 * (if m.dof e 1 = i then 1 else 0) else 0) - (if k = 0 then tau e / 2 * (if m.dof e 0 = i then 1 else 0) else 0) := by
      intro k
      by_cases h1 : k = 1
      · subst h1
        simp
      · by_cases h0 : k = 0
        · subst h0
          simp
          split_ifs <;> simp
        · simp [h1, h0]
    simp only [this, Finset.sum_sub_distrib]
    simp
    split_ifs <;> ring
  have hcoef : ∀ e k, 0 < Q.w k + tau e / 2 * ((if k = 1 then 1 else 0) - (if k = 0 then 1 else 0)) := by
    intro e k
    have h0 := (abs_lt.1 (hτ e).1)
    have h1 := (abs_lt.1 (hτ e).2)
    by_cases k1 : k = 1
    · subst k1
      simp
      linarith
    · by_cases k0 : k = 0
      · subst k0
        simp
        linarith
      · simp [k1, k0, hQ.wpos k]
  have hnn : ∀ e k, 0 ≤ (Q.w k + tau e / 2 * ((if k = 1 then 1 else 0) - (if k = 0 then 1 else 0))) * (if m.dof e k = i then (1 : ℝ) else 0) :=
    fun e k => mul_nonneg (hcoef e k).le (by split_ifs <;> norm_num)
  simp only [hterm]
  obtain ⟨e, k, hek⟩ := hcov i
  refine Finset.sum_pos' (fun e _ => mul_nonneg (hh e).le (Finset.sum_nonneg fun k _ => hnn e k)) ⟨e, Finset.mem_univ e, mul_pos (hh e) ?_⟩
  refine Finset.sum_pos' (fun k _ => hnn e k) ⟨k, Finset.mem_univ k, ?_⟩
  rw [if_pos hek, mul_one]
  exact hcoef e k

/-! ### concrete meshes -/

/-- the uniform periodic mesh with linear elements -/
def perMesh (n : ℕ) : LineMesh (n + 1) (n + 1) 2 := LineMesh.mk (fun _ => 1 / (n + 1)) (fun e a => if a = 0 then e else e + 1)

/-- the uniform mesh of an interval with linear elements -/
def bdMesh (n : ℕ) : LineMesh (n + 1) (n + 2) 2 := LineMesh.mk (fun _ => 1 / (n + 1)) (fun e a => if a = 0 then e.castSucc else e.succ)

theorem perMesh_ok (n : ℕ) (vel : ℝ) : MeshOk (r := 0) (perMesh n) vel none := by
  refine ⟨0, Equiv.refl _, fun i => Fin.ofNat (n + 1) i, ?_, ?_, fun i => ⟨?_, ?_⟩⟩
  · ext; simp
  · ext; simp
  · ext; simp [perMesh]
  · ext
    simp [perMesh, Fin.val_add]

theorem bdMesh_ok (n : ℕ) (vel : ℝ) : MeshOk (r := 0) (bdMesh n) vel (some (Ends.mk 0 (Fin.last (n + 1)) vel vel)) :=
  ⟨⟨Equiv.refl _, id, rfl, rfl, fun i => ⟨by simp [bdMesh], by simp [bdMesh]⟩⟩, rfl, rfl⟩

/-- **C118, the hypotheses are met**: on uniform meshes with linear elements, `nu = 1`, `vel = 1`, `tau = 1/2`, for every number
of elements, periodic or not, the system is assembled, the masses are positive and the Péclet numbers are at most 2. -/
theorem C118_demo (n : ℕ) : ∃ Q, semQuad 1 = .ok Q ∧
    (∃ A Ml b, semAssemble (perMesh n) Q (elemFields (fun _ => 1) (fun _ => 1) (fun _ => 1 / 2)) none = some (A, Ml, b) ∧
      (∀ i, 0 < Ml i) ∧ MeshOk (r := 0) (perMesh n) 1 none) ∧
    (∃ A Ml b, semAssemble (bdMesh n) Q (elemFields (fun _ => 1) (fun _ => 1) (fun _ => 1 / 2))
        (some (Ends.mk 0 (Fin.last (n + 1)) 1 1)) = some (A, Ml, b) ∧
      (∀ i, 0 < Ml i) ∧ MeshOk (r := 0) (bdMesh n) 1 (some (Ends.mk 0 (Fin.last (n + 1)) 1 1))) ∧
    (∀ e, 0 < (perMesh n).h e ∧ |(1 : ℝ)| * (perMesh n).h e ≤ 2 * 1 + 1 / 2 * (perMesh n).h e * 1) ∧
    (∀ e, 0 < (bdMesh n).h e ∧ |(1 : ℝ)| * (bdMesh n).h e ≤ 2 * 1 + 1 / 2 * (bdMesh n).h e * 1) := by
  obtain ⟨Q, hq⟩ := (semQuad_iff 1).2 ⟨le_rfl, by norm_num⟩
  have hw := quad1 (goodQuad (r := 0) hq)
  have hpos : (0 : ℝ) < 1 / (n + 1) := by positivity
  have hle : (1 : ℝ) / (n + 1) ≤ 1 := by
    rw [div_le_one (by positivity)]
    linarith [Nat.cast_nonneg (α := ℝ) n]
  have hsome : ∀ {N : ℕ} (m : LineMesh (n + 1) N 2) (bd : Option (Ends N)), ∃ A Ml b,
      semAssemble m Q (elemFields (fun _ => 1) (fun _ => 1) (fun _ => 1 / 2)) bd = some (A, Ml, b) := by
    intro N m bd
    unfold semAssemble
    rw [if_neg (by rintro ⟨e, k, hk⟩; exact one_ne_zero hk)]
    exact ⟨_, _, _, rfl⟩
  have hτ : |(1 : ℝ) / 2| < 2 * Q.w 0 ∧ |(1 : ℝ) / 2| < 2 * Q.w 1 := by
    rw [hw.1, hw.2, abs_of_pos (by norm_num)]
    norm_num
  have hpe : |(1 : ℝ)| * (1 / (n + 1)) ≤ 2 * 1 + 1 / 2 * (1 / (n + 1)) * 1 := by
    rw [abs_one]
    linarith
  refine ⟨Q, hq, ?_, ?_, fun _ => ⟨hpos, hpe⟩, fun _ => ⟨hpos, hpe⟩⟩
  · obtain ⟨A, Ml, b, h⟩ := hsome (perMesh n) none
    refine ⟨A, Ml, b, h, C118_mass_pos (r := 0) hq (fun _ => hpos) h (fun _ => hτ) (fun i => ⟨i, 0, by simp [perMesh]⟩), perMesh_ok n 1⟩
  · obtain ⟨A, Ml, b, h⟩ := hsome (bdMesh n) (some (Ends.mk 0 (Fin.last (n + 1)) 1 1))
    refine ⟨A, Ml, b, h, C118_mass_pos (r := 0) hq (fun _ => hpos) h (fun _ => hτ) (fun i => ?_), bdMesh_ok n 1⟩
    rcases Fin.eq_castSucc_or_eq_last i with ⟨j, rfl⟩ | rfl
    · exact ⟨j, 0, by simp [bdMesh]⟩
    · exact ⟨Fin.last n, 1, by simp [bdMesh]⟩

/-- **C118, stabilization can make masses negative.** Quadratic elements, `tau = 1` and two elements of lengths 1 and 3: the
lumped mass of the node between them is `-1/3`, so the assembled equation runs backwards there.  The condition of
`C118_mass_pos` cannot be dropped. -/
theorem C118_negative_mass : ∃ (Q : Quad 3) (m : LineMesh 2 5 3) (bd : Option (Ends 5)) (A : Mat 5) (Ml b : Vec 5),
    semQuad 2 = .ok Q ∧ (∀ e, 0 < m.h e) ∧ MeshOk (r := 1) m 1 bd ∧
    semAssemble m Q (elemFields (fun _ => 1) (fun _ => 1) (fun _ => 1)) bd = some (A, Ml, b) ∧ Ml 1 = -1 / 3 := by
  have hq : semQuad 2 = .ok (Quad.mk (fun k => [0, 1, (1 : ℝ) / 2].getD k 0) (fun k => [1 / 6, 1 / 6, (2 : ℝ) / 3].getD k 0)) := by
    unfold semQuad gllQuad gllRaw swap1Last
    norm_num
  obtain ⟨Q, hQdef⟩ : ∃ Q : Quad 3, Q = Quad.mk (fun k => [0, 1, (1 : ℝ) / 2].getD k 0) (fun k => [1 / 6, 1 / 6, (2 : ℝ) / 3].getD k 0) :=
    ⟨_, rfl⟩
  rw [← hQdef] at hq
  obtain ⟨m, hm⟩ : ∃ m : LineMesh 2 5 3, m = LineMesh.mk ![1, 3] ![![0, 1, 3], ![1, 2, 4]] := ⟨_, rfl⟩
  have hpos : ∀ e, 0 < m.h e := by
    intro e
    rw [hm]
    fin_cases e <;> norm_num
  obtain ⟨A, Ml, b, h⟩ : ∃ A Ml b, semAssemble m Q (elemFields (fun _ => 1) (fun _ => 1) (fun _ => 1)) (some (Ends.mk 0 2 1 1))
      = some (A, Ml, b) := by
    unfold semAssemble
    rw [if_neg (by rintro ⟨e, k, hk⟩; exact one_ne_zero hk)]
    exact ⟨_, _, _, rfl⟩
  refine ⟨Q, m, some (Ends.mk 0 2 1 1), A, Ml, b, hq, hpos, ⟨⟨Equiv.refl _, ![0, 1, 2], rfl, rfl, ?_⟩, rfl, rfl⟩, h, ?_⟩
  · intro i
    rw [hm]
    fin_cases i <;> exact ⟨rfl, rfl⟩
  · rw [(C118_weak (r := 1) hq hpos h).2.2.2 1 (by simp [dirichletBd])]
    rw [hm, hQdef]
    simp [Fin.sum_univ_two, Fin.sum_univ_three]
    norm_num

end
end Ormatex.Props
