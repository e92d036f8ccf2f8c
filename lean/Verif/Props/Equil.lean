import Verif.Props.LinExact
import Verif.Props.KrylovErr

/-!
C32: equilibria of autonomous systems are fixed points of every integrator, with the actual (approximate) kernels.
-/

namespace Ormatex.Props
open Matrix Ormatex.Spec
open scoped Classical

section
variable {n : ℕ} {P : Type} [EmptyCollection P]
set_option linter.unusedSectionVars false

/-- whatever the call returns satisfies `p` -/
def Rets {α : Type} (x : Py α) (p : α → Prop) : Prop := ∀ a, x = .ok a → p a

theorem Rets.bind {α β : Type} {x : Py α} {f : α → Py β} {p : β → Prop} (q : α → Prop) (hx : Rets x q)
    (hf : ∀ a, q a → Rets (f a) p) : Rets (x >>= f) p := by
  intro b hb
  cases x with
  | error e => cases hb
  | ok a => exact hf a (hx a rfl) b hb

theorem Rets.pure {α : Type} {a : α} {p : α → Prop} (h : p a) : Rets (Pure.pure a) p := by
  intro b hb
  cases hb
  exact h

theorem Rets.ok {α : Type} {a : α} {p : α → Prop} (h : p a) : Rets (.ok a) p := Rets.pure h

theorem Rets.error {α : Type} {e : PyErr} {p : α → Prop} : Rets (.error e : Py α) p := by
  intro b hb; cases hb

theorem Rets.ite {α : Type} {c : Prop} [Decidable c] {x y : Py α} {p : α → Prop} (hx : Rets x p) (hy : Rets y p) :
    Rets (if c then x else y) p := by
  split <;> assumption

theorem Rets.triv {α : Type} {x : Py α} : Rets x fun _ => True := fun _ _ => trivial

theorem Rets.mono {α : Type} {x : Py α} {p q : α → Prop} (h : Rets x p) (hpq : ∀ a, p a → q a) : Rets x q :=
  fun a ha => hpq a (h a ha)

/-- A steady state `ystar` of an autonomous system, in terms of what the integrators read: the right-hand side vanishes
there for all times and parameters, so do the cached value and the time derivative handed out by the Jacobian operator,
and the Jacobian and splitting operators map zero to zero. -/
structure Equilibrium (sys : OdeSys n P) (ystar : Vec n) : Prop where
  frhs : ∀ kw t, sys.frhs kw t ystar = 0
  jacRhs : ∀ kw t, (sys.fjac kw t ystar).frhsCached = 0
  jacFdt : ∀ kw t, (sys.fjac kw t ystar).fdt = 0
  jacZero : ∀ kw t, (sys.fjac kw t ystar).matvec 0 = 0
  flZero : ∀ t, (sys.fl t ystar).matvec 0 = 0

/-- The user's condition: a right-hand side that does not depend on time and vanishes at `ystar` gives an equilibrium with
the default autodiff Jacobian; no smoothness in the state is needed. -/
theorem equilibrium_autodiff (g : Option P → Vec n → Vec n) (fl : ℝ → Vec n → LinOp n) (ystar : Vec n)
    (hg : ∀ kw, g kw ystar = 0) (hl : ∀ t, (fl t ystar).matvec 0 = 0) :
    Equilibrium (OdeSys.ofFrhs (fun kw _ y => g kw y) fl) ystar where
  frhs kw _ := hg kw
  jacRhs kw _ := hg kw
  jacFdt kw t := by
    show fderiv ℝ (fun p : ℝ × Vec n => g kw p.2) (t, ystar) (1, 0) = 0
    by_cases h : DifferentiableAt ℝ (fun p : ℝ × Vec n => g kw p.2) (t, ystar)
    · have := (C17_autodiff (fun _ y => g kw y) t ystar h).2.1
      exact this.unique (hasDerivAt_const t (g kw ystar))
    · rw [fderiv_zero_of_not_differentiableAt h]
      rfl
  jacZero kw t := by
    show fderiv ℝ (fun p : ℝ × Vec n => g kw p.2) (t, ystar) (0, 0) = 0
    exact map_zero _
  flZero := hl

/-- kernels that return zero (if they return) on zero input; no accuracy is assumed -/
structure ZeroKernels (K : Kernels n) : Prop where
  phiLinop : ∀ A dt k, Rets (K.phiLinop A dt 0 k) (· = 0)
  kiops : ∀ A dt bs, (∀ b ∈ bs, b = 0) → Rets (K.kiops A dt bs) (· = 0)
  phiPfd : ∀ z k, Rets (K.phiPfd z 0 k) (· = 0)
  phikvRs : ∀ J dt k, K.phikvRs J dt 0 k = 0

/-- The kernels of the package have this property, whatever their Krylov dimension, pole table and matrix exponential. -/
theorem realKernels_zero (expm : ∀ m, Mat m → Mat m) (tab : Pfd) (rs : Mat n → ℝ → Vec n → ℕ → Vec n)
    (hrs : ∀ J dt k, rs J dt 0 k = 0) (maxDim iom : ℕ) : ZeroKernels (realKernels n expm tab rs maxDim iom) where
  phiLinop A dt k := by
    intro a ha
    have := (C30_degenerate (applCode expm) A dt k maxDim iom).1
    have h2 : phiLinop (applCode expm) A dt 0 k maxDim iom = .ok a := ha
    rw [this] at h2
    cases h2; rfl
  kiops A dt bs hb := by
    intro a ha
    have h2 : kiopsFixedsteps (applCode expm) A dt bs maxDim iom 1 = .ok a := ha
    by_cases h : bs = []
    · subst h
      rw [(C31_degenerate (applCode expm) A dt maxDim iom).2.2.1 1] at h2
      cases h2
    · rw [(C31_degenerate (applCode expm) A dt maxDim iom).1 bs 1 h hb] at h2
      cases h2; rfl
  phiPfd z k := by
    refine Rets.ok ?_
    unfold fPhiKPfd
    have ht : ∀ p c : ℂ, pfdTerm z (0 : Vec n) k p c = 0 := by
      intro p c
      unfold pfdTerm
      funext i
      have : (fun j : Fin n => (((0 : Vec n) j : ℝ) : ℂ)) = 0 := by funext j; simp
      rw [this, Matrix.mulVec_zero]
      simp
    have h0 : (if k = 0 then tab.c0 • (0 : Vec n) else 0) = 0 := by split <;> simp
    simp only [h0, ht, add_zero]
    generalize tab.poles.zip tab.coeffs = l
    induction l with
    | nil => rfl
    | cons a l ih => simp
  phikvRs := hrs

/-- every state in the history is `ystar` -/
def AllAt (b : Base (Vec n)) (ystar : Vec n) : Prop := ∀ y ∈ b.yHist.items, y = ystar

theorem AllAt.get {b : Base (Vec n)} {ystar : Vec n} (h : AllAt b ystar) (i : ℕ) : Rets (b.yHist.get i) (· = ystar) := by
  intro a ha
  unfold Deque.get at ha
  split at ha
  · rename_i x hx
    cases ha
    exact h _ (List.mem_of_getElem? hx)
  · cases ha

theorem allAt_init {t0 : ℝ} {y0 : Vec n} {p : ℕ} {m : String} {b : Base (Vec n)} (h : Base.init t0 y0 p m = .ok b) :
    AllAt b y0 := by
  unfold Base.init at h
  split at h
  · cases h
    intro y hy
    have := List.mem_of_mem_take hy
    simpa [Deque.empty] using this
  · cases h

theorem allAt_accept {b : Base (Vec n)} {ystar : Vec n} (h : AllAt b ystar) (r : StepResult (Vec n)) (hr : r.y = ystar) :
    AllAt (b.acceptStep r) ystar := by
  intro y hy
  have := List.mem_of_mem_take hy
  rcases List.mem_cons.1 this with h' | h'
  · rw [h', hr]
  · exact h y h'

section rb
variable {K : Kernels n} (hK : ZeroKernels K) {sys : OdeSys n P} {ystar : Vec n} (he : Equilibrium sys ystar)
include hK he

theorem ret_phi2v (tol dt c : ℝ) (kw : Option P) (t : ℝ) :
    Rets (phi2vNonauto K tol (sys.fjac kw t ystar) dt c) (fun r => r.1 = 0 ∧ r.2 = 0) := by
  unfold phi2vNonauto
  simp only [he.jacFdt]
  refine Rets.ite (Rets.ite ?_ (Rets.pure ⟨rfl, rfl⟩)) (Rets.pure ⟨rfl, rfl⟩)
  refine Rets.bind _ (hK.phiLinop _ _ _) ?_
  rintro _ rfl
  exact Rets.pure ⟨smul_zero _, rfl⟩

omit hK in
theorem ret_remf {b : Base (Vec n)} (hb : AllAt b ystar) (tr : ℝ) (kw : Option P) (t : ℝ) :
    Rets (remf sys b tr ystar 0 (sys.fjac kw t ystar).toLinOp 0) (· = 0) := by
  unfold remf
  refine Rets.bind _ Rets.triv fun _ _ => Rets.bind _ (hb.get 0) ?_
  rintro _ rfl
  refine Rets.pure ?_
  simp only [he.frhs, LinOp.call, sub_self, he.jacZero, smul_zero]

/-- **C32, Rosenbrock and EPI methods.** If all states in the history are the equilibrium, whatever a step returns is the
equilibrium, at time `t + dt`: for every method except the linear propagators `exp_pfd`, `exp_pfd_rs`, every step size,
parameter, tolerance, and the actual kernels. -/
theorem C32_rb_step (hasRust : Bool) (s : ExpRB n) (hs : AllAt s.base ystar) (dt : ℝ) (kw : Option P)
    (hm : s.base.method ≠ "exp_pfd" ∧ s.base.method ≠ "exp_pfd_rs") :
    Rets (ExpRB.step hasRust K sys s dt kw) (fun r => r.t = s.base.t + dt ∧ r.y = ystar) := by
  have hrb3 : ∀ kw, Rets (stepExprb3 K sys s dt kw) (fun r => r.t = s.base.t + dt ∧ r.y = ystar) := by
    intro kw
    unfold stepExprb3
    simp only
    refine Rets.bind _ (hs.get 0) ?_
    rintro y rfl
    refine Rets.bind _ (ret_phi2v hK he _ _ _ _ _) ?_
    rintro ⟨_, _⟩ ⟨rfl, rfl⟩
    rw [he.jacRhs]
    refine Rets.bind _ (hK.phiLinop _ _ _) ?_
    rintro _ rfl
    simp only [smul_zero, add_zero]
    refine Rets.bind _ (ret_remf he hs _ _ _) ?_
    rintro _ rfl
    refine Rets.bind _ (hK.phiLinop _ _ _) ?_
    rintro _ rfl
    exact Rets.pure ⟨rfl, by simp⟩
  unfold ExpRB.step
  simp only
  refine Rets.ite ?_ (Rets.ite (hrb3 _) (Rets.ite ?_ (Rets.ite ?_ ?_)))
  · unfold stepExprb2
    simp only
    refine Rets.bind _ (hs.get 0) ?_
    rintro y rfl
    refine Rets.bind _ (ret_phi2v hK he _ _ _ _ _) ?_
    rintro ⟨_, _⟩ ⟨rfl, rfl⟩
    rw [he.jacRhs, smul_zero]
    refine Rets.bind _ (hK.phiLinop _ _ _) ?_
    rintro _ rfl
    exact Rets.pure ⟨rfl, by simp⟩
  · unfold stepPexprb4
    simp only
    refine Rets.bind _ (hs.get 0) ?_
    rintro y rfl
    refine Rets.bind (· = 0) ?_ ?_
    · unfold fUn2
      simp only
      refine Rets.bind _ (ret_phi2v hK he _ _ _ _ _) ?_
      rintro ⟨_, _⟩ ⟨rfl, rfl⟩
      rw [he.jacRhs]
      refine Rets.bind _ (hK.phiLinop _ _ _) ?_
      rintro _ rfl
      simp only [smul_zero, add_zero]
      exact ret_remf he hs _ _ _
    rintro _ rfl
    refine Rets.bind (fun r => r.1 = y ∧ r.2 = 0) ?_ ?_
    · unfold fUn3
      simp only
      refine Rets.bind _ (ret_phi2v hK he _ _ _ _ _) ?_
      rintro ⟨_, _⟩ ⟨rfl, rfl⟩
      rw [he.jacRhs]
      refine Rets.bind _ (hK.phiLinop _ _ _) ?_
      rintro _ rfl
      simp only [smul_zero, add_zero]
      refine Rets.bind _ (ret_remf he hs _ _ _) ?_
      rintro _ rfl
      exact Rets.pure ⟨rfl, rfl⟩
    rintro ⟨_, _⟩ ⟨rfl, rfl⟩
    unfold pexprb4Final
    simp only
    refine Rets.bind _ (hK.kiops _ _ _ (by simp)) ?_
    rintro _ rfl
    exact Rets.pure ⟨rfl, by simp⟩
  · unfold stepEpi2
    simp only
    refine Rets.bind _ (hs.get 0) ?_
    rintro y rfl
    refine Rets.bind _ (hK.kiops _ _ _ (by simp [he.jacRhs, he.jacFdt])) ?_
    rintro _ rfl
    exact Rets.pure ⟨rfl, by simp⟩
  · refine Rets.ite (Rets.ite ?_ (hrb3 _)) (Rets.ite ?_ (Rets.ite ?_ ?_))
    · unfold stepEpi3
      simp only
      refine Rets.bind _ (hs.get 0) ?_
      rintro y rfl
      refine Rets.bind _ (hs.get 1) ?_
      rintro y rfl
      refine Rets.bind _ Rets.triv fun tp _ => ?_
      rw [he.jacRhs, he.jacFdt]
      refine Rets.bind _ (ret_remf he hs _ _ _) ?_
      rintro _ rfl
      refine Rets.bind _ (hK.kiops _ _ _ (by simp)) ?_
      rintro _ rfl
      exact Rets.pure ⟨rfl, by simp⟩
    · unfold stepExprb2Dense
      simp only
      refine Rets.bind _ (hs.get 0) ?_
      rintro y rfl
      refine Rets.bind _ Rets.triv fun J _ => Rets.bind _ Rets.triv fun l _ => Rets.bind _ Rets.triv fun p1 _ =>
        Rets.bind _ Rets.triv fun p2 _ => Rets.pure ⟨rfl, ?_⟩
      simp [he.jacRhs, he.jacFdt]
    · unfold stepExprb2Pfd
      simp only
      refine Rets.bind _ (hs.get 0) ?_
      rintro y rfl
      refine Rets.bind _ Rets.triv fun J _ => ?_
      rw [he.jacFdt, he.jacRhs]
      have tail : ∀ x : Vec n, x = 0 → Rets (K.phiPfd (dt • J) 0 1 >>= fun p => pure
          (StepResult.mk (s.base.t + dt) dt (y + dt • (p + dt • x)) (-1))) (fun r => r.t = s.base.t + dt ∧ r.y = y) := by
        rintro _ rfl
        refine Rets.bind _ (hK.phiPfd _ _) ?_
        rintro _ rfl
        exact Rets.pure ⟨rfl, by simp⟩
      refine Rets.ite (Rets.ite ?_ (tail 0 rfl)) (tail 0 rfl)
      exact Rets.bind _ (hK.phiPfd _ _) tail
    · rw [if_neg hm.1]
      refine Rets.ite ?_ ?_
      · unfold stepExprb2PfdRs
        simp only
        refine Rets.bind _ (hs.get 0) ?_
        rintro y rfl
        refine Rets.bind _ Rets.triv fun J _ => Rets.pure ⟨rfl, ?_⟩
        simp [he.jacRhs, he.jacFdt, hK.phikvRs]
      · rw [if_neg (fun h => hm.2 h.1)]
        exact Rets.error

/-- the operator stored by the dense splitting methods maps zero to zero -/
def LopZero (s : ExpSplit n) : Prop := ∀ lop, s.cachedSysLop = some lop → lop.matvec 0 = 0

omit hK in
theorem ret_update (s : ExpSplit n) (hs : AllAt s.base ystar) (hl : LopZero s) (dt : ℝ) (cks : List (ℝ × List ℕ)) :
    Rets (updateDensePhiLs K sys s dt cks) (fun s' => s'.base = s.base ∧ LopZero s') := by
  unfold updateDensePhiLs
  split
  · exact Rets.ok ⟨rfl, hl⟩
  · refine Rets.bind _ (hs.get 0) ?_
    rintro y rfl
    refine Rets.bind _ Rets.triv fun L _ => Rets.bind _ Rets.triv fun d _ => Rets.pure ⟨rfl, ?_⟩
    intro lop h
    cases h
    exact he.flZero _

theorem ret_optGet {α : Type} (o : Option α) : Rets (optGet o) (fun x => o = some x) := by
  unfold optGet
  intro a ha
  split at ha
  · cases ha; rfl
  · cases ha

/-- **C32, splitting methods**, with the invariant on the cached operator. -/
theorem C32_split_step (s : ExpSplit n) (hs : AllAt s.base ystar) (hl : LopZero s) (dt : ℝ) (kw : Option P) :
    Rets (ExpSplit.step K sys s dt kw)
      (fun r => r.1.t = s.base.t + dt ∧ r.1.y = ystar ∧ r.2.base = s.base ∧ LopZero r.2) := by
  have hkeep : ∀ x : Py (StepResult (Vec n)), Rets x (fun r => r.t = s.base.t + dt ∧ r.y = ystar) →
      Rets (keep s x) (fun r => r.1.t = s.base.t + dt ∧ r.1.y = ystar ∧ r.2.base = s.base ∧ LopZero r.2) := by
    intro x hx
    cases x with
    | error e => exact Rets.error
    | ok a => exact Rets.ok ⟨(hx a rfl).1, (hx a rfl).2, rfl, hl⟩
  have hrem : ∀ tr t, Rets (remfSplit sys s.base tr ystar 0 (sys.fl t ystar)) (· = 0) := by
    intro tr t
    unfold remfSplit
    refine Rets.bind _ (hs.get 0) ?_
    rintro _ rfl
    refine Rets.pure ?_
    simp only [he.frhs, LinOp.call, sub_self, he.flZero]
  unfold ExpSplit.step
  simp only
  refine Rets.ite (hkeep _ ?_) (Rets.ite (hkeep _ ?_) (Rets.ite (hkeep _ ?_) (Rets.ite ?_ (Rets.ite ?_ (Rets.ite ?_ Rets.error)))))
  · unfold stepExp1
    simp only
    refine Rets.bind _ (hs.get 0) ?_
    rintro y rfl
    rw [he.frhs, smul_zero]
    refine Rets.bind _ (hK.phiLinop _ _ _) ?_
    rintro _ rfl
    exact Rets.pure ⟨rfl, by simp⟩
  · unfold stepExp2
    simp only
    refine Rets.bind _ (hs.get 0) ?_
    rintro y rfl
    rw [he.frhs, smul_zero]
    refine Rets.bind _ (hK.phiLinop _ _ _) ?_
    rintro _ rfl
    rw [add_zero]
    refine Rets.bind _ (hrem _ _) ?_
    rintro _ rfl
    rw [smul_zero]
    refine Rets.bind _ (hK.phiLinop _ _ _) ?_
    rintro _ rfl
    exact Rets.pure ⟨rfl, by simp⟩
  · unfold stepExp3
    simp only
    refine Rets.bind _ (hs.get 0) ?_
    rintro y rfl
    rw [he.frhs, smul_zero]
    refine Rets.bind _ (hK.phiLinop _ _ _) ?_
    rintro _ rfl
    rw [add_zero]
    refine Rets.bind _ (hrem _ _) ?_
    rintro _ rfl
    rw [smul_zero]
    refine Rets.bind _ (hK.phiLinop _ _ _) ?_
    rintro _ rfl
    rw [add_zero]
    refine Rets.bind _ (hrem _ _) ?_
    rintro _ rfl
    simp only [smul_zero]
    refine Rets.bind _ (hK.phiLinop _ _ _) ?_
    rintro _ rfl
    refine Rets.bind _ (hK.phiLinop _ _ _) ?_
    rintro _ rfl
    exact Rets.pure ⟨rfl, by simp⟩
  · unfold stepExp1Dense
    simp only
    refine Rets.bind _ (hs.get 0) ?_
    rintro y rfl
    refine Rets.bind _ (ret_update he s hs hl _ _) ?_
    rintro s' ⟨hb, hl'⟩
    refine Rets.bind _ Rets.triv fun d _ => Rets.bind _ Rets.triv fun X _ => Rets.pure ⟨rfl, ?_, hb, hl'⟩
    simp [he.frhs]
  · unfold stepExp2Dense
    simp only
    refine Rets.bind _ (hs.get 0) ?_
    rintro y rfl
    refine Rets.bind _ (ret_update he s hs hl _ _) ?_
    rintro s' ⟨hb, hl'⟩
    refine Rets.bind _ Rets.triv fun d _ => Rets.bind _ (ret_optGet hK he _) fun lop hlop => Rets.bind _ Rets.triv fun X _ =>
      Rets.bind _ Rets.triv fun X1 _ => Rets.bind _ Rets.triv fun X2 _ => Rets.pure ⟨rfl, ?_, hb, hl'⟩
    simp [he.frhs, LinOp.call, hl' lop hlop]
  · unfold stepExp3Dense
    simp only
    refine Rets.bind _ (hs.get 0) ?_
    rintro y rfl
    refine Rets.bind _ (ret_update he s hs hl _ _) ?_
    rintro s' ⟨hb, hl'⟩
    refine Rets.bind _ Rets.triv fun d _ => Rets.bind _ (ret_optGet hK he _) fun lop hlop => Rets.bind _ Rets.triv fun X _ =>
      Rets.bind _ Rets.triv fun X1 _ => Rets.bind _ Rets.triv fun X2 _ => Rets.bind _ Rets.triv fun X3 _ =>
      Rets.bind _ Rets.triv fun X4 _ => Rets.pure ⟨rfl, ?_, hb, hl'⟩
    simp [he.frhs, LinOp.call, hl' lop hlop]

end rb

/-- **C32, RK4.** -/
theorem C32_rk_step {sys : OdeSys n P} {ystar : Vec n} (he : Equilibrium sys ystar) (s : Base (Vec n)) (hs : AllAt s ystar)
    (dt : ℝ) (kw : Option P) : Rets (RK.step sys s dt kw) (fun r => r.t = s.t + dt ∧ r.y = ystar) := by
  unfold RK.step
  split
  · exact Rets.error
  · refine Rets.ite ?_ Rets.error
    unfold stepRk4
    simp only
    refine Rets.bind _ (hs.get 0) ?_
    rintro y rfl
    refine Rets.pure ⟨rfl, ?_⟩
    simp [rk4Kernel, he.frhs]

/-! ### Leja integrator -/

theorem headN_concat {p : ℕ} (a : Vec n) (b : Vec p) : headN (concat a b) = a := by
  funext i; simp [headN, concat]

theorem headN_add {p : ℕ} (a b : Vec (n + p)) : headN (a + b) = headN a + headN b := rfl
theorem headN_smul {p : ℕ} (c : ℝ) (a : Vec (n + p)) : headN (c • a) = c • headN a := rfl

/-- the operator keeps vectors whose first `n` entries vanish -/
def KeepsHead {p : ℕ} (A : LinOp (n + p)) : Prop := ∀ v, headN v = 0 → headN (A.matvec v) = 0

/-- an inner Leja evaluation that keeps them -/
def InnerKeeps {p : ℕ} (inner : ℝ → Vec (n + p) → Vec (n + p) × ℕ × Prop) : Prop :=
  ∀ dts v, headN v = 0 → headN (inner dts v).1 = 0

theorem headN_apply_zero {p : ℕ} {v : Vec (n + p)} (h : headN v = 0) (i : Fin n) : v (Fin.castAdd p i) = 0 :=
  congrFun h i

theorem lejaLoop_inv {m : ℕ} {cond : LejaState m → Prop} {body : LejaState m → LejaState m} (I : LejaState m → Prop)
    (hb : ∀ s, I s → I (body s)) : ∀ f s, I s → I (lejaLoop cond body f s)
  | 0, s, h => h
  | f + 1, s, h => by
    unfold lejaLoop
    split
    · exact lejaLoop_inv I hb f _ (hb _ h)
    · exact h

theorem iterate_inv {α : Type} (I : α → Prop) (f : α → α) (hf : ∀ a, I a → I (f a)) : ∀ k a, I a → I (f^[k] a)
  | 0, _, h => h
  | k + 1, a, h => by rw [Function.iterate_succ_apply]; exact iterate_inv I f hf k _ (hf a h)

theorem realLeja_keeps {p : ℕ} {A : LinOp (n + p)} (hA : KeepsHead A) (dt : ℝ) (u : Vec (n + p)) (hu : headN u = 0)
    (shift scale : ℝ) (nL : ℕ) (x c : ℕ → ℝ) (tol at_ : ℝ) :
    headN (realLejaExpmv A dt u shift scale nL x c tol at_).pm = 0 := by
  unfold realLejaExpmv
  simp only
  refine (lejaLoop_inv (fun s => headN s.vm = 0 ∧ headN s.pm = 0) ?_ _ _ ⟨hu, ?_⟩).2
  · rintro s ⟨h1, h2⟩
    have hv : headN (realLejaBody A dt (norm2 u) scale tol (fun i => shift + scale * x i) c s).vm = 0 := by
      funext i
      show (dt * A.matvec s.vm (Fin.castAdd p i) - _ * s.vm (Fin.castAdd p i)) / scale = 0
      rw [headN_apply_zero h1, headN_apply_zero (hA _ h1)]
      simp
    refine ⟨hv, ?_⟩
    show headN (s.pm + c s.i • (realLejaBody A dt (norm2 u) scale tol (fun i => shift + scale * x i) c s).vm) = 0
    rw [headN_add, headN_smul, hv, h2]
    simp
  · rw [headN_smul, hu, smul_zero]

theorem complexLeja_keeps {p : ℕ} {A : LinOp (n + p)} (hA : KeepsHead A) (dt : ℝ) (u : Vec (n + p)) (hu : headN u = 0)
    (shift scale : ℝ) (nL : ℕ) (x : ℕ → ℂ) (nr : ℕ) (c : ℕ → ℂ) (tol at_ : ℝ) :
    headN (complexConjLejaExpmv A dt u shift scale nL x nr c tol at_).pm = 0 := by
  unfold complexConjLejaExpmv
  split
  · exact realLeja_keeps hA _ _ hu _ _ _ _ _ _ _
  · simp only
    refine (lejaLoop_inv (fun s => headN s.vm = 0 ∧ headN s.pm = 0) ?_ _ _ (iterate_inv (fun s : LejaState (n + p) => headN s.vm = 0 ∧ headN s.pm = 0) _ ?_ nr _ ⟨hu, ?_⟩)).2
    · rintro s ⟨h1, h2⟩
      generalize (fun i => (shift : ℂ) + (scale : ℂ) * x i) = xsc
      have hq : headN (p := p) (fun j => (dt * A.matvec s.vm j - (xsc (s.i - 1)).re * s.vm j) / scale) = 0 := by
        funext i
        show (dt * A.matvec s.vm (Fin.castAdd p i) - _ * s.vm (Fin.castAdd p i)) / scale = 0
        rw [headN_apply_zero h1, headN_apply_zero (hA _ h1)]
        simp
      have hv : headN (complexPairBody A dt (norm2 u) scale tol xsc c s).vm = 0 := by
        funext i
        show (dt * A.matvec _ (Fin.castAdd p i) - _ * _) / scale + _ * s.vm (Fin.castAdd p i) = 0
        rw [headN_apply_zero (hA _ hq), headN_apply_zero h1]
        beta_reduce
        rw [headN_apply_zero h1, headN_apply_zero (hA _ h1)]
        simp
      refine ⟨hv, ?_⟩
      show headN ((s.pm + (c s.i).re • _) + (c (s.i + 1)).re • (complexPairBody A dt (norm2 u) scale tol xsc c s).vm) = 0
      rw [headN_add, headN_add, headN_smul, headN_smul, hv, h2, hq]
      simp
    · rintro s ⟨h1, h2⟩
      generalize (fun i => (shift : ℂ) + (scale : ℂ) * x i) = xsc
      have hv : headN (complexHeadBody A dt scale xsc c s).vm = 0 := by
        funext i
        show (dt * A.matvec s.vm (Fin.castAdd p i) - _ * s.vm (Fin.castAdd p i)) / scale = 0
        rw [headN_apply_zero h1, headN_apply_zero (hA _ h1)]
        simp
      refine ⟨hv, ?_⟩
      show headN (s.pm + (c s.i).re • (complexHeadBody A dt scale xsc c s).vm) = 0
      rw [headN_add, headN_smul, hv, h2]
      simp
    · rw [headN_smul, hu, smul_zero]

theorem subLoop_keeps {p : ℕ} {inner : ℝ → Vec (n + p) → Vec (n + p) × ℕ × Prop} (hi : InnerKeeps inner) :
    ∀ f (s : SubState (n + p)), headN s.w = 0 → Rets (subLoop inner f s) (fun s' => headN s'.w = 0)
  | 0, _, _ => Rets.error
  | f + 1, s, h => by
    have hb : headN (subBody inner s).w = 0 := by
      unfold subBody
      simp only
      split
      · exact h
      · exact hi _ _ h
    unfold subLoop
    simp only
    split
    · exact Rets.ok hb
    · exact subLoop_keeps hi f _ hb

theorem substep_keeps {p : ℕ} {inner : ℝ → Vec (n + p) → Vec (n + p) × ℕ × Prop} (hi : InnerKeeps inner) (tau : ℝ)
    (v : Vec (n + p)) (hv : headN v = 0) (sub : Bool) :
    Rets (expmvSubstep inner tau v sub) (fun r => headN r.1 = 0) := by
  unfold expmvSubstep
  split
  · exact Rets.ok (hi _ _ hv)
  · exact Rets.bind _ (subLoop_keeps hi _ _ hv) fun s hs => Rets.pure hs

theorem aTilde_keeps (A : LinOp n) (hA : A.matvec 0 = 0) (dt : ℝ) :
    Rets (buildATilde3 A dt 0 0 0) (fun r => KeepsHead r.1 ∧ headN r.2 = 0) := by
  unfold buildATilde3 buildATilde
  split
  · exact Rets.error
  · refine Rets.bind (fun a => KeepsHead a) ?_ ?_
    · unfold augMatrixLinOp
      split
      · refine Rets.ok ?_
        intro v hv
        show headN (concat _ _) = 0
        rw [headN_concat, hv, LinOp.call, hA]
        funext i
        simp only [Pi.add_apply, Pi.zero_apply, smul_zero, zero_add, Matrix.mulVec, dotProduct]
        refine Finset.sum_eq_zero fun j _ => ?_
        have hz : ∀ k, ([0, 0, 0] : List (Vec n)).getD k 0 = 0 := by
          intro k
          rcases k with _ | _ | _ | k <;> simp
        have : augB ([0, 0, 0] : List (Vec n)) i j = 0 := by
          unfold augB
          rw [Matrix.of_apply, hz]
          rfl
        rw [this, zero_mul]
      · exact Rets.error
    · intro a ha
      exact Rets.pure ⟨ha, by rw [headN_concat]; rfl⟩

theorem lejaFinish_keeps (s : ExpLeja n) (bk : Option (Vec (n + 2))) (yt : Vec n) (dt : ℝ) (c : Prop) (mt : ℝ) :
    Rets (lejaFinish s bk yt 0 dt c mt) (fun r => r.1.t = s.base.t + dt ∧ r.1.y = yt ∧ r.2.base = s.base) := by
  unfold lejaFinish
  split
  · exact Rets.error
  · exact Rets.ok ⟨rfl, add_zero _, rfl⟩

theorem realInner_keeps {p : ℕ} {A : LinOp (n + p)} (hA : KeepsHead A) (o : LejaOpts) (shift scale : ℝ) :
    InnerKeeps (realInner A o shift scale) := fun _ _ hv => realLeja_keeps hA _ _ hv _ _ _ _ _ _ _

theorem complexInner_keeps {p : ℕ} {A : LinOp (n + p)} (hA : KeepsHead A) (o : LejaOpts) (q : LejaSeq) :
    InnerKeeps (complexInner A o q) := fun _ _ hv => complexLeja_keeps hA _ _ hv _ _ _ _ _ _ _ _

/-- **C32, Leja methods.** Whatever a step of the Leja integrator returns at an equilibrium is the equilibrium: for every
divided-difference routine, point set, tolerance, substep state and heuristic memory. -/
theorem C32_leja_step (o : LejaOpts) {sys : OdeSys n P} {ystar : Vec n} (he : Equilibrium sys ystar) (s : ExpLeja n)
    (hs : AllAt s.base ystar) (dt : ℝ) (kw : Option P) :
    Rets (ExpLeja.step o sys s dt kw) (fun r => r.1.t = s.base.t + dt ∧ r.1.y = ystar ∧ r.2.base = s.base) := by
  have him : ∀ kw b, Rets (stepEpiIm o sys s dt kw b)
      (fun r => r.1.t = s.base.t + dt ∧ r.1.y = ystar ∧ r.2.base = s.base) := by
    intro kw b
    unfold stepEpiIm
    simp only
    refine Rets.bind _ (hs.get 0) ?_
    rintro y rfl
    rw [he.jacRhs, he.jacFdt]
    simp only [smul_zero, add_zero]
    have hb2 : ∀ b2 : Vec n, b2 = 0 →
        Rets (buildATilde3 (sys.fjac (some kw) s.base.t y).toLinOp dt 0 0 b2 >>= fun r => (do
          let (aT, v) := r
          let (lejaA, bk) := match o.lejaA with
            | none =>
              let r := lejaShiftScale aT o.maxPowerIter s.bk (o.bRand (n + 2)) o.maxReEigScale
              (-|r.2.2.1|, some r.2.2.2.1)
            | some a => (a * dt, s.bk)
          let lejaC := match o.lejaC with
            | none => 0
            | some c => c * dt
          let q ← genLejaConjugate o.nLeja lejaA 0 lejaC
          let (w, _iters, conv, maxTau) ← expmvSubstep (complexInner aT o q) (1.1 * s.substepSize) v o.substep
          lejaFinish s bk y (headN w) dt conv maxTau))
        (fun r => r.1.t = s.base.t + dt ∧ r.1.y = y ∧ r.2.base = s.base) := by
      rintro _ rfl
      refine Rets.bind _ (aTilde_keeps _ (he.jacZero _ _) dt) ?_
      rintro ⟨aT, v⟩ ⟨h1, h2⟩
      simp only at h1 h2 ⊢
      refine Rets.bind _ Rets.triv fun q _ => Rets.bind _ (substep_keeps (complexInner_keeps h1 o q) _ _ h2 _) ?_
      rintro ⟨w, it, c, mt⟩ hw
      simp only at hw ⊢
      rw [hw]
      exact lejaFinish_keeps s _ y dt c mt
    refine Rets.ite ?_ (hb2 0 rfl)
    refine Rets.bind _ (hs.get 1) ?_
    rintro y rfl
    refine Rets.bind _ Rets.triv fun tp _ => ?_
    refine Rets.bind _ (ret_remf he hs _ _ _) ?_
    rintro _ rfl
    exact hb2 _ (smul_zero _)
  unfold ExpLeja.step
  simp only
  refine Rets.ite ?_ (Rets.ite (him _ _) (Rets.ite (Rets.ite (him _ _) (him _ _)) Rets.error))
  unfold stepEpiRe
  simp only
  refine Rets.bind _ (hs.get 0) ?_
  rintro y rfl
  rw [he.jacRhs, he.jacFdt]
  simp only [smul_zero]
  refine Rets.bind _ (aTilde_keeps _ (he.jacZero _ _) dt) ?_
  rintro ⟨aT, v⟩ ⟨h1, h2⟩
  simp only at h1 h2 ⊢
  refine Rets.bind _ (substep_keeps (realInner_keeps h1 o _ _) _ _ h2 _) ?_
  rintro ⟨w, it, c, mt⟩ hw
  simp only at hw ⊢
  rw [hw]
  exact lejaFinish_keeps s _ y dt c mt

/-! ### Whole runs -/

theorem run_const {σ Q W : Type} (I : Stepper σ P (Vec n)) (Inv : σ → Prop) (ystar : Vec n) (dt : ℝ)
    (hs : ∀ o kw, Inv o → Rets (I.step o dt kw) (fun r => r.1.y = ystar ∧ Inv (I.accept r.2 r.1)))
    (obj : σ) (t0 : ℝ) (h0 : Inv obj) (nsteps : ℕ) (before : Option (W → ℝ → Vec n → P × W))
    (after : Option (W → ℝ → Vec n → Q × W)) (w : W) :
    Rets (integrateOrmatex I obj ystar t0 dt nsteps before after w) (fun l => ∀ y ∈ l.yRes, y = ystar) := by
  have key : ∀ (k : ℕ) (l : LoopState σ P Q W (Vec n)), Inv l.obj → (∀ y ∈ l.yRes, y = ystar) →
      Rets (loopN I t0 ystar dt before after k l) (fun l => ∀ y ∈ l.yRes, y = ystar) := by
    intro k
    induction k with
    | zero => exact fun l _ h => Rets.ok h
    | succ k ih =>
      intro l h1 h2
      show Rets (loopBody I t0 ystar dt before after l >>= _) _
      refine Rets.bind (fun l' => Inv l'.obj ∧ ∀ y ∈ l'.yRes, y = ystar) ?_ fun l' hl' => ih l' hl'.1 hl'.2
      unfold loopBody
      refine Rets.bind _ (hs l.obj _ h1) ?_
      rintro r ⟨h3, h4⟩
      refine Rets.pure ⟨h4, ?_⟩
      intro y hy
      rcases List.mem_append.1 hy with h | h
      · exact h2 y h
      · rw [List.mem_singleton.1 h, h3]
  exact key nsteps _ h0 (by simp)

/-- **C32, whole runs.** Integrating from an equilibrium of an autonomous system with any advertised method other than the
linear propagators `exp_pfd(_rs)` returns the equilibrium at every output time, with the kernels of the package and with
any callbacks; Rosenbrock and splitting runs do return. -/
theorem C32_run {Q W : Type} (hasRust : Bool) (expm : ∀ m, Mat m → Mat m) (tab : Pfd)
    (rs : Mat n → ℝ → Vec n → ℕ → Vec n) (hrs : ∀ J dt k, rs J dt 0 k = 0) (maxDim iom : ℕ) (hmax : 1 ≤ maxDim)
    (o : LejaOpts) (sys : OdeSys n P)
    {ystar : Vec n} (he : Equilibrium sys ystar)
    (hJ : ∀ kw t y, Tot (sys.fjac kw t y).dense) (hL : ∀ t y, Tot (sys.fl t y).dense) (t0 : ℝ) (m : String)
    (tol dt : ℝ) (nsteps : ℕ) (before : Option (W → ℝ → Vec n → P × W)) (after : Option (W → ℝ → Vec n → Q × W)) (w : W) :
    (∀ s, ExpRB.new hasRust t0 ystar m tol = .ok s → m ≠ "exp_pfd" → m ≠ "exp_pfd_rs" →
      ∃ l, integrateOrmatex (rbStepper hasRust (realKernels n expm tab rs maxDim iom) sys) s ystar t0 dt nsteps before after w
        = .ok l ∧ ∀ y ∈ l.yRes, y = ystar) ∧
    (∀ s, ExpSplit.new t0 ystar m = .ok s →
      ∃ l, integrateOrmatex (splitStepper (realKernels n expm tab rs maxDim iom) sys) s ystar t0 dt nsteps before after w
        = .ok l ∧ ∀ y ∈ l.yRes, y = ystar) ∧
    (∀ s, RK.new t0 ystar m = .ok s →
      ∀ l, integrateOrmatex (rkStepper sys) s ystar t0 dt nsteps before after w = .ok l → ∀ y ∈ l.yRes, y = ystar) ∧
    (∀ s, ExpLeja.new t0 ystar m = .ok s →
      ∀ l, integrateOrmatex (lejaStepper o sys) s ystar t0 dt nsteps before after w = .ok l → ∀ y ∈ l.yRes, y = ystar) := by
  have hK := realKernels_zero (n := n) expm tab rs hrs maxDim iom
  have hC := C10_real_kernels hasRust expm tab rs maxDim iom hmax sys hJ hL t0 ystar m tol dt nsteps before after w
  refine ⟨?_, ?_, ?_, ?_⟩
  · intro s hs h1 h2
    obtain ⟨l, hl⟩ := hC.1 s hs
    refine ⟨l, hl, ?_⟩
    refine run_const (rbStepper hasRust (realKernels n expm tab rs maxDim iom) sys)
      (fun s => AllAt s.base ystar ∧ s.base.method = m) ystar dt ?_ s t0 ?_ nsteps before after w l hl
    · rintro s kw ⟨h3, h4⟩
      have := C32_rb_step hK he hasRust s h3 dt kw (by rw [h4]; exact ⟨h1, h2⟩)
      show Rets (keep s _) _
      cases hx : ExpRB.step hasRust (realKernels n expm tab rs maxDim iom) sys s dt kw with
      | error e => exact Rets.error
      | ok r =>
        have hr := this r hx
        exact Rets.ok ⟨hr.2, allAt_accept h3 r hr.2, h4⟩
    · have hm := ((C09_construct_rb hasRust t0 ystar m tol).2.2 s hs).2.2.2
      unfold ExpRB.new at hs
      split at hs
      · cases hs
      · split at hs
        · cases hs
        · rename_i oo _ _
          cases hb : Base.init t0 ystar oo m with
          | error e => rw [hb] at hs; cases hs
          | ok bb => rw [hb] at hs; cases hs; exact ⟨allAt_init hb, hm⟩
  · intro s hs
    obtain ⟨l, hl⟩ := hC.2 s hs
    refine ⟨l, hl, ?_⟩
    refine run_const (splitStepper (realKernels n expm tab rs maxDim iom) sys)
      (fun s => AllAt s.base ystar ∧ LopZero s) ystar dt ?_ s t0 ?_ nsteps before after w l hl
    · rintro s kw ⟨h3, h4⟩
      refine (C32_split_step hK he s h3 h4 dt kw).mono ?_
      rintro ⟨r, s'⟩ ⟨_, h6, h7, h8⟩
      refine ⟨h6, ?_, h8⟩
      have : AllAt s'.base ystar := by rw [show s'.base = s.base from h7]; exact h3
      exact allAt_accept this r h6
    · unfold ExpSplit.new at hs
      split at hs
      · cases hs
      · rename_i oo _
        cases hb : Base.init t0 ystar oo m with
        | error e => rw [hb] at hs; cases hs
        | ok bb => rw [hb] at hs; cases hs; exact ⟨allAt_init hb, fun _ h => by cases h⟩
  · intro s hs l hl
    refine run_const (rkStepper sys) (fun s => AllAt s ystar) ystar dt ?_ s t0 ?_ nsteps before after w l hl
    · intro s kw h3
      have := C32_rk_step he s h3 dt kw
      show Rets (keep s _) _
      cases hx : RK.step sys s dt kw with
      | error e => exact Rets.error
      | ok r =>
        have hr := this r hx
        exact Rets.ok ⟨hr.2, allAt_accept h3 r hr.2⟩
    · unfold RK.new at hs
      split at hs
      · cases hs
      · exact allAt_init hs
  · intro s hs l hl
    refine run_const (lejaStepper o sys) (fun s => AllAt s.base ystar) ystar dt ?_ s t0 ?_ nsteps before after w l hl
    · intro s kw h3
      refine (C32_leja_step o he s h3 dt kw).mono ?_
      rintro ⟨r, s'⟩ ⟨_, h6, h7⟩
      refine ⟨h6, ?_⟩
      have : AllAt s'.base ystar := by rw [show s'.base = s.base from h7]; exact h3
      exact allAt_accept this r h6
    · unfold ExpLeja.new at hs
      split at hs
      · cases hs
      · rename_i oo _
        cases hb : Base.init t0 ystar oo m with
        | error e => rw [hb] at hs; cases hs
        | ok bb => rw [hb] at hs; cases hs; exact allAt_init hb

/-- The linear propagator moves a nonzero equilibrium: `y' = 1 - y` at `y = 1` with exact kernels is sent to `exp(-dt)`,
so the exclusion in C32 is needed. -/
theorem C32_propagator_excluded : ∃ (sys : OdeSys 1 (List ℕ)) (s : ExpRB 1) (r : StepResult (Vec 1)),
    Equilibrium sys (fun _ => 1) ∧ ExpRB.new false 0 (fun _ => 1) "exp_pfd" 0 = .ok s ∧
      ExpRB.step false (exactKernels 1) sys s 1 none = .ok r ∧ r.y ≠ fun _ => 1 := by
  let A : Mat 1 := -1
  let sys : OdeSys 1 (List ℕ) := OdeSys.ofFrhs (fun _ t y => A *ᵥ y + t • (0 : Vec 1) + fun _ => 1) fun _ _ => eyeLinOp 1
  have hsys : ForcedSys sys A (fun _ => 1) 0 := forcedSys_autodiff A _ 0 _
  have heq : A *ᵥ (fun _ => (1 : ℝ)) + (fun _ => 1) = 0 := by
    rw [show A = -1 from rfl, Matrix.neg_mulVec, Matrix.one_mulVec]; funext i; simp
  have hnew : ∃ s, ExpRB.new (n := 1) false 0 (fun _ => 1) "exp_pfd" 0 = .ok s ∧ At s.base 0 (fun _ => 1) ∧
      s.base.method = "exp_pfd" := ⟨_, rfl, ⟨rfl, rfl, rfl⟩, rfl⟩
  obtain ⟨s, hs, hat, hmeth⟩ := hnew
  refine ⟨sys, s, StepResult.mk (0 + 1) 1 (phiM 0 ((1 : ℝ) • A) *ᵥ fun _ => 1) (-1), ?_, hs, ?_, ?_⟩
  · refine ⟨fun kw t => ?_, fun kw t => ?_, fun kw t => hsys.jacFdt _ _ _, fun kw t => ?_, fun t => rfl⟩
    · rw [hsys.frhs]; simpa using heq
    · rw [hsys.jacRhs]; simpa using heq
    · rw [hsys.jacMat kw t _ 0, Matrix.mulVec_zero]
  · unfold ExpRB.step
    simp only [hmeth, String.reduceEq, if_true, if_false]
    exact expPfd_closed (exactKernels_exact 1) sys s hat 1 _ A (hsys.jacDense _ _ _)
  · intro h
    have hA : phiM 0 ((1 : ℝ) • A) *ᵥ (fun _ => (1 : ℝ)) = fun _ => 1 := h
    rw [phiM_zero, one_smul, show A = -1 from rfl] at hA
    have e : NormedSpace.exp (-1 : Mat 1) = Matrix.diagonal fun _ => Real.exp (-1) := by
      have : (-1 : Mat 1) = Matrix.diagonal fun _ => (-1 : ℝ) := by
        ext i j; fin_cases i; fin_cases j; simp
      rw [this, Matrix.exp_diagonal]
      congr 1
      funext i
      rw [Pi.exp_def, ← Real.exp_eq_exp_ℝ]
    rw [e] at hA
    have := congrFun hA 0
    rw [Matrix.mulVec_diagonal] at this
    rw [mul_one] at this
    have h1 : Real.exp (-1) < 1 := by rw [Real.exp_lt_one_iff]; norm_num
    linarith

/-- Logistic growth `y' = y (1 - y)` has the equilibrium `1`: the hypotheses of C32 are met. -/
example : Equilibrium (OdeSys.ofFrhs (P := List ℕ) (fun _ _ y => fun i => y i * (1 - y i)) fun _ _ => eyeLinOp 3) (fun _ => 1) :=
  equilibrium_autodiff (fun _ y => fun i => y i * (1 - y i)) (fun _ _ => eyeLinOp 3) _ (fun _ => by funext i; simp) (fun _ => rfl)

end
end Ormatex.Props
