import Verif.Props.Steps
import Verif.Props.LinOps

/-!
Exactness on linear systems: C33 (affine), C34 (linear-in-time forcing), C35 (splitting), C36 (whole runs).
-/

namespace Ormatex.Props
open Matrix Ormatex.Spec
open scoped Classical

section
variable {n : ℕ} {P : Type} [EmptyCollection P]
set_option linter.unusedSectionVars false

/-- **Specification.** The ODE system `y' = A y + t c + b` (whatever the parameter dictionary), with its Jacobian operator. -/
structure ForcedSys (sys : OdeSys n P) (A : Mat n) (b c : Vec n) : Prop where
  frhs : ∀ kw t y, sys.frhs kw t y = A *ᵥ y + t • c + b
  jacMat : ∀ kw t y, IsMatrix (sys.fjac kw t y).toLinOp A
  jacDense : ∀ kw t y, (sys.fjac kw t y).dense = .ok A
  jacFdt : ∀ kw t y, (sys.fjac kw t y).fdt = c
  jacRhs : ∀ kw t y, (sys.fjac kw t y).frhsCached = A *ᵥ y + t • c + b

/-- A user who only supplies the right-hand side gets such a system from the default (autodiff) Jacobian. -/
theorem forcedSys_autodiff (A : Mat n) (b c : Vec n) (fl : ℝ → Vec n → LinOp n) :
    ForcedSys (OdeSys.ofFrhs (P := P) (fun _ t y => A *ᵥ y + t • c + b) fl) A b c where
  frhs _ _ _ := rfl
  jacMat _ t y := (C17_affine A b c t y).1
  jacDense _ t y := by
    have h := (C17_affine A b c t y).1
    show Except.ok (Matrix.of fun i j => (adJac (fun t y => A *ᵥ y + t • c + b) t y).matvec (Pi.single j 1) i) = _
    congr 1
    ext i j
    rw [Matrix.of_apply, h (Pi.single j 1)]
    simp
  jacFdt _ t y := (C17_affine A b c t y).2
  jacRhs _ _ _ := rfl

/-- **Specification.** `Y` solves `y' = A y + t c + b`. -/
def Solves (A : Mat n) (b c : Vec n) (Y : ℝ → Vec n) : Prop := ∀ s, HasDerivAt Y (A *ᵥ Y s + s • c + b) s

/-- exponential Rosenbrock-Euler is the exact flow -/
theorem rosEuler_flow {A : Mat n} {b c : Vec n} {Y : ℝ → Vec n} (hY : Solves A b c Y) (t dt cc : ℝ) :
    rosEuler A (Y t) (A *ᵥ Y t + t • c + b) c dt cc = Y (t + cc * dt) := by
  have h := forced_solution A 2 (fun k => if k = 0 then t • c + b else c) t Y (fun s => by
    have := hY s
    refine this.congr_deriv ?_
    simp [Finset.sum_range_succ, sub_smul]
    abel) (cc * dt)
  rw [h]
  simp only [Finset.sum_range_succ, Finset.sum_range_zero, if_true, zero_add, pow_one, one_ne_zero, if_false]
  unfold rosEuler
  have hr := phiM_recurrence' 0 ((cc * dt) • A)
  rw [Nat.factorial_zero, Nat.cast_one, inv_one, one_smul, zero_add] at hr
  have e : (cc * dt) • (phiM 1 ((cc * dt) • A) *ᵥ (A *ᵥ Y t + t • c + b))
      = (phiM 0 ((cc * dt) • A) *ᵥ Y t - Y t) + (cc * dt) • (phiM 1 ((cc * dt) • A) *ᵥ (t • c + b)) := by
    rw [add_assoc, Matrix.mulVec_add, smul_add, Matrix.mulVec_mulVec, ← Matrix.smul_mulVec, ← Matrix.mul_smul, hr,
      Matrix.sub_mulVec, Matrix.one_mulVec]
  rw [e, mul_pow]
  norm_num
  abel

/-- `phi_0(dt A)` is the flow of the homogeneous system -/
theorem homogeneous_flow {A : Mat n} {Y : ℝ → Vec n} (hY : Solves A 0 0 Y) (t dt : ℝ) :
    phiM 0 (dt • A) *ᵥ Y t = Y (t + dt) := by
  have h := forced_solution A 0 (fun _ => 0) t Y (fun s => by
    refine (hY s).congr_deriv ?_
    simp) dt
  rw [h]
  simp

theorem effFdt_active {tol : ℝ} {c : Vec n} (h : c = 0 ∨ (0 ≤ tol ∧ tol < ‖c‖)) : effFdt tol c = c := by
  unfold effFdt
  rcases h with rfl | h
  · split <;> rfl
  · rw [if_pos h]

theorem remainder_zero (A : Mat n) (b c y yr : Vec n) (t tr : ℝ) :
    (A *ᵥ yr + tr • c + b) - (A *ᵥ y + t • c + b) - A *ᵥ (yr - y) - (tr - t) • c = 0 := by
  rw [Matrix.mulVec_sub, sub_smul]
  abel

/-- Rosenbrock-type methods that integrate inhomogeneous systems -/
def rosMethods : List String :=
  ["exprb2", "exprb3", "pexprb4", "epi2", "epi3", "exprb2_dense", "exprb2_pfd", "exprb2_pfd_rs"]

/-- the methods that always use the time derivative -/
def alwaysCorrected : List String := ["epi2", "exprb2_dense"]

/-- **C34, one step.** For `y' = A y + t c + b`, any Rosenbrock or EPI method with exact phi kernels, at any time, state on
a solution `Y`, step size and history, returns the solution value at `t + dt`, provided the time-derivative
correction is active (`c = 0`, or `tol_fdt ≥ 0` and the max norm of `c` exceeds it) or the method always applies it. -/
theorem C34_step {K : Kernels n} (hK : ExactKernels K) (hasRust : Bool) (sys : OdeSys n P) {A : Mat n} {b c : Vec n}
    (hsys : ForcedSys sys A b c) {Y : ℝ → Vec n} (hY : Solves A b c Y) (s : ExpRB n) (t : ℝ) (hs : At s.base t (Y t))
    (hlen : s.base.tHist.items.length = s.base.yHist.items.length) (dt : ℝ) (kw : Option P)
    (hm : s.base.method ∈ rosMethods) (hrust : s.base.method = "exprb2_pfd_rs" → hasRust = true)
    (hc : c = 0 ∨ (0 ≤ s.tolFdt ∧ s.tolFdt < ‖c‖) ∨ s.base.method ∈ alwaysCorrected) :
    ∃ r, ExpRB.step hasRust K sys s dt kw = .ok r ∧ r.t = t + dt ∧ r.y = Y (t + dt) := by
  have hflow := rosEuler_flow hY t dt 1
  rw [one_mul] at hflow
  have heff : s.base.method ∉ alwaysCorrected → effFdt s.tolFdt c = c := fun h =>
    effFdt_active (by rcases hc with h' | h' | h'; exacts [Or.inl h', Or.inr h', absurd h' h])
  have hrz : ∀ y yr tr, sys.frhs none tr yr - (A *ᵥ y + t • c + b) - A *ᵥ (yr - y) - (tr - t) • c = 0 := by
    intro y yr tr
    rw [hsys.frhs]
    exact remainder_zero A b c y yr t tr
  have hrz1 : ∀ y yr, sys.frhs none (t + dt) yr - (A *ᵥ y + t • c + b) - A *ᵥ (yr - y) - dt • c = 0 := by
    intro y yr
    have := hrz y yr (t + dt)
    rwa [add_sub_cancel_left] at this
  have hrz2 : ∀ y yr, sys.frhs none (t + 1 / 2 * dt) yr - (A *ᵥ y + t • c + b) - A *ᵥ (yr - y) - (1 / 2 * dt) • c = 0 := by
    intro y yr
    have := hrz y yr (t + 1 / 2 * dt)
    rwa [add_sub_cancel_left] at this
  have h3 : s.base.method ∉ alwaysCorrected → ∀ kw, ∃ r, stepExprb3 K sys s dt kw = .ok r ∧ r.t = t + dt ∧ r.y = Y (t + dt) := by
    intro hna kw
    refine ⟨_, exprb3_closed hK sys s hs dt kw A (hsys.jacMat _ _ _), rfl, ?_⟩
    simp only [hsys.jacFdt, hsys.jacRhs, heff hna, hrz1, Matrix.mulVec_zero, smul_zero, add_zero]
    exact hflow
  unfold ExpRB.step
  simp only
  simp only [rosMethods, List.mem_cons, List.not_mem_nil, or_false] at hm
  rcases hm with hm | hm | hm | hm | hm | hm | hm | hm <;> rw [hm] at heff h3 hrust ⊢ <;>
    simp only [String.reduceEq, if_true, if_false, false_and, true_and]
  · refine ⟨_, exprb2_closed hK sys s hs dt _ A (hsys.jacMat _ _ _), rfl, ?_⟩
    simp only [hsys.jacFdt, hsys.jacRhs, heff (by decide)]
    exact hflow
  · exact h3 (by decide) _
  · refine ⟨_, pexprb4_closed hK sys s hs dt _ A (hsys.jacMat _ _ _), rfl, ?_⟩
    simp only [hsys.jacFdt, hsys.jacRhs, heff (by decide), hrz1, hrz2, Matrix.mulVec_zero, smul_zero, add_zero, sub_zero]
    exact hflow
  · refine ⟨_, epi2_closed hK sys s hs dt _ A (hsys.jacMat _ _ _), rfl, ?_⟩
    simp only [hsys.jacFdt, hsys.jacRhs]
    exact hflow
  · split
    · rename_i hl
      have hl : 2 ≤ s.base.yHist.items.length := hl
      obtain ⟨yp, hyp⟩ := get_tot (d := s.base.yHist) (i := 1) (by omega)
      obtain ⟨tp, htp⟩ := get_tot (d := s.base.tHist) (i := 1) (by omega)
      refine ⟨_, epi3_closed hK sys s hs dt _ A (hsys.jacMat _ _ _) tp yp htp hyp, rfl, ?_⟩
      simp only [hsys.jacFdt, hsys.jacRhs, hrz, Matrix.mulVec_zero, smul_zero, add_zero]
      exact hflow
    · exact h3 (by decide) _
  · refine ⟨_, exprb2Dense_closed hK sys s hs dt A (hsys.jacDense _ _ _), rfl, ?_⟩
    simp only [hsys.jacFdt, hsys.jacRhs]
    exact hflow
  · refine ⟨_, exprb2Pfd_closed hK sys s hs dt _ A (hsys.jacDense _ _ _), rfl, ?_⟩
    simp only [hsys.jacFdt, hsys.jacRhs, heff (by decide)]
    exact hflow
  · have hr := hrust rfl
    simp only [hr, if_true]
    refine ⟨_, exprb2PfdRs_closed hK sys s hs dt A (hsys.jacDense _ _ _), rfl, ?_⟩
    simp only [hsys.jacFdt, hsys.jacRhs, heff (by decide)]
    exact hflow

/-- **C34, dropped correction.** If the check is disabled (`tol_fdt < 0`) or the max norm of `c` does not exceed
`tol_fdt`, `exprb2` misses exactly the term `dt^2 phi_2(dt A) c`. -/
theorem C34_dropped {K : Kernels n} (hK : ExactKernels K) (hasRust : Bool) (sys : OdeSys n P) {A : Mat n} {b c : Vec n}
    (hsys : ForcedSys sys A b c) {Y : ℝ → Vec n} (hY : Solves A b c Y) (s : ExpRB n) (t : ℝ) (hs : At s.base t (Y t))
    (dt : ℝ) (kw : Option P) (hm : s.base.method = "exprb2") (hc : s.tolFdt < 0 ∨ ‖c‖ ≤ s.tolFdt) :
    ∃ r, ExpRB.step hasRust K sys s dt kw = .ok r ∧ r.t = t + dt ∧
      r.y = Y (t + dt) - dt ^ 2 • (phiM 2 (dt • A) *ᵥ c) := by
  have hflow := rosEuler_flow hY t dt 1
  rw [one_mul] at hflow
  unfold ExpRB.step
  simp only [hm, if_true]
  refine ⟨_, exprb2_closed hK sys s hs dt _ A (hsys.jacMat _ _ _), rfl, ?_⟩
  have he : effFdt s.tolFdt c = 0 := by
    unfold effFdt
    rw [if_neg]
    rintro ⟨h1, h2⟩
    rcases hc with h | h <;> linarith
  simp only [hsys.jacFdt, hsys.jacRhs, he]
  rw [← hflow]
  simp [rosEuler]

/-- **C33, one step.** For `y' = A y + b`, whatever the tolerance `tol_fdt` (and whether or not `A` is singular), every
Rosenbrock or EPI method with exact kernels returns the exact solution at `t + dt`. -/
theorem C33_affine {K : Kernels n} (hK : ExactKernels K) (hasRust : Bool) (sys : OdeSys n P) {A : Mat n} {b : Vec n}
    (hsys : ForcedSys sys A b 0) {Y : ℝ → Vec n} (hY : Solves A b 0 Y) (s : ExpRB n) (t : ℝ) (hs : At s.base t (Y t))
    (hlen : s.base.tHist.items.length = s.base.yHist.items.length) (dt : ℝ) (kw : Option P)
    (hm : s.base.method ∈ rosMethods) (hrust : s.base.method = "exprb2_pfd_rs" → hasRust = true) :
    ∃ r, ExpRB.step hasRust K sys s dt kw = .ok r ∧ r.t = t + dt ∧ r.y = Y (t + dt) :=
  C34_step hK hasRust sys hsys hY s t hs hlen dt kw hm hrust (Or.inl rfl)

/-- **C33, homogeneous systems.** The methods `exp_pfd` and `exp_pfd_rs`, which apply `phi_0(dt J)` to the state, are exact
for `y' = A y`. -/
theorem C33_homogeneous {K : Kernels n} (hK : ExactKernels K) (hasRust : Bool) (sys : OdeSys n P) {A : Mat n}
    (hsys : ForcedSys sys A 0 0) {Y : ℝ → Vec n} (hY : Solves A 0 0 Y) (s : ExpRB n) (t : ℝ) (hs : At s.base t (Y t))
    (dt : ℝ) (kw : Option P) (hm : s.base.method = "exp_pfd" ∨ s.base.method = "exp_pfd_rs" ∧ hasRust = true) :
    ∃ r, ExpRB.step hasRust K sys s dt kw = .ok r ∧ r.t = t + dt ∧ r.y = Y (t + dt) := by
  unfold ExpRB.step
  simp only
  rcases hm with hm | ⟨hm, hr⟩ <;> rw [hm]
  · simp only [String.reduceEq, if_true, if_false]
    exact ⟨_, expPfd_closed hK sys s hs dt _ A (hsys.jacDense _ _ _), rfl, homogeneous_flow hY t dt⟩
  · simp only [String.reduceEq, hr, if_true, if_false, true_and, false_and]
    exact ⟨_, expPfdRs_closed hK sys s hs dt A (hsys.jacDense _ _ _), rfl, homogeneous_flow hY t dt⟩

/-! ### splitting methods -/

theorem exp2_flow {A : Mat n} {b c : Vec n} {Y : ℝ → Vec n} (hY : Solves A b c Y) (t dt cc : ℝ) (hcc : cc ≠ 0) :
    exp2Update (fun t y => A *ᵥ y + t • c + b) A t (Y t) dt cc = Y (t + dt) := by
  have hflow := rosEuler_flow hY t dt 1
  rw [one_mul] at hflow
  rw [← hflow]
  unfold exp2Update rosEuler
  simp only
  have e : ∀ y y2 : Vec n, A *ᵥ y2 + (t + cc * dt) • c + b - (A *ᵥ y + t • c + b) - A *ᵥ (y2 - y) = (cc * dt) • c := by
    intro y y2
    rw [Matrix.mulVec_sub, add_smul]
    abel
  rw [e, Matrix.mulVec_smul, smul_smul, one_mul, one_pow, one_mul]
  congr 2
  field_simp

theorem exp3_flow {A : Mat n} {b c : Vec n} {Y : ℝ → Vec n} (hY : Solves A b c Y) (t dt : ℝ) :
    exp3Update (fun t y => A *ᵥ y + t • c + b) A t (Y t) dt = Y (t + dt) := by
  have hflow := rosEuler_flow hY t dt 1
  rw [one_mul] at hflow
  rw [← hflow]
  unfold exp3Update rosEuler
  simp only
  have e : ∀ y y2 : Vec n, A *ᵥ y2 + (t + 2 / 3 * dt) • c + b - (A *ᵥ y + t • c + b) - A *ᵥ (y2 - y) = (2 / 3 * dt) • c := by
    intro y y2
    rw [Matrix.mulVec_sub, add_smul]
    abel
  rw [e, Matrix.mulVec_smul, smul_smul, one_mul, one_pow, one_mul]
  congr 2
  ring

/-- **C35, one step.** For `y' = A y + t c + b` with the constant splitting operator `L = A`, all six splitting methods with
exact kernels return the exact solution at `t + dt` (the one-stage ones when `c = 0`), whatever steps, accepted or not,
were made before (`Coherent` holds after every history of calls, `run_coherent`). -/
theorem C35_split {K : Kernels n} (hK : ExactKernels K) (sys : OdeSys n P) {A : Mat n} {b c : Vec n}
    (hsys : ForcedSys sys A b c) (lop : LinOp n) (hl : ∀ t y, sys.fl t y = lop) (hd : lop.dense = .ok A)
    (hL : IsMatrix lop A) {Y : ℝ → Vec n} (hY : Solves A b c Y) (s : ExpSplit n) (t : ℝ) (hs : At s.base t (Y t))
    (hco : Coherent K lop s) (dt : ℝ) (kw : Option P)
    (hm : s.base.method ∈ ["exp1", "exp2", "exp3", "exp1_dense", "exp2_dense", "exp3_dense"])
    (hc : s.base.method ∈ ["exp1", "exp1_dense"] → c = 0) :
    ∃ r s', ExpSplit.step K sys s dt kw = .ok (r, s') ∧ s'.base = s.base ∧ r.t = t + dt ∧ r.y = Y (t + dt) := by
  have hfr : sys.frhs none = fun t y => A *ᵥ y + t • c + b := by
    funext t y; exact hsys.frhs none t y
  have hLm : ∀ t y, IsMatrix (sys.fl t y) A := fun t y => by rw [hl]; exact hL
  have hflow := rosEuler_flow hY t dt 1
  rw [one_mul] at hflow
  have h1 : c = 0 → Y t + dt • (phiM 1 (dt • A) *ᵥ sys.frhs none t (Y t)) = Y (t + dt) := by
    intro h
    rw [← hflow, hsys.frhs]
    subst h
    simp [rosEuler]
  unfold ExpSplit.step
  simp only
  simp only [List.mem_cons, List.not_mem_nil, or_false] at hm
  rcases hm with hm | hm | hm | hm | hm | hm <;> rw [hm] at hc ⊢ <;> simp only [String.reduceEq, if_true, if_false]
  · rw [exp1_closed hK sys s hs dt A (hLm _ _)]
    exact ⟨_, s, rfl, rfl, rfl, h1 (hc (by simp))⟩
  · rw [exp2_closed hK sys s hs dt A (hLm _ _)]
    exact ⟨_, s, rfl, rfl, rfl, by rw [hfr]; exact exp2_flow hY t dt 1 one_ne_zero⟩
  · rw [exp3_closed hK sys s hs dt A (hLm _ _)]
    exact ⟨_, s, rfl, rfl, rfl, by rw [hfr]; exact exp3_flow hY t dt⟩
  · obtain ⟨s', h, hb'⟩ := exp1Dense_closed hK sys s hs dt A lop hl hd hco hm
    exact ⟨_, s', h, hb', rfl, h1 (hc (by simp))⟩
  · obtain ⟨s', h, hb'⟩ := exp2Dense_closed hK sys s hs dt A lop hl hd hL hco hm
    exact ⟨_, s', h, hb', rfl, by rw [hfr]; exact exp2_flow hY t dt (2 / 3) (by norm_num)⟩
  · obtain ⟨s', h, hb'⟩ := exp3Dense_closed hK sys s hs dt A lop hl hd hL hco hm
    exact ⟨_, s', h, hb', rfl, by rw [hfr]; exact exp3_flow hY t dt⟩

/-! ### whole runs -/

theorem at_init {t0 : ℝ} {y0 : Vec n} {p : ℕ} {m : String} {b : Base (Vec n)} (h : Base.init t0 y0 p m = .ok b) : At b t0 y0 := by
  unfold Base.init at h
  split at h
  · rename_i hp
    cases h
    obtain ⟨q, rfl⟩ : ∃ q, p = q + 1 := ⟨p - 1, by omega⟩
    exact ⟨rfl, rfl, rfl⟩
  · cases h

theorem at_accept {b : Base (Vec n)} (h : 0 < b.yHist.maxlen ∧ b.tHist.maxlen = b.yHist.maxlen) (r : StepResult (Vec n)) :
    At (b.acceptStep r) r.t r.y := by
  obtain ⟨h1, h2⟩ := h
  refine ⟨rfl, ?_, ?_⟩
  · obtain ⟨q, hq⟩ : ∃ q, b.tHist.maxlen = q + 1 := ⟨b.tHist.maxlen - 1, by omega⟩
    simp [Base.acceptStep, Deque.appendleft, Deque.get, hq]
  · obtain ⟨q, hq⟩ : ∃ q, b.yHist.maxlen = q + 1 := ⟨b.yHist.maxlen - 1, by omega⟩
    simp [Base.acceptStep, Deque.appendleft, Deque.get, hq]

/-- If every step from a state on the curve `Y` lands on `Y`, the whole run follows `Y`. -/
theorem run_follow {σ Q W : Type} (I : Stepper σ P (Vec n)) (Inv : σ → ℝ → Prop) (Y : ℝ → Vec n) (dt : ℝ)
    (hs : ∀ o t kw, Inv o t → ∃ r o', I.step o dt kw = .ok (r, o') ∧ r.t = t + dt ∧ r.y = Y (t + dt) ∧
      Inv (I.accept o' r) (t + dt))
    (obj : σ) (t0 : ℝ) (h0 : Inv obj t0) (nsteps : ℕ) (before : Option (W → ℝ → Vec n → P × W))
    (after : Option (W → ℝ → Vec n → Q × W)) (w : W) :
    ∃ l, integrateOrmatex I obj (Y t0) t0 dt nsteps before after w = .ok l ∧
      l.tRes = (List.range (nsteps + 1)).map (fun i : ℕ => t0 + i * dt) ∧
      l.yRes = (List.range (nsteps + 1)).map (fun i : ℕ => Y (t0 + i * dt)) := by
  have key : ∀ (k j : ℕ) (l : LoopState σ P Q W (Vec n)), Inv l.obj (t0 + j * dt) →
      l.tRes = (List.range (j + 1)).map (fun i : ℕ => t0 + i * dt) →
      l.yRes = (List.range (j + 1)).map (fun i : ℕ => Y (t0 + i * dt)) →
      ∃ l', loopN I t0 (Y t0) dt before after k l = .ok l' ∧
        l'.tRes = (List.range (j + k + 1)).map (fun i : ℕ => t0 + i * dt) ∧
        l'.yRes = (List.range (j + k + 1)).map (fun i : ℕ => Y (t0 + i * dt)) := by
    intro k
    induction k with
    | zero => intro j l _ h1 h2; exact ⟨l, rfl, h1, h2⟩
    | succ k ih =>
      intro j l hl h1 h2
      obtain ⟨r, o', e1, e2, e3, e4⟩ := hs l.obj _
        (callBefore before l.world (l.tRes.getLastD t0) (l.yRes.getLastD (Y t0)) l.cbBefore).1 hl
      have hj : t0 + (j : ℝ) * dt + dt = t0 + ((j + 1 : ℕ) : ℝ) * dt := by push_cast; ring
      rw [hj] at e2 e3 e4
      have hb : ∃ l1, loopBody I t0 (Y t0) dt before after l = .ok l1 ∧ l1.obj = I.accept o' r ∧
          l1.tRes = l.tRes ++ [r.t] ∧ l1.yRes = l.yRes ++ [r.y] := by
        unfold loopBody
        simp only [e1]
        exact ⟨_, rfl, rfl, rfl, rfl⟩
      obtain ⟨l1, hl1, ho, ht, hy⟩ := hb
      obtain ⟨l2, hl2, g1, g2⟩ := ih (j + 1) l1 (by rw [ho]; exact e4)
        (by rw [ht, h1, e2, List.range_succ (n := j + 1), List.map_append]; rfl)
        (by rw [hy, h2, e3, List.range_succ (n := j + 1), List.map_append]; rfl)
      refine ⟨l2, ?_, ?_, ?_⟩
      · show (loopBody I t0 (Y t0) dt before after l >>= _) = _
        rw [hl1]
        exact hl2
      · rw [g1, show j + 1 + k + 1 = j + (k + 1) + 1 by ring]
      · rw [g2, show j + 1 + k + 1 = j + (k + 1) + 1 by ring]
  obtain ⟨l, h1, h2, h3⟩ := key nsteps 0
    { obj := obj, tRes := [t0], yRes := [Y t0], cbBefore := [], cbAfter := [], world := w }
    (by simpa using h0) (by simp) (by simp)
  rw [zero_add] at h2 h3
  exact ⟨l, h1, h2, h3⟩

/-- **C36, Rosenbrock family.** `integrate` on `y' = A y + t c + b` from `y0 = Y(t0)` with any Rosenbrock or EPI method,
exact kernels and any callbacks returns exactly `Y(t0 + i dt)` at every output time, for every step size and number
of steps. -/
theorem C36_run {K : Kernels n} (hK : ExactKernels K) {Q W : Type} (hasRust : Bool) (sys : OdeSys n P) {A : Mat n}
    {b c : Vec n} (hsys : ForcedSys sys A b c) {Y : ℝ → Vec n} (hY : Solves A b c Y) (t0 : ℝ) (m : String) (tol : ℝ)
    (s : ExpRB n) (hnew : ExpRB.new hasRust t0 (Y t0) m tol = .ok s) (hm : m ∈ rosMethods)
    (hc : c = 0 ∨ (0 ≤ tol ∧ tol < ‖c‖) ∨ m ∈ alwaysCorrected) (dt : ℝ) (nsteps : ℕ)
    (before : Option (W → ℝ → Vec n → P × W)) (after : Option (W → ℝ → Vec n → Q × W)) (w : W) :
    ∃ l, integrateOrmatex (rbStepper hasRust K sys) s (Y t0) t0 dt nsteps before after w = .ok l ∧
      l.tRes = (List.range (nsteps + 1)).map (fun i : ℕ => t0 + i * dt) ∧
      l.yRes = (List.range (nsteps + 1)).map (fun i : ℕ => Y (t0 + i * dt)) := by
  have hr : m = "exprb2_pfd_rs" → hasRust = true := fun h =>
    ((C09_construct_rb hasRust t0 (Y t0) m tol).1.2 ⟨s, hnew⟩).2 (Or.inl h)
  refine run_follow _ (fun (o : ExpRB n) t => At o.base t (Y t) ∧ o.base.method = m ∧ o.tolFdt = tol ∧
    (Nonempty2 o.base ∧ 0 < o.base.yHist.maxlen ∧ o.base.tHist.maxlen = o.base.yHist.maxlen)) Y dt ?_ s t0 ?_ nsteps _ _ _
  · rintro o t kw ⟨h1, h2, h3, h4⟩
    obtain ⟨r, e1, e2, e3⟩ := C34_step hK hasRust sys hsys hY o t h1 h4.1.2 dt kw (by rw [h2]; exact hm)
      (by rw [h2]; exact hr) (by rw [h2, h3]; exact hc)
    refine ⟨r, o, ?_, e2, e3, ?_, h2, h3, accept_nonempty h4 r⟩
    · show keep o (ExpRB.step hasRust K sys o dt kw) = _
      rw [e1]; rfl
    · have := at_accept h4.2 r
      rwa [e2, e3] at this
  · unfold ExpRB.new at hnew
    split at hnew
    · cases hnew
    · split at hnew
      · cases hnew
      · rename_i o _ _
        cases hb : Base.init t0 (Y t0) o m with
        | error e => rw [hb] at hnew; cases hnew
        | ok bb =>
          rw [hb] at hnew
          cases hnew
          refine ⟨at_init hb, ?_, rfl, init_nonempty hb⟩
          unfold Base.init at hb
          split at hb
          · cases hb; rfl
          · cases hb

/-- **C36, splitting family.** -/
theorem C36_run_split {K : Kernels n} (hK : ExactKernels K) {Q W : Type} (sys : OdeSys n P) {A : Mat n}
    {b c : Vec n} (hsys : ForcedSys sys A b c) (lop : LinOp n) (hl : ∀ t y, sys.fl t y = lop) (hd : lop.dense = .ok A)
    (hL : IsMatrix lop A) {Y : ℝ → Vec n} (hY : Solves A b c Y) (t0 : ℝ) (m : String)
    (s : ExpSplit n) (hnew : ExpSplit.new t0 (Y t0) m = .ok s) (hc : m ∈ ["exp1", "exp1_dense"] → c = 0)
    (dt : ℝ) (nsteps : ℕ)
    (before : Option (W → ℝ → Vec n → P × W)) (after : Option (W → ℝ → Vec n → Q × W)) (w : W) :
    ∃ l, integrateOrmatex (splitStepper K sys) s (Y t0) t0 dt nsteps before after w = .ok l ∧
      l.tRes = (List.range (nsteps + 1)).map (fun i : ℕ => t0 + i * dt) ∧
      l.yRes = (List.range (nsteps + 1)).map (fun i : ℕ => Y (t0 + i * dt)) := by
  obtain ⟨a1, a2, _⟩ := C09_construct_others (n := n) t0 (Y t0) m
  have hm := a1.1 ⟨s, hnew⟩
  refine run_follow _ (fun (o : ExpSplit n) t => At o.base t (Y t) ∧ o.base.method = m ∧ Coherent K lop o ∧
    (Nonempty2 o.base ∧ 0 < o.base.yHist.maxlen ∧ o.base.tHist.maxlen = o.base.yHist.maxlen)) Y dt ?_ s t0 ?_ nsteps _ _ _
  · rintro o t kw ⟨h1, h2, h3, h4⟩
    obtain ⟨r, o', e1, hb', e2, e3⟩ := C35_split hK sys hsys lop hl hd hL hY o t h1 h3 dt kw (by rw [h2]; exact hm)
      (by rw [h2]; exact hc)
    rw [← hb'] at h4
    refine ⟨r, o', e1, e2, e3, ?_, by rw [← h2, ← hb']; rfl, ?_, accept_nonempty h4 r⟩
    · have := at_accept h4.2 r
      rwa [e2, e3] at this
    · have := dense_step_coherent K sys lop hl o o' h3 dt kw r e1
      exact this
  · have hco : Coherent K lop s := new_coherent K lop hnew
    have hmm := (a2 s hnew).1
    unfold ExpSplit.new at hnew
    split at hnew
    · cases hnew
    · rename_i o _
      cases hb : Base.init t0 (Y t0) o m with
      | error e => rw [hb] at hnew; cases hnew
      | ok bb =>
        rw [hb] at hnew
        cases hnew
        exact ⟨at_init hb, hmm, hco, init_nonempty hb⟩

/-- Solutions exist: the hypotheses of C33-C36 are met for every `A`, `b`, `c` and initial value. -/
theorem solves_exists (A : Mat n) (b c y0 : Vec n) (t0 : ℝ) : ∃ Y, Solves A b c Y ∧ Y t0 = y0 := by
  refine ⟨fun s => phiM 0 ((s - t0) • A) *ᵥ y0 + ((s - t0) ^ 1 • phiM 1 ((s - t0) • A)) *ᵥ (t0 • c + b)
    + ((s - t0) ^ 2 • phiM 2 ((s - t0) • A)) *ᵥ c, ?_, ?_⟩
  · intro s
    have hsub : HasDerivAt (fun s : ℝ => s - t0) 1 s := (hasDerivAt_id s).sub_const t0
    have h0 := hasDerivAt_mulVec_const (hasDerivAt_phiM_zero A (s - t0)) y0
    have h1 := hasDerivAt_mulVec_const (hasDerivAt_phiM_succ 0 A (s - t0)) (t0 • c + b)
    have h2 := hasDerivAt_mulVec_const (hasDerivAt_phiM_succ 1 A (s - t0)) c
    refine (((h0.add h1).add h2).scomp s hsub).congr_deriv ?_
    have r0 := phiM_recurrence 0 ((s - t0) • A)
    have r1 := phiM_recurrence 1 ((s - t0) • A)
    norm_num at r0 r1
    simp only [one_smul, pow_zero, pow_one]
    have e0 : phiM 0 ((s - t0) • A) = 1 + (s - t0) • (A * phiM 1 ((s - t0) • A)) := by rw [r0]; abel
    have e1 : phiM 1 ((s - t0) • A) = 1 + (s - t0) • (A * phiM 2 ((s - t0) • A)) := by rw [r1]; abel
    have hw : s • c + b = (s - t0) • c + (t0 • c + b) := by rw [sub_smul]; abel
    generalize t0 • c + b = w at *
    have g1 : phiM 0 ((s - t0) • A) *ᵥ w = w + (A * ((s - t0) • phiM 1 ((s - t0) • A))) *ᵥ w := by
      conv_lhs => rw [e0]
      rw [Matrix.add_mulVec, Matrix.one_mulVec, Matrix.mul_smul]
    have g2 : ((s - t0) • phiM 1 ((s - t0) • A)) *ᵥ c = (s - t0) • c + (A * ((s - t0) ^ 2 • phiM 2 ((s - t0) • A))) *ᵥ c := by
      conv_lhs => rw [e1]
      rw [smul_add, Matrix.add_mulVec, Matrix.smul_mulVec, Matrix.one_mulVec, smul_smul, Matrix.mul_smul, sq]
    rw [g1, g2, Matrix.mulVec_add, Matrix.mulVec_add, Matrix.mulVec_mulVec, Matrix.mulVec_mulVec,
      Matrix.mulVec_mulVec]
    simp only [add_assoc] at *
    rw [hw]
    abel
  · simp [phiM_at_zero]

/-- The hypotheses of C33-C36 hold together for a forced rotation in the plane, every Rosenbrock method and a run from
time 3. -/
example : ∃ (A : Mat 2) (b c : Vec 2) (Y : ℝ → Vec 2) (s : ExpRB 2), A ≠ 0 ∧ c ≠ 0 ∧ Solves A b c Y ∧ Y 3 = ![1, 2] ∧
    ForcedSys (OdeSys.ofFrhs (P := List ℕ) (fun _ t y => A *ᵥ y + t • c + b) fun _ _ => LinOp.mk (fun v => A *ᵥ v) (.ok A)) A b c ∧
    ExpRB.new false 3 (Y 3) "exprb3" 0 = .ok s ∧ "exprb3" ∈ rosMethods ∧ (0 : ℝ) < ‖c‖ ∧ ExactKernels (exactKernels 2) := by
  obtain ⟨Y, h1, h2⟩ := solves_exists !![0, 1; -1, 0] ![1, 0] ![0, 1] ![1, 2] 3
  have hc : (![0, 1] : Vec 2) ≠ 0 := fun h => by simpa using congrFun h 1
  exact ⟨!![0, 1; -1, 0], ![1, 0], ![0, 1], Y, _, fun h => by simpa using congrFun (congrFun h 0) 1, hc, h1, h2,
    forcedSys_autodiff _ _ _ _, rfl, by decide, norm_pos_iff.2 hc, exactKernels_exact 2⟩

end
end Ormatex.Props
