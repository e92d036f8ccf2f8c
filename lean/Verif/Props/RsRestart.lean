/-
C129: checkpoint and restart of the integrators of the Rust crate, through the Python binding.
-/
import Verif.Props.RsPositive
import Verif.Model.RsWrapper

namespace Ormatex.Props
open Matrix Ormatex.Spec Ormatex.Rs

variable {n : ℕ}

section generic
variable {σ : Type}

theorem outLoop_acc (I : Integrator σ n) (dt : ℝ) (r : ℕ) : ∀ (i : ℕ) (s : σ) (ys : List (Vec n)) (ts : List ℝ),
    outLoop I dt 1 r i s ys ts = (outLoop I dt 1 r 0 s [] []).map fun o => (ys ++ o.1, ts ++ o.2) := by
  induction r with
  | zero =>
    intro i s ys ts
    simp only [outLoop, Bind.bind, Except.bind, Pure.pure, Except.pure]
    cases I.state s <;> simp [Except.map]
  | succ r ih =>
    intro i s ys ts
    simp only [outLoop, one_ne_zero, if_false, Nat.mod_one, if_true, Bind.bind, Except.bind, Pure.pure, Except.pure]
    cases I.state s with
    | error e => rfl
    | ok y =>
      simp only
      cases I.step s dt with
      | error e => cases e <;> rfl
      | ok res =>
        simp only
        rw [ih (i + 1) (I.accept s res) (ys ++ [y]) (ts ++ [I.time s]), ih (0 + 1) (I.accept s res) ([] ++ [y]) ([] ++ [I.time s])]
        cases outLoop I dt 1 r 0 (I.accept s res) [] [] <;> simp [Except.map]

/-- one pass of the loop that writes every state -/
theorem outLoop_succ (I : Integrator σ n) (dt : ℝ) (r : ℕ) (s : σ) {y : Vec n} (hy : I.state s = .ok y) :
    outLoop I dt 1 (r + 1) 0 s [] [] = match I.step s dt with
      | .ok res => (outLoop I dt 1 r 0 (I.accept s res) [] []).map fun o => (y :: o.1, I.time s :: o.2)
      | .error .nan => .error .nan
      | .error _ => .error .panic := by
  simp only [outLoop, one_ne_zero, if_false, Nat.mod_one, if_true, Bind.bind, Except.bind, Pure.pure, Except.pure, hy]
  cases I.step s dt with
  | error e => cases e <;> rfl
  | ok res =>
    simp only
    rw [outLoop_acc]
    rfl

theorem outLoop_zero (I : Integrator σ n) (dt : ℝ) (s : σ) {y : Vec n} (hy : I.state s = .ok y) :
    outLoop I dt 1 0 0 s [] [] = .ok ([y], [I.time s]) := by
  simp [outLoop, hy, Bind.bind, Except.bind, Pure.pure, Except.pure]

/-- objects at the same point of the same method give the same output -/
theorem outLoop_same (I : Integrator σ n) (dt : ℝ) (Inv : σ → ℝ → Vec n → Prop)
    (hat : ∀ s t y, Inv s t y → I.state s = .ok y ∧ I.time s = t)
    (hstep : ∀ s t y r, Inv s t y → I.step s dt = .ok r → Inv (I.accept s r) r.t r.y)
    (hsame : ∀ s s' t y, Inv s t y → Inv s' t y → I.step s dt = I.step s' dt) (r : ℕ) :
    ∀ (s s' : σ) (t : ℝ) (y : Vec n), Inv s t y → Inv s' t y → outLoop I dt 1 r 0 s [] [] = outLoop I dt 1 r 0 s' [] [] := by
  induction r with
  | zero =>
    intro s s' t y h h'
    rw [outLoop_zero I dt s (hat s t y h).1, outLoop_zero I dt s' (hat s' t y h').1, (hat s t y h).2, (hat s' t y h').2]
  | succ r ih =>
    intro s s' t y h h'
    rw [outLoop_succ I dt r s (hat s t y h).1, outLoop_succ I dt r s' (hat s' t y h').1, hsame s s' t y h h', (hat s t y h).2, (hat s' t y h').2]
    cases hs : I.step s' dt with
    | error e => cases e <;> rfl
    | ok res =>
      simp only
      rw [ih (I.accept s res) (I.accept s' res) res.t res.y (hstep s t y res h (by rw [hsame s s' t y h h', hs])) (hstep s' t y res h' hs)]

/-- the first output is the starting point -/
theorem outLoop_head (I : Integrator σ n) (dt : ℝ) (r : ℕ) (s : σ) {y : Vec n} (hy : I.state s = .ok y) {o : List (Vec n) × List ℝ}
    (h : outLoop I dt 1 r 0 s [] [] = .ok o) : ∃ ys ts, o = (y :: ys, I.time s :: ts) := by
  cases r with
  | zero =>
    rw [outLoop_zero I dt s hy] at h
    cases h
    exact ⟨[], [], rfl⟩
  | succ r =>
    rw [outLoop_succ I dt r s hy] at h
    cases hs : I.step s dt with
    | error e => rw [hs] at h; cases e <;> cases h
    | ok res =>
      rw [hs] at h
      simp only at h
      cases ho : outLoop I dt 1 r 0 (I.accept s res) [] [] with
      | error e => rw [ho] at h; cases h
      | ok o' => rw [ho] at h; cases h; exact ⟨_, _, rfl⟩

theorem outLoop_restart (I : Integrator σ n) (dt : ℝ) (Inv : σ → ℝ → Vec n → Prop)
    (hat : ∀ s t y, Inv s t y → I.state s = .ok y ∧ I.time s = t)
    (hstep : ∀ s t y r, Inv s t y → I.step s dt = .ok r → Inv (I.accept s r) r.t r.y)
    (hsame : ∀ s s' t y, Inv s t y → Inv s' t y → I.step s dt = I.step s' dt)
    (new : ℝ → Vec n → RsM σ) (hnew : ∀ t y, ∃ s, new t y = .ok s ∧ Inv s t y) (b : ℕ) (y0 : Vec n) (t0 : ℝ) (a : ℕ) :
    ∀ (s : σ) (t : ℝ) (y : Vec n), Inv s t y →
    outLoop I dt 1 (a + b) 0 s [] [] = (do
      let r1 ← outLoop I dt 1 a 0 s [] []
      let s' ← new (r1.2.getLastD t0) (r1.1.getLastD y0)
      let r2 ← outLoop I dt 1 b 0 s' [] []
      pure (r1.1 ++ r2.1.tail, r1.2 ++ r2.2.tail)) := by
  induction a with
  | zero =>
    intro s t y h
    obtain ⟨hy, ht⟩ := hat s t y h
    obtain ⟨s', h1, h2⟩ := hnew t y
    rw [Nat.zero_add, outLoop_zero I dt s hy, ht]
    simp only [Bind.bind, Except.bind, List.getLastD_cons, List.getLastD_nil, h1]
    rw [outLoop_same I dt Inv hat hstep hsame b s' s t y h2 h]
    cases ho : outLoop I dt 1 b 0 s [] [] with
    | error e => rfl
    | ok o =>
      obtain ⟨ys, ts, rfl⟩ := outLoop_head I dt b s hy ho
      rw [ht]
      rfl
  | succ a ih =>
    intro s t y h
    obtain ⟨hy, ht⟩ := hat s t y h
    rw [show a + 1 + b = (a + b) + 1 by omega, outLoop_succ I dt (a + b) s hy, outLoop_succ I dt a s hy]
    cases hs : I.step s dt with
    | error e => cases e <;> rfl
    | ok res =>
      simp only
      have hi := hstep s t y res h hs
      rw [ih (I.accept s res) res.t res.y hi]
      cases ho : outLoop I dt 1 a 0 (I.accept s res) [] [] with
      | error e => rfl
      | ok o =>
        obtain ⟨ys, ts, rfl⟩ := outLoop_head I dt a _ (hat _ _ _ hi).1 ho
        simp only [Bind.bind, Except.bind, Except.map, List.getLastD_cons, Pure.pure, Except.pure]
        cases new (ts.getLastD (I.time (I.accept s res))) (ys.getLastD res.y) with
        | error e => rfl
        | ok s' =>
          simp only
          cases outLoop I dt 1 b 0 s' [] [] <;> rfl

end generic

/-- the solver object of the binding stands at `(t, y)` and runs the given method -/
inductive SolverAt (K : KrylovExpm) (method : String) (tol : ℝ) (t : ℝ) (y : Vec n) : Solver n → Prop
  | bdf1 {b : Bdf n} : (method = "bdf1" ∨ method = "backeuler") → b.order = 1 → b.t = t → rsGet b.yHist 0 = .ok y → SolverAt K method tol t y (.bdf b)
  | cn {b : Bdf n} : method = "cn" → b.order = 3 → b.t = t → rsGet b.yHist 0 = .ok y → SolverAt K method tol t y (.bdf b)
  | exp {e : Epirk n} : (method = "epi2" ∨ method = "exprb2" ∨ method = "exprb3") → e.method = method → e.tolFdt = tol → AtRs e t y →
      SolverAt K method tol t y (.epirk K e)

theorem fphi2V_same {K : Kern n} {sys : Sys n} {e e' : Epirk n} {t : ℝ} {y : Vec n} (h : AtRs e t y) (h' : AtRs e' t y) (ht : e.tolFdt = e'.tolFdt)
    (fy0 : Vec n) (jac : LinOp n) (dt : ℝ) : Epirk.fphi2V K sys e fy0 jac dt = Epirk.fphi2V K sys e' fy0 jac dt := by
  unfold Epirk.fphi2V Epirk.frhsFdt
  simp only [h.yNew, h'.yNew, h.time, h'.time, ht]

theorem epirk_step_same {K : Kern n} {sys : Sys n} {e e' : Epirk n} {t : ℝ} {y : Vec n} (h : AtRs e t y) (h' : AtRs e' t y)
    (hm : e.method = e'.method) (h3 : e.method ≠ "epi3") (ht : e.tolFdt = e'.tolFdt) (dt : ℝ) :
    Epirk.step K sys e dt = Epirk.step K sys e' dt := by
  unfold Epirk.step
  rw [← hm]
  simp only [if_neg h3]
  unfold Epirk.stepOrder2 Epirk.stepExprb32 Epirk.remf
  simp only [h.yNew, h'.yNew, h.time, h'.time, h.tNew, h'.tNew, fphi2V_same h h' ht]

theorem solver_restart (gmres : Gmres n) (sys : Sys n) (dt : ℝ) (K : KrylovExpm) (method : String) (tol : ℝ) :
    (∀ s t y, SolverAt K method tol t y s → (solverIntegrator gmres sys).state s = .ok y ∧ (solverIntegrator gmres sys).time s = t) ∧
    (∀ s t y r, SolverAt K method tol t y s → (solverIntegrator gmres sys).step s dt = .ok r →
      SolverAt K method tol r.t r.y ((solverIntegrator gmres sys).accept s r)) ∧
    (∀ s s' t y, SolverAt K method tol t y s → SolverAt K method tol t y s' →
      (solverIntegrator gmres sys).step s dt = (solverIntegrator gmres sys).step s' dt) := by
  refine ⟨?_, ?_, ?_⟩
  · intro s t y h
    cases h with
    | bdf1 h1 h2 h3 h4 => exact ⟨h4, h3⟩
    | cn h1 h2 h3 h4 => exact ⟨h4, h3⟩
    | exp h1 h2 h3 h4 => exact ⟨h4.yNew, h4.time⟩
  · intro s t y r h hs
    cases h with
    | bdf1 h1 h2 h3 h4 => exact .bdf1 h1 h2 rfl rfl
    | cn h1 h2 h3 h4 => exact .cn h1 h2 rfl rfl
    | exp h1 h2 h3 h4 => exact .exp h1 h2 h3 ⟨rfl, rfl, rfl⟩
  · intro s s' t y h h'
    cases h with
    | @bdf1 b h1 h2 h3 h4 =>
      cases h' with
      | @bdf1 b' g1 g2 g3 g4 =>
        show Bdf.step gmres sys b dt = Bdf.step gmres sys b' dt
        unfold Bdf.step Bdf.stepOrder1
        simp only [h2, g2, h3, g3, h4, g4]
      | cn g1 => rcases h1 with h1 | h1 <;> rw [g1] at h1 <;> exact absurd h1 (by decide)
      | exp g1 => rcases h1 with h1 | h1 <;> rcases g1 with g1 | g1 | g1 <;> rw [g1] at h1 <;> exact absurd h1 (by decide)
    | @cn b h1 h2 h3 h4 =>
      cases h' with
      | bdf1 g1 => rcases g1 with g1 | g1 <;> rw [h1] at g1 <;> exact absurd g1 (by decide)
      | @cn b' g1 g2 g3 g4 =>
        show Bdf.step gmres sys b dt = Bdf.step gmres sys b' dt
        unfold Bdf.step Bdf.stepCn
        simp only [h2, g2, h3, g3, h4, g4]
      | exp g1 => rcases g1 with g1 | g1 | g1 <;> rw [g1] at h1 <;> exact absurd h1 (by decide)
    | @exp e h1 h2 h3 h4 =>
      cases h' with
      | bdf1 g1 => rcases g1 with g1 | g1 <;> rcases h1 with h1 | h1 | h1 <;> rw [g1] at h1 <;> exact absurd h1 (by decide)
      | cn g1 => rcases h1 with h1 | h1 | h1 <;> rw [g1] at h1 <;> exact absurd h1 (by decide)
      | @exp e' g1 g2 g3 g4 =>
        show Epirk.step _ sys e dt = Epirk.step _ sys e' dt
        refine epirk_step_same h4 g4 (h2.trans g2.symm) ?_ (h3.trans g3.symm) dt
        rw [h2]
        rcases h1 with h1 | h1 | h1 <;> rw [h1] <;> decide

/-- **C129 (Rust crate).** With one of the one-step methods and every state written (the default `osteps = 1`), a run of `a + b` steps of the binding
is the run of `a` steps followed by a run of `b` steps from its last time and state; when one of them panics so does the other. -/
theorem C129_rust_partial (gmres : Gmres n) (split : ℕ → Option (Split ℕ)) (sys : Sys n) (y0 : Vec n) (t0 dt : ℝ) (a b : ℕ) (kd : Kwds)
    (hm : ∀ o, parseOpts kd = .ok o → o.osteps = 1 ∧ o.method ≠ "bdf2" ∧ o.method ≠ "epi3") :
    integrateWrapperRs gmres split sys y0 t0 dt (a + b) kd = (do
      let r1 ← integrateWrapperRs gmres split sys y0 t0 dt a kd
      let r2 ← integrateWrapperRs gmres split sys (r1.1.getLastD y0) (r1.2.getLastD t0) dt b kd
      pure (r1.1 ++ r2.1.tail, r1.2 ++ r2.2.tail)) := by
  unfold integrateWrapperRs
  cases hp : parseOpts kd with
  | error e => rfl
  | ok o =>
    obtain ⟨ho, h2, h3⟩ := hm o hp
    simp only [Bind.bind, Except.bind, ho]
    have key : (∃ e, ∀ (t : ℝ) (y : Vec n), selectSolver split t y o.method o.expmvMethod o.krylovDim o.iom o.tolFdt = .error e) ∨
        ∃ K : KrylovExpm, ∀ (t : ℝ) (y : Vec n), ∃ s, selectSolver split t y o.method o.expmvMethod o.krylovDim o.iom o.tolFdt = .ok s ∧
          SolverAt K o.method o.tolFdt t y s := by
      unfold selectSolver
      by_cases m1 : o.method = "bdf1" ∨ o.method = "backeuler"
      · simp only [if_pos m1]
        exact Or.inr ⟨⟨padeApply fun _ a => matexpRs a 1, 0, 0⟩, fun t y => ⟨_, rfl, .bdf1 m1 rfl rfl rfl⟩⟩
      · simp only [if_neg m1, if_neg h2]
        by_cases m2 : o.method = "cn"
        · simp only [if_pos m2]
          exact Or.inr ⟨⟨padeApply fun _ a => matexpRs a 1, 0, 0⟩, fun t y => ⟨_, rfl, .cn m2 rfl rfl rfl⟩⟩
        · simp only [if_neg m2, Bind.bind, Except.bind]
          cases selectExpmv split o.expmvMethod with
          | error e => exact Or.inl ⟨e, fun _ _ => rfl⟩
          | ok ev =>
            simp only
            cases KrylovExpm.new ev o.krylovDim (some o.iom) with
            | error e => exact Or.inl ⟨e, fun _ _ => rfl⟩
            | ok K =>
              simp only
              by_cases m3 : o.method = "epi2" ∨ o.method = "exprb2"
              · refine Or.inr ⟨K, fun t y => ?_⟩
                simp only [Epirk.new, if_pos m3, Bind.bind, Except.bind, Pure.pure, Except.pure, Epirk.withOpt, if_true]
                exact ⟨_, rfl, .exp (by rcases m3 with h | h <;> simp [h]) rfl rfl ⟨rfl, rfl, rfl⟩⟩
              · by_cases m4 : o.method = "epi3" ∨ o.method = "exprb3"
                · refine Or.inr ⟨K, fun t y => ?_⟩
                  simp only [Epirk.new, if_neg m3, if_pos m4, Bind.bind, Except.bind, Pure.pure, Except.pure, Epirk.withOpt, if_true]
                  exact ⟨_, rfl, .exp (Or.inr (Or.inr (m4.resolve_left h3))) rfl rfl ⟨rfl, rfl, rfl⟩⟩
                · refine Or.inl ⟨.panic, fun t y => ?_⟩
                  simp only [Epirk.new, if_neg m3, if_neg m4, Bind.bind, Except.bind]
    rcases key with ⟨e, he⟩ | ⟨K, hK⟩
    · simp only [he]
    · obtain ⟨s, hs, hat⟩ := hK t0 y0
      obtain ⟨g1, g2, g3⟩ := solver_restart gmres sys dt K o.method o.tolFdt
      rw [hs]
      simp only
      have := outLoop_restart (solverIntegrator gmres sys) dt (fun s t y => SolverAt K o.method o.tolFdt t y s) g1 g2 g3
        (fun t y => selectSolver split t y o.method o.expmvMethod o.krylovDim o.iom o.tolFdt) hK b y0 t0 a s t0 y0 hat
      simp only [Bind.bind, Except.bind] at this
      rw [this]
      cases outLoop (solverIntegrator gmres sys) dt 1 a 0 s [] [] with
      | error e => rfl
      | ok r1 =>
        simp only
        cases selectSolver split (r1.2.getLastD t0) (r1.1.getLastD y0) o.method o.expmvMethod o.krylovDim o.iom o.tolFdt <;> rfl

/-- one step of `bdf2` on the decay is a step of backward Euler -/
theorem bdf2_one (gmres : Gmres 1) (hg : ExactGmres gmres) (split : ℕ → Option (Split ℕ)) (kd : Kwds) (o : RunOpts)
    (hp : parseOpts kd = .ok o) (ho : o.osteps = 1) (hm : o.method = "bdf2") (c t0 : ℝ) :
    integrateWrapperRs gmres split (affineSys !![-1] 0) ![c] t0 4 1 kd = .ok ([![c], ![c / 5]], [t0, t0 + 4]) := by
  have hs := affineSys_affine (!![-1] : Mat 1) 0
  have e : (1 - (4 : ℝ) • (!![-1] : Mat 1)) = !![5] := by
    ext i j; fin_cases i; fin_cases j; norm_num
  have hU : IsUnit (1 - (4 : ℝ) • (!![-1] : Mat 1)).det := kinetics_unit decay_kinetics (by norm_num)
  have h := bdf_follow gmres (affineSys !![-1] 0) 2 t0 4 (fun k : ℕ => if k = 0 then ![c] else ![c / 5]) 1 o.osteps (by omega) (by
    intro s k l hk g1 g2 g3 g4 g5
    obtain rfl : k = 0 := by omega
    rw [bdf_step_2 gmres _ s 4 g1, g4, if_neg (by omega), stepOrder1_affine gmres hg hs s _ l g3 4 hU]
    congr 2
    have h1 : (if (0 : ℕ) = 0 then ![c] else ![c / 5]) + (4 : ℝ) • (0 : Vec 1) = (1 - (4 : ℝ) • (!![-1] : Mat 1)) *ᵥ ![c / 5] := by
      rw [e]; funext i; fin_cases i; simp [mulVec, dotProduct]; ring
    rw [h1, mulVec_mulVec, nonsing_inv_mul _ hU, one_mulVec]
    simp)
  refine wrap_bdf gmres split _ _ t0 4 1 kd o 2 _ hp (by unfold selectSolver; rw [hm]; simp) (h.trans ?_)
  rw [ho]
  norm_num [outputSteps, List.range_succ]

/-- **C129 is false for `bdf2`**: two steps on the decay `y' = -y` end at `-1/55`, one step continued by one step at `1/25`. -/
theorem C129_bdf2_false (gmres : Gmres 1) (hg : ExactGmres gmres) (split : ℕ → Option (Split ℕ)) (kd : Kwds) (o : RunOpts)
    (hp : parseOpts kd = .ok o) (ho : o.osteps = 1) (hm : o.method = "bdf2") :
    integrateWrapperRs gmres split (affineSys !![-1] 0) ![1] 0 4 (1 + 1) kd ≠ (do
      let r1 ← integrateWrapperRs gmres split (affineSys !![-1] 0) ![1] 0 4 1 kd
      let r2 ← integrateWrapperRs gmres split (affineSys !![-1] 0) (r1.1.getLastD ![1]) (r1.2.getLastD 0) 4 1 kd
      pure (r1.1 ++ r2.1.tail, r1.2 ++ r2.2.tail)) := by
  rw [(C126_negative gmres hg split kd o hp ho).2 hm, bdf2_one gmres hg split kd o hp ho hm]
  simp only [Bind.bind, Except.bind, List.getLastD_cons, List.getLastD_nil]
  rw [bdf2_one gmres hg split kd o hp ho hm]
  intro h
  simp only [Pure.pure, Except.pure, Except.ok.injEq, Prod.mk.injEq, List.cons_append, List.nil_append, List.tail_cons, List.cons.injEq] at h
  have := congrFun h.1.2.2.1 0
  norm_num at this

/-- the hypotheses of `C129_rust_partial` are met: a run of three steps of backward Euler -/
example : ∀ o, parseOpts (fun k => if k = "method" then some (.str "bdf1") else none) = .ok o →
    o.osteps = 1 ∧ o.method ≠ "bdf2" ∧ o.method ≠ "epi3" := by
  intro o ho
  have : parseOpts (fun k => if k = "method" then some (.str "bdf1") else none) = .ok (RunOpts.mk "bdf1" "pade" 100 2 1e-8 1e-8 1) := by
    simp [parseOpts, getValOrDefault, PyVal.asString, bind, Except.bind, pure, Except.pure]
  rw [this] at ho
  cases ho
  exact ⟨rfl, by decide, by decide⟩

end Ormatex.Props
