import Verif.Props.ConvergeStep

/-!
C91: global convergence of whole runs.  On a compact time interval on which the exact solution exists, `integrate` with any
advertised method of order `p` (except the two that only propagate the homogeneous part) returns, for every sufficiently small
step size, values within `C dt^p` of the solution at **every** output time.
-/

namespace Ormatex.Props
open Filter Asymptotics Topology Matrix Ormatex.Spec
open scoped Classical

section
variable {n : ℕ}

theorem SmoothIVP.eventually {f : ℝ → Vec n → Vec n} {m : ℕ} {t : ℝ} {Y : ℝ → Vec n} (h : SmoothIVP f m t Y) :
    ∀ᶠ s in 𝓝 t, SmoothIVP f m s Y := by
  have hY : ContinuousAt Y t := h.contDiff.continuousAt
  have h1 : ∀ᶠ q in 𝓝 ((t, Y t) : ℝ × Vec n), ContDiffAt ℝ m (fun p : ℝ × Vec n => f p.1 p.2) q := h.smooth.eventually (by simp)
  have h2 : ContinuousAt (fun s => ((s, Y s) : ℝ × Vec n)) t := continuousAt_id.prodMk hY
  filter_upwards [h2.eventually h1, eventually_eventually_nhds.2 h.sol] with s a b
  exact ⟨a, b⟩

theorem jacM_deriv (f : ℝ → Vec n → Vec n) (t : ℝ) (y : Vec n) (τ : ℝ) (v : Vec n) :
    fderiv ℝ (fun p : ℝ × Vec n => f p.1 p.2) (t, y) (τ, v) = τ • dtM f (t, y) + jacM f (t, y) *ᵥ v := by
  rw [jacM, LinearMap.toMatrix'_mulVec, dtM]
  show _ = _ + fderiv ℝ _ (t, y) (0, v)
  rw [← map_smul, ← map_add]
  congr 1
  simp

/-- the defect of a smooth step map of pointwise order `p` is `O(h^(p+1))` uniformly on a compact interval -/
theorem uniform_defect {A : Type*} [NormedAddCommGroup A] [NormedSpace ℝ A] {S : ℝ × ℝ × (Vec n × A) → Vec n} {Y : ℝ → Vec n}
    {f : ℝ → Vec n → Vec n} {β : ℝ → ℝ → A} {t0 T : ℝ} (p k : ℕ) (hk : p ≤ k)
    (hY : ∀ t ∈ Set.Icc t0 T, SmoothIVP f k t Y)
    (hS : ∀ t ∈ Set.Icc t0 T, ContDiffAt ℝ (p + 1 : ℕ) S (0, t, (Y t, β t 0)))
    (hβ : ∀ t ∈ Set.Icc t0 T, ContDiffAt ℝ (p + 1 : ℕ) (fun q : ℝ × ℝ => β q.1 q.2) (t, 0))
    (ho : ∀ t, SmoothIVP f k t Y → (fun h => S (h, t, (Y t, β t h)) - Y (t + h)) =O[𝓝 0] fun h => h ^ (p + 1)) :
    ∃ C δ : ℝ, 0 ≤ C ∧ 0 < δ ∧ ∀ t ∈ Set.Icc t0 T, ∀ h, |h| < δ → ‖S (h, t, (Y t, β t h)) - Y (t + h)‖ ≤ C * |h| ^ (p + 1) := by
  refine uniform_isBigO (e := fun q : ℝ × ℝ => S (q.2, q.1, (Y q.1, β q.1 q.2)) - Y (q.1 + q.2)) fun t ht => joint_isBigO ?_ ?_
  · have hYc : ContDiffAt ℝ (p + 1 : ℕ) Y t := (hY t ht).contDiff.of_le (by norm_cast; omega)
    have h1 : ContDiffAt ℝ (p + 1 : ℕ) (fun q : ℝ × ℝ => Y q.1) (t, 0) :=
      ContDiffAt.comp (g := Y) (f := fun q : ℝ × ℝ => q.1) (t, 0) hYc contDiffAt_fst
    have h2 : ContDiffAt ℝ (p + 1 : ℕ) (fun q : ℝ × ℝ => Y (q.1 + q.2)) (t, 0) := by
      refine ContDiffAt.comp (g := Y) (f := fun q : ℝ × ℝ => q.1 + q.2) (t, 0) ?_ (by fun_prop)
      simpa using hYc
    have h3 : ContDiffAt ℝ (p + 1 : ℕ) (fun q : ℝ × ℝ => ((q.2, q.1, (Y q.1, β q.1 q.2)) : ℝ × ℝ × (Vec n × A))) (t, 0) :=
      contDiffAt_snd.prodMk (contDiffAt_fst.prodMk (h1.prodMk (hβ t ht)))
    exact (ContDiffAt.comp (g := S) (t, 0) (hS t ht) h3).sub h2
  · filter_upwards [(hY t ht).eventually] with s hs
    exact ho s hs

/-- a loop whose steps produce the sequence `u` returns the sequence `u` -/
theorem run_seq {P σ Q W : Type} (I : Stepper σ P (Vec n)) (Inv : σ → ℕ → Prop) (u : ℕ → Vec n) (t0 dt : ℝ)
    (before : Option (W → ℝ → Vec n → P × W)) (after : Option (W → ℝ → Vec n → Q × W))
    (hs : ∀ o k kw, (before = none → kw = none) → Inv o k → ∃ r o', I.step o dt kw = .ok (r, o') ∧ r.t = t0 + k * dt + dt ∧ r.y = u (k + 1) ∧
      Inv (I.accept o' r) (k + 1))
    (obj : σ) (h0 : Inv obj 0) (nsteps : ℕ) (w : W) :
    ∃ l, integrateOrmatex I obj (u 0) t0 dt nsteps before after w = .ok l ∧
      l.tRes = (List.range (nsteps + 1)).map (fun i : ℕ => t0 + i * dt) ∧
      l.yRes = (List.range (nsteps + 1)).map u := by
  have key : ∀ (k j : ℕ) (l : LoopState σ P Q W (Vec n)), Inv l.obj j →
      l.tRes = (List.range (j + 1)).map (fun i : ℕ => t0 + i * dt) →
      l.yRes = (List.range (j + 1)).map u →
      ∃ l', loopN I t0 (u 0) dt before after k l = .ok l' ∧
        l'.tRes = (List.range (j + k + 1)).map (fun i : ℕ => t0 + i * dt) ∧
        l'.yRes = (List.range (j + k + 1)).map u := by
    intro k
    induction k with
    | zero => intro j l _ h1 h2; exact ⟨l, rfl, h1, h2⟩
    | succ k ih =>
      intro j l hl h1 h2
      obtain ⟨r, o', e1, e2, e3, e4⟩ := hs l.obj _
        (callBefore before l.world (l.tRes.getLastD t0) (l.yRes.getLastD (u 0)) l.cbBefore).1
        (by intro h; rw [h]; rfl) hl
      have hj : t0 + (j : ℝ) * dt + dt = t0 + ((j + 1 : ℕ) : ℝ) * dt := by push_cast; ring
      rw [hj] at e2
      have hb : ∃ l1, loopBody I t0 (u 0) dt before after l = .ok l1 ∧ l1.obj = I.accept o' r ∧
          l1.tRes = l.tRes ++ [r.t] ∧ l1.yRes = l.yRes ++ [r.y] := by
        unfold loopBody
        simp only [e1]
        exact ⟨_, rfl, rfl, rfl, rfl⟩
      obtain ⟨l1, hl1, ho, ht, hy⟩ := hb
      obtain ⟨l2, hl2, g1, g2⟩ := ih (j + 1) l1 (by rw [ho]; exact e4)
        (by rw [ht, h1, e2, List.range_succ (n := j + 1), List.map_append]; rfl)
        (by rw [hy, h2, e3, List.range_succ (n := j + 1), List.map_append]; rfl)
      refine ⟨l2, ?_, ?_, ?_⟩
      · show (loopBody I t0 (u 0) dt before after l >>= _) = _
        rw [hl1]
        exact hl2
      · rw [g1, show j + 1 + k + 1 = j + (k + 1) + 1 by ring]
      · rw [g2, show j + 1 + k + 1 = j + (k + 1) + 1 by ring]
  obtain ⟨l, h1, h2, h3⟩ := key nsteps 0
    { obj := obj, tRes := [t0], yRes := [u 0], cbBefore := [], cbAfter := [], world := w }
    h0 (by simp) (by simp)
  rw [zero_add] at h2 h3
  exact ⟨l, h1, h2, h3⟩

/-- **Specification.** The result `l` of a run from `t0` with `nsteps` steps of size `dt` has one entry per output time
`t0 + i dt`, each within `bound` of the exact solution `Y` at that time. -/
def RunAccurate {σ P Q W : Type} (l : LoopState σ P Q W (Vec n)) (t0 dt : ℝ) (nsteps : ℕ) (Y : ℝ → Vec n) (bound : ℝ) : Prop :=
  l.tRes = (List.range (nsteps + 1)).map (fun i : ℕ => t0 + i * dt) ∧ l.yRes.length = nsteps + 1 ∧
    ∀ (i : ℕ) (y : Vec n), l.yRes[i]? = some y → ‖y - Y (t0 + i * dt)‖ ≤ bound

theorem runAccurate_of {σ P Q W : Type} {l : LoopState σ P Q W (Vec n)} {t0 dt : ℝ} {nsteps : ℕ} {Y : ℝ → Vec n} {bound : ℝ}
    {u : ℕ → Vec n} (h1 : l.tRes = (List.range (nsteps + 1)).map (fun i : ℕ => t0 + i * dt))
    (h2 : l.yRes = (List.range (nsteps + 1)).map u) (h3 : ∀ k ≤ nsteps, ‖u k - Y (t0 + k * dt)‖ ≤ bound) :
    RunAccurate l t0 dt nsteps Y bound := by
  refine ⟨h1, by rw [h2]; simp, ?_⟩
  intro i y hi
  rw [h2, List.getElem?_map] at hi
  by_cases hin : i < nsteps + 1
  · rw [List.getElem?_range hin] at hi
    cases hi
    exact h3 i (by omega)
  · rw [List.getElem?_eq_none (by simpa using hin)] at hi
    cases hi

variable {P : Type} [EmptyCollection P]
set_option linter.unusedSectionVars false

/-! ### Rosenbrock methods -/

/-- the one-step methods of the Rosenbrock family with their orders -/
def rbOrders : List (String × ℕ) :=
  [("exprb2", 2), ("epi2", 2), ("exprb2_dense", 2), ("exprb2_pfd", 2), ("exprb2_pfd_rs", 2), ("exprb3", 3), ("pexprb4", 4)]

/-- the step map of a one-step Rosenbrock method -/
noncomputable def rbMap (m : String) : (ℝ → Vec n → Vec n) → ℝ × ℝ × (Vec n × Vec n) → Vec n :=
  if m = "exprb3" then mapRB3 else if m = "pexprb4" then mapRB4 else mapRB2

/-- the time derivative used by the method -/
noncomputable def rbEff (m : String) (tol : ℝ) (e : Vec n) : Vec n := if m ∈ alwaysCorrected then e else effFdt tol e

theorem rbEff_sub (m : String) (tol ε : ℝ) (hε : 0 ≤ ε) (e : Vec n) (h : (0 ≤ tol ∧ tol ≤ ε) ∨ e = 0 ∨ m ∈ alwaysCorrected) :
    ‖rbEff m tol e - e‖ ≤ ε := by
  unfold rbEff effFdt
  split_ifs with h1 h2
  · simpa using hε
  · simpa using hε
  · rcases h with h | h | h
    · have : ‖e‖ ≤ tol := by
        by_contra hc
        exact h2 ⟨h.1, by linarith⟩
      rw [zero_sub, norm_neg]; linarith
    · rw [h]; simpa using hε
    · exact absurd h h1

/-- **Specification.** Whatever the parameters, `fjac` hands out the exact derivatives of the right-hand side everywhere (true of
the default autodiff Jacobian of any right-hand side that ignores them, `exactJac_autodiff`). -/
def ExactJacs (sys : OdeSys n P) : Prop := ∀ kw t y, ∃ J, ExactJac (sys.fjac kw t y) (sys.frhs none) t y J

theorem ExactJacs.get {sys : OdeSys n P} (h : ExactJacs sys) (kw : Option P) (t : ℝ) (y : Vec n) :
    ExactJac (sys.fjac kw t y) (sys.frhs none) t y (jacM (sys.frhs none) (t, y)) ∧ (sys.fjac kw t y).fdt = dtM (sys.frhs none) (t, y) := by
  obtain ⟨J, hJ⟩ := h kw t y
  obtain ⟨h1, h2⟩ := hJ.eq
  exact ⟨h1 ▸ hJ, h2⟩

theorem rb_step_closed {K : Kernels n} (hK : ExactKernels K) (hasRust : Bool) (sys : OdeSys n P) (hj : ExactJacs sys)
    (s : ExpRB n) (t : ℝ) (y : Vec n) (hs : At s.base t y) (kw : Option P) (dt : ℝ) (p : ℕ) (hm : (s.base.method, p) ∈ rbOrders)
    (hrust : s.base.method = "exprb2_pfd_rs" → hasRust = true) :
    ExpRB.step hasRust K sys s dt kw = .ok (StepResult.mk (t + dt) dt (rbMap s.base.method (sys.frhs none)
      (dt, t, (y, rbEff s.base.method s.tolFdt (dtM (sys.frhs none) (t, y))))) (-1)) := by
  obtain ⟨h1, h2⟩ := hj.get (some (kw.getD ∅)) t y
  obtain ⟨h1', h2'⟩ := hj.get none t y
  unfold ExpRB.step
  simp only
  simp only [rbOrders, List.mem_cons, List.not_mem_nil, or_false, Prod.mk.injEq] at hm
  rcases hm with ⟨hm, -⟩ | ⟨hm, -⟩ | ⟨hm, -⟩ | ⟨hm, -⟩ | ⟨hm, -⟩ | ⟨hm, -⟩ | ⟨hm, -⟩ <;> rw [hm] at hrust ⊢ <;>
    simp only [String.reduceEq, if_true, if_false, false_and, true_and, rbMap, rbEff, alwaysCorrected, List.mem_cons,
      List.not_mem_nil, or_false, or_true]
  · rw [exprb2_closed hK sys s hs dt _ _ h1.mat, h1.rhs, h2]; rfl
  · rw [epi2_closed hK sys s hs dt _ _ h1.mat, h1.rhs, h2]; rfl
  · rw [exprb2Dense_closed hK sys s hs dt _ h1'.dense, h1'.rhs, h2']; rfl
  · rw [exprb2Pfd_closed hK sys s hs dt _ _ h1.dense, h1.rhs, h2]; rfl
  · simp only [hrust rfl, if_true]
    rw [exprb2PfdRs_closed hK sys s hs dt _ h1'.dense, h1'.rhs, h2']; rfl
  · rw [exprb3_closed hK sys s hs dt _ _ h1.mat]
    simp only [h1.rhs, h2]; rfl
  · rw [pexprb4_closed hK sys s hs dt _ _ h1.mat]
    simp only [h1.rhs, h2]; rfl

/-- iterates of a one-step map -/
noncomputable def iterSeq (Φ : ℝ → Vec n → Vec n) (t0 dt : ℝ) (y0 : Vec n) : ℕ → Vec n
  | 0 => y0
  | k + 1 => Φ (t0 + k * dt) (iterSeq Φ t0 dt y0 k)

theorem dtM_tube {f : ℝ → Vec n → Vec n} {Y : ℝ → Vec n} {t0 T : ℝ} (hY : ∀ t ∈ Set.Icc t0 T, SmoothIVP f 3 t Y) :
    ∃ K r : ℝ, 0 ≤ K ∧ 0 < r ∧ ∀ t ∈ Set.Icc t0 T, ∀ y, ‖y - Y t‖ < r → ‖dtM f (t, y) - dtM f (t, Y t)‖ ≤ K * ‖y - Y t‖ := by
  obtain ⟨L, ρ, hL, hρ, hb⟩ := tube_lipschitz (G := fun q : ℝ × ℝ × Vec n => q.1 • dtM f q.2) (x := Y) (a := t0) (b := T)
    (fun t ht => by
      have h2 : ContDiffAt ℝ 2 (dtM f) (t, Y t) := dtM_contDiffAt (m := 2) (hY t ht).smooth
      exact contDiffAt_fst.smul (ContDiffAt.comp (g := dtM f) (0, t, Y t) h2 contDiffAt_snd))
    (fun t x => by simp) (fun t ht => (hY t ht).contDiff.continuousAt)
  refine ⟨L, ρ, hL, hρ, fun t ht y hy => ?_⟩
  have := hb t ht (ρ / 2) y (Y t) (by rw [abs_of_pos (by linarith)]; linarith) hy (by simpa using hρ)
  rw [← smul_sub, norm_smul, Real.norm_eq_abs, abs_of_pos (by linarith : 0 < ρ / 2)] at this
  have h2 : ρ / 2 * ‖dtM f (t, y) - dtM f (t, Y t)‖ ≤ ρ / 2 * (L * ‖y - Y t‖) := by linarith
  exact le_of_mul_le_mul_left h2 (by linarith)

theorem rbMap_facts {f : ℝ → Vec n → Vec n} {m : String} {p : ℕ} (hm : (m, p) ∈ rbOrders) :
    1 ≤ p ∧ (∀ t x, rbMap m f (0, t, x) = x.1) ∧
    (∀ (k : ℕ) t y e, ContDiffAt ℝ (k + 1 : ℕ) (fun p : ℝ × Vec n => f p.1 p.2) (t, y) → ContDiffAt ℝ k (rbMap m f) (0, t, (y, e))) ∧
    (∀ t Y, SmoothIVP f p t Y → (fun h => rbMap m f (h, t, (Y t, dtM f (t, Y t))) - Y (t + h)) =O[𝓝 0] fun h => h ^ (p + 1)) := by
  simp only [rbOrders, List.mem_cons, List.not_mem_nil, or_false, Prod.mk.injEq] at hm
  have h3 : ∀ t Y, SmoothIVP f 3 t Y → (fun h => mapRB3 f (h, t, (Y t, dtM f (t, Y t))) - Y (t + h)) =O[𝓝 0] fun h => h ^ 4 := by
    intro t Y h
    have := exprb3_order h (jacM_deriv f t (Y t))
    simp only [mapRB3, mapRB2]
    exact this
  have h4 : ∀ t Y, SmoothIVP f 4 t Y → (fun h => mapRB4 f (h, t, (Y t, dtM f (t, Y t))) - Y (t + h)) =O[𝓝 0] fun h => h ^ 5 := by
    intro t Y h
    have := pexprb4_order h (jacM_deriv f t (Y t))
    simp only [mapRB4, mapR2, mapR3, mapRB2, mapRBhalf]
    exact this
  have h2 : ∀ t Y, SmoothIVP f 2 t Y → (fun h => mapRB2 f (h, t, (Y t, dtM f (t, Y t))) - Y (t + h)) =O[𝓝 0] fun h => h ^ 3 := by
    intro t Y h
    have := rosEuler_order h (jacM_deriv f t (Y t)) 1
    simp only [one_mul] at this
    exact this
  rcases hm with ⟨rfl, rfl⟩ | ⟨rfl, rfl⟩ | ⟨rfl, rfl⟩ | ⟨rfl, rfl⟩ | ⟨rfl, rfl⟩ | ⟨rfl, rfl⟩ | ⟨rfl, rfl⟩ <;>
    simp only [rbMap, String.reduceEq, if_true, if_false]
  · exact ⟨by norm_num, fun t x => mapRB2_zero x, fun k t y e hf => mapRB2_smooth hf e, h2⟩
  · exact ⟨by norm_num, fun t x => mapRB2_zero x, fun k t y e hf => mapRB2_smooth hf e, h2⟩
  · exact ⟨by norm_num, fun t x => mapRB2_zero x, fun k t y e hf => mapRB2_smooth hf e, h2⟩
  · exact ⟨by norm_num, fun t x => mapRB2_zero x, fun k t y e hf => mapRB2_smooth hf e, h2⟩
  · exact ⟨by norm_num, fun t x => mapRB2_zero x, fun k t y e hf => mapRB2_smooth hf e, h2⟩
  · exact ⟨by norm_num, fun t x => mapRB3_zero x, fun k t y e hf => mapRB3_smooth hf e, h3⟩
  · exact ⟨by norm_num, fun t x => mapRB4_zero x, fun k t y e hf => mapRB4_smooth hf e, h4⟩

/-- the iterates of a one-step Rosenbrock map converge with order `p` -/
theorem rb_converge {f : ℝ → Vec n → Vec n} {Y : ℝ → Vec n} {t0 T : ℝ} {m : String} {p : ℕ} (hm : (m, p) ∈ rbOrders)
    (hY : ∀ t ∈ Set.Icc t0 T, SmoothIVP f (p + 2) t Y) :
    ∃ C δ : ℝ, 0 ≤ C ∧ 0 < δ ∧ ∀ (dt ε tol : ℝ) (N : ℕ), 0 < dt → dt ≤ δ → 0 ≤ ε → ε ≤ δ → t0 + N * dt ≤ T →
      ((0 ≤ tol ∧ tol ≤ ε) ∨ (∀ t y, dtM f (t, y) = 0) ∨ m ∈ alwaysCorrected) →
      ∀ k ≤ N, ‖iterSeq (fun t y => rbMap m f (dt, t, (y, rbEff m tol (dtM f (t, y))))) t0 dt (Y t0) k - Y (t0 + k * dt)‖
        ≤ C * (dt ^ p + ε) := by
  obtain ⟨hp, hz, hsm, hord⟩ := rbMap_facts (f := f) hm
  obtain ⟨K, r1, hK, hr1, hlip⟩ := dtM_tube (f := f) (Y := Y) (t0 := t0) (T := T) fun t ht => (hY t ht).mono (by omega)
  have hsm1 : ∀ t ∈ Set.Icc t0 T, ContDiffAt ℝ (p + 1 : ℕ) (rbMap m f) (0, t, (Y t, dtM f (t, Y t))) :=
    fun t ht => hsm (p + 1) t (Y t) _ (hY t ht).smooth
  have hdt : ∀ t ∈ Set.Icc t0 T, ContDiffAt ℝ (p + 1 : ℕ) (fun s => dtM f (s, Y s)) t := fun t ht => by
    have hYc : ContDiffAt ℝ (p + 1 : ℕ) Y t := (hY t ht).contDiff.of_le (by norm_cast; omega)
    exact ContDiffAt.comp (g := dtM f) (f := fun s => (s, Y s)) t (dtM_contDiffAt (hY t ht).smooth) (contDiffAt_id.prodMk hYc)
  obtain ⟨C0, δ0, hC0, hδ0, hdef⟩ := uniform_defect (S := rbMap m f) (f := f) (Y := Y) (β := fun t _ => dtM f (t, Y t))
    (t0 := t0) (T := T) p (p + 2) (by omega) hY hsm1
    (fun t ht => ContDiffAt.comp (g := fun s => dtM f (s, Y s)) (f := fun q : ℝ × ℝ => q.1) (t, 0) (hdt t ht) contDiffAt_fst)
    (fun t h => hord t Y (h.mono (by omega)))
  obtain ⟨C, δ, hC, hδ, hmain⟩ := converge_abstract (S := rbMap m f) (Y := Y) (a := fun t => dtM f (t, Y t)) (t0 := t0) (T := T)
    p hp (fun t ht => (hsm1 t ht).of_le (by norm_cast; omega)) hz
    (fun t ht => (hY t ht).contDiff.continuousAt) (fun t ht => (hdt t ht).continuousAt) K C0 r1 hK hC0 hr1
  refine ⟨C, min δ (δ0 / 2), hC, by positivity, ?_⟩
  intro dt ε tol N hdt0 hdtδ hε hεδ hN htol
  have hin : ∀ k < N, t0 + (k : ℝ) * dt ∈ Set.Icc t0 T := by
    intro k hk
    have h1 : (k : ℝ) ≤ N := by exact_mod_cast hk.le
    have h2 := mul_le_mul_of_nonneg_right h1 hdt0.le
    have h3 : 0 ≤ (k : ℝ) * dt := by positivity
    constructor <;> linarith
  set u := iterSeq (fun t y => rbMap m f (dt, t, (y, rbEff m tol (dtM f (t, y))))) t0 dt (Y t0) with hu
  have := hmain t0 dt ε 0 N u (fun k => rbEff m tol (dtM f (t0 + k * dt, u k))) (fun k => dtM f (t0 + k * dt, Y (t0 + k * dt)))
    hdt0 (hdtδ.trans (min_le_left _ _)) hε (hεδ.trans (min_le_left _ _)) le_rfl hδ.le le_rfl hN (by simp [hu, iterSeq])
    (fun k _ => rfl)
    (by
      intro k hk hsmall
      have h1 := rbEff_sub m tol ε hε (dtM f (t0 + k * dt, u k)) (by
        rcases htol with h | h | h
        exacts [Or.inl h, Or.inr (Or.inl (h _ _)), Or.inr (Or.inr h)])
      have h2 := hlip _ (hin k hk) (u k) (hsmall k le_rfl)
      have h3 := le_maxErr (fun j => ‖u j - Y (t0 + j * dt)‖) k k le_rfl
      have h4 := mul_le_mul_of_nonneg_left h3 hK
      calc _ = ‖(rbEff m tol (dtM f (t0 + k * dt, u k)) - dtM f (t0 + k * dt, u k))
            + (dtM f (t0 + k * dt, u k) - dtM f (t0 + k * dt, Y (t0 + k * dt)))‖ := by congr 1; abel
        _ ≤ _ := norm_add_le _ _
        _ ≤ _ := by linarith)
    (by intro k hk; simpa using hδ.le)
    (by
      intro k hk
      have h1 := hdef _ (hin k hk) dt (by
        rw [abs_of_pos hdt0]
        have : dt ≤ δ0 / 2 := hdtδ.trans (min_le_right _ _)
        linarith)
      rw [abs_of_pos hdt0] at h1
      have e : t0 + ((k + 1 : ℕ) : ℝ) * dt = t0 + k * dt + dt := by push_cast; ring
      rw [e]; exact h1)
  intro k hk
  have h := this k hk
  rw [add_zero] at h
  exact h

theorem rb_new_at {hasRust : Bool} {t0 : ℝ} {y0 : Vec n} {m : String} {tol : ℝ} {s : ExpRB n}
    (hnew : ExpRB.new hasRust t0 y0 m tol = .ok s) : At s.base t0 y0 ∧ s.base.method = m ∧ s.tolFdt = tol ∧
      (Nonempty2 s.base ∧ 0 < s.base.yHist.maxlen ∧ s.base.tHist.maxlen = s.base.yHist.maxlen) := by
  unfold ExpRB.new at hnew
  split at hnew
  · cases hnew
  · split at hnew
    · cases hnew
    · rename_i o _ _
      cases hb : Base.init t0 y0 o m with
      | error e => rw [hb] at hnew; cases hnew
      | ok bb =>
        rw [hb] at hnew
        cases hnew
        refine ⟨at_init hb, ?_, rfl, init_nonempty hb⟩
        unfold Base.init at hb
        split at hb
        · cases hb; rfl
        · cases hb

/-- **C91, Rosenbrock family.**  Let `Y` solve `y' = f(t, y)` on (a neighbourhood of) `[t0, T]`, with `f` of class `C^(p+2)` near
its graph, autonomous or not.  For every one-step Rosenbrock or EPI method of order `p` there are `C` and `δ > 0`, depending on
the problem only, such that `integrate` with exact phi kernels and exact derivatives, any step size `dt ≤ δ`, any number of
steps that stays in `[t0, T]` and any callbacks returns at **every** output time a value within `C (dt^p + ε)` of `Y`, where `ε`
bounds the tolerance below which the time derivative is ignored (`0` for autonomous systems and the methods that never ignore
it). -/
theorem C91_rosenbrock {K : Kernels n} (hK : ExactKernels K) (hasRust : Bool) (sys : OdeSys n P) (hj : ExactJacs sys)
    (m : String) (p : ℕ) (hm : (m, p) ∈ rbOrders) (Y : ℝ → Vec n) (t0 T : ℝ)
    (hY : ∀ t ∈ Set.Icc t0 T, SmoothIVP (sys.frhs none) (p + 2) t Y) :
    ∃ C δ : ℝ, 0 ≤ C ∧ 0 < δ ∧ ∀ (dt ε tol : ℝ) (nsteps : ℕ) (s : ExpRB n), 0 < dt → dt ≤ δ → 0 ≤ ε → ε ≤ δ →
      t0 + nsteps * dt ≤ T → ExpRB.new hasRust t0 (Y t0) m tol = .ok s →
      ((0 ≤ tol ∧ tol ≤ ε) ∨ (∀ kw t y, (sys.fjac kw t y).fdt = 0) ∨ m ∈ alwaysCorrected) →
      ∀ {Q W : Type} (before : Option (W → ℝ → Vec n → P × W)) (after : Option (W → ℝ → Vec n → Q × W)) (w : W),
      ∃ l, integrateOrmatex (rbStepper hasRust K sys) s (Y t0) t0 dt nsteps before after w = .ok l ∧
        RunAccurate l t0 dt nsteps Y (C * (dt ^ p + ε)) := by
  obtain ⟨C, δ, hC, hδ, hmain⟩ := rb_converge hm hY
  refine ⟨C, δ, hC, hδ, ?_⟩
  intro dt ε tol N s h1 h2 h3 h4 h5 hnew htol Q W before after w
  have hr : m = "exprb2_pfd_rs" → hasRust = true := fun h =>
    ((C09_construct_rb hasRust t0 (Y t0) m tol).1.2 ⟨s, hnew⟩).2 (Or.inl h)
  have herr := hmain dt ε tol N h1 h2 h3 h4 h5 (by
    rcases htol with h | h | h
    · exact Or.inl h
    · exact Or.inr (Or.inl fun t y => by rw [← (hj.get none t y).2]; exact h _ _ _)
    · exact Or.inr (Or.inr h))
  set f := sys.frhs none with hf
  set u := iterSeq (fun t y => rbMap m f (dt, t, (y, rbEff m tol (dtM f (t, y))))) t0 dt (Y t0) with hu
  obtain ⟨l, e1, e2, e3⟩ := run_seq (rbStepper hasRust K sys) (fun (o : ExpRB n) k => At o.base (t0 + k * dt) (u k) ∧ o.base.method = m ∧
    o.tolFdt = tol ∧ (Nonempty2 o.base ∧ 0 < o.base.yHist.maxlen ∧ o.base.tHist.maxlen = o.base.yHist.maxlen)) u t0 dt before after
    (by
      rintro o k kw - ⟨g1, g2, g3, g4⟩
      have hst := rb_step_closed hK hasRust sys hj o _ _ g1 kw dt p (by rw [g2]; exact hm) (by rw [g2]; exact hr)
      rw [g2, g3] at hst
      refine ⟨StepResult.mk (t0 + k * dt + dt) dt (u (k + 1)) (-1), o, ?_, rfl, rfl, ?_, g2, g3, accept_nonempty g4 _⟩
      · show keep o (ExpRB.step hasRust K sys o dt kw) = _
        rw [hst]; rfl
      · have := at_accept g4.2 (StepResult.mk (t0 + k * dt + dt) dt (u (k + 1)) (-1))
        have e : t0 + ((k + 1 : ℕ) : ℝ) * dt = t0 + k * dt + dt := by push_cast; ring
        rw [e]
        exact this)
    s (by
      obtain ⟨g1, g2, g3, g4⟩ := rb_new_at hnew
      refine ⟨by simpa [hu, iterSeq] using g1, g2, g3, g4⟩) N w
  exact ⟨l, e1, runAccurate_of e2 e3 herr⟩

/-! ### methods without auxiliary argument: splitting methods and rk4 -/

/-- the iterates of a smooth one-step map of pointwise order `p` converge with order `p` -/
theorem plain_converge {f : ℝ → Vec n → Vec n} {Y : ℝ → Vec n} {t0 T : ℝ} (Φ : ℝ → ℝ → Vec n → Vec n) (p : ℕ) (hp : 1 ≤ p)
    (hY : ∀ t ∈ Set.Icc t0 T, SmoothIVP f (p + 1) t Y) (hz : ∀ t y, Φ 0 t y = y)
    (hsm : ∀ t ∈ Set.Icc t0 T, ContDiffAt ℝ (p + 1 : ℕ) (fun q : ℝ × ℝ × (Vec n × Vec n) => Φ q.1 q.2.1 q.2.2.1) (0, t, (Y t, 0)))
    (hord : ∀ t, SmoothIVP f p t Y → (fun h => Φ h t (Y t) - Y (t + h)) =O[𝓝 0] fun h => h ^ (p + 1)) :
    ∃ C δ : ℝ, 0 ≤ C ∧ 0 < δ ∧ ∀ (dt : ℝ) (N : ℕ), 0 < dt → dt ≤ δ → t0 + N * dt ≤ T →
      ∀ k ≤ N, ‖iterSeq (Φ dt) t0 dt (Y t0) k - Y (t0 + k * dt)‖ ≤ C * dt ^ p := by
  obtain ⟨C0, δ0, hC0, hδ0, hdef⟩ := uniform_defect (S := fun q : ℝ × ℝ × (Vec n × Vec n) => Φ q.1 q.2.1 q.2.2.1) (f := f) (Y := Y)
    (β := fun _ _ => (0 : Vec n)) (t0 := t0) (T := T) p (p + 1) (by omega) hY hsm (fun t ht => contDiffAt_const)
    (fun t h => hord t (h.mono (by omega)))
  obtain ⟨C, δ, hC, hδ, hmain⟩ := converge_abstract (S := fun q : ℝ × ℝ × (Vec n × Vec n) => Φ q.1 q.2.1 q.2.2.1) (Y := Y)
    (a := fun _ => (0 : Vec n)) (t0 := t0) (T := T)
    p hp (fun t ht => (hsm t ht).of_le (by norm_cast; omega)) (fun t x => hz t x.1)
    (fun t ht => (hY t ht).contDiff.continuousAt) (fun t ht => continuousAt_const) 0 C0 1 le_rfl hC0 one_pos
  refine ⟨C, min δ (δ0 / 2), hC, by positivity, ?_⟩
  intro dt N hdt0 hdtδ hN
  have hin : ∀ k < N, t0 + (k : ℝ) * dt ∈ Set.Icc t0 T := by
    intro k hk
    have h1 : (k : ℝ) ≤ N := by exact_mod_cast hk.le
    have h2 := mul_le_mul_of_nonneg_right h1 hdt0.le
    have h3 : 0 ≤ (k : ℝ) * dt := by positivity
    constructor <;> linarith
  have := hmain t0 dt 0 0 N (iterSeq (Φ dt) t0 dt (Y t0)) (fun _ => 0) (fun _ => 0)
    hdt0 (hdtδ.trans (min_le_left _ _)) le_rfl hδ.le le_rfl hδ.le le_rfl hN (by simp [iterSeq])
    (fun k _ => rfl) (by intro k hk _; simp) (by intro k hk; simpa using hδ.le)
    (by
      intro k hk
      have h1 := hdef _ (hin k hk) dt (by
        rw [abs_of_pos hdt0]
        have : dt ≤ δ0 / 2 := hdtδ.trans (min_le_right _ _)
        linarith)
      rw [abs_of_pos hdt0] at h1
      have e : t0 + ((k + 1 : ℕ) : ℝ) * dt = t0 + k * dt + dt := by push_cast; ring
      rw [e]; exact h1)
  intro k hk
  have h := this k hk
  rw [add_zero, add_zero] at h
  exact h

/-- the update of each splitting method -/
noncomputable def splitMap (m : String) (f : ℝ → Vec n → Vec n) (L : Mat n) (h t : ℝ) (y : Vec n) : Vec n :=
  if m = "exp1" ∨ m = "exp1_dense" then y + h • (phiM 1 (h • L) *ᵥ f t y)
  else if m = "exp2" then exp2Update f L t y h 1
  else if m = "exp2_dense" then exp2Update f L t y h (2 / 3)
  else exp3Update f L t y h

theorem split_step_closed {K : Kernels n} (hK : ExactKernels K) (sys : OdeSys n P) (lop : LinOp n) (hl : ∀ t y, sys.fl t y = lop)
    (L : Mat n) (hd : lop.dense = .ok L) (hL : IsMatrix lop L) (s : ExpSplit n) (t : ℝ) (y : Vec n) (hs : At s.base t y)
    (hco : Coherent K lop s) (kw : Option P) (dt : ℝ) (p : ℕ) (hm : (s.base.method, p) ∈ splitOrders) :
    ∃ s', ExpSplit.step K sys s dt kw = .ok (StepResult.mk (t + dt) dt (splitMap s.base.method (sys.frhs none) L dt t y) (-1), s') ∧
      s'.base = s.base := by
  have hL' : IsMatrix (sys.fl t y) L := by rw [hl]; exact hL
  unfold ExpSplit.step
  simp only
  simp only [splitOrders, List.mem_cons, List.not_mem_nil, or_false, Prod.mk.injEq] at hm
  rcases hm with ⟨hm, rfl⟩ | ⟨hm, rfl⟩ | ⟨hm, rfl⟩ | ⟨hm, rfl⟩ | ⟨hm, rfl⟩ | ⟨hm, rfl⟩ <;>
    rw [hm] <;> simp only [String.reduceEq, if_true, if_false, splitMap, or_true, or_false, or_self]
  · rw [exp1_closed hK sys s hs dt L hL']; exact ⟨s, rfl, rfl⟩
  · rw [exp2_closed hK sys s hs dt L hL']; exact ⟨s, rfl, rfl⟩
  · rw [exp3_closed hK sys s hs dt L hL']; exact ⟨s, rfl, rfl⟩
  · exact exp1Dense_closed hK sys s hs dt L lop hl hd hco hm
  · exact exp2Dense_closed hK sys s hs dt L lop hl hd hL hco hm
  · exact exp3Dense_closed hK sys s hs dt L lop hl hd hL hco hm

theorem splitMap_facts {f : ℝ → Vec n → Vec n} (L : Mat n) {m : String} {p : ℕ} (hm : (m, p) ∈ splitOrders) :
    1 ≤ p ∧ (∀ t y, splitMap m f L 0 t y = y) ∧
    (∀ (k : ℕ) t y, ContDiffAt ℝ k (fun p : ℝ × Vec n => f p.1 p.2) (t, y) →
      ContDiffAt ℝ k (fun q : ℝ × ℝ × (Vec n × Vec n) => splitMap m f L q.1 q.2.1 q.2.2.1) (0, t, (y, 0))) ∧
    (∀ t Y, SmoothIVP f p t Y → (fun h => splitMap m f L h t (Y t) - Y (t + h)) =O[𝓝 0] fun h => h ^ (p + 1)) := by
  have h1 : ∀ t Y, SmoothIVP f 1 t Y → (fun h => (Y t + h • (phiM 1 (h • L) *ᵥ f t (Y t))) - Y (t + h))
      =O[𝓝 0] fun h => h ^ 2 := fun t Y h => by
    have := exp1_order h L 1
    simp only [one_mul] at this
    exact this
  simp only [splitOrders, List.mem_cons, List.not_mem_nil, or_false, Prod.mk.injEq] at hm
  rcases hm with ⟨rfl, rfl⟩ | ⟨rfl, rfl⟩ | ⟨rfl, rfl⟩ | ⟨rfl, rfl⟩ | ⟨rfl, rfl⟩ | ⟨rfl, rfl⟩ <;>
    simp only [splitMap, String.reduceEq, if_true, if_false, or_true, or_false, or_self]
  · exact ⟨by norm_num, fun t y => by simp, fun k t y hf => mapExp1_smooth hf L, h1⟩
  · exact ⟨by norm_num, fun t y => by simp [exp2Update], fun k t y hf => mapExp2_smooth hf L 1, fun t Y h => exp2_order h L 1 one_ne_zero⟩
  · exact ⟨by norm_num, fun t y => by simp [exp3Update], fun k t y hf => mapExp3_smooth hf L, fun t Y h => exp3_order h L⟩
  · exact ⟨by norm_num, fun t y => by simp, fun k t y hf => mapExp1_smooth hf L, h1⟩
  · exact ⟨by norm_num, fun t y => by simp [exp2Update], fun k t y hf => mapExp2_smooth hf L (2 / 3),
      fun t Y h => exp2_order h L (2 / 3) (by norm_num)⟩
  · exact ⟨by norm_num, fun t y => by simp [exp3Update], fun k t y hf => mapExp3_smooth hf L, fun t Y h => exp3_order h L⟩

/-- **C91, splitting family.**  For `f` of class `C^(p+1)` and **any** constant linear part, `integrate` with `exp1/2/3` or their
dense variants returns, for all small enough steps, values within `C dt^p` of the solution at every output time. -/
theorem C91_split {K : Kernels n} (hK : ExactKernels K) (sys : OdeSys n P) (lop : LinOp n) (hl : ∀ t y, sys.fl t y = lop)
    (L : Mat n) (hd : lop.dense = .ok L) (hL : IsMatrix lop L)
    (m : String) (p : ℕ) (hm : (m, p) ∈ splitOrders) (Y : ℝ → Vec n) (t0 T : ℝ)
    (hY : ∀ t ∈ Set.Icc t0 T, SmoothIVP (sys.frhs none) (p + 1) t Y) :
    ∃ C δ : ℝ, 0 ≤ C ∧ 0 < δ ∧ ∀ (dt : ℝ) (nsteps : ℕ) (s : ExpSplit n), 0 < dt → dt ≤ δ →
      t0 + nsteps * dt ≤ T → ExpSplit.new t0 (Y t0) m = .ok s →
      ∀ {Q W : Type} (before : Option (W → ℝ → Vec n → P × W)) (after : Option (W → ℝ → Vec n → Q × W)) (w : W),
      ∃ l, integrateOrmatex (splitStepper K sys) s (Y t0) t0 dt nsteps before after w = .ok l ∧
        RunAccurate l t0 dt nsteps Y (C * dt ^ p) := by
  obtain ⟨hp, hz, hsm, hord⟩ := splitMap_facts (f := sys.frhs none) L hm
  obtain ⟨C, δ, hC, hδ, hmain⟩ := plain_converge (splitMap m (sys.frhs none) L) p hp hY hz
    (fun t ht => hsm (p + 1) t (Y t) (hY t ht).smooth) (fun t h => hord t Y h)
  refine ⟨C, δ, hC, hδ, ?_⟩
  intro dt N s h1 h2 h5 hnew Q W before after w
  have herr := hmain dt N h1 h2 h5
  set u := iterSeq (splitMap m (sys.frhs none) L dt) t0 dt (Y t0) with hu
  obtain ⟨l, e1, e2, e3⟩ := run_seq (splitStepper K sys) (fun (o : ExpSplit n) k => At o.base (t0 + k * dt) (u k) ∧ o.base.method = m ∧
    Coherent K lop o ∧ (Nonempty2 o.base ∧ 0 < o.base.yHist.maxlen ∧ o.base.tHist.maxlen = o.base.yHist.maxlen)) u t0 dt before after
    (by
      rintro o k kw - ⟨g1, g2, g3, g4⟩
      obtain ⟨o', hst, hb'⟩ := split_step_closed hK sys lop hl L hd hL o _ _ g1 g3 kw dt p (by rw [g2]; exact hm)
      rw [g2] at hst
      rw [← hb'] at g4
      refine ⟨StepResult.mk (t0 + k * dt + dt) dt (u (k + 1)) (-1), o', hst, rfl, rfl, ?_, by rw [← g2, ← hb']; rfl,
        dense_step_coherent K sys lop hl o o' g3 dt kw _ hst, accept_nonempty g4 _⟩
      have := at_accept g4.2 (StepResult.mk (t0 + k * dt + dt) dt (u (k + 1)) (-1))
      have e : t0 + ((k + 1 : ℕ) : ℝ) * dt = t0 + k * dt + dt := by push_cast; ring
      rw [e]
      exact this)
    s (by
      have hco : Coherent K lop s := new_coherent K lop hnew
      have hmm := ((C09_construct_others (n := n) t0 (Y t0) m).2.1 s hnew).1
      unfold ExpSplit.new at hnew
      split at hnew
      · cases hnew
      · rename_i o _
        cases hb : Base.init t0 (Y t0) o m with
        | error e => rw [hb] at hnew; cases hnew
        | ok bb =>
          rw [hb] at hnew
          cases hnew
          exact ⟨by simpa [hu, iterSeq] using at_init hb, hmm, hco, init_nonempty hb⟩) N w
  exact ⟨l, e1, runAccurate_of e2 e3 herr⟩

/-- **C91, rk4.**  (`rk4` cannot be used with a pre-step callback, C10.) -/
theorem C91_rk4 (sys : OdeSys n P) (Y : ℝ → Vec n) (t0 T : ℝ)
    (hY : ∀ t ∈ Set.Icc t0 T, SmoothIVP (sys.frhs none) 5 t Y) :
    ∃ C δ : ℝ, 0 ≤ C ∧ 0 < δ ∧ ∀ (dt : ℝ) (nsteps : ℕ) (s : Base (Vec n)), 0 < dt → dt ≤ δ →
      t0 + nsteps * dt ≤ T → RK.new t0 (Y t0) "rk4" = .ok s →
      ∀ {Q W : Type} (after : Option (W → ℝ → Vec n → Q × W)) (w : W),
      ∃ l, integrateOrmatex (rkStepper sys) s (Y t0) t0 dt nsteps none after w = .ok l ∧
        RunAccurate l t0 dt nsteps Y (C * dt ^ 4) := by
  obtain ⟨C, δ, hC, hδ, hmain⟩ := plain_converge (f := sys.frhs none) (Y := Y) (t0 := t0) (T := T)
    (fun h t y => rk4Kernel (sys.frhs none) t y h) 4 (by norm_num) hY
    (fun t y => by simp [rk4Kernel]) (fun t ht => mapRk4_smooth (hY t ht).smooth) (fun t h => rk4_order h)
  refine ⟨C, δ, hC, hδ, ?_⟩
  intro dt N s h1 h2 h5 hnew Q W after w
  have herr := hmain dt N h1 h2 h5
  set u := iterSeq (fun t y => rk4Kernel (sys.frhs none) t y dt) t0 dt (Y t0) with hu
  obtain ⟨l, e1, e2, e3⟩ := run_seq (rkStepper sys) (fun (o : Base (Vec n)) k => At o (t0 + k * dt) (u k) ∧ o.method = "rk4" ∧
    (Nonempty2 o ∧ 0 < o.yHist.maxlen ∧ o.tHist.maxlen = o.yHist.maxlen)) u t0 dt none after
    (by
      rintro o k kw hkw ⟨g1, g2, g4⟩
      rw [hkw rfl]
      refine ⟨StepResult.mk (t0 + k * dt + dt) dt (u (k + 1)) (-1), o, ?_, rfl, rfl, ?_, g2, accept_nonempty g4 _⟩
      · show keep o (RK.step sys o dt none) = _
        unfold RK.step stepRk4
        simp only [g2, if_true, g1.yNew, g1.time, Bind.bind, Except.bind, pure, Except.pure]
        rfl
      · have := at_accept g4.2 (StepResult.mk (t0 + k * dt + dt) dt (u (k + 1)) (-1))
        have e : t0 + ((k + 1 : ℕ) : ℝ) * dt = t0 + k * dt + dt := by push_cast; ring
        rw [e]
        exact this)
    s (by
      have hb : Base.init t0 (Y t0) 4 "rk4" = .ok s := hnew
      refine ⟨by simpa [hu, iterSeq] using at_init hb, ?_, init_nonempty hb⟩
      unfold Base.init at hb
      split at hb
      · cases hb; rfl
      · cases hb) N w
  exact ⟨l, e1, runAccurate_of e2 e3 herr⟩

/-! ### epi3 -/

/-- the values produced by `epi3`: an `exprb3` step first, then the two-step formula -/
noncomputable def epi3Seq (f : ℝ → Vec n → Vec n) (tol t0 dt : ℝ) (y0 : Vec n) : ℕ → Vec n × Vec n
  | 0 => (y0, mapRB3 f (dt, t0, (y0, effFdt tol (dtM f (t0, y0)))))
  | k + 1 => ((epi3Seq f tol t0 dt y0 k).2,
      mapEpi3 f (dt, t0 + dt + k * dt, ((epi3Seq f tol t0 dt y0 k).2, (epi3Seq f tol t0 dt y0 k).1)))

theorem epi3_order' {f : ℝ → Vec n → Vec n} {t : ℝ} {Y : ℝ → Vec n} (h : SmoothIVP f 3 t Y) :
    (fun s => mapEpi3 f (s, t, (Y t, Y (t - s))) - Y (t + s)) =O[𝓝 0] fun s => s ^ 4 := by
  have := epi3_order h (jacM_deriv f t (Y t)) (yp := fun s => Y (t - s)) (by
    simp only [sub_self]; exact isBigO_zero _ _)
  simp only [mapEpi3]
  exact this

theorem epi3_converge {f : ℝ → Vec n → Vec n} {Y : ℝ → Vec n} {t0 T : ℝ}
    (hY : ∀ t ∈ Set.Icc t0 T, SmoothIVP f 5 t Y) :
    ∃ C δ : ℝ, 0 ≤ C ∧ 0 < δ ∧ ∀ (dt ε tol : ℝ) (N : ℕ), 0 < dt → dt ≤ δ → 0 ≤ ε → ε ≤ δ → t0 + (N + 1 : ℕ) * dt ≤ T →
      ((0 ≤ tol ∧ tol ≤ ε) ∨ (∀ t y, dtM f (t, y) = 0)) →
      ∀ k ≤ N + 1, ‖(epi3Seq f tol t0 dt (Y t0) k).1 - Y (t0 + k * dt)‖ ≤ C * (dt ^ 3 + ε) := by
  obtain ⟨C1, δ1, hC1, hδ1, hfirst⟩ := rb_converge (f := f) (Y := Y) (t0 := t0) (T := T) (m := "exprb3") (p := 3)
    (by simp [rbOrders]) hY
  have hsm : ∀ t ∈ Set.Icc t0 T, ContDiffAt ℝ (3 + 1 : ℕ) (mapEpi3 f) (0, t, (Y t, Y t)) := fun t ht =>
    mapEpi3_smooth (m := 4) (hY t ht).smooth
  have hYc : ∀ t ∈ Set.Icc t0 T, ContDiffAt ℝ (3 + 1 : ℕ) Y t := fun t ht => (hY t ht).contDiff.of_le (by norm_cast)
  obtain ⟨C0, δ0, hC0, hδ0, hdef⟩ := uniform_defect (S := mapEpi3 f) (f := f) (Y := Y) (β := fun t h => Y (t - h))
    (t0 := t0) (T := T) 3 5 (by norm_num) hY (fun t ht => by simpa using hsm t ht)
    (fun t ht => by
      refine ContDiffAt.comp (g := Y) (f := fun q : ℝ × ℝ => q.1 - q.2) (t, 0) ?_ (by fun_prop)
      simpa using hYc t ht)
    (fun t h => epi3_order' (h.mono (by norm_num)))
  obtain ⟨C, δ, hC, hδ, hmain⟩ := converge_abstract (S := mapEpi3 f) (Y := Y) (a := Y) (t0 := t0) (T := T)
    3 (by norm_num) (fun t ht => (hsm t ht).of_le (by norm_cast)) (fun t x => mapEpi3_zero x)
    (fun t ht => (hY t ht).contDiff.continuousAt) (fun t ht => (hY t ht).contDiff.continuousAt) 1 C0 1 zero_le_one hC0 one_pos
  have hcont : ContinuousOn Y (Set.Icc t0 T) := fun t ht => (hY t ht).contDiff.continuousAt.continuousWithinAt
  have huc := isCompact_Icc.uniformContinuousOn_of_continuous hcont
  obtain ⟨δ2, hδ2, huc⟩ := Metric.uniformContinuousOn_iff.1 huc δ hδ
  set δ' := min (min (min 1 δ) (min δ1 (δ0 / 2))) (min (δ2 / 2) (δ / (2 * (C1 + 1)))) with hδ'
  have hδ'0 : 0 < δ' := by positivity
  refine ⟨C * (1 + C1) + C1, δ', by positivity, hδ'0, ?_⟩
  intro dt ε tol N hdt0 hdtδ hε hεδ hN htol
  have a1 : δ' ≤ 1 := (min_le_left _ _).trans ((min_le_left _ _).trans (min_le_left _ _))
  have a2 : δ' ≤ δ := (min_le_left _ _).trans ((min_le_left _ _).trans (min_le_right _ _))
  have a3 : δ' ≤ δ1 := (min_le_left _ _).trans ((min_le_right _ _).trans (min_le_left _ _))
  have a4 : δ' ≤ δ0 / 2 := (min_le_left _ _).trans ((min_le_right _ _).trans (min_le_right _ _))
  have a5 : δ' ≤ δ2 / 2 := (min_le_right _ _).trans (min_le_left _ _)
  have a6 : δ' * (2 * (C1 + 1)) ≤ δ := by
    have : δ' ≤ δ / (2 * (C1 + 1)) := (min_le_right _ _).trans (min_le_right _ _)
    rwa [le_div_iff₀ (by positivity)] at this
  have hdt3 : dt ^ 3 ≤ dt := by
    calc dt ^ 3 ≤ dt ^ 1 := pow_le_pow_of_le_one hdt0.le (hdtδ.trans a1) (by norm_num)
      _ = dt := pow_one dt
  have hdt3' : 0 ≤ dt ^ 3 := by positivity
  have hNdt : 0 ≤ (N : ℝ) * dt := by positivity
  push_cast at hN
  -- first step
  have hη := hfirst dt ε tol 1 hdt0 (hdtδ.trans a3) hε (hεδ.trans a3) (by push_cast; linarith)
    (by rcases htol with h | h; exacts [Or.inl h, Or.inr (Or.inl h)]) 1 le_rfl
  set η := C1 * (dt ^ 3 + ε) with hηd
  have hη0 : 0 ≤ η := by positivity
  have hηδ : η ≤ δ := by
    have : dt ^ 3 + ε ≤ 2 * δ' := by linarith
    have h1 := mul_le_mul_of_nonneg_left this hC1
    nlinarith
  set v := epi3Seq f tol t0 dt (Y t0) with hv
  have hv1 : ∀ k, (v (k + 1)).1 = (v k).2 := fun k => rfl
  have hv01 : (v 0).2 = iterSeq (fun t y => rbMap "exprb3" f (dt, t, (y, rbEff "exprb3" tol (dtM f (t, y))))) t0 dt (Y t0) 1 := by
    have e1 : rbMap (n := n) "exprb3" = mapRB3 := by simp [rbMap]
    have e2 : ∀ e : Vec n, rbEff "exprb3" tol e = effFdt tol e := fun e => by simp [rbEff, alwaysCorrected]
    simp only [iterSeq, e1, e2, Nat.cast_zero, zero_mul, add_zero]
    rfl
  have hin : ∀ k < N, t0 + dt + (k : ℝ) * dt ∈ Set.Icc t0 T ∧ t0 + (k : ℝ) * dt ∈ Set.Icc t0 T := by
    intro k hk
    have h1 : (k : ℝ) + 1 ≤ N := by exact_mod_cast hk
    have h2 := mul_le_mul_of_nonneg_right h1 hdt0.le
    have h3 : 0 ≤ (k : ℝ) * dt := by positivity
    refine ⟨⟨?_, ?_⟩, ⟨?_, ?_⟩⟩ <;> linarith
  have := hmain (t0 + dt) dt 0 η N (fun k => (v k).2) (fun k => (v k).1) (fun k => Y (t0 + k * dt))
    hdt0 (hdtδ.trans a2) le_rfl hδ.le hη0 hηδ (by linarith) (by linarith)
    (by
      rw [hv01]
      have e : t0 + ((1 : ℕ) : ℝ) * dt = t0 + dt := by push_cast; ring
      rw [e] at hη
      exact hη)
    (fun k _ => rfl)
    (by
      intro k hk _
      rw [one_mul, add_zero]
      rcases k with _ | k
      · simp only [Nat.cast_zero, zero_mul, add_zero]
        have : (v 0).1 - Y t0 = 0 := sub_self _
        rw [this, norm_zero]
        exact (norm_nonneg ((v 0).2 - Y (t0 + dt + ((0 : ℕ) : ℝ) * dt))).trans
          (le_maxErr (fun j : ℕ => ‖(v j).2 - Y (t0 + dt + j * dt)‖) 0 0 le_rfl)
      · have h1 := le_maxErr (fun j : ℕ => ‖(v j).2 - Y (t0 + dt + j * dt)‖) (k + 1) k (by omega)
        have e : t0 + ((k + 1 : ℕ) : ℝ) * dt = t0 + dt + k * dt := by push_cast; ring
        rw [e, hv1]
        exact h1)
    (by
      intro k hk
      have h1 := huc _ (hin k hk).2 _ (hin k hk).1 (by
        rw [Real.dist_eq]
        have : t0 + (k : ℝ) * dt - (t0 + dt + k * dt) = -dt := by ring
        rw [this, abs_neg, abs_of_pos hdt0]
        linarith)
      rw [dist_eq_norm] at h1
      exact h1.le)
    (by
      intro k hk
      have h1 := hdef _ (hin k hk).1 dt (by rw [abs_of_pos hdt0]; linarith)
      rw [abs_of_pos hdt0] at h1
      have e : t0 + dt + ((k + 1 : ℕ) : ℝ) * dt = t0 + dt + k * dt + dt := by push_cast; ring
      have e2 : t0 + dt + (k : ℝ) * dt - dt = t0 + k * dt := by ring
      rw [e2] at h1
      rw [e]; exact h1)
  intro k hk
  rcases k with _ | k
  · have : (v 0).1 - Y (t0 + ((0 : ℕ) : ℝ) * dt) = 0 := by simp [hv, epi3Seq]
    rw [this, norm_zero]
    positivity
  · have h := this k (by omega)
    have e : t0 + ((k + 1 : ℕ) : ℝ) * dt = t0 + dt + k * dt := by push_cast; ring
    rw [hv1, e]
    refine h.trans ?_
    rw [add_zero, hηd]
    have : 0 ≤ C * ε := by positivity
    have : 0 ≤ C1 * (dt ^ 3 + ε) := by positivity
    nlinarith

/-- **C91, epi3.**  The two-step method with its `exprb3` start converges with order three. -/
theorem C91_epi3 {K : Kernels n} (hK : ExactKernels K) (hasRust : Bool) (sys : OdeSys n P) (hj : ExactJacs sys)
    (Y : ℝ → Vec n) (t0 T : ℝ) (hY : ∀ t ∈ Set.Icc t0 T, SmoothIVP (sys.frhs none) 5 t Y) :
    ∃ C δ : ℝ, 0 ≤ C ∧ 0 < δ ∧ ∀ (dt ε tol : ℝ) (nsteps : ℕ) (s : ExpRB n), 0 < dt → dt ≤ δ → 0 ≤ ε → ε ≤ δ →
      t0 + nsteps * dt ≤ T → ExpRB.new hasRust t0 (Y t0) "epi3" tol = .ok s →
      ((0 ≤ tol ∧ tol ≤ ε) ∨ (∀ kw t y, (sys.fjac kw t y).fdt = 0)) →
      ∀ {Q W : Type} (before : Option (W → ℝ → Vec n → P × W)) (after : Option (W → ℝ → Vec n → Q × W)) (w : W),
      ∃ l, integrateOrmatex (rbStepper hasRust K sys) s (Y t0) t0 dt nsteps before after w = .ok l ∧
        RunAccurate l t0 dt nsteps Y (C * (dt ^ 3 + ε)) := by
  obtain ⟨C, δ, hC, hδ, hmain⟩ := epi3_converge hY
  refine ⟨C, δ, hC, hδ, ?_⟩
  intro dt ε tol N s h1 h2 h3 h4 h5 hnew htol Q W before after w
  have herr : ∀ k ≤ N, ‖(epi3Seq (sys.frhs none) tol t0 dt (Y t0) k).1 - Y (t0 + k * dt)‖ ≤ C * (dt ^ 3 + ε) := by
    rcases N with _ | N
    · intro k hk
      rw [Nat.le_zero.1 hk]
      have : (epi3Seq (sys.frhs none) tol t0 dt (Y t0) 0).1 - Y (t0 + ((0 : ℕ) : ℝ) * dt) = 0 := by simp [epi3Seq]
      rw [this, norm_zero]
      positivity
    · exact hmain dt ε tol N h1 h2 h3 h4 h5 (by
        rcases htol with h | h
        · exact Or.inl h
        · exact Or.inr fun t y => by rw [← (hj.get none t y).2]; exact h _ _ _)
  have hs : s = ExpRB.mk (Base.mk t0 3 "epi3" ⟨3, [t0]⟩ ⟨3, [Y t0]⟩) tol := by
    have : ExpRB.new hasRust t0 (Y t0) "epi3" tol = .ok (ExpRB.mk (Base.mk t0 3 "epi3" ⟨3, [t0]⟩ ⟨3, [Y t0]⟩) tol) := by
      cases hasRust <;> rfl
    rw [this] at hnew
    cases hnew
    rfl
  set f := sys.frhs none with hf
  set v := epi3Seq f tol t0 dt (Y t0) with hv
  set u : ℕ → Vec n := fun k => (v k).1 with hu
  obtain ⟨l, e1, e2, e3⟩ := run_seq (rbStepper hasRust K sys) (fun (o : ExpRB n) k => At o.base (t0 + k * dt) (u k) ∧
    o.base.method = "epi3" ∧ o.tolFdt = tol ∧ o.base.tHist.maxlen = 3 ∧ o.base.yHist.maxlen = 3 ∧
    (k = 0 → o.base.yHist.items.length = 1) ∧
    (0 < k → 2 ≤ o.base.yHist.items.length ∧ o.base.tHist.get 1 = .ok (t0 + k * dt - dt) ∧ o.base.yHist.get 1 = .ok (u (k - 1))))
    u t0 dt before after
    (by
      rintro o k kw - ⟨g1, g2, g3, g4, g5, g6, g7⟩
      have hacc : ∀ y, At (o.acceptStep (StepResult.mk (t0 + k * dt + dt) dt y (-1))).base (t0 + ((k + 1 : ℕ) : ℝ) * dt) y := by
        intro y
        have := at_accept (b := o.base) ⟨by rw [g5]; norm_num, by rw [g4, g5]⟩ (StepResult.mk (t0 + k * dt + dt) dt y (-1))
        have e : t0 + ((k + 1 : ℕ) : ℝ) * dt = t0 + k * dt + dt := by push_cast; ring
        rw [e]
        exact this
      have hget : ∀ y, 2 ≤ (o.acceptStep (StepResult.mk (t0 + k * dt + dt) dt y (-1))).base.yHist.items.length ∧
          (o.acceptStep (StepResult.mk (t0 + k * dt + dt) dt y (-1))).base.tHist.get 1 = .ok (t0 + ((k + 1 : ℕ) : ℝ) * dt - dt) ∧
          (o.acceptStep (StepResult.mk (t0 + k * dt + dt) dt y (-1))).base.yHist.get 1 = .ok (u k) := by
        intro y
        have ht := g1.tNew
        have hy := g1.yNew
        simp only [Deque.get] at ht hy
        have e : t0 + ((k + 1 : ℕ) : ℝ) * dt - dt = t0 + k * dt := by push_cast; ring
        rw [e]
        simp only [ExpRB.acceptStep, Base.acceptStep, Deque.appendleft, g4, g5, Deque.get]
        cases hti : o.base.tHist.items with
        | nil => rw [hti] at ht; cases ht
        | cons a as =>
          cases hyi : o.base.yHist.items with
          | nil => rw [hyi] at hy; cases hy
          | cons b bs =>
            rw [hti] at ht
            rw [hyi] at hy
            simp only [List.getElem?_cons_zero] at ht hy
            refine ⟨by simp, ?_, ?_⟩
            · simpa using ht
            · simpa using hy
      obtain ⟨hj1, hj2⟩ := hj.get (some (kw.getD ∅)) (t0 + k * dt) (u k)
      refine ⟨StepResult.mk (t0 + k * dt + dt) dt (u (k + 1)) (-1), o, ?_, rfl, rfl, hacc _, g2, g3, g4, g5,
        by intro h; omega, fun _ => hget (u (k + 1))⟩
      show keep o (ExpRB.step hasRust K sys o dt kw) = _
      unfold ExpRB.step
      simp only [g2, String.reduceEq, if_true, if_false]
      rcases k with _ | k
      · have hl' : ¬ o.base.yHist.len ≥ 2 := by
          show ¬ o.base.yHist.items.length ≥ 2
          rw [g6 rfl]; omega
        simp only [hl', if_false]
        rw [exprb3_closed hK sys o g1 dt _ _ hj1.mat]
        simp only [hj1.rhs, hj2, g3]
        have e : t0 + ((0 : ℕ) : ℝ) * dt = t0 := by simp
        simp only [e]
        rfl
      · obtain ⟨q1, q2, q3⟩ := g7 (by omega)
        have hl' : o.base.yHist.len ≥ 2 := q1
        simp only [hl', if_true]
        rw [epi3_closed hK sys o g1 dt _ _ hj1.mat _ _ q2 q3]
        simp only [hj1.rhs, hj2]
        have e : t0 + ((k + 1 : ℕ) : ℝ) * dt = t0 + dt + k * dt := by push_cast; ring
        simp only [e]
        rfl)
    s (by
      rw [hs]
      refine ⟨?_, rfl, rfl, rfl, rfl, fun _ => rfl, fun h => absurd h (lt_irrefl 0)⟩
      have e : t0 + ((0 : ℕ) : ℝ) * dt = t0 := by simp
      rw [e]
      exact ⟨rfl, rfl, rfl⟩) N w
  exact ⟨l, e1, runAccurate_of e2 e3 herr⟩

/-! ### the hypotheses are met -/

theorem demo_smooth_at (m : ℕ) (t : ℝ) (ht : t < 1) : SmoothIVP (demoF none) m t demoY where
  smooth := by
    refine contDiffAt_pi.2 fun i => ?_
    fin_cases i
    · exact contDiffAt_fst
    · have h1 : ContDiff ℝ m (fun p : ℝ × Vec 2 => p.2 1) :=
        ((ContinuousLinearMap.proj (R := ℝ) (φ := fun _ : Fin 2 => ℝ) 1).contDiff).comp contDiff_snd
      exact (h1.pow 2).contDiffAt
  sol := by
    filter_upwards [gt_mem_nhds ht] with s hs
    have hne : 1 - s ≠ 0 := by intro h; linarith
    refine hasDerivAt_pi.2 fun i => ?_
    fin_cases i
    · refine (((hasDerivAt_id s).pow 2).div_const 2).congr_deriv ?_
      simp [demoF]
    · refine (((hasDerivAt_id s).const_sub 1).inv hne).congr_deriv ?_
      simp [demoF, demoY]

theorem exactJacs_autodiff (f : Option P → ℝ → Vec n → Vec n) (hf : ∀ kw, f kw = f none) (fl : ℝ → Vec n → LinOp n) :
    ExactJacs (OdeSys.ofFrhs f fl) := by
  intro kw t y
  obtain ⟨J, hJ⟩ := exactJac_autodiff (f none) t y
  refine ⟨J, ?_⟩
  show ExactJac (adJac (f kw) t y) (f none) t y J
  rw [hf]
  exact hJ

/-- `y0' = t, y1' = y1^2` from `(0, 1)` on `[0, 1/2]`, with the default Jacobian: `pexprb4` and `epi3` converge. -/
example : ∃ C δ : ℝ, 0 ≤ C ∧ 0 < δ ∧ ∀ (dt : ℝ) (nsteps : ℕ) (s : ExpRB 2), 0 < dt → dt ≤ δ → 0 + nsteps * dt ≤ 1 / 2 →
    ExpRB.new false 0 (demoY 0) "pexprb4" 0 = .ok s →
    ∃ l, integrateOrmatex (rbStepper false (exactKernels 2) (OdeSys.ofFrhs demoF (fun _ _ => matrixLinOp 1))) s (demoY 0) 0 dt nsteps
        (none : Option (Unit → ℝ → Vec 2 → List ℕ × Unit)) (none : Option (Unit → ℝ → Vec 2 → Unit × Unit)) () = .ok l ∧
      RunAccurate l 0 dt nsteps demoY (C * dt ^ 4) := by
  obtain ⟨C, δ, hC, hδ, h⟩ := C91_rosenbrock (exactKernels_exact 2) false (OdeSys.ofFrhs demoF (fun _ _ => matrixLinOp 1))
    (exactJacs_autodiff demoF (fun _ => rfl) _) "pexprb4" 4 (by simp [rbOrders]) demoY 0 (1 / 2)
    (fun t ht => demo_smooth_at _ t (by linarith [ht.2]))
  refine ⟨C, δ, hC, hδ, fun dt N s h1 h2 h3 h4 => ?_⟩
  have := h dt 0 0 N s h1 h2 le_rfl hδ.le h3 h4 (Or.inl ⟨le_rfl, le_rfl⟩)
    (none : Option (Unit → ℝ → Vec 2 → List ℕ × Unit)) (none : Option (Unit → ℝ → Vec 2 → Unit × Unit)) ()
  rw [add_zero] at this
  exact this

end
end Ormatex.Props
