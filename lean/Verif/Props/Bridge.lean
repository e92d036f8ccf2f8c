import Verif.Model.Bridge
import Verif.Props.RsConvergeReal

/-!
C112: what `integrate` returns for the methods that run in the crate.
-/

namespace Ormatex.Props
open Matrix Ormatex.Spec Ormatex.Rs
open scoped Classical

variable {n : ℕ} {P : Type}

/-- **Specification.** The one-dimensional NumPy array with the components of `y`. -/
def vecArr (y : Vec n) : NdArr := ⟨[n], List.ofFn y⟩
/-- **Specification.** The NumPy scalar `x`. -/
def scalarArr (x : ℝ) : NdArr := ⟨[], [x]⟩

/-- the methods routed to the crate -/
theorem dispatch_rust {r : Bool} {m name : String} (h : dispatch r m = .ok (.rust name)) : r = true ∧ m ∈ rsMethods ∧ m = name ++ "_rs" := by
  have hm : m ∈ rsMethods ∧ r = true ∧ name = String.ofList (m.toList.dropLast.dropLast.dropLast) := by
    unfold dispatch at h
    dsimp only at h
    split_ifs at h with g1 g2 g3 g4 g5 g6 g7 <;> first | (cases h; done) | skip
    cases h
    exact ⟨List.contains_iff_mem.1 g5, g6, rfl⟩
  obtain ⟨h1, h2, rfl⟩ := hm
  refine ⟨h2, h1, ?_⟩
  simp only [rsMethods, List.mem_cons, List.not_mem_nil, or_false] at h1
  rcases h1 with rfl | rfl | rfl | rfl | rfl | rfl | rfl | rfl <;> decide

/-- the result in terms of the lists returned by the crate -/
theorem integrateRs_ok {hasRust : Bool} {gmres : Gmres n} {split : ℕ → Option (Split ℕ)} {sys : OdeSys n P} {y0 : Vec n} {t0 dt : ℝ} {N : ℕ}
    {method : String} {kw : Kwds} {ts : List ℝ} {y : NdArr} (h : integrateRs hasRust gmres split sys y0 t0 dt N method kw = .ok (ts, y)) :
    ∃ name ys, dispatch hasRust method = .ok (.rust name) ∧
      integrateWrapperRs gmres split (pySysWrapped sys) y0 t0 dt N (Function.update kw "method" (some (.str name))) = .ok (ys, ts) ∧
      y = (stackColumns ys).squeeze := by
  unfold integrateRs at h
  cases hd : dispatch hasRust method with
  | error e => rw [hd] at h; cases h
  | ok f =>
    rw [hd] at h
    cases f with
    | rust name =>
      dsimp only at h
      cases hw : integrateWrapperRs gmres split (pySysWrapped sys) y0 t0 dt N (Function.update kw "method" (some (.str name))) with
      | error e => rw [hw] at h; cases h
      | ok r =>
        rw [hw] at h
        obtain ⟨ys, ts'⟩ := r
        cases h
        exact ⟨name, ys, rfl, hw, rfl⟩
    | _ => cases h

theorem flat_slice (ys : List (Vec n)) (i : ℕ) (v : Vec n) (h : ys[i]? = some v) :
    ((ys.flatMap List.ofFn).drop (i * n)).take n = List.ofFn v := by
  induction ys generalizing i with
  | nil => simp at h
  | cons a ys ih =>
    cases i with
    | zero =>
      simp only [List.getElem?_cons_zero, Option.some.injEq] at h
      subst h
      simp [List.flatMap_cons]
    | succ i =>
      simp only [List.getElem?_cons_succ] at h
      rw [List.flatMap_cons, show (i + 1) * n = (List.ofFn a).length + i * n by rw [List.length_ofFn]; ring, List.drop_append,
        List.drop_eq_nil_of_le (by omega), Nat.add_sub_cancel_left, List.nil_append]
      exact ih i h

/-- the options the crate sees -/
theorem parse_osteps {kd : Kwds} {o : RunOpts} (h : parseOpts kd = .ok o) :
    getValOrDefault PyVal.asUsize kd "osteps" 1 = .ok o.osteps := by
  unfold parseOpts at h
  obtain ⟨_, _, h⟩ := bind_ok' h
  obtain ⟨_, _, h⟩ := bind_ok' h
  obtain ⟨_, _, h⟩ := bind_ok' h
  obtain ⟨_, _, h⟩ := bind_ok' h
  obtain ⟨_, _, h⟩ := bind_ok' h
  obtain ⟨_, _, h⟩ := bind_ok' h
  obtain ⟨_, e, h⟩ := bind_ok' h
  cases h
  exact e

/-- `osteps` as read from the keyword arguments -/
def OutputEvery (kw : Kwds) (osteps : ℕ) : Prop := getValOrDefault PyVal.asUsize kw "osteps" 1 = .ok osteps

/-- lists returned by the crate -/
theorem bridge_lists {gmres : Gmres n} {split : ℕ → Option (Split ℕ)} {sys : Rs.Sys n} {y0 : Vec n} {t0 dt : ℝ} {N : ℕ} {kw : Kwds}
    {name : String} {ys : List (Vec n)} {ts : List ℝ} {osteps : ℕ} (ho : OutputEvery kw osteps) (hpos : 0 < osteps)
    (h : integrateWrapperRs gmres split sys y0 t0 dt N (Function.update kw "method" (some (.str name))) = .ok (ys, ts)) :
    ys.length = ts.length ∧ ys[0]? = some y0 ∧ ts = (outputSteps osteps N).map fun i : ℕ => t0 + i * dt := by
  have h' := h
  unfold integrateWrapperRs at h'
  obtain ⟨o, hp, _⟩ := bind_ok' h'
  have e : o.osteps = osteps := by
    have h1 := parse_osteps hp
    unfold getValOrDefault at h1
    rw [Function.update_of_ne (by decide)] at h1
    exact Except.ok.inj (h1.symm.trans ho)
  subst e
  obtain ⟨S, Y, _, _, _, h0, h1, h2⟩ := C69_integrate_wrapper gmres split sys y0 t0 dt N _ ys ts o hp hpos h
  refine ⟨by rw [h1, h2]; simp, ?_, h2⟩
  rw [h1, List.getElem?_map]
  have : (outputSteps o.osteps N)[0]? = some 0 := by
    unfold outputSteps
    cases N with
    | zero => simp
    | succ N => simp [List.range_succ_eq_map]
  rw [this, ← h0]
  rfl

theorem outputs_two {osteps N : ℕ} (ho : 0 < osteps) (hN : 0 < N) : 2 ≤ (outputSteps osteps N).length := by
  rw [C69_count _ _ ho]
  have : 1 ≤ (N + osteps - 1) / osteps := (Nat.le_div_iff_mul_le ho).2 (by omega)
  omega

/-- **C112 (the part that holds).** For a system of more than one component and at least one step, whatever the Rust method and the options:
when `integrate` returns, `len(res.y) = len(res.t)`, `res.t` lists the output times, and `res.y[j]` is the vector of the state that the crate
recorded for `res.t[j]`, the first being the initial state. -/
theorem C112_result_partial (hasRust : Bool) (gmres : Gmres n) (split : ℕ → Option (Split ℕ)) (sys : OdeSys n P) (y0 : Vec n) (t0 dt : ℝ) (N : ℕ)
    (method : String) (kw : Kwds) (osteps : ℕ) (ho : OutputEvery kw osteps) (hpos : 0 < osteps) (hn : n ≠ 1) (hN : 0 < N) (ts : List ℝ) (y : NdArr)
    (h : integrateRs hasRust gmres split sys y0 t0 dt N method kw = .ok (ts, y)) :
    ∃ (name : String) (ys : List (Vec n)), method = name ++ "_rs" ∧
      integrateWrapperRs gmres split (pySysWrapped sys) y0 t0 dt N (Function.update kw "method" (some (.str name))) = .ok (ys, ts) ∧
      ts = (outputSteps osteps N).map (fun i : ℕ => t0 + i * dt) ∧ y.len = .ok ts.length ∧ y.index 0 = .ok (vecArr y0) ∧
      ∀ j v, ys[j]? = some v → y.index j = .ok (vecArr v) := by
  obtain ⟨name, ys, hd, hw, rfl⟩ := integrateRs_ok h
  obtain ⟨h1, h2, h3⟩ := bridge_lists ho hpos hw
  have hlen : 2 ≤ ys.length := by rw [h1, h3, List.length_map]; exact outputs_two hpos hN
  have hsh : (stackColumns ys).squeeze.shape = [ys.length, n] := by
    have : ys.length ≠ 1 := by omega
    simp [NdArr.squeeze, stackColumns, hn, this]
  have hidx : ∀ j v, ys[j]? = some v → (stackColumns ys).squeeze.index j = .ok (vecArr v) := by
    intro j v hj
    have hlt : j < ys.length := by
      by_contra hc
      rw [List.getElem?_eq_none (by omega)] at hj
      cases hj
    unfold NdArr.index
    rw [hsh]
    simp only [hlt, if_true, List.prod_cons, List.prod_nil, mul_one]
    have := flat_slice ys j v hj
    simp only [NdArr.squeeze, stackColumns, vecArr]
    rw [this]
  refine ⟨name, ys, ?_, hw, h3, ?_, hidx 0 y0 h2, hidx⟩
  · exact (dispatch_rust hd).2.2
  · unfold NdArr.len
    rw [hsh, h1]

/-- **C112, one component.** For a system of one component the entries are NumPy scalars, not vectors of length one: `res.y[j]` has no axes. -/
theorem C112_one_component (hasRust : Bool) (gmres : Gmres 1) (split : ℕ → Option (Split ℕ)) (sys : OdeSys 1 P) (y0 : Vec 1) (t0 dt : ℝ) (N : ℕ)
    (method : String) (kw : Kwds) (osteps : ℕ) (ho : OutputEvery kw osteps) (hpos : 0 < osteps) (hN : 0 < N) (ts : List ℝ) (y : NdArr)
    (h : integrateRs hasRust gmres split sys y0 t0 dt N method kw = .ok (ts, y)) :
    y.len = .ok ts.length ∧ y.index 0 = .ok (scalarArr (y0 0)) ∧ y.index 0 ≠ .ok (vecArr y0) := by
  obtain ⟨name, ys, hd, hw, rfl⟩ := integrateRs_ok h
  obtain ⟨h1, h2, h3⟩ := bridge_lists ho hpos hw
  have hlen : 2 ≤ ys.length := by rw [h1, h3, List.length_map]; exact outputs_two hpos hN
  have hsh : (stackColumns ys).squeeze.shape = [ys.length] := by
    have : ys.length ≠ 1 := by omega
    simp [NdArr.squeeze, stackColumns, this]
  have hi : (stackColumns ys).squeeze.index 0 = .ok (scalarArr (y0 0)) := by
    unfold NdArr.index
    rw [hsh]
    have hlt : 0 < ys.length := by omega
    have := flat_slice ys 0 y0 h2
    simp only [hlt, if_true, List.prod_nil, NdArr.squeeze, stackColumns, scalarArr]
    rw [this]
    simp
  refine ⟨?_, hi, ?_⟩
  · unfold NdArr.len; rw [hsh, h1]
  · rw [hi]
    intro hc
    have := congrArg NdArr.shape (Except.ok.inj hc)
    simp [scalarArr, vecArr] at this

/-- **C112 is refuted for `nsteps = 0`.** `integrate` with a Rust method and no step returns the time `[t0]` and, as `res.y`, the initial state
itself: for two or more components `len(res.y) = n` although `len(res.t) = 1`, and `res.y[0]` is the first component of the state. -/
theorem C112_no_step_false (hasRust : Bool) (gmres : Gmres n) (split : ℕ → Option (Split ℕ)) (sys : OdeSys n P) (y0 : Vec n) (t0 dt : ℝ)
    (method : String) (kw : Kwds) (hn : 2 ≤ n) (ts : List ℝ) (y : NdArr)
    (h : integrateRs hasRust gmres split sys y0 t0 dt 0 method kw = .ok (ts, y)) :
    ts = [t0] ∧ y = vecArr y0 ∧ y.len = .ok n ∧ y.len ≠ .ok ts.length ∧ y.index 0 = .ok (scalarArr (y0 ⟨0, by omega⟩)) := by
  obtain ⟨name, ys, hd, hw, rfl⟩ := integrateRs_ok h
  unfold integrateWrapperRs at hw
  obtain ⟨o, _, hw⟩ := bind_ok' hw
  obtain ⟨s, hs, hw⟩ := bind_ok' hw
  obtain ⟨e1, e2⟩ := selectSolver_init gmres (pySysWrapped sys) split _ _ _ _ _ _ _ _ hs
  unfold outLoop at hw
  rw [e2, e1] at hw
  cases hw
  have hv : (stackColumns ([] ++ [y0])).squeeze = vecArr y0 := by
    have : n ≠ 1 := by omega
    simp [NdArr.squeeze, stackColumns, vecArr, this]
  have hlen : (vecArr y0).len = .ok n := rfl
  refine ⟨rfl, hv, by rw [hv]; rfl, ?_, ?_⟩
  · rw [hv, hlen]
    intro hc
    have := Except.ok.inj hc
    simp at this
    omega
  · rw [hv]
    unfold NdArr.index vecArr scalarArr
    have h0 : 0 < n := by omega
    simp only [h0, if_true, List.prod_nil, zero_mul, List.drop_zero]
    obtain ⟨k, rfl⟩ : ∃ k, n = k + 1 := ⟨n - 1, by omega⟩
    rw [List.ofFn_succ]
    rfl

/-- **C112, no step and one component.** The result then has no axes at all: `len(res.y)` and `res.y[0]` raise. -/
theorem C112_no_step_scalar (hasRust : Bool) (gmres : Gmres 1) (split : ℕ → Option (Split ℕ)) (sys : OdeSys 1 P) (y0 : Vec 1) (t0 dt : ℝ)
    (method : String) (kw : Kwds) (ts : List ℝ) (y : NdArr)
    (h : integrateRs hasRust gmres split sys y0 t0 dt 0 method kw = .ok (ts, y)) :
    y.len = .error .type ∧ y.index 0 = .error .index := by
  obtain ⟨name, ys, hd, hw, rfl⟩ := integrateRs_ok h
  unfold integrateWrapperRs at hw
  obtain ⟨o, _, hw⟩ := bind_ok' hw
  obtain ⟨s, hs, hw⟩ := bind_ok' hw
  obtain ⟨e1, e2⟩ := selectSolver_init gmres (pySysWrapped sys) split _ _ _ _ _ _ _ _ hs
  unfold outLoop at hw
  rw [e2, e1] at hw
  cases hw
  exact ⟨rfl, rfl⟩

/-- **C112, options.** The result depends on the keyword arguments only through "expmv_method", "max_krylov_dim", "iom", "tol" and "osteps":
callbacks, `tol_fdt` and every other option of the Python integrators are silently ignored. -/
theorem C112_ignored_options (hasRust : Bool) (gmres : Gmres n) (split : ℕ → Option (Split ℕ)) (sys : OdeSys n P) (y0 : Vec n) (t0 dt : ℝ) (N : ℕ)
    (method : String) (kw : Kwds) (key : String) (v : Option PyVal)
    (hk : key ∉ ["expmv_method", "max_krylov_dim", "iom", "tol", "osteps"]) :
    integrateRs hasRust gmres split sys y0 t0 dt N method (Function.update kw key v) = integrateRs hasRust gmres split sys y0 t0 dt N method kw := by
  simp only [List.mem_cons, List.not_mem_nil, or_false, not_or] at hk
  obtain ⟨k1, k2, k3, k4, k5⟩ := hk
  have e : ∀ name, parseOpts (Function.update (Function.update kw key v) "method" (some (.str name))) =
      parseOpts (Function.update kw "method" (some (.str name))) := by
    intro name
    have e1 : ∀ q : String, q ≠ key → Function.update (Function.update kw key v) "method" (some (.str name)) q =
        Function.update kw "method" (some (.str name)) q := by
      intro q hq
      by_cases hm : q = "method"
      · subst hm; simp
      · rw [Function.update_of_ne hm, Function.update_of_ne hm, Function.update_of_ne hq]
    unfold parseOpts getValOrDefault
    rw [e1 "expmv_method" (Ne.symm k1), e1 "max_krylov_dim" (Ne.symm k2), e1 "iom" (Ne.symm k3), e1 "tol" (Ne.symm k4), e1 "osteps" (Ne.symm k5),
      Function.update_self, Function.update_self]
  unfold integrateRs integrateWrapperRs
  simp only [e]

/-- Without the compiled module every Rust method raises an `ImportError` and nothing is integrated. -/
theorem C112_no_module (gmres : Gmres n) (split : ℕ → Option (Split ℕ)) (sys : OdeSys n P) (y0 : Vec n) (t0 dt : ℝ) (N : ℕ) (method : String)
    (hm : method ∈ rsMethods) (kw : Kwds) : integrateRs false gmres split sys y0 t0 dt N method kw = .error (.py .importErr) := by
  have : dispatch false method = .error .importErr := by
    simp only [rsMethods, List.mem_cons, List.not_mem_nil, or_false] at hm
    rcases hm with rfl | rfl | rfl | rfl | rfl | rfl | rfl | rfl <;> decide
  unfold integrateRs
  rw [this]

/-! ### convergence of `integrate` with a Rust method -/

theorem outLoop_epirk (gmres : Gmres n) (sys : Rs.Sys n) (K : KrylovExpm) (dt : ℝ) (osteps r : ℕ) :
    ∀ (i : ℕ) (s : Epirk n) (ys : List (Vec n)) (ts : List ℝ),
      outLoop (solverIntegrator gmres sys) dt osteps r i (.epirk K s) ys ts = outLoop (Epirk.integrator (K.kern n) sys) dt osteps r i s ys ts := by
  induction r with
  | zero => intro i s ys ts; rfl
  | succ r ih =>
    intro i s ys ts
    unfold outLoop
    by_cases h0 : osteps = 0
    · rw [if_pos h0, if_pos h0]
    rw [if_neg h0, if_neg h0]
    have e1 : (solverIntegrator gmres sys).state (.epirk K s) = (Epirk.integrator (K.kern n) sys).state s := rfl
    have e2 : (solverIntegrator gmres sys).time (.epirk K s) = (Epirk.integrator (K.kern n) sys).time s := rfl
    have e3 : (solverIntegrator gmres sys).step (.epirk K s) dt = (Epirk.integrator (K.kern n) sys).step s dt := rfl
    rw [e1, e2, e3]
    cases (Epirk.integrator (K.kern n) sys).step s dt with
    | error e => cases e <;> rfl
    | ok res =>
      have ih' : ∀ (ys' : List (Vec n)) (ts' : List ℝ), outLoop (solverIntegrator gmres sys) dt osteps r (i + 1)
          ((solverIntegrator gmres sys).accept (.epirk K s) res) ys' ts' = outLoop (Epirk.integrator (K.kern n) sys) dt osteps r (i + 1)
          ((Epirk.integrator (K.kern n) sys).accept s res) ys' ts' := fun ys' ts' => ih _ _ _ _
      simp only [ih']

/-- a system given by a differentiable autonomous right-hand side, with the default Jacobian of the package, is exact for the crate -/
theorem wrapped_exact (f : Vec n → Vec n) (hf : Differentiable ℝ f) (fl : ℝ → Vec n → LinOp n) :
    ExactJacsRs (pySysWrapped (OdeSys.ofFrhs (P := P) (fun _ _ y => f y) fl)) := by
  refine ⟨fun _ _ _ => rfl, fun t y => ?_⟩
  have hd := (hf y).hasFDerivAt
  refine ⟨LinearMap.toMatrix' (fderiv ℝ f y).toLinearMap, ?_, ?_⟩
  · intro v
    show fderiv ℝ (fun p : ℝ × Vec n => f p.2) (t, y) (0, v) = _
    have h1 : HasFDerivAt (fun p : ℝ × Vec n => f p.2) ((fderiv ℝ f y).comp (ContinuousLinearMap.snd ℝ ℝ (Vec n))) (t, y) :=
      HasFDerivAt.comp (t, y) hd hasFDerivAt_snd
    rw [h1.fderiv, ← Matrix.toLin'_apply, Matrix.toLin'_toMatrix']
    rfl
  · rw [Matrix.toLin'_toMatrix']
    convert hd using 1
    · rfl
    · ext v; rfl

/-- **C112, convergence.** `integrate` with `epi2_rs` or `exprb2_rs` (Padé evaluator, any Krylov dimension of at least two, any
orthogonalisation depth): for an autonomous system with exact Jacobian and a solution on `[t0, T]` that meets no equilibrium, every call with
`dt ≤ δ` returns; `res.t` lists the output times and `res.y[j]` is a vector within `C (dt² + 1e-12 dt)` of the solution at `res.t[j]`. -/
theorem C112_converge (gmres : Gmres n) (split : ℕ → Option (Split ℕ)) (sys : OdeSys n P) (hj : ExactJacsRs (pySysWrapped sys)) (hn : 2 ≤ n)
    (method name : String) (hme : (method, name) = ("epi2_rs", "epi2") ∨ (method, name) = ("exprb2_rs", "exprb2")) (Y : ℝ → Vec n) (t0 T : ℝ)
    (hY : ∀ t ∈ Set.Icc t0 T, SmoothIVP (sys.frhs none) 4 t Y) (hne : ∀ t ∈ Set.Icc t0 T, sys.frhs none t (Y t) ≠ 0) (iom : ℕ) :
    ∃ C δ : ℝ, 0 ≤ C ∧ 0 < δ ∧ ∀ (dt : ℝ) (N : ℕ) (kw : Kwds) (o : RunOpts), 0 < dt → dt ≤ δ → t0 + N * dt ≤ T → 0 < N →
      parseOpts (Function.update kw "method" (some (.str name))) = .ok o → o.expmvMethod = "pade" → 2 ≤ o.krylovDim → o.iom = iom → 0 < o.osteps →
      ∃ (ts : List ℝ) (y : NdArr), integrateRs true gmres split sys (Y t0) t0 dt N method kw = .ok (ts, y) ∧
        ts = (outputSteps o.osteps N).map (fun i : ℕ => t0 + i * dt) ∧ y.len = .ok ts.length ∧
        ∀ j t, ts[j]? = some t → ∃ v : Vec n, y.index j = .ok (vecArr v) ∧ ‖v - Y t‖ ≤ C * (dt ^ 2 + 1e-12 * dt) := by
  have hname : name = "epi2" ∨ name = "exprb2" := by
    rcases hme with h | h
    · exact Or.inl (congrArg Prod.snd h)
    · exact Or.inr (congrArg Prod.snd h)
  obtain ⟨C, δ, hC, hδ, h⟩ := C111_converge (pySysWrapped sys) hj name hname Y t0 T hY hne iom
  refine ⟨C, δ, hC, hδ, fun dt N kw o h1 h2 h3 hN hp he hk hi ho => ?_⟩
  have hdisp : dispatch true method = .ok (.rust name) := by
    rcases hme with h | h <;> (obtain ⟨rfl, rfl⟩ := Prod.mk.inj h; decide)
  have hom : o.method = name := by
    unfold parseOpts at hp
    obtain ⟨a, ha, hp⟩ := bind_ok' hp
    obtain ⟨_, _, hp⟩ := bind_ok' hp
    obtain ⟨_, _, hp⟩ := bind_ok' hp
    obtain ⟨_, _, hp⟩ := bind_ok' hp
    obtain ⟨_, _, hp⟩ := bind_ok' hp
    obtain ⟨_, _, hp⟩ := bind_ok' hp
    obtain ⟨_, _, hp⟩ := bind_ok' hp
    cases hp
    unfold getValOrDefault at ha
    rw [Function.update_self] at ha
    exact (Except.ok.inj ha).symm
  obtain ⟨s1, hs1⟩ : ∃ s1, Epirk.new t0 (Y t0) name = .ok s1 := by
    rcases hname with rfl | rfl <;> exact ⟨_, rfl⟩
  obtain ⟨s0, hs0⟩ : ∃ s0, s1.withOpt "tol_fdt" o.tolFdt = .ok s0 := ⟨_, rfl⟩
  obtain ⟨out, hout, hacc⟩ := h o.krylovDim dt o.tolFdt N o.osteps s1 s0 (by omega) (Or.inl (le_min hn hk)) h1 h2 h3 ho hs1 hs0
  have hsel : selectSolver split t0 (Y t0) o.method o.expmvMethod o.krylovDim o.iom o.tolFdt =
      .ok (.epirk (KrylovExpm.mk padeKernel o.krylovDim iom) s0) := by
    have hk0 : 0 < o.krylovDim := by omega
    have em : selectExpmv split "pade" = .ok padeKernel := rfl
    have en : KrylovExpm.new padeKernel o.krylovDim (some iom) = .ok (KrylovExpm.mk padeKernel o.krylovDim iom) := if_pos hk0
    have ne : ¬ (name = "bdf1" ∨ name = "backeuler") ∧ name ≠ "bdf2" ∧ name ≠ "cn" := by rcases hname with rfl | rfl <;> decide
    unfold selectSolver
    rw [hom, he, hi, if_neg ne.1, if_neg ne.2.1, if_neg ne.2.2, em]
    show (KrylovExpm.new padeKernel o.krylovDim (some iom) >>= fun K => Epirk.new t0 (Y t0) name >>= fun s => s.withOpt "tol_fdt" o.tolFdt >>= fun s =>
      Pure.pure (Solver.epirk K s)) = _
    rw [en, hs1]
    show (s1.withOpt "tol_fdt" o.tolFdt >>= fun s => Pure.pure (Solver.epirk _ s)) = _
    rw [hs0]
    rfl
  have hw : integrateWrapperRs gmres split (pySysWrapped sys) (Y t0) t0 dt N (Function.update kw "method" (some (.str name))) = .ok (out.1, out.2) := by
    unfold integrateWrapperRs
    rw [hp]
    show (selectSolver split t0 (Y t0) o.method o.expmvMethod o.krylovDim o.iom o.tolFdt >>= fun s =>
      outLoop (solverIntegrator gmres (pySysWrapped sys)) dt o.osteps N 0 s [] []) = _
    rw [hsel]
    show outLoop (solverIntegrator gmres (pySysWrapped sys)) dt o.osteps N 0 (.epirk _ s0) [] [] = _
    rw [outLoop_epirk]
    exact hout
  have hrun : integrateRs true gmres split sys (Y t0) t0 dt N method kw = .ok (out.2, (stackColumns out.1).squeeze) := by
    unfold integrateRs
    rw [hdisp]
    dsimp only
    rw [hw]
  have hos : OutputEvery kw o.osteps := by
    have := parse_osteps hp
    unfold getValOrDefault at this
    rw [Function.update_of_ne (by decide)] at this
    exact this
  obtain ⟨nm, ys, hnm, hys, hts, hlen, _, hidx⟩ := C112_result_partial true gmres split sys (Y t0) t0 dt N method kw o.osteps hos ho (by omega) hN _ _ hrun
  have hys' : ys = out.1 := by
    have : nm = name := by
      obtain ⟨nm', ys', hd', _, _⟩ := integrateRs_ok hrun
      have h5 := (dispatch_rust hdisp).2.2
      rw [h5] at hnm
      exact (String.append_left_inj "_rs").1 hnm.symm
    subst this
    rw [hw] at hys
    exact (congrArg Prod.fst (Except.ok.inj hys)).symm
  subst hys'
  refine ⟨out.2, _, hrun, hts, hlen, fun j t ht => ?_⟩
  have hj : j < out.1.length := by
    rw [hacc.2.1]
    by_contra hc
    rw [List.getElem?_eq_none (by omega)] at ht
    cases ht
  have hv : out.1[j]? = some out.1[j] := List.getElem?_eq_getElem hj
  exact ⟨_, hidx j _ hv, hacc.2.2 j _ t hv ht⟩

/-- two copies of `y' = y^2`, given to the package by its right-hand side only -/
noncomputable def twoSquares : OdeSys 2 (List ℕ) := OdeSys.ofFrhs fun _ _ y i => (y i) ^ 2

theorem twoSquares_smooth (m : ℕ) (t : ℝ) (ht : t < 1) : SmoothIVP (twoSquares.frhs none) m t (fun s _ => (1 - s)⁻¹) := by
  constructor
  · refine contDiffAt_pi.2 fun i => ?_
    have h1 : ContDiff ℝ m (fun p : ℝ × Vec 2 => p.2 i) :=
      ((ContinuousLinearMap.proj (R := ℝ) (φ := fun _ : Fin 2 => ℝ) i).contDiff).comp contDiff_snd
    exact (h1.pow 2).contDiffAt
  · have : ∀ᶠ s : ℝ in nhds t, s < 1 := (isOpen_Iio.mem_nhds ht)
    filter_upwards [this] with s hs
    rw [hasDerivAt_pi]
    intro i
    have h1 : HasDerivAt (fun s : ℝ => 1 - s) (-1) s := by simpa using (hasDerivAt_id s).const_sub 1
    have h2 := h1.inv (by linarith : (1 : ℝ) - s ≠ 0)
    refine h2.congr_deriv ?_
    simp [twoSquares, OdeSys.ofFrhs]

/-- `integrate(sys, [1, 1], 0, dt, N, "exprb2_rs")` with no options follows `1 / (1 - t)` on `[0, 1/2]`; the linear solver is not used. -/
example (gmres : Gmres 2) : ∃ C δ : ℝ, 0 ≤ C ∧ 0 < δ ∧ ∀ (dt : ℝ) (N : ℕ), 0 < dt → dt ≤ δ → N * dt ≤ 1 / 2 → 0 < N →
    ∃ (ts : List ℝ) (y : NdArr), integrateRs true gmres (fun _ => none) twoSquares (fun _ => 1) 0 dt N "exprb2_rs" (fun _ => none) = .ok (ts, y) ∧
      ts = (outputSteps 1 N).map (fun i : ℕ => 0 + i * dt) ∧ y.len = .ok ts.length ∧
      ∀ j t, ts[j]? = some t → ∃ v : Vec 2, y.index j = .ok (vecArr v) ∧ ‖v - fun _ => (1 - t)⁻¹‖ ≤ C * (dt ^ 2 + 1e-12 * dt) := by
  have hd : Differentiable ℝ (fun (y : Vec 2) i => (y i) ^ 2) := by
    refine differentiable_pi.2 fun i => ?_
    exact (differentiable_apply i).pow 2
  obtain ⟨C, δ, hC, hδ, h⟩ := C112_converge gmres (fun _ => none) twoSquares (wrapped_exact _ hd _) le_rfl "exprb2_rs" "exprb2" (Or.inr rfl)
    (fun s _ => (1 - s)⁻¹) 0 (1 / 2) (fun t ht => twoSquares_smooth 4 t (by linarith [ht.2])) (fun t ht h0 => by
      have := congrFun h0 0
      simp only [twoSquares, OdeSys.ofFrhs, Pi.zero_apply] at this
      have h1 : (0 : ℝ) < 1 - t := by linarith [ht.2]
      have h2 := inv_pos.2 h1
      nlinarith [pow_pos h2 2]) 2
  refine ⟨C, δ, hC, hδ, fun dt N h1 h2 h3 h4 => ?_⟩
  have := h dt N (fun _ => none) { method := "exprb2", expmvMethod := "pade", krylovDim := 100, iom := 2, tol := 1e-8, tolFdt := 1e-8, osteps := 1 }
    h1 h2 (by linarith) h4
    (by simp [parseOpts, getValOrDefault, PyVal.asString, Function.update, Bind.bind, Except.bind, Pure.pure, Except.pure]) rfl (by norm_num) rfl
    (by norm_num)
  simpa using this

/-- the hypotheses of the refutation are met: `integrate(sys, [1, 1], 0, dt, 0, "bdf1_rs")` returns -/
example (gmres : Gmres 2) (dt : ℝ) : ∃ ts y, integrateRs true gmres (fun _ => none) twoSquares (fun _ => 1) 0 dt 0 "bdf1_rs" (fun _ => none) = .ok (ts, y) ∧
    y.len = .ok 2 ∧ ts = [0] := by
  refine ⟨[0], vecArr (n := 2) fun _ => 1, ?_, rfl, rfl⟩
  have hd : dispatch true "bdf1_rs" = .ok (.rust "bdf1") := by decide
  unfold integrateRs
  rw [hd]
  simp [integrateWrapperRs, parseOpts, getValOrDefault, PyVal.asString, Function.update, Bind.bind, Except.bind, Pure.pure, Except.pure, selectSolver,
    outLoop, solverIntegrator, Bdf.new, Bdf.integrator, rsGet, stackColumns, NdArr.squeeze, vecArr]

end Ormatex.Props
