import Verif.Spec.RsClient
import Verif.Model.RsWrapper

/-!
C68, C69, C70, C74: histories of the Rust integrators, output of a run, the two-step formula, options.
-/

namespace Ormatex.Props
open Ormatex.Rs
variable {n : ℕ} {σ : Type}

/-! ### C68: newest state, reset -/

/-- An object whose newest history entry and clock are `p`. -/
private def AtRs (I : Integrator σ n) (s : σ) (p : ℝ × Vec n) : Prop := I.time s = p.1 ∧ I.state s = .ok p.2

private theorem newest_run (I : Integrator σ n)
    (ha : ∀ s r, AtRs I (I.accept s r) (r.t, r.y)) (hr : ∀ s t y, AtRs I (I.reset s t y) (t, y))
    (cs : List (RsCall n)) : ∀ s p, AtRs I s p → AtRs I (I.run s cs) (newest p cs) := by
  induction cs with
  | nil => intro s p h; exact h
  | cons c cs ih =>
    intro s p h
    cases c with
    | step dt => exact ih s p h
    | accept r => exact ih _ _ (ha s r)
    | reset t y => exact ih _ _ (hr s t y)

/-- C68: `time()` and `state()` of the implicit integrators are those of the newest accepted step (or reset, or the
constructor), after every history of calls. -/
theorem C68_newest_bdf (gmres : Gmres n) (sys : Sys n) (t0 : ℝ) (y0 : Vec n) (order : ℕ) (cs : List (RsCall n)) :
    let I := Bdf.integrator gmres sys
    I.time (I.run (Bdf.new t0 y0 order) cs) = (newest (t0, y0) cs).1 ∧
      I.state (I.run (Bdf.new t0 y0 order) cs) = .ok (newest (t0, y0) cs).2 :=
  newest_run (Bdf.integrator gmres sys) (fun _ _ => ⟨rfl, rfl⟩) (fun _ _ _ => ⟨rfl, rfl⟩) cs _ _ ⟨rfl, rfl⟩

theorem rk_new {t0 : ℝ} {y0 : Vec n} {order : ℕ} {s : Rk n} (h : Rk.new t0 y0 order = .ok s) :
    s = { order := order, bt := btFactory order, t := t0, yHist := [y0] } := by
  unfold Rk.new at h
  split at h <;> cases h <;> rfl

/-- C68 for the Runge-Kutta integrators. -/
theorem C68_newest_rk (sys : Sys n) (t0 : ℝ) (y0 : Vec n) (order : ℕ) (s : Rk n) (h : Rk.new t0 y0 order = .ok s)
    (cs : List (RsCall n)) :
    let I := Rk.integrator sys
    I.time (I.run s cs) = (newest (t0, y0) cs).1 ∧ I.state (I.run s cs) = .ok (newest (t0, y0) cs).2 := by
  rw [rk_new h]
  exact newest_run (Rk.integrator sys) (fun _ _ => ⟨rfl, rfl⟩) (fun _ _ _ => ⟨rfl, rfl⟩) cs _ _ ⟨rfl, rfl⟩

theorem epirk_new {t0 : ℝ} {y0 : Vec n} {m : String} {s : Epirk n} (h : Epirk.new t0 y0 m = .ok s) :
    ∃ o, s = { order := o, method := m, t := t0, tolFdt := -1, yHist := [y0], tHist := [t0] } := by
  unfold Epirk.new at h
  split_ifs at h <;> cases h <;> exact ⟨_, rfl⟩

/-- C68 for the exponential integrators. -/
theorem C68_newest_epirk (K : Kern n) (sys : Sys n) (t0 : ℝ) (y0 : Vec n) (m : String) (s : Epirk n)
    (h : Epirk.new t0 y0 m = .ok s) (cs : List (RsCall n)) :
    let I := Epirk.integrator K sys
    I.time (I.run s cs) = (newest (t0, y0) cs).1 ∧ I.state (I.run s cs) = .ok (newest (t0, y0) cs).2 := by
  obtain ⟨o, rfl⟩ := epirk_new h
  exact newest_run (Epirk.integrator K sys) (fun _ _ => ⟨rfl, rfl⟩) (fun _ _ _ => ⟨rfl, rfl⟩) cs _ _ ⟨rfl, rfl⟩

/-- Non-vacuity: a history with a rejected trial, two accepted steps and a reset in between. -/
example (r r' : StepRes n) (y : Vec n) : newest (0, (0 : Vec n)) [.step 1, .accept r, .reset 5 y, .step 1, .accept r'] =
    (r'.t, r'.y) := rfl

theorem rsBdf_run_order (gmres : Gmres n) (sys : Sys n) (cs : List (RsCall n)) : ∀ s : Bdf n,
    ((Bdf.integrator gmres sys).run s cs).order = s.order := by
  induction cs with
  | nil => intro s; rfl
  | cons c cs ih => intro s; cases c <;> exact ih _

/-- C68: after any history, `reset_ic(t1, y1)` makes an implicit integrator indistinguishable from a new one, for every
later sequence of calls. -/
theorem C68_reset_bdf (gmres : Gmres n) (sys : Sys n) (t0 t1 : ℝ) (y0 y1 : Vec n) (order : ℕ)
    (cs ds : List (RsCall n)) :
    let I := Bdf.integrator gmres sys
    I.trace (I.reset (I.run (Bdf.new t0 y0 order) cs) t1 y1) ds = I.trace (Bdf.new t1 y1 order) ds := by
  have h := rsBdf_run_order gmres sys cs (Bdf.new t0 y0 order)
  have e : (Bdf.integrator gmres sys).reset ((Bdf.integrator gmres sys).run (Bdf.new t0 y0 order) cs) t1 y1 =
      Bdf.new t1 y1 order := by
    show Bdf.mk _ _ _ = Bdf.mk _ _ _
    rw [h]
    rfl
  simp only [e]

theorem rsRk_run_conf (sys : Sys n) (cs : List (RsCall n)) : ∀ s : Rk n,
    ((Rk.integrator sys).run s cs).order = s.order ∧ ((Rk.integrator sys).run s cs).bt = s.bt := by
  induction cs with
  | nil => intro s; exact ⟨rfl, rfl⟩
  | cons c cs ih => intro s; cases c <;> exact ih _

/-- C68: reset of the Runge-Kutta integrators. -/
theorem C68_reset_rk (sys : Sys n) (t0 t1 : ℝ) (y0 y1 : Vec n) (order : ℕ) (s s' : Rk n)
    (h : Rk.new t0 y0 order = .ok s) (h' : Rk.new t1 y1 order = .ok s') (cs ds : List (RsCall n)) :
    let I := Rk.integrator sys
    I.trace (I.reset (I.run s cs) t1 y1) ds = I.trace s' ds := by
  have c := rsRk_run_conf sys cs s
  have e : (Rk.integrator sys).reset ((Rk.integrator sys).run s cs) t1 y1 = s' := by
    rw [rk_new h']
    show Rk.mk _ _ _ _ = Rk.mk _ _ _ _
    rw [c.1, c.2, rk_new h]
  simp only [e]

/-- Two exponential integrator objects that differ only in times older than their oldest state. -/
private def SameEp (s s' : Epirk n) : Prop :=
  s.order = s'.order ∧ s.method = s'.method ∧ s.t = s'.t ∧ s.tolFdt = s'.tolFdt ∧ s.yHist = s'.yHist ∧
    s.tHist.take s.yHist.length = s'.tHist.take s.yHist.length ∧ s.yHist.length ≤ s.tHist.length ∧
    s.yHist.length ≤ s'.tHist.length

private theorem rsGet_take {α : Type} {l l' : List α} {k i : ℕ} (h : l.take k = l'.take k) (hi : i < k) :
    rsGet l i = rsGet l' i := by
  have e : l[i]? = l'[i]? := by
    rw [← List.getElem?_take_of_lt hi, h, List.getElem?_take_of_lt hi]
  unfold rsGet
  rw [e]

private theorem sameEp_step (K : Kern n) (sys : Sys n) {s s' : Epirk n} (h : SameEp s s') (hne : s.yHist ≠ []) (dt : ℝ) :
    Epirk.step K sys s dt = Epirk.step K sys s' dt := by
  obtain ⟨h1, h2, h3, h4, h5, h6, h7, h8⟩ := h
  have hpos : 0 < s.yHist.length := List.length_pos_iff.mpr hne
  have g0 : rsGet s.tHist 0 = rsGet s'.tHist 0 := rsGet_take h6 hpos
  have gr : ∀ tr yr f jac v, Epirk.remf sys s tr yr f jac v = Epirk.remf sys s' tr yr f jac v := by
    intro tr yr f jac v
    unfold Epirk.remf
    rw [g0, h5]
  have gp : ∀ f jac dt, Epirk.fphi2V K sys s f jac dt = Epirk.fphi2V K sys s' f jac dt := by
    intro f jac dt
    unfold Epirk.fphi2V Epirk.frhsFdt
    rw [h3, h4, h5]
  have e2 : Epirk.stepOrder2 K sys s dt = Epirk.stepOrder2 K sys s' dt := by
    unfold Epirk.stepOrder2
    simp only [gp, h3, h5]
  have e32 : Epirk.stepExprb32 K sys s dt = Epirk.stepExprb32 K sys s' dt := by
    unfold Epirk.stepExprb32
    simp only [gp, gr, h3, h5]
  unfold Epirk.step
  rw [h2]
  split
  · exact e2
  · split
    · rw [← h5]
      split
      · rename_i hl
        have g1 : rsGet s.tHist 1 = rsGet s'.tHist 1 := rsGet_take h6 hl
        unfold Epirk.stepOrder3
        simp only [gp, gr, h3, ← h5, g1]
      · exact e2
    · split
      · exact e32
      · rfl

private theorem sameEp_trace (K : Kern n) (sys : Sys n) (ds : List (RsCall n)) : ∀ s s' : Epirk n, SameEp s s' →
    s.yHist ≠ [] → (Epirk.integrator K sys).trace s ds = (Epirk.integrator K sys).trace s' ds := by
  induction ds with
  | nil => intros; rfl
  | cons c ds ih =>
    intro s s' h hne
    have hs : ∀ dt, (Epirk.integrator K sys).step s dt = (Epirk.integrator K sys).step s' dt := sameEp_step K sys h hne
    obtain ⟨h1, h2, h3, h4, h5, h6, h7, h8⟩ := h
    have key : SameEp ((Epirk.integrator K sys).after s c) ((Epirk.integrator K sys).after s' c) ∧
        ((Epirk.integrator K sys).after s c).yHist ≠ [] := by
      cases c with
      | step dt => exact ⟨⟨h1, h2, h3, h4, h5, h6, h7, h8⟩, hne⟩
      | accept r =>
        refine ⟨⟨h1, h2, rfl, h4, ?_, ?_, ?_, ?_⟩, by simp [Integrator.after, Epirk.integrator]⟩ <;>
          simp [Integrator.after, Epirk.integrator, h5, h6, h7, h8]
        · rw [← h5]; exact h6
        · rw [← h5]; exact h7
        · rw [← h5]; exact h8
      | reset t y =>
        refine ⟨⟨h1, h2, rfl, h4, ?_, ?_, ?_, ?_⟩, by simp [Integrator.after, Epirk.integrator]⟩ <;>
          simp [Integrator.after, Epirk.integrator]
    unfold Integrator.trace
    rw [ih _ _ key.1 key.2]
    congr 1
    unfold Integrator.observe
    obtain ⟨⟨_, _, k3, _, k5, _⟩, _⟩ := key
    refine Prod.ext ?_ (Prod.ext ?_ ?_)
    · cases c with
      | step dt => exact congrArg some (hs dt)
      | accept r => rfl
      | reset t y => rfl
    · exact k3
    · show rsGet _ 0 = rsGet _ 0
      rw [k5]

theorem rsEpirk_run_conf (K : Kern n) (sys : Sys n) (cs : List (RsCall n)) : ∀ s : Epirk n,
    ((Epirk.integrator K sys).run s cs).order = s.order ∧ ((Epirk.integrator K sys).run s cs).method = s.method ∧
      ((Epirk.integrator K sys).run s cs).tolFdt = s.tolFdt := by
  induction cs with
  | nil => intro s; exact ⟨rfl, rfl, rfl⟩
  | cons c cs ih => intro s; cases c <;> exact ih _

/-- C68: reset of the exponential integrators (with any value of the `tol_fdt` option), although the old times stay in
the time history. -/
theorem C68_reset_epirk (K : Kern n) (sys : Sys n) (t0 t1 tol : ℝ) (y0 y1 : Vec n) (m : String) (a b s s' : Epirk n)
    (ha : Epirk.new t0 y0 m = .ok a) (hs : a.withOpt "tol_fdt" tol = .ok s)
    (hb : Epirk.new t1 y1 m = .ok b) (hs' : b.withOpt "tol_fdt" tol = .ok s') (cs ds : List (RsCall n)) :
    let I := Epirk.integrator K sys
    I.trace (I.reset (I.run s cs) t1 y1) ds = I.trace s' ds := by
  have es : s = { a with tolFdt := tol } := by
    unfold Epirk.withOpt at hs; rw [if_pos rfl] at hs; cases hs; rfl
  have es' : s' = { b with tolFdt := tol } := by
    unfold Epirk.withOpt at hs'; rw [if_pos rfl] at hs'; cases hs'; rfl
  have oo : a.order = b.order := by
    unfold Epirk.new at ha hb
    split_ifs at ha hb <;> cases ha <;> cases hb <;> rfl
  obtain ⟨o, ea⟩ := epirk_new ha
  obtain ⟨o', eb⟩ := epirk_new hb
  obtain ⟨c1, c2, c3⟩ := rsEpirk_run_conf K sys cs s
  refine sameEp_trace K sys ds _ _ ⟨?_, ?_, ?_, ?_, ?_, ?_, ?_, ?_⟩ (by simp [Epirk.integrator])
  · show ((Epirk.integrator K sys).run s cs).order = s'.order
    rw [c1, es, es']; exact oo
  · show ((Epirk.integrator K sys).run s cs).method = s'.method
    rw [c2, es, es', ea, eb]
  · rw [es', eb]; rfl
  · show ((Epirk.integrator K sys).run s cs).tolFdt = s'.tolFdt
    rw [c3, es, es']
  · rw [es', eb]; rfl
  · rw [es', eb]; simp [Epirk.integrator]
  · simp [Epirk.integrator]
  · rw [es', eb]; simp [Epirk.integrator]

/-- Non-vacuity of the constructor hypotheses. -/
example (y : Vec n) : ∃ a s : Epirk n, Epirk.new 0 y "epi3" = .ok a ∧ a.withOpt "tol_fdt" 1 = .ok s := by
  refine ⟨⟨3, "epi3", 0, -1, [y], [0]⟩, ⟨3, "epi3", 0, 1, [y], [0]⟩, ?_, ?_⟩
  · simp [Epirk.new]; rfl
  · simp [Epirk.withOpt]

/-! ### C70: the two-step formula is used in exactly one step -/

private theorem bdf_hist_length (gmres : Gmres n) (sys : Sys n) (cs : List (RsCall n)) : ∀ (s : Bdf n) (k : ℕ),
    s.yHist.length = k + 1 → ((Bdf.integrator gmres sys).run s cs).yHist.length =
      cs.foldl (fun k c => match c with
        | .step _ => k
        | .accept _ => k + 1
        | .reset _ _ => 0) k + 1 := by
  induction cs with
  | nil => intro s k h; exact h
  | cons c cs ih =>
    intro s k h
    cases c with
    | step dt => exact ih s k h
    | accept r => exact ih _ (k + 1) (by simp [Integrator.after, Bdf.integrator, h])
    | reset t y => exact ih _ 0 (by simp [Integrator.after, Bdf.integrator])

/-- C70 (what the code does): after every history of calls a `bdf2` step is the two-step formula exactly when one step
has been accepted since construction or the last reset; with none, and with two or more, it is backward Euler. -/
theorem C70_bdf2_formula (gmres : Gmres n) (sys : Sys n) (t0 : ℝ) (y0 : Vec n) (cs : List (RsCall n)) (dt : ℝ) :
    let I := Bdf.integrator gmres sys
    let s := I.run (Bdf.new t0 y0 2) cs
    I.step s dt = if acceptedSinceReset cs = 1 then Bdf.stepOrder2 gmres sys s dt else Bdf.stepOrder1 gmres sys s dt := by
  intro I s
  have h1 : s.order = 2 := rsBdf_run_order gmres sys cs _
  have h2 : s.yHist.length = acceptedSinceReset cs + 1 := bdf_hist_length gmres sys cs _ 0 rfl
  show Bdf.step gmres sys s dt = _
  unfold Bdf.step
  rw [h1]
  simp only [h2, Nat.add_eq_right]
  have : (acceptedSinceReset cs + 1 = 2) ↔ acceptedSinceReset cs = 1 := by omega
  simp only [this]

/-! ### C69: output of a run -/

/-- Steps after which `integrate_wrapper_rs` records: the multiples of `osteps` below `nsteps`, then `nsteps`. -/
def outputSteps (osteps nsteps : ℕ) : List ℕ := (List.range nsteps).filter (fun i => i % osteps = 0) ++ [nsteps]

private theorem outLoop_ok (I : Integrator σ n) (dt : ℝ) (osteps : ℕ) (ho : osteps ≠ 0) (N : ℕ) (S : ℕ → σ)
    (hS : I.Stepping dt N S) (Y : ℕ → Vec n) (hY : ∀ i ≤ N, I.state (S i) = .ok (Y i)) :
    ∀ (r i : ℕ), i + r = N → ∀ ys ts, outLoop I dt osteps r i (S i) ys ts =
      .ok (ys ++ ((List.range' i r).filter (fun i => i % osteps = 0) ++ [N]).map Y,
           ts ++ ((List.range' i r).filter (fun i => i % osteps = 0) ++ [N]).map fun i => I.time (S i)) := by
  intro r
  induction r with
  | zero =>
    intro i hi ys ts
    have : i = N := by omega
    subst this
    unfold outLoop
    rw [hY i le_rfl]
    rfl
  | succ r ih =>
    intro i hi ys ts
    obtain ⟨res, h1, h2⟩ := hS i (by omega)
    unfold outLoop
    rw [if_neg ho, List.range'_succ, List.filter_cons]
    by_cases hm : i % osteps = 0
    · simp only [hm, if_true, hY i (by omega), decide_true]
      show (match I.step (S i) dt with
        | .ok res => outLoop I dt osteps r (i + 1) (I.accept (S i) res) _ _
        | .error .nan => .error .nan
        | .error _ => .error .panic) = _
      rw [h1]
      simp only
      rw [← h2, ih (i + 1) (by omega)]
      simp
    · simp only [hm, if_false, decide_false]
      show (match I.step (S i) dt with
        | .ok res => outLoop I dt osteps r (i + 1) (I.accept (S i) res) _ _
        | .error .nan => .error .nan
        | .error _ => .error .panic) = _
      rw [h1]
      simp only
      rw [← h2, ih (i + 1) (by omega)]
      simp

/-- C69: a run whose `nsteps` steps succeed through the objects `S 0, ..., S nsteps` returns the states and clocks of
these objects after the steps `0, osteps, 2 osteps, ...` below `nsteps`, followed by the final one. -/
theorem C69_output (I : Integrator σ n) (dt : ℝ) (osteps : ℕ) (ho : 0 < osteps) (N : ℕ) (S : ℕ → σ)
    (hS : I.Stepping dt N S) (Y : ℕ → Vec n) (hY : ∀ i ≤ N, I.state (S i) = .ok (Y i)) :
    outLoop I dt osteps N 0 (S 0) [] [] =
      .ok ((outputSteps osteps N).map Y, (outputSteps osteps N).map fun i => I.time (S i)) := by
  rw [outLoop_ok I dt osteps ho.ne' N S hS Y hY N 0 (by omega)]
  simp [outputSteps, List.range_eq_range']

private theorem count_multiples (o N : ℕ) (ho : 0 < o) :
    ((List.range N).filter (fun i => i % o = 0)).length = (N + o - 1) / o := by
  induction N with
  | zero => simp [Nat.div_eq_of_lt (show o - 1 < o by omega)]
  | succ N ih =>
    rw [List.range_succ, List.filter_append, List.length_append, ih, show N + 1 + o - 1 = N + o by omega]
    by_cases h : N % o = 0
    · have hd : o ∣ N := Nat.dvd_of_mod_eq_zero h
      obtain ⟨q, rfl⟩ := hd
      have e1 : (o * q + o - 1) / o = q := by
        rw [show o * q + o - 1 = o - 1 + o * q by omega, Nat.add_mul_div_left _ _ ho, Nat.div_eq_of_lt (by omega)]
        omega
      have e2 : (o * q + o) / o = q + 1 := by
        rw [show o * q + o = o * (q + 1) by rw [Nat.mul_add]; omega, Nat.mul_div_cancel_left _ ho]
      simp only [List.filter_cons, h, decide_true, List.filter_nil, if_true, List.length_singleton, e1, e2]
    · simp only [List.filter_cons, h, decide_false]
      have hm := Nat.div_add_mod N o
      have hl := Nat.mod_lt N ho
      have e1 : (N + o - 1) / o = N / o + 1 := by
        rw [Nat.div_eq_of_lt_le]
        · rw [Nat.add_mul, Nat.mul_comm (N / o) o]; omega
        · rw [Nat.add_mul, Nat.add_mul, Nat.mul_comm (N / o) o]; omega
      have e2 : (N + o) / o = N / o + 1 := by
        rw [Nat.div_eq_of_lt_le]
        · rw [Nat.add_mul, Nat.mul_comm (N / o) o]; omega
        · rw [Nat.add_mul, Nat.add_mul, Nat.mul_comm (N / o) o]; omega
      rw [e1, e2]
      simp

/-- C69: number of entries, `⌈nsteps / osteps⌉ + 1`. -/
theorem C69_count (o N : ℕ) (ho : 0 < o) : (outputSteps o N).length = (N + o - 1) / o + 1 := by
  simp [outputSteps, count_multiples o N ho]

/-- C69: `osteps = 0` aborts as soon as there is a step to take. -/
theorem C69_osteps_zero (I : Integrator σ n) (dt : ℝ) (N : ℕ) (s : σ) (y : Vec n) (hy : I.state s = .ok y) :
    outLoop I dt 0 N 0 s [] [] = if N = 0 then .ok ([y], [I.time s]) else .error .panic := by
  cases N with
  | zero => unfold outLoop; rw [hy]; rfl
  | succ N => unfold outLoop; simp

private theorem outLoop_fail (I : Integrator σ n) (dt : ℝ) (osteps : ℕ) (ho : osteps ≠ 0) (S : ℕ → σ) (j : ℕ)
    (hS : I.Stepping dt j S) (Y : ℕ → Vec n) (hY : ∀ i ≤ j, I.state (S i) = .ok (Y i)) (e : RsErr)
    (he : I.step (S j) dt = .error e) : ∀ (k i : ℕ), i + k = j → ∀ r, k < r → ∀ ys ts,
    outLoop I dt osteps r i (S i) ys ts = .error (if e = .nan then .nan else .panic) := by
  intro k
  induction k with
  | zero =>
    intro i hi r hr ys ts
    have : i = j := by omega
    subst this
    obtain ⟨r, rfl⟩ : ∃ q, r = q + 1 := ⟨r - 1, by omega⟩
    unfold outLoop
    rw [if_neg ho, he]
    by_cases hm : i % osteps = 0
    · simp only [hm, if_true, hY i le_rfl]
      cases e <;> rfl
    · simp only [hm, if_false]
      cases e <;> rfl
  | succ k ih =>
    intro i hi r hr ys ts
    obtain ⟨r, rfl⟩ : ∃ q, r = q + 1 := ⟨r - 1, by omega⟩
    obtain ⟨res, h1, h2⟩ := hS i (by omega)
    unfold outLoop
    rw [if_neg ho, h1]
    by_cases hm : i % osteps = 0
    · simp only [hm, if_true, hY i (by omega)]
      show outLoop I dt osteps r (i + 1) (I.accept (S i) res) _ _ = _
      rw [← h2]
      exact ih (i + 1) (by omega) r (by omega) _ _
    · simp only [hm, if_false]
      show outLoop I dt osteps r (i + 1) (I.accept (S i) res) _ _ = _
      rw [← h2]
      exact ih (i + 1) (by omega) r (by omega) _ _

/-- C69: a failing step aborts the whole run (nothing is returned of the earlier steps). -/
theorem C69_failed_step (I : Integrator σ n) (dt : ℝ) (osteps : ℕ) (ho : 0 < osteps) (N : ℕ) (S : ℕ → σ) (j : ℕ)
    (hj : j < N) (hS : I.Stepping dt j S) (Y : ℕ → Vec n) (hY : ∀ i ≤ j, I.state (S i) = .ok (Y i)) (e : RsErr)
    (he : I.step (S j) dt = .error e) :
    outLoop I dt osteps N 0 (S 0) [] [] = .error (if e = .nan then .nan else .panic) :=
  outLoop_fail I dt osteps ho.ne' S j hS Y hY e he j 0 (by omega) N hj [] []

/-- The clock of every integrator advances by exactly `dt` per accepted step. -/
theorem bind_ok' {ε α β : Type} {x : Except ε α} {f : α → Except ε β} {b : β} (h : (x >>= f) = .ok b) :
    ∃ a, x = .ok a ∧ f a = .ok b := by
  cases x with
  | error e => cases h
  | ok a => exact ⟨a, rfl, h⟩

theorem bdf_step_time (gmres : Gmres n) (sys : Sys n) (s : Bdf n) (dt : ℝ) (r : StepRes n)
    (h : Bdf.step gmres sys s dt = .ok r) : r.t = s.t + dt ∧ r.dt = dt := by
  have h1 : ∀ r, Bdf.stepOrder1 gmres sys s dt = .ok r → r.t = s.t + dt ∧ r.dt = dt := by
    intro r h
    obtain ⟨_, _, h⟩ := bind_ok' h
    obtain ⟨_, _, h⟩ := bind_ok' h
    cases h; exact ⟨rfl, rfl⟩
  unfold Bdf.step at h
  split at h
  · exact h1 r h
  · split at h
    · obtain ⟨_, _, h⟩ := bind_ok' h
      obtain ⟨_, _, h⟩ := bind_ok' h
      obtain ⟨_, _, h⟩ := bind_ok' h
      obtain ⟨_, _, h⟩ := bind_ok' h
      cases h; exact ⟨rfl, rfl⟩
    · exact h1 r h
  · obtain ⟨_, _, h⟩ := bind_ok' h
    obtain ⟨_, _, h⟩ := bind_ok' h
    cases h; exact ⟨rfl, rfl⟩
  · cases h

theorem rk_step_time (sys : Sys n) (s : Rk n) (dt : ℝ) (r : StepRes n)
    (h : Rk.step sys s dt = .ok r) : r.t = s.t + dt ∧ r.dt = dt := by
  obtain ⟨_, _, h⟩ := bind_ok' h
  obtain ⟨_, _, h⟩ := bind_ok' h
  obtain ⟨_, _, h⟩ := bind_ok' h
  cases h; exact ⟨rfl, rfl⟩

theorem epirk_step_time (K : Kern n) (sys : Sys n) (s : Epirk n) (dt : ℝ) (r : StepRes n)
    (h : Epirk.step K sys s dt = .ok r) : r.t = s.t + dt ∧ r.dt = dt := by
  have h2 : ∀ r, Epirk.stepOrder2 K sys s dt = .ok r → r.t = s.t + dt ∧ r.dt = dt := by
    intro r h
    obtain ⟨_, _, h⟩ := bind_ok' h
    obtain ⟨_, _, h⟩ := bind_ok' h
    obtain ⟨_, _, h⟩ := bind_ok' h
    cases h; exact ⟨rfl, rfl⟩
  unfold Epirk.step at h
  split_ifs at h
  · exact h2 r h
  · obtain ⟨_, _, h⟩ := bind_ok' h
    obtain ⟨_, _, h⟩ := bind_ok' h
    obtain ⟨_, _, h⟩ := bind_ok' h
    obtain ⟨_, _, h⟩ := bind_ok' h
    obtain ⟨_, _, h⟩ := bind_ok' h
    obtain ⟨_, _, h⟩ := bind_ok' h
    cases h; exact ⟨rfl, rfl⟩
  · exact h2 r h
  · obtain ⟨_, _, h⟩ := bind_ok' h
    obtain ⟨_, _, h⟩ := bind_ok' h
    obtain ⟨_, _, h⟩ := bind_ok' h
    obtain ⟨_, _, h⟩ := bind_ok' h
    obtain ⟨_, _, h⟩ := bind_ok' h
    cases h; exact ⟨rfl, rfl⟩

theorem solver_time (gmres : Gmres n) (sys : Sys n) (s : Solver n) (dt : ℝ) (r : StepRes n)
    (h : (solverIntegrator gmres sys).step s dt = .ok r) :
    (solverIntegrator gmres sys).time ((solverIntegrator gmres sys).accept s r) =
      (solverIntegrator gmres sys).time s + dt := by
  cases s with
  | bdf b => exact (bdf_step_time gmres sys b dt r h).1
  | epirk K e => exact (epirk_step_time _ sys e dt r h).1

/-- every reachable solver object has a current state -/
private theorem solver_state (gmres : Gmres n) (sys : Sys n) (s : Solver n) (r : StepRes n) :
    (solverIntegrator gmres sys).state ((solverIntegrator gmres sys).accept s r) = .ok r.y := by
  cases s <;> rfl

/-- Either a run takes all its steps or there is a first one that fails. -/
theorem stepping_or_fail (I : Integrator σ n) (dt : ℝ) (s : σ) (N : ℕ) :
    (∃ S : ℕ → σ, S 0 = s ∧ I.Stepping dt N S) ∨
      ∃ (S : ℕ → σ) (j : ℕ) (e : RsErr), j < N ∧ S 0 = s ∧ I.Stepping dt j S ∧ I.step (S j) dt = .error e := by
  induction N with
  | zero => exact Or.inl ⟨fun _ => s, rfl, fun i hi => by omega⟩
  | succ N ih =>
    rcases ih with ⟨S, h0, hS⟩ | ⟨S, j, e, hj, h⟩
    · cases hst : I.step (S N) dt with
      | ok r =>
        refine Or.inl ⟨fun i => if i ≤ N then S i else I.accept (S N) r, by simp [h0], ?_⟩
        intro i hi
        by_cases hN : i = N
        · subst hN
          exact ⟨r, by simp [hst], by simp⟩
        · obtain ⟨r', h1, h2⟩ := hS i (by omega)
          exact ⟨r', by simp [show i ≤ N by omega, h1], by simp [show i ≤ N by omega, show i + 1 ≤ N by omega, h2]⟩
      | error e => exact Or.inr ⟨S, N, e, by omega, h0, hS, hst⟩
    · exact Or.inr ⟨S, j, e, by omega, h⟩

/-- A constructed solver has the initial state and clock. -/
theorem selectSolver_init (gmres : Gmres n) (sys : Sys n) (split : ℕ → Option (Split ℕ)) (t0 : ℝ) (y0 : Vec n)
    (m em : String) (kd iom : ℕ) (tol : ℝ) (s : Solver n) (h : selectSolver split t0 y0 m em kd iom tol = .ok s) :
    (solverIntegrator gmres sys).time s = t0 ∧ (solverIntegrator gmres sys).state s = .ok y0 := by
  unfold selectSolver at h
  split_ifs at h
  · cases h; exact ⟨rfl, rfl⟩
  · cases h; exact ⟨rfl, rfl⟩
  · cases h; exact ⟨rfl, rfl⟩
  · obtain ⟨_, _, h⟩ := bind_ok' h
    obtain ⟨_, _, h⟩ := bind_ok' h
    obtain ⟨e, he, h⟩ := bind_ok' h
    obtain ⟨e', he', h⟩ := bind_ok' h
    cases h
    obtain ⟨o, rfl⟩ := epirk_new he
    unfold Epirk.withOpt at he'
    rw [if_pos rfl] at he'
    cases he'
    exact ⟨rfl, rfl⟩

/-- C69 for the entry point: whenever `integrate_wrapper_rs` returns, there are `nsteps` successful steps from the
initial state, and it returns the states after the output steps and the times `t0 + i dt`. -/
theorem C69_integrate_wrapper (gmres : Gmres n) (split : ℕ → Option (Split ℕ)) (sys : Sys n) (y0 : Vec n) (t0 dt : ℝ)
    (N : ℕ) (kd : Kwds) (ys : List (Vec n)) (ts : List ℝ) (o : RunOpts) (ho : parseOpts kd = .ok o) (hpos : 0 < o.osteps)
    (h : integrateWrapperRs gmres split sys y0 t0 dt N kd = .ok (ys, ts)) :
    ∃ (S : ℕ → Solver n) (Y : ℕ → Vec n),
      selectSolver split t0 y0 o.method o.expmvMethod o.krylovDim o.iom o.tolFdt = .ok (S 0) ∧
      (solverIntegrator gmres sys).Stepping dt N S ∧
      (∀ i ≤ N, (solverIntegrator gmres sys).state (S i) = .ok (Y i)) ∧ Y 0 = y0 ∧
      ys = (outputSteps o.osteps N).map Y ∧ ts = (outputSteps o.osteps N).map fun (i : ℕ) => t0 + (i : ℝ) * dt := by
  unfold integrateWrapperRs at h
  rw [ho] at h
  obtain ⟨_, ho', h⟩ := bind_ok' h
  cases ho'
  obtain ⟨s, hs, h⟩ := bind_ok' h
  have hinit := selectSolver_init gmres sys split _ _ _ _ _ _ _ _ hs
  set I := solverIntegrator gmres sys with hI
  have hst : ∀ S : ℕ → Solver n, S 0 = s → ∀ j, I.Stepping dt j S → ∃ Y : ℕ → Vec n, Y 0 = y0 ∧
      (∀ i ≤ j, I.state (S i) = .ok (Y i)) ∧ ∀ i ≤ j, I.time (S i) = t0 + i * dt := by
    intro S h0 j hS
    have key : ∀ i ≤ j, (∃ y, I.state (S i) = .ok y) ∧ I.time (S i) = t0 + i * dt := by
      intro i
      induction i with
      | zero => intro _; rw [h0]; exact ⟨⟨y0, hinit.2⟩, by rw [hinit.1]; simp⟩
      | succ i ih =>
        intro hi
        obtain ⟨r, h1, h2⟩ := hS i (by omega)
        rw [h2]
        refine ⟨⟨r.y, solver_state gmres sys _ _⟩, ?_⟩
        rw [solver_time gmres sys _ dt r h1, (ih (by omega)).2]
        push_cast; ring
    refine ⟨fun i => if hi : i ≤ j then (key i hi).1.choose else 0, ?_, ?_, fun i hi => (key i hi).2⟩
    · simp only [Nat.zero_le, dite_true]
      have e := (key 0 (Nat.zero_le _)).1.choose_spec
      have e2 : I.state (S 0) = .ok y0 := by rw [h0]; exact hinit.2
      exact Except.ok.inj (e.symm.trans e2)
    · intro i hi
      simp only [hi, dite_true]
      exact (key i hi).1.choose_spec
  rcases stepping_or_fail I dt s N with ⟨S, h0, hS⟩ | ⟨S, j, e, hj, h0, hS, he⟩
  · obtain ⟨Y, hY0, hY, hT⟩ := hst S h0 N hS
    refine ⟨S, Y, by rw [h0]; exact hs, hS, hY, hY0, ?_⟩
    have := C69_output I dt o.osteps hpos N S hS Y hY
    rw [h0] at this
    have h' := h.symm.trans this
    have h'' := Except.ok.inj h'
    refine ⟨congrArg Prod.fst h'', ?_⟩
    refine (congrArg Prod.snd h'').trans ?_
    apply List.map_congr_left
    intro i hi
    refine hT i ?_
    simp only [outputSteps, List.mem_append, List.mem_filter, List.mem_range, List.mem_singleton] at hi
    omega
  · obtain ⟨Y, hY0, hY, _⟩ := hst S h0 j hS
    have := C69_failed_step I dt o.osteps hpos N S j hj hS Y hY e he
    rw [h0] at this
    rw [this] at h
    cases h

/-! ### C74: the keyword `tol_fdt` -/

/-- C74 is refuted: the entry point behaves the same for every value (or absence) of the keyword `tol_fdt`. -/
theorem C74_tol_fdt_ignored (gmres : Gmres n) (split : ℕ → Option (Split ℕ)) (sys : Sys n) (y0 : Vec n) (t0 dt : ℝ)
    (N : ℕ) (kd : Kwds) (v : Option PyVal) :
    integrateWrapperRs gmres split sys y0 t0 dt N (Function.update kd "tol_fdt" v) =
      integrateWrapperRs gmres split sys y0 t0 dt N kd := by
  unfold integrateWrapperRs parseOpts getValOrDefault
  simp [Function.update]

/-- C74, the part that holds: the correction is controlled by the keyword `tol` (1e-8 when absent). -/
theorem C74_tol_partial (kd : Kwds) (o : RunOpts) (h : parseOpts kd = .ok o) (x : ℝ) :
    (kd "tol" = some (.float x) → o.tolFdt = x) ∧ (kd "tol" = none → o.tolFdt = 1e-8) := by
  unfold parseOpts at h
  obtain ⟨_, _, h⟩ := bind_ok' h
  obtain ⟨_, _, h⟩ := bind_ok' h
  obtain ⟨_, _, h⟩ := bind_ok' h
  obtain ⟨_, _, h⟩ := bind_ok' h
  obtain ⟨_, _, h⟩ := bind_ok' h
  obtain ⟨a, ha, h⟩ := bind_ok' h
  obtain ⟨_, _, h⟩ := bind_ok' h
  cases h
  unfold getValOrDefault at ha
  constructor
  · intro hk
    rw [hk] at ha
    exact (Except.ok.inj ha).symm
  · intro hk
    rw [hk] at ha
    exact (Except.ok.inj ha).symm

/-- Non-vacuity: a dictionary with a `tol_fdt` entry and no `tol`. -/
example : parseOpts (fun k => if k = "tol_fdt" then some (.float 1) else none) =
    .ok ⟨"epi2", "pade", 100, 2, 1e-8, 1e-8, 1⟩ := by
  simp [parseOpts, getValOrDefault]
  rfl

end Ormatex.Props
