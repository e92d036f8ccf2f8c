import Verif.Props.RsHistory
import Verif.Props.OrderRK

/-!
C77: the explicit Runge-Kutta integrators of the Rust crate.
-/

namespace Ormatex.Props
open Matrix Ormatex.Spec Ormatex.Rs Filter Asymptotics Topology

variable {n : ℕ}

/-- what a step of order `p` computes (stage times as in the code) -/
noncomputable def rkClosed (f : ℝ → Vec n → Vec n) (t : ℝ) (y : Vec n) (dt : ℝ) (p : ℕ) : Vec n :=
  let f1 := f t y
  let f2 := f t (y + (dt / 2) • f1)
  match p with
  | 1 => y + dt • f1
  | 2 => y + dt • f2
  | 3 => y + (dt / 6) • (f1 + (4 : ℝ) • f2 + f (t + dt / 2) (y - dt • f1 + (2 * dt) • f2))
  | _ =>
    let f3 := f (t + dt / 2) (y + (dt / 2) • f2)
    y + (dt / 6) • (f1 + (2 : ℝ) • f2 + (2 : ℝ) • f3 + f (t + dt / 2) (y + dt • f3))

private theorem okb {α β : Type} (a : α) (f : α → RsM β) : Bind.bind (Except.ok a : RsM α) f = f a := rfl

/-- The steps in closed form. -/
theorem rk_closed (sys : Sys n) (s : Rk n) (y : Vec n) (l : List (Vec n)) (hl : s.yHist = y :: l) (p : ℕ) (hp : p ∈ [1, 2, 3, 4])
    (ho : s.order = p) (hb : s.bt = btFactory p) (dt : ℝ) :
    Rk.step sys s dt = .ok ⟨s.t + dt, dt, rkClosed sys.frhs s.t y dt p, none⟩ := by
  have r1 : List.range 1 = [0] := rfl
  have r2 : List.range 2 = [0, 1] := rfl
  have r3 : List.range 3 = [0, 1, 2] := rfl
  have r4 : List.range 4 = [0, 1, 2, 3] := rfl
  have h5 : (0.5 : ℝ) = 1 / 2 := by norm_num
  unfold Rk.step
  rw [hl, ho, hb]
  simp only [List.mem_cons, List.not_mem_nil, or_false] at hp
  rcases hp with rfl | rfl | rfl | rfl
  · simp [btFactory, Rk.stages, Rk.combine, rsGet, okb, r1, rkClosed]
  · simp [btFactory, Rk.stages, Rk.combine, Rk.stageArg, rsGet, okb, r1, r2, rkClosed, h5]
    rw [show dt * 2⁻¹ = dt / 2 by ring]
  · simp [btFactory, Rk.stages, Rk.combine, Rk.stageArg, rsGet, okb, r1, r2, r3, rkClosed, h5]
    rw [show dt * 2⁻¹ = dt / 2 by ring, show dt * 2 = 2 * dt by ring, ← sub_eq_add_neg]
    module
  · simp [btFactory, Rk.stages, Rk.combine, Rk.stageArg, rsGet, okb, r1, r2, r3, r4, rkClosed, h5]
    rw [show dt * 2⁻¹ = dt / 2 by ring]
    module

/-- The object after any history of calls on a newly constructed integrator. -/
theorem rk_reached (sys : Sys n) (t0 : ℝ) (y0 : Vec n) (p : ℕ) (s0 : Rk n) (h : Rk.new t0 y0 p = .ok s0)
    (cs : List (RsCall n)) (dt : ℝ) :
    (Rk.integrator sys).step ((Rk.integrator sys).run s0 cs) dt = .ok ⟨(newest (t0, y0) cs).1 + dt, dt,
      rkClosed sys.frhs (newest (t0, y0) cs).1 (newest (t0, y0) cs).2 dt p, none⟩ := by
  have hp : p ∈ [1, 2, 3, 4] := by
    unfold Rk.new at h
    split at h <;> first | (cases h; done) | simp
  have hn := C68_newest_rk sys t0 y0 p s0 h cs
  have hc := rsRk_run_conf sys cs s0
  have hs := rk_new h
  have h2 := hn.2
  change rsGet ((Rk.integrator sys).run s0 cs).yHist 0 = _ at h2
  have h1 : ((Rk.integrator sys).run s0 cs).t = _ := hn.1
  cases hl : ((Rk.integrator sys).run s0 cs).yHist with
  | nil => rw [hl] at h2; cases h2
  | cons y l =>
    rw [hl] at h2
    have hy : y = _ := Except.ok.inj h2
    have := rk_closed sys ((Rk.integrator sys).run s0 cs) y l hl p hp (by rw [hc.1, hs]) (by rw [hc.2, hs]) dt
    rw [h1, hy] at this
    exact this

/-- **Specification.** Steps from the exact value of `Y` at `t` never fail, advance the time by `dt`, and have error
`O(dt^(p+1))` as `dt → 0`. -/
def LocalOrderRs (p : ℕ) (step : ℝ → RsM (StepRes n)) (t : ℝ) (Y : ℝ → Vec n) : Prop :=
  ∃ r : ℝ → StepRes n, (∀ dt, step dt = .ok (r dt)) ∧ (∀ dt, (r dt).t = t + dt) ∧
    (fun dt => (r dt).y - Y (t + dt)) =O[𝓝 0] fun dt => dt ^ (p + 1)

section order
variable {f : ℝ → Vec n → Vec n} {t : ℝ} {Y : ℝ → Vec n}

/-- expansion of the right-hand side along the solution, and of the solution -/
theorem taylor_pair (h : SmoothIVP f 3 t Y) : ∃ a0 a1 a2 : Vec n, a0 = f t (Y t) ∧
    (fun s => f (t + s) (Y (t + s)) - (a0 + s • a1 + s ^ 2 • a2)) =O[𝓝 0] (fun s : ℝ => s ^ 3) ∧
    (fun s => Y (t + s) - (Y t + s • a0 + (s ^ 2 / 2) • a1 + (s ^ 3 / 3) • a2)) =O[𝓝 0] fun s : ℝ => s ^ 4 := by
  set g : ℝ → Vec n := fun s => f (t + s) (Y (t + s)) with hg
  have hgc : ContDiffAt ℝ (3 : ℕ) g 0 := by
    have hY : ContDiffAt ℝ (3 : ℕ) (fun s : ℝ => Y (t + s)) 0 := by
      have h1 : ContDiffAt ℝ (3 : ℕ) Y (t + 0) := by
        rw [add_zero]; exact h.contDiff.of_le (by norm_num)
      exact h1.comp (0 : ℝ) (contDiffAt_const.add contDiffAt_id)
    have h1 : ContDiffAt ℝ (3 : ℕ) (fun p : ℝ × Vec n => f p.1 p.2) (t + 0, Y (t + 0)) := by
      rw [add_zero]; exact h.smooth
    exact h1.comp (0 : ℝ) ((contDiffAt_const.add contDiffAt_id).prodMk hY)
  have hT := taylor_isBigO 3 g hgc
  obtain ⟨a, ha, ha0⟩ : ∃ a : ℕ → Vec n, (fun s => g s - (a 0 + s • a 1 + s ^ 2 • a 2)) =O[𝓝 0] (fun s : ℝ => s ^ 3) ∧
      a 0 = f t (Y t) := by
    refine ⟨fun i => ((Nat.factorial i : ℝ)⁻¹) • iteratedDeriv i g 0, hT.congr_left fun s => ?_, ?_⟩
    · simp only [Finset.sum_range_succ, Finset.sum_range_zero, zero_add, pow_zero, one_smul, pow_one]
    · simp [hg]
  refine ⟨a 0, a 1, a 2, ha0, ha, ?_⟩
  refine int_isBigO (k := 3) (by simp) ?_ ha
  filter_upwards [shift_eventually h.sol] with s hs
  have h1 : HasDerivAt (fun s => Y (t + s)) (g s) s := HasDerivAt.comp_const_add t s hs
  refine h1.sub ?_
  have e1 := (hasDerivAt_id s).smul_const (a 0)
  have e2 := (((hasDerivAt_id s).pow 2).div_const 2).smul_const (a 1)
  have e3 := (((hasDerivAt_id s).pow 3).div_const 3).smul_const (a 2)
  refine (((e1.const_add (Y t)).add e2).add e3).congr_deriv ?_
  simp

private theorem pw (q : ℕ) (c : ℝ) (w : Vec n) : (fun s : ℝ => (c * s ^ q) • w) =O[𝓝 0] fun s : ℝ => s ^ q := by
  simpa using ((isBigO_refl (fun s : ℝ => s ^ q) (𝓝 0)).const_mul_left c).smul
    (isBigO_const_const w (one_ne_zero (α := ℝ)) (𝓝 0))

/-- order one, for any right-hand side -/
theorem rk1_order (h : SmoothIVP f 3 t Y) : (fun s => rkClosed f t (Y t) s 1 - Y (t + s)) =O[𝓝 0] fun s : ℝ => s ^ 2 := by
  obtain ⟨a0, a1, a2, ha0, _, hY⟩ := taylor_pair h
  have := ((isBigO_weaken hY (by norm_num : 2 ≤ 4)).add
    ((pw 2 (1 / 2) a1).add (isBigO_weaken (pw 3 (1 / 3) a2) (by norm_num : 2 ≤ 3)))).neg_left
  refine this.congr_left fun s => ?_
  simp only [rkClosed, ← ha0]
  module

/-- second stage of the three methods of order at least two, autonomous case -/
theorem rk_stage2 (h : SmoothIVP f 3 t Y) (hf : ∀ s s' y, f s y = f s' y) : ∃ (a0 a1 a2 : Vec n) (J : Vec n →L[ℝ] Vec n),
    a0 = f t (Y t) ∧
    (fun s => Y (t + s) - (Y t + s • a0 + (s ^ 2 / 2) • a1 + (s ^ 3 / 3) • a2)) =O[𝓝 0] (fun s : ℝ => s ^ 4) ∧
    (fun s => f t (Y t + (s / 2) • a0) - (a0 + (s / 2) • a1 + (s ^ 2 / 4) • a2 - (s ^ 2 / 8) • J a1))
      =O[𝓝 0] (fun s : ℝ => s ^ 3) ∧
    (fun s => f t (Y t - s • a0 + (2 * s) • f t (Y t + (s / 2) • a0)) -
      (a0 + s • a1 + s ^ 2 • a2 + (s ^ 2 / 2) • J a1)) =O[𝓝 0] (fun s : ℝ => s ^ 3) := by
  obtain ⟨a0, a1, a2, ha0, ha, hY⟩ := taylor_pair h
  obtain ⟨J, J1, hst⟩ := rk_stage h
  have hgh := isBigO_scale (c := 1 / 2) ha
  have hYh := isBigO_scale (c := 1 / 2) hY
  have d2 := hst (1 / 2) (fun s => Y t + (s / 2) • a0) ((-1 / 8 : ℝ) • a1) ((-1 / 24 : ℝ) • a2) (by
    refine hYh.neg_left.congr_left fun s => ?_
    module)
  have h2 : (fun s => f t (Y t + (s / 2) • a0) - (a0 + (s / 2) • a1 + (s ^ 2 / 4) • a2 - (s ^ 2 / 8) • J a1))
      =O[𝓝 0] (fun s : ℝ => s ^ 3) := by
    have := ((isBigO_weaken d2 (by norm_num : 3 ≤ 4)).add hgh).add
      (pw 3 1 (J ((-1 / 24 : ℝ) • a2) + (1 / 2 : ℝ) • J1 ((-1 / 8 : ℝ) • a1)))
    refine this.congr_left fun s => ?_
    simp only [hf (t + 1 / 2 * s) t, map_smul]
    module
  refine ⟨a0, a1, a2, J, ha0, hY, h2, ?_⟩
  have h2s := smul_isBigO 2 h2 (rfl : 4 = 3 + 1)
  have d3 := hst 1 (fun s => Y t - s • a0 + (2 * s) • f t (Y t + (s / 2) • a0)) ((1 / 2 : ℝ) • a1)
    ((1 / 6 : ℝ) • a2 - (1 / 4 : ℝ) • J a1) (by
      refine (h2s.sub hY).congr_left fun s => ?_
      simp only [one_mul]
      module)
  have := ((isBigO_weaken d3 (by norm_num : 3 ≤ 4)).add ha).add
    (pw 3 1 (J ((1 / 6 : ℝ) • a2 - (1 / 4 : ℝ) • J a1) + (1 : ℝ) • J1 ((1 / 2 : ℝ) • a1)))
  refine this.congr_left fun s => ?_
  simp only [one_mul, hf (t + s) t, map_smul]
  module

theorem rk2_order (h : SmoothIVP f 3 t Y) (hf : ∀ s s' y, f s y = f s' y) :
    (fun s => rkClosed f t (Y t) s 2 - Y (t + s)) =O[𝓝 0] fun s : ℝ => s ^ 3 := by
  obtain ⟨a0, a1, a2, J, ha0, hY, h2, _⟩ := rk_stage2 h hf
  have h2s := isBigO_weaken (smul_isBigO 1 h2 (rfl : 4 = 3 + 1)) (by norm_num : 3 ≤ 4)
  have := (h2s.sub (isBigO_weaken hY (by norm_num : 3 ≤ 4))).add (pw 3 1 ((-1 / 12 : ℝ) • a2 - (1 / 8 : ℝ) • J a1))
  refine this.congr_left fun s => ?_
  simp only [rkClosed, ← ha0]
  module

theorem rk3_order (h : SmoothIVP f 3 t Y) (hf : ∀ s s' y, f s y = f s' y) :
    (fun s => rkClosed f t (Y t) s 3 - Y (t + s)) =O[𝓝 0] fun s : ℝ => s ^ 4 := by
  obtain ⟨a0, a1, a2, J, ha0, hY, h2, h3⟩ := rk_stage2 h hf
  have hs := smul_isBigO (1 / 6) ((h2.const_smul_left (4 : ℝ)).add h3) (rfl : 4 = 3 + 1)
  refine (hs.sub hY).congr_left fun s => ?_
  simp only [rkClosed, ← ha0, hf (t + s / 2) t, Pi.smul_apply]
  module

/-- in the autonomous case the method of order four is the classical one, which is also `rk4` of the Python package -/
theorem rk4_classical (hf : ∀ s s' y, f s y = f s' y) (y : Vec n) (s : ℝ) : rkClosed f t y s 4 = rk4Kernel f t y s := by
  unfold rkClosed rk4Kernel
  simp only [hf (t + s / 2) t, hf (t + s) t]

/-- a right-hand side value that is close to the one at the start -/
theorem rhs_near (h : SmoothIVP f 3 t Y) (c : ℝ) (z : ℝ → Vec n) (hz : (fun s => z s - Y t) =O[𝓝 0] fun s : ℝ => s) :
    (fun s => f (t + c * s) (z s) - f t (Y t)) =O[𝓝 0] fun s : ℝ => s := by
  have hd : DifferentiableAt ℝ (fun p : ℝ × Vec n => f p.1 p.2) (t, Y t) := h.smooth.differentiableAt (by norm_num)
  have hb := hd.hasFDerivAt.isBigO_sub
  have ht : Tendsto (fun s : ℝ => t + c * s) (𝓝 0) (𝓝 t) := by
    have : Continuous (fun s : ℝ => t + c * s) := by fun_prop
    simpa using this.tendsto 0
  have hc := hb.comp_tendsto (ht.prodMk_nhds (path_tendsto hz))
  have h1 : (fun s : ℝ => (t + c * s, z s) - (t, Y t)) =O[𝓝 0] fun s : ℝ => s := by
    have e : (fun s : ℝ => (t + c * s, z s) - (t, Y t)) = fun s => (c * s, z s - Y t) := by
      funext s; simp
    rw [e]
    exact ((isBigO_refl (fun s : ℝ => s) (𝓝 0)).const_mul_left c).prod_left hz
  exact hc.trans h1

private theorem incr (a : ℝ → Vec n) (v : Vec n) (h : (fun s => a s - v) =O[𝓝 0] fun s : ℝ => s) (c : ℝ) :
    (fun s : ℝ => (c * s) • a s) =O[𝓝 0] fun s : ℝ => s := by
  have h0 : (fun s : ℝ => (c * s) • (a s - v)) =O[𝓝 0] fun s : ℝ => s ^ 2 :=
    smul_isBigO c (by simpa using h : (fun s => a s - v) =O[𝓝 0] fun s : ℝ => s ^ 1) rfl
  have h1 : (fun s : ℝ => (c * s) • (a s - v)) =O[𝓝 0] fun s : ℝ => s := by
    simpa using isBigO_weaken h0 (by norm_num : 1 ≤ 2)
  have h2 : (fun s : ℝ => (c * s) • v) =O[𝓝 0] fun s : ℝ => s := by simpa using pw 1 c v
  exact (h1.add h2).congr_left fun s => by module

/-- consistency of all four methods, for any right-hand side -/
theorem rk_consistent (h : SmoothIVP f 3 t Y) (p : ℕ) (hp : p ∈ [1, 2, 3, 4]) :
    (fun s => rkClosed f t (Y t) s p - Y (t + s)) =O[𝓝 0] fun s : ℝ => s ^ 2 := by
  have h1 := rk1_order h
  have k0 : (fun _ : ℝ => f t (Y t) - f t (Y t)) =O[𝓝 0] fun s : ℝ => s := by
    simpa using isBigO_zero (E' := Vec n) (fun s : ℝ => s) (𝓝 0)
  have k2 : (fun s : ℝ => f t (Y t + (s / 2) • f t (Y t)) - f t (Y t)) =O[𝓝 0] fun s : ℝ => s := by
    have := rhs_near h 0 (fun s => Y t + (s / 2) • f t (Y t))
      ((incr _ _ k0 (1 / 2)).congr_left fun s => by module)
    simpa using this
  have up : ∀ g : ℝ → Vec n, (fun s => g s - f t (Y t)) =O[𝓝 0] (fun s : ℝ => s) →
      ∀ c : ℝ, (fun s : ℝ => (c * s) • (g s - f t (Y t))) =O[𝓝 0] fun s : ℝ => s ^ 2 := fun g hg c =>
    smul_isBigO c (by simpa using hg : (fun s => g s - f t (Y t)) =O[𝓝 0] fun s : ℝ => s ^ 1) rfl
  simp only [List.mem_cons, List.not_mem_nil, or_false] at hp
  rcases hp with rfl | rfl | rfl | rfl
  · exact h1
  · refine (h1.add (up _ k2 1)).congr_left fun s => ?_
    simp only [rkClosed]
    module
  · have k3 := rhs_near h (1 / 2) (fun s => Y t - s • f t (Y t) + (2 * s) • f t (Y t + (s / 2) • f t (Y t)))
      (((incr _ _ k2 2).sub (incr _ _ k0 1)).congr_left fun s => by module)
    refine ((h1.add (up _ k2 (4 / 6))).add (up _ k3 (1 / 6))).congr_left fun s => ?_
    simp only [rkClosed, show 1 / 2 * s = s / 2 by ring]
    module
  · have k3 := rhs_near h (1 / 2) (fun s => Y t + (s / 2) • f t (Y t + (s / 2) • f t (Y t)))
      ((incr _ _ k2 (1 / 2)).congr_left fun s => by module)
    have k4 := rhs_near h (1 / 2)
      (fun s => Y t + s • f (t + 1 / 2 * s) (Y t + (s / 2) • f t (Y t + (s / 2) • f t (Y t))))
      ((incr _ _ k3 1).congr_left fun s => by module)
    refine (((h1.add (up _ k2 (1 / 3))).add (up _ k3 (1 / 3))).add (up _ k4 (1 / 6))).congr_left fun s => ?_
    simp only [rkClosed, show 1 / 2 * s = s / 2 by ring]
    module

end order

/-- C77, the part that holds: after any history that ends at the exact value of a solution `Y` of an autonomous smooth
system, a step of the integrator of order `p ≤ 4` has local error `O(dt^(p+1))`. -/
theorem C77_autonomous_partial (sys : Sys n) (hf : ∀ s s' y, sys.frhs s y = sys.frhs s' y) (t0 : ℝ) (y0 : Vec n) (p : ℕ)
    (s0 : Rk n) (h : Rk.new t0 y0 p = .ok s0) (cs : List (RsCall n)) (t : ℝ) (Y : ℝ → Vec n)
    (hY : SmoothIVP sys.frhs 4 t Y) (hat : newest (t0, y0) cs = (t, Y t)) :
    LocalOrderRs p ((Rk.integrator sys).step ((Rk.integrator sys).run s0 cs)) t Y := by
  have hr := rk_reached sys t0 y0 p s0 h cs
  rw [hat] at hr
  refine ⟨_, hr, fun _ => rfl, ?_⟩
  have h3 : SmoothIVP sys.frhs 3 t Y := hY.mono (by norm_num)
  unfold Rk.new at h
  split at h
  · refine (rk4_order hY).congr_left fun s => ?_
    simp only [rk4_classical hf]
  · exact rk3_order h3 hf
  · exact rk2_order h3 hf
  · exact rk1_order h3
  · cases h

/-- C77: with explicit time dependence all four methods are still consistent (order one). -/
theorem C77_consistent_partial (sys : Sys n) (t0 : ℝ) (y0 : Vec n) (p : ℕ)
    (s0 : Rk n) (h : Rk.new t0 y0 p = .ok s0) (cs : List (RsCall n)) (t : ℝ) (Y : ℝ → Vec n)
    (hY : SmoothIVP sys.frhs 3 t Y) (hat : newest (t0, y0) cs = (t, Y t)) :
    LocalOrderRs 1 ((Rk.integrator sys).step ((Rk.integrator sys).run s0 cs)) t Y := by
  have hr := rk_reached sys t0 y0 p s0 h cs
  rw [hat] at hr
  refine ⟨_, hr, fun _ => rfl, rk_consistent hY p ?_⟩
  unfold Rk.new at h
  split at h <;> first | (cases h; done) | simp

/-- The system `y' = t`. -/
def clockSys : Sys 1 where
  frhs t _ := fun _ => t
  fjac _ _ := { matvec := fun _ => 0, dense := .ok 0 }

/-- C77 is refuted for systems with explicit time dependence: on `y' = t`, `y(0) = 0`, whose solution is `t^2/2`, the
integrators of order 2, 3 and 4 do not even have order 2 (the stages are evaluated at the time of the stage before). -/
theorem C77_false (p : ℕ) (hp : p ∈ [2, 3, 4]) (s0 : Rk 1) (h : Rk.new 0 0 p = .ok s0) :
    SmoothIVP clockSys.frhs 4 0 (fun t _ => t ^ 2 / 2) ∧
      ¬ LocalOrderRs 2 ((Rk.integrator clockSys).step s0) 0 (fun t _ => t ^ 2 / 2) := by
  constructor
  · constructor
    · show ContDiffAt ℝ _ (fun p : ℝ × Vec 1 => fun _ : Fin 1 => p.1) _
      exact (contDiff_pi.mpr fun _ => contDiff_fst).contDiffAt
    · refine Eventually.of_forall fun s => ?_
      rw [hasDerivAt_pi]
      intro i
      exact (((hasDerivAt_id s).pow 2).div_const 2).congr_deriv (by simp [clockSys])
  · rintro ⟨r, hr, _, hO⟩
    have hs := rk_reached clockSys 0 0 p s0 h []
    obtain ⟨c, hc, hv⟩ : ∃ c : ℝ, c ≠ 0 ∧ ∀ dt, (r dt).y 0 - (0 + dt) ^ 2 / 2 = c * dt ^ 2 := by
      have hval : ∀ dt, (r dt).y = rkClosed clockSys.frhs 0 0 dt p := by
        intro dt
        have := (hr dt).symm.trans (hs dt)
        exact congrArg StepRes.y (Except.ok.inj this)
      simp only [List.mem_cons, List.not_mem_nil, or_false] at hp
      rcases hp with rfl | rfl | rfl
      · exact ⟨-1 / 2, by norm_num, fun dt => by rw [hval]; simp [rkClosed, clockSys]; ring⟩
      · exact ⟨1 / 12 - 1 / 2, by norm_num, fun dt => by rw [hval]; simp [rkClosed, clockSys]; ring⟩
      · exact ⟨1 / 4 - 1 / 2, by norm_num, fun dt => by rw [hval]; simp [rkClosed, clockSys]; ring⟩
    have hO' := isBigO_pi.mp hO 0
    have h1 : (fun dt : ℝ => c * dt ^ 2) =O[𝓝 0] fun dt : ℝ => dt ^ 3 := hO'.congr_left fun dt => hv dt
    have h2 : (fun dt : ℝ => dt ^ 2) =O[𝓝 0] fun dt : ℝ => dt ^ 3 := by
      have := h1.const_mul_left c⁻¹
      refine this.congr_left fun dt => ?_
      field_simp
    have h3 : (fun dt : ℝ => dt ^ 3) =o[𝓝 0] fun dt : ℝ => dt ^ 2 := isLittleO_pow_pow (by norm_num)
    have h4 := h2.trans_isLittleO h3
    have h5 : ∃ᶠ x : ℝ in 𝓝 0, x ^ 2 ≠ 0 := by
      intro hn
      rw [Metric.eventually_nhds_iff] at hn
      obtain ⟨ε, hε, hb⟩ := hn
      have := hb (y := ε / 2) (by rw [Real.dist_eq, sub_zero, abs_of_pos (by linarith)]; linarith)
      apply this
      positivity
    exact absurd h4 (isLittleO_irrefl h5)

/-- Non-vacuity: the exponential decay solves a smooth autonomous system. -/
example : SmoothIVP (fun (_ : ℝ) (y : Vec 1) => -y) 4 0 (fun t _ => Real.exp (-t)) := by
  constructor
  · exact (contDiff_snd.neg).contDiffAt
  · refine Eventually.of_forall fun s => ?_
    rw [hasDerivAt_pi]
    intro i
    exact ((hasDerivAt_id s).neg.exp).congr_deriv (by simp)

end Ormatex.Props
