import Verif.Props.Rounded
import Mathlib.Data.Int.Log

/-!
C117: runs of `rk4` in floating-point arithmetic, against the exact solution.
-/

namespace Ormatex.Props
open Filter Asymptotics Topology Matrix Ormatex.Spec
open scoped Classical

section
variable {n : ℕ} {P : Type}

/-! ### the loop -/

/-- `run_seq` for recorded times that need not be `t0 + i dt` -/
theorem run_seq_times {P σ Q W : Type} (I : Stepper σ P (Vec n)) (Inv : σ → ℕ → Prop) (u : ℕ → Vec n) (τ : ℕ → ℝ) (dt : ℝ)
    (before : Option (W → ℝ → Vec n → P × W)) (after : Option (W → ℝ → Vec n → Q × W))
    (hs : ∀ o k kw, (before = none → kw = none) → Inv o k → ∃ r o', I.step o dt kw = .ok (r, o') ∧ r.t = τ (k + 1) ∧ r.y = u (k + 1) ∧
      Inv (I.accept o' r) (k + 1))
    (obj : σ) (h0 : Inv obj 0) (nsteps : ℕ) (w : W) :
    ∃ l, integrateOrmatex I obj (u 0) (τ 0) dt nsteps before after w = .ok l ∧
      l.tRes = (List.range (nsteps + 1)).map τ ∧ l.yRes = (List.range (nsteps + 1)).map u := by
  have key : ∀ (k j : ℕ) (l : LoopState σ P Q W (Vec n)), Inv l.obj j →
      l.tRes = (List.range (j + 1)).map τ → l.yRes = (List.range (j + 1)).map u →
      ∃ l', loopN I (τ 0) (u 0) dt before after k l = .ok l' ∧
        l'.tRes = (List.range (j + k + 1)).map τ ∧ l'.yRes = (List.range (j + k + 1)).map u := by
    intro k
    induction k with
    | zero => intro j l _ h1 h2; exact ⟨l, rfl, h1, h2⟩
    | succ k ih =>
      intro j l hl h1 h2
      obtain ⟨r, o', e1, e2, e3, e4⟩ := hs l.obj j
        (callBefore before l.world (l.tRes.getLastD (τ 0)) (l.yRes.getLastD (u 0)) l.cbBefore).1
        (by intro hb; rw [hb]; rfl) hl
      have hb : ∃ l1, loopBody I (τ 0) (u 0) dt before after l = .ok l1 ∧ l1.obj = I.accept o' r ∧
          l1.tRes = l.tRes ++ [r.t] ∧ l1.yRes = l.yRes ++ [r.y] := by
        unfold loopBody
        simp only [e1]
        exact ⟨_, rfl, rfl, rfl, rfl⟩
      obtain ⟨l1, hl1, ho, ht, hy⟩ := hb
      obtain ⟨l2, hl2, g1, g2⟩ := ih (j + 1) l1 (by rw [ho]; exact e4)
        (by rw [ht, h1, e2, List.range_succ (n := j + 1), List.map_append]; rfl)
        (by rw [hy, h2, e3, List.range_succ (n := j + 1), List.map_append]; rfl)
      refine ⟨l2, ?_, ?_, ?_⟩
      · show (loopBody I (τ 0) (u 0) dt before after l >>= _) = _
        rw [hl1]
        exact hl2
      · rw [g1, show j + 1 + k + 1 = j + (k + 1) + 1 by ring]
      · rw [g2, show j + 1 + k + 1 = j + (k + 1) + 1 by ring]
  obtain ⟨l, h1, h2, h3⟩ := key nsteps 0
    { obj := obj, tRes := [τ 0], yRes := [u 0], cbBefore := [], cbAfter := [], world := w } h0 (by simp) (by simp)
  rw [zero_add] at h2 h3
  exact ⟨l, h1, h2, h3⟩

/-! ### the clock -/

/-- the recorded times -/
def flTime (G : FlOps) (t0 dt : ℝ) : ℕ → ℝ
  | 0 => t0
  | k + 1 => G.add (flTime G t0 dt k) dt

/-- the recorded states -/
noncomputable def flSeq (F : ℕ → FlOps) (fh : ℝ → Vec n → Vec n) (t0 dt : ℝ) (y0 : Vec n) : ℕ → Vec n
  | 0 => y0
  | k + 1 => rk4KernelFl F fh (flTime (F 21) t0 dt k) (flSeq F fh t0 dt y0 k) dt

theorem clock_drift {G : FlOps} {u η Ω B t0 T dt : ℝ} (hG : FlAccurate G u η Ω) (hB : ∀ s ∈ Set.Icc t0 T, |s| ≤ B) (hB0 : 0 ≤ B)
    (hΩ : B + 1 ≤ Ω) (hdt : 0 < dt) (hu : u ≤ dt) {N : ℕ} (hN : t0 + N * dt ≤ T)
    (hsm : Real.exp (T - t0) * (T - t0) * (B + 1) * ((u + η) / dt) ≤ 1) :
    ∀ k ≤ N, |flTime G t0 dt k - (t0 + k * dt)| ≤ Real.exp (T - t0) * (T - t0) * (B + 1) * ((u + η) / dt) := by
  have hu0 := hG.u_nonneg
  have hη0 := hG.eta_nonneg
  set w := u * B + η with hw
  have hw0 : 0 ≤ w := by positivity
  have hfin : ∀ k ≤ N, (1 + u) ^ k * (k * w) ≤ Real.exp (T - t0) * (T - t0) * (B + 1) * ((u + η) / dt) := by
    intro k hk
    have hkd : (k : ℝ) * dt ≤ T - t0 := by
      have : (k : ℝ) ≤ N := by exact_mod_cast hk
      nlinarith
    have h1 : (1 + u) ^ k ≤ Real.exp (T - t0) := by
      calc (1 + u) ^ k ≤ (Real.exp u) ^ k := by
            gcongr
            linarith [Real.add_one_le_exp u]
        _ = Real.exp (k * u) := by rw [← Real.exp_nat_mul]
        _ ≤ Real.exp (T - t0) := by
            apply Real.exp_le_exp.2
            have : (k : ℝ) * u ≤ k * dt := by gcongr
            linarith
    have h2 : w ≤ (B + 1) * (u + η) := by rw [hw]; nlinarith
    have h3 : (k : ℝ) ≤ (T - t0) / dt := by rwa [le_div_iff₀ hdt]
    have h4 : 0 ≤ (T - t0) / dt := le_trans (Nat.cast_nonneg k) h3
    calc (1 + u) ^ k * (k * w) ≤ Real.exp (T - t0) * ((T - t0) / dt * ((B + 1) * (u + η))) := by gcongr
      _ = _ := by ring
  have hrec : ∀ k ≤ N, |flTime G t0 dt k - (t0 + k * dt)| ≤ (1 + u) ^ k * (k * w) := by
    intro k
    induction k with
    | zero => intro _; simp [flTime]
    | succ k ih =>
      intro hk
      have h1 := ih (by omega)
      set x := flTime G t0 dt k with hx
      have hD := (hfin k (by omega)).trans hsm
      have hmem : t0 + ((k + 1 : ℕ) : ℝ) * dt ∈ Set.Icc t0 T := by
        refine ⟨by have : 0 ≤ ((k + 1 : ℕ) : ℝ) * dt := by positivity
                   linarith, ?_⟩
        have : ((k + 1 : ℕ) : ℝ) ≤ N := by exact_mod_cast hk
        nlinarith
      have h2 := hB _ hmem
      have e1 : x + dt = (x - (t0 + k * dt)) + (t0 + ((k + 1 : ℕ) : ℝ) * dt) := by push_cast; ring
      have h3 : |x + dt| ≤ (1 + u) ^ k * (k * w) + B := by
        rw [e1]
        exact (abs_add_le _ _).trans (add_le_add h1 h2)
      have h4 := hG.add x dt (h3.trans (by linarith))
      have e2 : flTime G t0 dt (k + 1) - (t0 + ((k + 1 : ℕ) : ℝ) * dt) = (G.add x dt - (x + dt)) + (x - (t0 + k * dt)) := by
        show G.add x dt - _ = _
        push_cast; ring
      rw [e2]
      have h5 : u * |x + dt| ≤ u * ((1 + u) ^ k * (k * w) + B) := mul_le_mul_of_nonneg_left h3 hu0
      have h6 : 1 * w ≤ (1 + u) ^ (k + 1) * w := by
        gcongr
        exact one_le_pow₀ (by linarith)
      calc |(G.add x dt - (x + dt)) + (x - (t0 + k * dt))| ≤ (u * ((1 + u) ^ k * (k * w) + B) + η) + (1 + u) ^ k * (k * w) :=
            (abs_add_le _ _).trans (by linarith)
        _ = (1 + u) ^ (k + 1) * (k * w) + 1 * w := by rw [hw]; ring
        _ ≤ (1 + u) ^ (k + 1) * (k * w) + (1 + u) ^ (k + 1) * w := by linarith
        _ = (1 + u) ^ (k + 1) * ((k + 1 : ℕ) * w) := by push_cast; ring
  exact fun k hk => (hrec k hk).trans (hfin k hk)

/-! ### the error of the states -/

/-- **Specification.** The result `l` of a run has `nsteps + 1` recorded times, within `tb` of `t0 + i dt`, and as many states,
within `yb` of the exact solution at `t0 + i dt`. -/
def RunWithin {σ P Q W : Type} (l : LoopState σ P Q W (Vec n)) (t0 dt : ℝ) (nsteps : ℕ) (Y : ℝ → Vec n) (tb yb : ℝ) : Prop :=
  l.tRes.length = nsteps + 1 ∧ l.yRes.length = nsteps + 1 ∧
    (∀ (i : ℕ) (t : ℝ), l.tRes[i]? = some t → |t - (t0 + i * dt)| ≤ tb) ∧
    ∀ (i : ℕ) (y : Vec n), l.yRes[i]? = some y → ‖y - Y (t0 + i * dt)‖ ≤ yb

theorem getElem?_map_range {α : Type} {N i : ℕ} {g : ℕ → α} {x : α} (h : ((List.range N).map g)[i]? = some x) : i < N ∧ x = g i := by
  rw [List.getElem?_map] at h
  by_cases hi : i < N
  · rw [List.getElem?_range hi] at h
    cases h
    exact ⟨hi, rfl⟩
  · rw [List.getElem?_eq_none (by simpa using hi)] at h
    cases h

/-- the values recorded by a run -/
theorem rk4_fl_run (sys : OdeSys n P) (F : ℕ → FlOps) (y0 : Vec n) (t0 dt : ℝ) (N : ℕ) (s : Base (Vec n)) (hnew : RK.new t0 y0 "rk4" = .ok s)
    {Q W : Type} (after : Option (W → ℝ → Vec n → Q × W)) (w : W) :
    ∃ l, integrateOrmatex (rkStepperFl F sys) s y0 t0 dt N none after w = .ok l ∧
      l.tRes = (List.range (N + 1)).map (flTime (F 21) t0 dt) ∧ l.yRes = (List.range (N + 1)).map (flSeq F (sys.frhs none) t0 dt y0) := by
  exact run_seq_times (rkStepperFl F sys) (fun (o : Base (Vec n)) k =>
    At o (flTime (F 21) t0 dt k) (flSeq F (sys.frhs none) t0 dt y0 k) ∧ o.method = "rk4" ∧
    (Nonempty2 o ∧ 0 < o.yHist.maxlen ∧ o.tHist.maxlen = o.yHist.maxlen)) (flSeq F (sys.frhs none) t0 dt y0)
    (flTime (F 21) t0 dt) dt none after
    (by
      rintro o k kw hkw ⟨g1, g2, g4⟩
      rw [hkw rfl]
      refine ⟨StepResult.mk (flTime (F 21) t0 dt (k + 1)) dt (flSeq F (sys.frhs none) t0 dt y0 (k + 1)) (-1), o, ?_, rfl, rfl, ?_, g2,
        accept_nonempty g4 _⟩
      · show keep o (RK.stepFl F sys o dt none) = _
        unfold RK.stepFl stepRk4Fl
        simp only [g2, if_true, g1.yNew, g1.time, Bind.bind, Except.bind, pure, Except.pure]
        rfl
      · exact at_accept g4.2 _)
    s (by
      have hb : Base.init t0 y0 4 "rk4" = .ok s := hnew
      refine ⟨by simpa [flSeq, flTime] using at_init hb, ?_, init_nonempty hb⟩
      unfold Base.init at hb
      split at hb
      · cases hb; rfl
      · cases hb) N w

set_option maxHeartbeats 2000000 in
/-- **C117.**  Runs of `rk4` whose arithmetic, right-hand side and starting value are only approximate. -/
theorem C117_rk4 (f : ℝ → Vec n → Vec n) (Y : ℝ → Vec n) (t0 T : ℝ) (hY : ∀ t ∈ Set.Icc t0 T, SmoothIVP f 5 t Y) :
    ∃ C δ ρ Ω0 : ℝ, 0 ≤ C ∧ 0 < δ ∧ 0 < ρ ∧ ∀ (sys : OdeSys n P) (F : ℕ → FlOps) (u η Ω κ ε0 dt : ℝ) (nsteps : ℕ) (y0 : Vec n)
      (s : Base (Vec n)), (∀ i, FlAccurate (F i) u η Ω) → Ω0 ≤ Ω → RhsWithin (sys.frhs none) f Y t0 T ρ κ → 0 ≤ κ → κ ≤ δ →
      ‖y0 - Y t0‖ ≤ ε0 → ε0 ≤ δ → 0 < dt → dt ≤ δ → u + η ≤ δ * dt → t0 + nsteps * dt ≤ T → RK.new t0 y0 "rk4" = .ok s →
      ∀ {Q W : Type} (after : Option (W → ℝ → Vec n → Q × W)) (w : W),
      ∃ l, integrateOrmatex (rkStepperFl F sys) s y0 t0 dt nsteps none after w = .ok l ∧
        RunWithin l t0 dt nsteps Y (C * ((u + η) / dt)) (C * (dt ^ 4 + (u + η) / dt + κ + ε0)) := by
  obtain ⟨ρ, B, L, hT⟩ := tube_exists (fun t ht => (hY t ht).mono (by norm_num))
  obtain ⟨c, r, hc, hr, hstep⟩ := rk4_fl_error hT
  have hB := hT.B_nonneg
  -- the exact map, plus a perturbation
  have hsm : ∀ t ∈ Set.Icc t0 T, ContDiffAt ℝ (5 : ℕ) (fun q : ℝ × ℝ × (Vec n × Vec n) =>
      rk4Kernel f q.2.1 q.2.2.1 q.1 + q.1 • q.2.2.2) (0, t, (Y t, 0)) := fun t ht =>
    (mapRk4_smooth (hY t ht).smooth).add (by fun_prop)
  obtain ⟨C0, δ0, hC0, hδ0, hdef⟩ := uniform_defect (S := fun q : ℝ × ℝ × (Vec n × Vec n) =>
      rk4Kernel f q.2.1 q.2.2.1 q.1 + q.1 • q.2.2.2) (f := f) (Y := Y)
    (β := fun _ _ => (0 : Vec n)) (t0 := t0) (T := T) 4 5 (by norm_num) hY hsm (fun t ht => contDiffAt_const)
    (fun t h => by simpa using rk4_order (h.mono (by norm_num)))
  obtain ⟨C, δ1, hC, hδ1, hmain⟩ := converge_abstract (S := fun q : ℝ × ℝ × (Vec n × Vec n) =>
      rk4Kernel f q.2.1 q.2.2.1 q.1 + q.1 • q.2.2.2) (Y := Y)
    (a := fun _ => (0 : Vec n)) (t0 := t0) (T := T)
    4 (by norm_num) (fun t ht => (hsm t ht).of_le (by norm_cast)) (fun t x => by simp [rk4Kernel])
    (fun t ht => (hY t ht).contDiff.continuousAt) (fun t ht => continuousAt_const) 0 C0 r le_rfl hC0 hr
  by_cases hTt : t0 ≤ T
  swap
  · refine ⟨0, 1, ρ, 0, le_rfl, one_pos, hT.rho_pos, ?_⟩
    intro sys F u η Ω κ ε0 dt N y0 s _ _ _ _ _ _ _ hdt _ _ hN
    have : 0 ≤ (N : ℝ) * dt := by positivity
    exact absurd (by linarith) hTt
  obtain ⟨C1, hC1⟩ : ∃ C1, C1 = Real.exp (T - t0) * (T - t0) * (B + 1) := ⟨_, rfl⟩
  have hC1p : 0 ≤ C1 := by
    rw [hC1]
    have : 0 ≤ T - t0 := by linarith
    positivity
  obtain ⟨m, hm⟩ : ∃ m, m = min (min r 1) (min δ1 (δ0 / 2)) := ⟨_, rfl⟩
  have hmp : 0 < m := by rw [hm]; positivity
  have hm1 : m ≤ r := by rw [hm]; exact (min_le_left _ _).trans (min_le_left _ _)
  have hm2 : m ≤ 1 := by rw [hm]; exact (min_le_left _ _).trans (min_le_right _ _)
  have hm3 : m ≤ δ1 := by rw [hm]; exact (min_le_right _ _).trans (min_le_left _ _)
  have hm4 : m ≤ δ0 / 2 := by rw [hm]; exact (min_le_right _ _).trans (min_le_right _ _)
  obtain ⟨D, hD⟩ : ∃ D, D = (c + 1) * (C1 + 2) := ⟨_, rfl⟩
  have hDp : 1 ≤ D := by rw [hD]; nlinarith
  refine ⟨C * D + C1, m / D, ρ, max c (B + 1), by positivity, by positivity, hT.rho_pos, ?_⟩
  intro sys F u η Ω κ ε0 dt N y0 s hF hΩ hf hκ hκδ hy0 hε0 hdt hdtδ huη hN hnew Q W after w
  have hu0 := (hF 0).u_nonneg
  have hη0 := (hF 0).eta_nonneg
  have hδm : m / D ≤ m := div_le_self hmp.le hDp
  have hdtm : dt ≤ m := hdtδ.trans hδm
  have hDδ : D * (m / D) = m := by field_simp
  obtain ⟨q, hq⟩ : ∃ q, q = (u + η) / dt := ⟨_, rfl⟩
  have hq0 : 0 ≤ q := by rw [hq]; positivity
  have hqδ : q ≤ m / D := by rw [hq, div_le_iff₀ hdt]; exact huη
  have hqdt : q * dt = u + η := by rw [hq]; field_simp
  have hC1D : C1 + 2 ≤ D := by rw [hD]; nlinarith
  -- the error of the clock
  have hu1 : u ≤ dt := by nlinarith [hqδ.trans (hδm.trans hm2)]
  have hC1q : C1 * q ≤ m := by
    calc C1 * q ≤ D * (m / D) := by gcongr; linarith
      _ = m := hDδ
  have hclock := clock_drift (t0 := t0) (T := T) (N := N) (hF 21) hT.time hB ((le_max_right _ _).trans hΩ) hdt hu1 hN
    (by rw [← hC1, ← hq]; linarith)
  rw [← hC1, ← hq] at hclock
  -- the error of one step
  obtain ⟨E, hE⟩ : ∃ E, E = dt * ((C1 + 1) * q + κ) := ⟨_, rfl⟩
  have hEm : (C1 + 1) * q + κ ≤ m := by
    calc (C1 + 1) * q + κ ≤ (C1 + 1) * (m / D) + m / D := by gcongr
      _ = (C1 + 2) * (m / D) := by ring
      _ ≤ D * (m / D) := by gcongr
      _ = m := hDδ
  have hone : ∀ k < N, ‖flSeq F (sys.frhs none) t0 dt y0 k - Y (t0 + k * dt)‖ ≤ r →
      ‖flSeq F (sys.frhs none) t0 dt y0 (k + 1) - rk4Kernel f (t0 + k * dt) (flSeq F (sys.frhs none) t0 dt y0 k) dt‖ ≤ c * E := by
    intro k hk hyk
    have hmem : t0 + (k : ℝ) * dt ∈ Set.Icc t0 T := by
      refine ⟨by have : 0 ≤ (k : ℝ) * dt := by positivity
                 linarith, ?_⟩
      have : (k : ℝ) ≤ N := by exact_mod_cast hk.le
      nlinarith
    have hκdt : 0 ≤ dt * κ := by positivity
    have hCq : 0 ≤ C1 * q * dt := by positivity
    have huηE : u + η ≤ E := by rw [hE, ← hqdt]; linarith
    refine hstep F u η Ω κ (C1 * q) E dt (t0 + k * dt) (flTime (F 21) t0 dt k) _ (sys.frhs none) hF hf hmem
      ((le_max_left _ _).trans hΩ) hdt (hdtm.trans hm1) (hu1.trans (hdtm.trans hm2)) (by linarith) (by linarith) hκ ?_ ?_
      (hclock k hk.le) (hC1q.trans hm1) hyk
    · rw [hE]
      refine mul_le_mul_of_nonneg_left ?_ hdt.le
      linarith
    · rw [hE, mul_comm]
      exact mul_le_mul_of_nonneg_right (hEm.trans hm1) hdt.le
  -- all steps
  have hε00 : 0 ≤ ε0 := (norm_nonneg _).trans hy0
  have hcm : c * ((C1 + 1) * q + κ) ≤ m := by
    calc c * ((C1 + 1) * q + κ) ≤ c * ((C1 + 1) * (m / D) + m / D) := by gcongr
      _ = (c * (C1 + 2)) * (m / D) := by ring
      _ ≤ D * (m / D) := by
          gcongr
          rw [hD]
          nlinarith
      _ = m := hDδ
  have herr := hmain t0 dt (c * ((C1 + 1) * q + κ)) ε0 N (flSeq F (sys.frhs none) t0 dt y0)
    (fun k => (1 / dt) • (flSeq F (sys.frhs none) t0 dt y0 (k + 1) - rk4Kernel f (t0 + k * dt) (flSeq F (sys.frhs none) t0 dt y0 k) dt))
    (fun _ => 0) hdt (hdtm.trans hm3) (by positivity) (hcm.trans hm3) hε00 (hε0.trans (hδm.trans hm3)) le_rfl hN hy0
    (by
      intro k hk
      simp only [smul_smul]
      rw [mul_one_div_cancel hdt.ne', one_smul]
      abel)
    (by
      intro k hk hj
      have h1 := hone k hk (hj k le_rfl).le
      rw [sub_zero, zero_mul, zero_add, norm_smul, Real.norm_of_nonneg (by positivity), one_div, inv_mul_le_iff₀ hdt]
      refine h1.trans (le_of_eq ?_)
      rw [hE]; ring)
    (by intro k _; simpa using hδ1.le)
    (by
      intro k hk
      have hmem : t0 + (k : ℝ) * dt ∈ Set.Icc t0 T := by
        refine ⟨by have : 0 ≤ (k : ℝ) * dt := by positivity
                   linarith, ?_⟩
        have : (k : ℝ) ≤ N := by exact_mod_cast hk.le
        nlinarith
      have h1 := hdef _ hmem dt (by rw [abs_of_pos hdt]; linarith)
      rw [abs_of_pos hdt] at h1
      have e : t0 + ((k + 1 : ℕ) : ℝ) * dt = t0 + k * dt + dt := by push_cast; ring
      rw [e]
      exact h1)
  have hyb : C * (dt ^ 4 + c * ((C1 + 1) * q + κ) + ε0) ≤ (C * D + C1) * (dt ^ 4 + q + κ + ε0) := by
    have hd4 : 0 ≤ dt ^ 4 := by positivity
    have a1 : dt ^ 4 + c * ((C1 + 1) * q + κ) + ε0 ≤ D * (dt ^ 4 + q + κ + ε0) := by
      have b1 : dt ^ 4 ≤ D * dt ^ 4 := le_mul_of_one_le_left hd4 hDp
      have b2 : ε0 ≤ D * ε0 := le_mul_of_one_le_left hε00 hDp
      have b3 : c * (C1 + 1) * q ≤ D * q := by
        gcongr
        rw [hD]; nlinarith
      have b4 : c * κ ≤ D * κ := by
        gcongr
        rw [hD]; nlinarith
      linarith
    have a2 : 0 ≤ C1 * (dt ^ 4 + q + κ + ε0) := by positivity
    have a3 := mul_le_mul_of_nonneg_left a1 hC
    linarith
  -- the loop
  obtain ⟨l, e1, e2, e3⟩ := rk4_fl_run sys F y0 t0 dt N s hnew after w
  refine ⟨l, e1, by rw [e2]; simp, by rw [e3]; simp, ?_, ?_⟩
  · intro i t hi
    rw [e2] at hi
    obtain ⟨h1, rfl⟩ := getElem?_map_range hi
    refine (hclock i (by omega)).trans ?_
    rw [← hq]
    have : 0 ≤ C * D * q := by positivity
    linarith
  · intro i y hi
    rw [e3] at hi
    obtain ⟨h1, rfl⟩ := getElem?_map_range hi
    rw [← hq]
    exact (herr i (by omega)).trans hyb

/-! ### binary floating point -/

/-- Rounding to the nearest binary number with `p` bits after the leading one and exponents at least `emin` (gradual
underflow); results beyond `Ω` are replaced by `junk` (overflow).  IEEE binary64 is `p = 52`, `emin = -1022`; the rule for ties
differs (upwards instead of to even). -/
noncomputable def binRound (p : ℕ) (emin : ℤ) (Ω : ℝ) (junk : ℝ → ℝ) (x : ℝ) : ℝ :=
  if |x| ≤ Ω then
    (round (x / (2 : ℝ) ^ (max (Int.log 2 |x|) emin - p)) : ℝ) * (2 : ℝ) ^ (max (Int.log 2 |x|) emin - p)
  else junk x

/-- the arithmetic with correctly rounded operations -/
noncomputable def binFl (p : ℕ) (emin : ℤ) (Ω : ℝ) (junk : ℝ → ℝ) : FlOps :=
  ⟨fun a b => binRound p emin Ω junk (a + b), fun a b => binRound p emin Ω junk (a * b), fun a b => binRound p emin Ω junk (a / b)⟩

theorem binRound_error (p : ℕ) (emin : ℤ) (Ω : ℝ) (junk : ℝ → ℝ) (x : ℝ) (hx : |x| ≤ Ω) :
    |binRound p emin Ω junk x - x| ≤ (2 : ℝ) ^ (-(p + 1 : ℤ)) * |x| + (2 : ℝ) ^ (emin - (p + 1 : ℤ)) := by
  unfold binRound
  rw [if_pos hx]
  by_cases hx00 : x = 0
  · subst hx00
    simp only [zero_div, round_zero, Int.cast_zero, zero_mul, sub_zero, abs_zero, mul_zero, zero_add]
    positivity
  set e := max (Int.log 2 |x|) emin - (p : ℤ) with he
  have h2 : (0 : ℝ) < (2 : ℝ) ^ e := by positivity
  have h1 : |(round (x / (2 : ℝ) ^ e) : ℝ) * (2 : ℝ) ^ e - x| ≤ 1 / 2 * (2 : ℝ) ^ e := by
    have e1 : (round (x / (2 : ℝ) ^ e) : ℝ) * (2 : ℝ) ^ e - x = -(x / (2 : ℝ) ^ e - round (x / (2 : ℝ) ^ e)) * (2 : ℝ) ^ e := by
      field_simp
      ring
    rw [e1, abs_mul, abs_neg, abs_of_pos h2]
    exact mul_le_mul_of_nonneg_right (abs_sub_round _) h2.le
  refine h1.trans ?_
  have h3 : 1 / 2 * (2 : ℝ) ^ e = (2 : ℝ) ^ (max (Int.log 2 |x|) emin - (p + 1 : ℤ)) := by
    rw [he, show max (Int.log 2 |x|) emin - (p + 1 : ℤ) = (max (Int.log 2 |x|) emin - (p : ℤ)) + (-1) by ring,
      zpow_add₀ two_ne_zero]
    norm_num
    ring
  rw [h3]
  rcases le_total (Int.log 2 |x|) emin with h | h
  · rw [max_eq_right h]
    have : (0 : ℝ) ≤ (2 : ℝ) ^ (-(p + 1 : ℤ)) * |x| := by positivity
    linarith
  · rw [max_eq_left h]
    have h5 : (0 : ℝ) < (2 : ℝ) ^ (emin - (p + 1 : ℤ)) := by positivity
    have hxp : 0 < |x| := abs_pos.2 hx00
    have h4 := Int.zpow_log_le_self (b := 2) (by norm_num) hxp
    rw [sub_eq_neg_add, zpow_add₀ two_ne_zero]
    have : (2 : ℝ) ^ (-(p + 1 : ℤ)) * (2 : ℝ) ^ Int.log 2 |x| ≤ (2 : ℝ) ^ (-(p + 1 : ℤ)) * |x| :=
        mul_le_mul_of_nonneg_left (by exact_mod_cast h4) (by positivity)
    linarith

/-- **Binary floating point meets the specification**, with unit roundoff `2^-(p+1)` and underflow `2^(emin-p-1)`. -/
theorem binFl_accurate (p : ℕ) (emin : ℤ) (Ω : ℝ) (junk : ℝ → ℝ) :
    FlAccurate (binFl p emin Ω junk) ((2 : ℝ) ^ (-(p + 1 : ℤ))) ((2 : ℝ) ^ (emin - (p + 1 : ℤ))) Ω :=
  ⟨by positivity, by positivity, fun _ _ h => binRound_error p emin Ω junk _ h, fun _ _ h => binRound_error p emin Ω junk _ h,
    fun _ _ _ h => binRound_error p emin Ω junk _ h⟩

/-- binary64 -/
example (junk : ℝ → ℝ) : FlAccurate (binFl 52 (-1022) ((2 : ℝ) ^ (1023 : ℤ)) junk) ((2 : ℝ) ^ (-53 : ℤ)) ((2 : ℝ) ^ (-1075 : ℤ)) ((2 : ℝ) ^ (1023 : ℤ)) := by
  have := binFl_accurate 52 (-1022) ((2 : ℝ) ^ (1023 : ℤ)) junk
  norm_num at this ⊢
  exact this

/-! ### a problem solved in binary floating point -/

/-- the user's system `y₀' = t`, `y₁' = y₁²` programmed in the arithmetic `G` -/
noncomputable def demoFl (G : FlOps) : OdeSys 2 Unit := OdeSys.ofFrhs fun _ t y => ![t, G.mul (y 1) (y 1)]

/-- **C117 is not vacuous:** binary floating point with `p` bits on `[0, 1/2]`, the right-hand side computed in the same arithmetic. -/
theorem C117_demo : ∃ C δ Ω0 : ℝ, 0 < δ ∧ ∀ (p : ℕ) (emin : ℤ) (Ω : ℝ) (junk : ℝ → ℝ) (dt : ℝ) (nsteps : ℕ), Ω0 ≤ Ω → emin ≤ 0 →
    0 < dt → dt ≤ δ → (2 : ℝ) ^ (-(p : ℤ)) ≤ δ * dt → nsteps * dt ≤ 1 / 2 →
    ∃ s l, RK.new 0 (demoY 0) "rk4" = .ok s ∧
      integrateOrmatex (P := Unit) (Q := Unit) (W := Unit) (rkStepperFl (fun _ => binFl p emin Ω junk) (demoFl (binFl p emin Ω junk))) s
        (demoY 0) 0 dt nsteps none none () = .ok l ∧
      RunWithin l 0 dt nsteps demoY (C * ((2 : ℝ) ^ (-(p : ℤ)) / dt)) (C * (dt ^ 4 + (2 : ℝ) ^ (-(p : ℤ)) / dt)) := by
  obtain ⟨C, δ, ρ, Ω0, hC, hδ, hρ, hmain⟩ := C117_rk4 (P := Unit) (demoF none) demoY 0 (1 / 2)
    (fun t ht => demo_smooth_at 5 t (by have := ht.2; linarith))
  obtain ⟨M, hM⟩ : ∃ M, M = (2 + ρ) ^ 2 := ⟨_, rfl⟩
  have hM0 : 0 ≤ M := by rw [hM]; positivity
  refine ⟨C * (M + 2), min (δ / (M + 1)) (min δ 1), max Ω0 M, by positivity, ?_⟩
  intro p emin Ω junk dt N hΩ hemin hdt hdtδ hp hN
  obtain ⟨q, hq⟩ : ∃ q, q = (2 : ℝ) ^ (-(p : ℤ)) := ⟨_, rfl⟩
  have hq0 : 0 < q := by rw [hq]; positivity
  rw [← hq] at hp ⊢
  obtain ⟨u, hu⟩ : ∃ u, u = (2 : ℝ) ^ (-(p + 1 : ℤ)) := ⟨_, rfl⟩
  obtain ⟨η, hη⟩ : ∃ η, η = (2 : ℝ) ^ (emin - (p + 1 : ℤ)) := ⟨_, rfl⟩
  have huq : u = q / 2 := by
    rw [hu, hq, show -(p + 1 : ℤ) = -(p : ℤ) + (-1) by ring, zpow_add₀ two_ne_zero]
    norm_num
    ring
  have hηu : η ≤ u := by rw [hη, hu]; exact zpow_le_zpow_right₀ one_le_two (by omega)
  have hη0 : 0 ≤ η := by rw [hη]; positivity
  have hacc := binFl_accurate p emin Ω junk
  rw [← hu, ← hη] at hacc
  have d1 : dt ≤ δ := hdtδ.trans ((min_le_right _ _).trans (min_le_left _ _))
  have d2 : dt ≤ 1 := hdtδ.trans ((min_le_right _ _).trans (min_le_right _ _))
  have hrhs : RhsWithin ((demoFl (binFl p emin Ω junk)).frhs none) (demoF none) demoY 0 (1 / 2) ρ (q * (M + 1)) := by
    intro s hs t y h1 h2
    have b1 : |demoY s 1| ≤ 2 := by
      have e : demoY s 1 = (1 - s)⁻¹ := by simp [demoY]
      have hs2 := hs.2
      rw [e, abs_of_nonneg (inv_nonneg.2 (by linarith))]
      rw [inv_le_comm₀ (by linarith) (by norm_num)]
      linarith
    have b2 : |y 1 - demoY s 1| ≤ ρ := le_trans (by simpa using norm_le_pi_norm (y - demoY s) 1) h2.le
    have b3 : |y 1| ≤ 2 + ρ := by
      have := abs_add_le (y 1 - demoY s 1) (demoY s 1)
      rw [sub_add_cancel] at this
      linarith
    have b4 : |y 1 * y 1| ≤ M := by
      rw [abs_mul, hM, sq]
      exact mul_le_mul b3 b3 (abs_nonneg _) (by linarith)
    have b5 := hacc.mul (y 1) (y 1) (b4.trans ((le_max_right _ _).trans hΩ))
    rw [pi_norm_le_iff_of_nonneg (by positivity)]
    intro i
    fin_cases i
    · simp [demoFl, OdeSys.ofFrhs, demoF]
      positivity
    · have e : ((demoFl (binFl p emin Ω junk)).frhs none t y - demoF none t y) 1 = (binFl p emin Ω junk).mul (y 1) (y 1) - y 1 * y 1 := by
        simp [demoFl, OdeSys.ofFrhs, demoF, sq]
      show ‖((demoFl (binFl p emin Ω junk)).frhs none t y - demoF none t y) 1‖ ≤ _
      rw [e, Real.norm_eq_abs]
      have b6 : u * |y 1 * y 1| ≤ u * M := mul_le_mul_of_nonneg_left b4 hacc.u_nonneg
      have b7 : u * M ≤ q * M := mul_le_mul_of_nonneg_right (by linarith) hM0
      linarith
  have hqδ : q * (M + 1) ≤ δ * dt := by
    have h1 : q ≤ δ / (M + 1) * dt := hp.trans (mul_le_mul_of_nonneg_right (min_le_left _ _) hdt.le)
    calc q * (M + 1) ≤ δ / (M + 1) * dt * (M + 1) := mul_le_mul_of_nonneg_right h1 (by linarith)
      _ = δ * dt := by field_simp
  have hqM : 0 ≤ q * M := by positivity
  obtain ⟨s, hs⟩ : ∃ s, RK.new (0 : ℝ) (demoY 0) "rk4" = .ok s := ⟨_, rfl⟩
  obtain ⟨l, e1, a1, a2, a3, a4⟩ := hmain (demoFl (binFl p emin Ω junk)) (fun _ => binFl p emin Ω junk) u η Ω (q * (M + 1)) 0 dt N (demoY 0) s
    (fun _ => hacc) ((le_max_left _ _).trans hΩ) hrhs (by positivity) (hqδ.trans (mul_le_of_le_one_right hδ.le d2)) (by simp) hδ.le hdt d1
    (by linarith) (by linarith) hs (Q := Unit) (W := Unit) none ()
  have hqd : 0 ≤ q / dt := by positivity
  have huη : (u + η) / dt ≤ q / dt := by
    rw [div_le_div_iff_of_pos_right hdt]
    linarith
  have hqq : q ≤ q / dt := by
    rw [le_div_iff₀ hdt]
    exact mul_le_of_le_one_right hq0.le d2
  refine ⟨s, l, hs, e1, a1, a2, fun i t h => (a3 i t h).trans ?_, fun i y h => (a4 i y h).trans ?_⟩
  · calc C * ((u + η) / dt) ≤ C * (q / dt) := mul_le_mul_of_nonneg_left huη hC
      _ ≤ C * (M + 2) * (q / dt) := by
        refine mul_le_mul_of_nonneg_right ?_ hqd
        nlinarith
  · have h4 : (0 : ℝ) ≤ dt ^ 4 := by positivity
    have h5 : q * (M + 1) ≤ (M + 1) * (q / dt) := by
      rw [mul_comm]
      exact mul_le_mul_of_nonneg_left hqq (by linarith)
    calc C * (dt ^ 4 + (u + η) / dt + q * (M + 1) + 0) ≤ C * ((M + 2) * (dt ^ 4 + q / dt)) := by
          refine mul_le_mul_of_nonneg_left ?_ hC
          have : (0 : ℝ) ≤ (M + 1) * dt ^ 4 := by positivity
          linarith
      _ = _ := by ring

/-! ### why `u ≤ δ dt` -/

theorem binRound_one_add (p : ℕ) (emin : ℤ) (Ω : ℝ) (junk : ℝ → ℝ) (hemin : emin ≤ 0) (hΩ : 2 ≤ Ω) {x : ℝ} (hx0 : 0 ≤ x)
    (hx : x < (2 : ℝ) ^ (-(p + 1 : ℤ))) : binRound p emin Ω junk (1 + x) = 1 := by
  have hx1 : x < 1 := hx.trans_le (zpow_le_one_of_nonpos₀ one_le_two (by omega))
  have hlog : Int.log 2 |1 + x| = 0 := by
    rw [abs_of_nonneg (by linarith)]
    apply le_antisymm
    · have := (Int.lt_zpow_iff_log_lt (b := 2) (r := 1 + x) (x := 1) (by norm_num) (by linarith)).1 (by norm_num; linarith)
      omega
    · exact (Int.zpow_le_iff_le_log (b := 2) (r := 1 + x) (x := 0) (by norm_num) (by linarith)).1 (by norm_num; linarith)
  unfold binRound
  rw [if_pos (by rw [abs_of_nonneg (by linarith)]; linarith), hlog, max_eq_left hemin, zero_sub]
  have e1 : (1 + x) / (2 : ℝ) ^ (-(p : ℤ)) = ((2 ^ p : ℕ) : ℝ) + x * 2 ^ p := by
    rw [_root_.zpow_neg, div_inv_eq_mul, zpow_natCast]
    push_cast
    ring
  have hx2 : x * 2 ^ p < 1 / 2 := by
    have h2 : (0 : ℝ) < 2 ^ p := by positivity
    calc x * 2 ^ p < (2 : ℝ) ^ (-(p + 1 : ℤ)) * 2 ^ p := mul_lt_mul_of_pos_right hx h2
      _ = 1 / 2 := by
        rw [← zpow_natCast (2 : ℝ) p, ← zpow_add₀ two_ne_zero, show -(p + 1 : ℤ) + p = -1 by ring]
        norm_num
  have hr : round ((1 + x) / (2 : ℝ) ^ (-(p : ℤ))) = ((2 ^ p : ℕ) : ℤ) := by
    have h0 : round (x * 2 ^ p) = 0 := by
      rw [round_eq_zero_iff]
      exact ⟨by have : (0 : ℝ) ≤ x * 2 ^ p := by positivity
                linarith, hx2⟩
    rw [e1, round_natCast_add, h0, add_zero]
  rw [hr, _root_.zpow_neg, zpow_natCast]
  push_cast
  field_simp

/-- **The clock can stand still.**  From `t0 = 1`, with steps below half a unit in the last place, every recorded time is 1,
whatever the system and however many steps are taken. -/
theorem C117_stalled (p : ℕ) (emin : ℤ) (Ω : ℝ) (junk : ℝ → ℝ) (hemin : emin ≤ 0) (hΩ : 2 ≤ Ω) (sys : OdeSys n P) (y0 : Vec n)
    (dt : ℝ) (h0 : 0 ≤ dt) (h1 : dt < (2 : ℝ) ^ (-(p + 1 : ℤ))) (nsteps : ℕ) :
    ∃ s l, RK.new 1 y0 "rk4" = .ok s ∧
      integrateOrmatex (Q := Unit) (W := Unit) (rkStepperFl (fun _ => binFl p emin Ω junk) sys) s y0 1 dt nsteps none none () = .ok l ∧
      l.tRes = List.replicate (nsteps + 1) 1 := by
  obtain ⟨s, hs⟩ : ∃ s, RK.new (1 : ℝ) y0 "rk4" = .ok s := ⟨_, rfl⟩
  set F : ℕ → FlOps := fun _ => binFl p emin Ω junk with hF
  have ht : ∀ k, flTime (F 21) 1 dt k = 1 := by
    intro k
    induction k with
    | zero => rfl
    | succ k ih =>
      show binRound p emin Ω junk (flTime (F 21) 1 dt k + dt) = 1
      rw [ih]
      exact binRound_one_add p emin Ω junk hemin hΩ h0 h1
  obtain ⟨l, e1, e2, e3⟩ := rk4_fl_run sys F y0 1 dt nsteps s hs (Q := Unit) (W := Unit) none ()
  refine ⟨s, l, hs, e1, ?_⟩
  rw [e2]
  exact List.eq_replicate_iff.2 ⟨by simp, fun t h => by obtain ⟨i, _, rfl⟩ := List.mem_map.1 h; exact ht i⟩

end

end Ormatex.Props
