import Verif.Props.RsRobust
import Verif.Props.RsConverge

/-!
C122: runs of the Rust integrators whose steps are Euler steps up to `O(dt (dt + κ))`, and the explicit Runge-Kutta methods of the
crate on right-hand sides that are only Lipschitz near the solution.
-/

namespace Ormatex.Props
open Filter Asymptotics Topology Matrix Ormatex.Spec Ormatex.Rs
open scoped Classical NNReal
open scoped Matrix.Norms.Operator

section
variable {n : ℕ} {f : ℝ → Vec n → Vec n} {Y : ℝ → Vec n} {t0 T : ℝ}

/-- A run that completes is not changed if the steps that fail are replaced by others. -/
theorem outLoop_mono {σ : Type} {I I' : Integrator σ n} {dt : ℝ} (hst : I'.state = I.state) (htm : I'.time = I.time)
    (hac : I'.accept = I.accept) (hstep : ∀ s r, I.step s dt = .ok r → I'.step s dt = .ok r) (osteps : ℕ) :
    ∀ (N i : ℕ) (s : σ) (ys : List (Vec n)) (ts : List ℝ) out, outLoop I dt osteps N i s ys ts = .ok out →
      outLoop I' dt osteps N i s ys ts = .ok out := by
  intro N
  induction N with
  | zero =>
    intro i s ys ts out h
    unfold outLoop at h ⊢
    rw [hst, htm]
    exact h
  | succ N ih =>
    intro i s ys ts out h
    unfold outLoop at h ⊢
    rw [hst, htm, hac]
    by_cases ho : osteps = 0
    · rw [if_pos ho] at h; cases h
    · rw [if_neg ho] at h ⊢
      have hjp : ∀ o : List (Vec n) × List ℝ, (match I.step s dt with
          | .ok res => outLoop I dt osteps N (i + 1) (I.accept s res) o.1 o.2
          | .error .nan => .error .nan
          | .error _ => .error .panic) = .ok out → (match I'.step s dt with
          | .ok res => outLoop I' dt osteps N (i + 1) (I.accept s res) o.1 o.2
          | .error .nan => .error .nan
          | .error _ => .error .panic) = .ok out := by
        intro o h
        cases hr : I.step s dt with
        | error e => rw [hr] at h; cases e <;> cases h
        | ok r =>
          rw [hr] at h
          rw [hstep s r hr]
          exact ih _ _ _ _ _ h
      by_cases hi : i % osteps = 0
      · simp only [if_pos hi, Bind.bind, Except.bind, Pure.pure, Except.pure] at h ⊢
        cases hs : I.state s with
        | error e => rw [hs] at h; cases h
        | ok y =>
          rw [hs] at h
          exact hjp (ys ++ [y], ts ++ [I.time s]) h
      · simp only [if_neg hi, Bind.bind, Except.bind, Pure.pure, Except.pure] at h ⊢
        exact hjp (ys, ts) h

/-- **Runs whose steps are Euler steps up to `O(dt (dt + κ))`.**  If every step that returns is one, every run that returns is first
order accurate; if moreover the steps return near the solution, the run does. -/
theorem rs_robust (h : LipIVP f Y t0 T) (D r1 : ℝ) (hD : 0 ≤ D) (hr1 : 0 < r1) :
    ∃ C δ : ℝ, 0 ≤ C ∧ 0 < δ ∧ ∀ (dt κ : ℝ) (N : ℕ), 0 < dt → dt ≤ δ → 0 ≤ κ → κ ≤ δ → t0 + N * dt ≤ T →
      ∀ {σ : Type} (I : Integrator σ n) (Inv : σ → ℕ → (ℕ → Vec n) → Prop) (s0 : σ) (osteps : ℕ), 0 < osteps →
      (∀ u : ℕ → Vec n, u 0 = Y t0 → Inv s0 0 u) →
      (∀ o k u, Inv o k u → I.state o = .ok (u k) ∧ I.time o = t0 + k * dt) →
      (∀ o r, I.state (I.accept o r) = .ok r.y ∧ I.time (I.accept o r) = r.t) →
      (∀ o k (u : ℕ → Vec n) r, Inv o k u → r.t = t0 + (k + 1 : ℕ) * dt → u (k + 1) = r.y → Inv (I.accept o r) (k + 1) u) →
      (∀ o k (u : ℕ → Vec n) r, k < N → (∀ j ≤ k, ‖u j - Y (t0 + j * dt)‖ < r1) →
        (∀ j < k, ‖u (j + 1) - u j - dt • f (t0 + j * dt) (u j)‖ ≤ dt * (D * (dt + κ))) → Inv o k u → I.step o dt = .ok r →
        r.t = t0 + (k + 1 : ℕ) * dt ∧ ‖r.y - u k - dt • f (t0 + k * dt) (u k)‖ ≤ dt * (D * (dt + κ))) →
      (∀ out, outLoop I dt osteps N 0 s0 [] [] = .ok out → RsRunAccurate out t0 dt osteps N Y (C * (dt + κ))) ∧
      ((∀ o k (u : ℕ → Vec n), k < N → (∀ j ≤ k, ‖u j - Y (t0 + j * dt)‖ < r1) →
        (∀ j < k, ‖u (j + 1) - u j - dt • f (t0 + j * dt) (u j)‖ ≤ dt * (D * (dt + κ))) → Inv o k u → ∃ r, I.step o dt = .ok r) →
        ∃ out, outLoop I dt osteps N 0 s0 [] [] = .ok out ∧ RsRunAccurate out t0 dt osteps N Y (C * (dt + κ))) := by
  obtain ⟨C, δ, hC, hδ, hmain⟩ := robust_bound h D r1 hD hr1
  refine ⟨C, δ, hC, hδ, ?_⟩
  intro dt κ N hdt hdtδ hκ hκδ hN σ I Inv s0 osteps ho h0 hinv hst hacc hstep
  obtain ⟨hsm, -⟩ := hmain dt κ N hdt hdtδ hκ hκδ hN
  obtain ⟨Rel, hRel⟩ : ∃ Rel : ℕ → (ℕ → Vec n) → Prop,
    Rel = fun (k : ℕ) (u : ℕ → Vec n) => ‖u (k + 1) - u k - dt • f (t0 + k * dt) (u k)‖ ≤ dt * (D * (dt + κ)) := ⟨_, rfl⟩
  have hb' : ∀ k ≤ N, ∀ u : ℕ → Vec n, u 0 = Y t0 → (∀ j < k, Rel j u) → ∀ j ≤ k, ‖u j - Y (t0 + j * dt)‖ ≤ C * (dt + κ) := by
    intro k hk u hu0 hr
    have hkT : t0 + (k : ℝ) * dt ≤ T := by
      have h1 : (k : ℝ) ≤ N := by exact_mod_cast hk
      have h2 := mul_le_mul_of_nonneg_right h1 hdt.le
      linarith
    refine (hmain dt κ k hdt hdtδ hκ hκδ hkT).2 u hu0 (fun j hj _ => ?_)
    have := hr j hj
    rwa [hRel] at this
  have hpos : 0 ≤ dt * (D * (dt + κ)) := by positivity
  have core : ∀ J : Integrator σ n, J.state = I.state → J.time = I.time → J.accept = I.accept →
      (∀ o k (u : ℕ → Vec n), k < N → (∀ j ≤ k, ‖u j - Y (t0 + j * dt)‖ < r1) → (∀ j < k, Rel j u) → Inv o k u →
        ∃ r, J.step o dt = .ok r ∧ r.t = t0 + (k + 1 : ℕ) * dt ∧ (u (k + 1) = r.y → Rel k u)) →
      ∃ out, outLoop J dt osteps N 0 s0 [] [] = .ok out ∧ RsRunAccurate out t0 dt osteps N Y (C * (dt + κ)) := by
    intro J e1 e2 e3 hs
    have hi0 := hinv s0 0 (fun _ => Y t0) (h0 _ rfl)
    obtain ⟨u, g1, g2, g3⟩ := rs_tube J Inv Rel (fun k u => (∀ j ≤ k, ‖u j - Y (t0 + j * dt)‖ < r1) ∧ ∀ j < k, Rel j u) t0 dt (Y t0) N
      (fun k hk u hu0 hr => ⟨fun j hj => (hb' k hk u hu0 hr j hj).trans_lt hsm, hr⟩)
      (by
        rintro o k u hk ⟨hnear, hr⟩ hi
        obtain ⟨r, a1, a2, a3⟩ := hs o k u hk hnear hr hi
        refine ⟨r, a1, ?_, ?_, fun hu => ⟨a3 hu, ?_⟩⟩
        · rw [e1, e3]; exact (hst o r).1
        · rw [e2, e3, (hst o r).2, a2]
        · rw [e3]; exact hacc o k u r hi a2 hu)
      s0 (by rw [e1]; exact hi0.1) (by rw [e2, hi0.2]; simp) h0 osteps ho
    exact ⟨_, g3, rsAccurate_of (hb' N le_rfl u g1 g2)⟩
  subst hRel
  constructor
  · intro out hout
    obtain ⟨I', hI'⟩ : ∃ I' : Integrator σ n, I' = Integrator.mk (fun o d => match I.step o d with
        | .ok r => .ok r
        | .error _ => .ok (StepRes.mk (I.time o + d) d (match I.state o with
          | .ok y => y + d • f (I.time o) y
          | .error _ => 0) none)) I.time I.state I.accept I.reset := ⟨_, rfl⟩
    obtain ⟨out', g1, g2⟩ := core I' (by rw [hI']) (by rw [hI']) (by rw [hI']) (by
      intro o k u hk hnear hr hi
      have e : t0 + ((k + 1 : ℕ) : ℝ) * dt = t0 + k * dt + dt := by push_cast; ring
      rw [hI']
      cases hs : I.step o dt with
      | ok r =>
        obtain ⟨a1, a2⟩ := hstep o k u r hk hnear hr hi hs
        refine ⟨r, by simp only [hs], a1, fun hu => ?_⟩
        show ‖u (k + 1) - u k - dt • f (t0 + k * dt) (u k)‖ ≤ _
        rw [hu]; exact a2
      | error e' =>
        obtain ⟨a1, a2⟩ := hinv o k u hi
        refine ⟨StepRes.mk (I.time o + dt) dt (u k + dt • f (I.time o) (u k)) none, by simp only [hs, a1], ?_, fun hu => ?_⟩
        · show I.time o + dt = _
          rw [a2, e]
        · show ‖u (k + 1) - u k - dt • f (t0 + k * dt) (u k)‖ ≤ _
          simp only [a2] at hu
          rw [hu, add_sub_cancel_left, sub_self, norm_zero]
          exact hpos)
    have := outLoop_mono (I := I) (I' := I') (dt := dt) (by rw [hI']) (by rw [hI']) (by rw [hI'])
      (by intro s r hs; rw [hI']; simp only [hs]) osteps N 0 s0 [] [] out hout
    rw [this] at g1
    cases g1
    exact g2
  · intro hok
    refine core I rfl rfl rfl ?_
    intro o k u hk hnear hr hi
    obtain ⟨r, hs⟩ := hok o k u hk hnear hr hi
    obtain ⟨a1, a2⟩ := hstep o k u r hk hnear hr hi hs
    refine ⟨r, hs, a1, fun hu => ?_⟩
    show ‖u (k + 1) - u k - dt • f (t0 + k * dt) (u k)‖ ≤ _
    rw [hu]; exact a2

/-- a step of the explicit methods is an Euler step up to `O(dt^2)` -/
theorem rkClosed_rob {t : ℝ} {y : Vec n} {dt B Λ : ℝ} (hdt : 0 < dt) (hB : ‖f t y‖ ≤ B) (hΛd : Λ * dt ≤ 1)
    (hf : ∀ c, 0 ≤ c → c ≤ 1 → ∀ z, ‖z - y‖ ≤ dt * (3 * (B + 1)) → ‖f (t + c * dt) z - f t y‖ ≤ Λ * dt) (p : ℕ) :
    ‖rkClosed f t y dt p - y - dt • f t y‖ ≤ dt * (Λ * dt) := by
  have hB0 : 0 ≤ B := (norm_nonneg _).trans hB
  have near : ∀ g : Vec n, ‖g - f t y‖ ≤ Λ * dt → ‖g‖ ≤ B + 1 := by
    intro g hg
    calc ‖g‖ = ‖(g - f t y) + f t y‖ := by congr 1; abel
      _ ≤ _ := norm_add_le _ _
      _ ≤ B + 1 := by linarith
  have key : ∀ (a : ℝ) (g : Vec n), 0 ≤ a → a ≤ dt → ‖g‖ ≤ B + 1 → ‖y + a • g - y‖ ≤ dt * (3 * (B + 1)) := by
    intro a g h1 h2 h3
    rw [add_sub_cancel_left, norm_smul, Real.norm_of_nonneg h1]
    calc a * ‖g‖ ≤ dt * (B + 1) := mul_le_mul h2 h3 (norm_nonneg _) hdt.le
      _ ≤ _ := mul_le_mul_of_nonneg_left (by linarith) hdt.le
  have hpos : 0 ≤ Λ * dt := (norm_nonneg _).trans (hf 0 le_rfl zero_le_one y (by rw [sub_self, norm_zero]; positivity))
  obtain ⟨f1, h1⟩ : ∃ f1, f1 = f t y := ⟨_, rfl⟩
  have n1 : ‖f1‖ ≤ B + 1 := by rw [h1]; linarith
  obtain ⟨f2, h2⟩ : ∃ f2, f2 = f t (y + (dt / 2) • f1) := ⟨_, rfl⟩
  have et : t + 1 / 2 * dt = t + dt / 2 := by ring
  have g2 : ‖f2 - f1‖ ≤ Λ * dt := by
    have := hf 0 le_rfl zero_le_one (y + (dt / 2) • f1) (key _ _ (by positivity) (by linarith) n1)
    rw [zero_mul, add_zero] at this
    rw [h2, h1] at *
    exact this
  have n2 : ‖f2‖ ≤ B + 1 := near f2 (by rw [← h1]; exact g2)
  have half : ∀ z, ‖z - y‖ ≤ dt * (3 * (B + 1)) → ‖f (t + dt / 2) z - f1‖ ≤ Λ * dt := by
    intro z hz
    have := hf (1 / 2) (by norm_num) (by norm_num) z hz
    rwa [et, ← h1] at this
  unfold rkClosed
  simp only
  rw [← h1, ← h2]
  match p with
  | 1 =>
    simp only
    rw [add_sub_cancel_left, sub_self, norm_zero]
    positivity
  | 2 =>
    simp only
    rw [add_sub_cancel_left, ← smul_sub, norm_smul, Real.norm_of_nonneg hdt.le]
    exact mul_le_mul_of_nonneg_left g2 hdt.le
  | 3 =>
    simp only
    obtain ⟨z, hz⟩ : ∃ z, z = y - dt • f1 + (2 * dt) • f2 := ⟨_, rfl⟩
    have hzy : ‖z - y‖ ≤ dt * (3 * (B + 1)) := by
      have e : z - y = (2 * dt) • f2 - dt • f1 := by rw [hz]; abel
      rw [e]
      refine (norm_sub_le _ _).trans ?_
      rw [norm_smul, norm_smul, Real.norm_of_nonneg hdt.le, Real.norm_of_nonneg (by positivity : 0 ≤ 2 * dt)]
      have a1 := mul_le_mul_of_nonneg_left n1 hdt.le
      have a2 := mul_le_mul_of_nonneg_left n2 (by positivity : 0 ≤ 2 * dt)
      linarith
    have g3 := half z hzy
    rw [← hz]
    obtain ⟨f3, h3⟩ : ∃ f3, f3 = f (t + dt / 2) z := ⟨_, rfl⟩
    rw [← h3] at g3 ⊢
    have e : y + (dt / 6) • (f1 + (4 : ℝ) • f2 + f3) - y - dt • f1 = (dt / 6) • ((4 : ℝ) • (f2 - f1) + (f3 - f1)) := by module
    rw [e, norm_smul, Real.norm_of_nonneg (by positivity)]
    have m1 := norm_add_le ((4 : ℝ) • (f2 - f1)) (f3 - f1)
    rw [norm_smul, Real.norm_of_nonneg (by norm_num : (0 : ℝ) ≤ 4)] at m1
    calc dt / 6 * ‖(4 : ℝ) • (f2 - f1) + (f3 - f1)‖ ≤ dt / 6 * (6 * (Λ * dt)) := by
          refine mul_le_mul_of_nonneg_left ?_ (by positivity)
          linarith
      _ = _ := by ring
  | 0 | p + 4 =>
    simp only
    obtain ⟨f3, h3⟩ : ∃ f3, f3 = f (t + dt / 2) (y + (dt / 2) • f2) := ⟨_, rfl⟩
    have g3 : ‖f3 - f1‖ ≤ Λ * dt := by rw [h3]; exact half _ (key _ _ (by positivity) (by linarith) n2)
    have n3 : ‖f3‖ ≤ B + 1 := near f3 (by rw [← h1]; exact g3)
    rw [← h3]
    obtain ⟨f4, h4⟩ : ∃ f4, f4 = f (t + dt / 2) (y + dt • f3) := ⟨_, rfl⟩
    have g4 : ‖f4 - f1‖ ≤ Λ * dt := by rw [h4]; exact half _ (key _ _ hdt.le le_rfl n3)
    rw [← h4]
    have e : y + (dt / 6) • (f1 + (2 : ℝ) • f2 + (2 : ℝ) • f3 + f4) - y - dt • f1
        = (dt / 6) • ((2 : ℝ) • (f2 - f1) + (2 : ℝ) • (f3 - f1) + (f4 - f1)) := by module
    rw [e, norm_smul, Real.norm_of_nonneg (by positivity)]
    have m1 := norm_add_le ((2 : ℝ) • (f2 - f1) + (2 : ℝ) • (f3 - f1)) (f4 - f1)
    have m2 := norm_add_le ((2 : ℝ) • (f2 - f1)) ((2 : ℝ) • (f3 - f1))
    rw [norm_smul, norm_smul, Real.norm_of_nonneg (by norm_num : (0 : ℝ) ≤ 2)] at m2
    calc dt / 6 * ‖(2 : ℝ) • (f2 - f1) + (2 : ℝ) • (f3 - f1) + (f4 - f1)‖ ≤ dt / 6 * (6 * (Λ * dt)) := by
          refine mul_le_mul_of_nonneg_left ?_ (by positivity)
          linarith
      _ = _ := by ring

/-- **C122, explicit methods.**  On a right-hand side that is only Lipschitz near the solution (time-dependent, kinks allowed) the runs
of the crate's Runge-Kutta integrators of order 1 to 4 succeed for all small steps and are first order accurate at every output time,
although the stages are evaluated at the times of the preceding stages. -/
theorem C122_rk (sys : Sys n) (h : LipIVP sys.frhs Y t0 T) (p : ℕ) :
    ∃ C δ : ℝ, 0 ≤ C ∧ 0 < δ ∧ ∀ (dt : ℝ) (N osteps : ℕ) (s0 : Rk n), 0 < dt → dt ≤ δ → t0 + N * dt ≤ T → 0 < osteps →
      Rk.new t0 (Y t0) p = .ok s0 →
      ∃ out, outLoop (Rk.integrator sys) dt osteps N 0 s0 [] [] = .ok out ∧ RsRunAccurate out t0 dt osteps N Y (C * dt) := by
  obtain ⟨Λ, ρ, hΛ, hρ, hl⟩ := h.tube2
  obtain ⟨M, hM, hMb⟩ := h.bound
  obtain ⟨B, hBd⟩ : ∃ B, B = M + Λ * ρ := ⟨_, rfl⟩
  have hB : 0 ≤ B := by rw [hBd]; positivity
  obtain ⟨L, hL⟩ : ∃ L, L = Λ * (1 + 3 * (B + 1)) := ⟨_, rfl⟩
  have hL0 : 0 ≤ L := by rw [hL]; positivity
  obtain ⟨C, δ, hC, hδ, hmain⟩ := robust_bound h L (ρ / 2) hL0 (by positivity)
  refine ⟨C, min δ (min (1 / (L + 1)) (ρ / (8 * (B + 1)))), hC, by positivity, ?_⟩
  intro dt N osteps s0 hdt hd hN ho hs0
  have d2 : dt * (L + 1) ≤ 1 := by
    have := hd.trans ((min_le_right _ _).trans (min_le_left _ _))
    rwa [le_div_iff₀ (by positivity)] at this
  have d3 : dt * (8 * (B + 1)) ≤ ρ := by
    have := hd.trans ((min_le_right _ _).trans (min_le_right _ _))
    rwa [le_div_iff₀ (by positivity)] at this
  have d4 : dt < ρ := by
    have : 0 ≤ dt * B := by positivity
    linarith
  obtain ⟨u, hu⟩ : ∃ u, u = iterSeq (fun t y => rkClosed sys.frhs t y dt p) t0 dt (Y t0) := ⟨_, rfl⟩
  have hb := (hmain dt 0 N hdt (hd.trans (min_le_left _ _)) le_rfl hδ.le hN).2 u (by rw [hu]; rfl) (by
    intro k hk hnear
    have ht : t0 + (k : ℝ) * dt ∈ Set.Icc t0 T := by
      have h1 : (k : ℝ) ≤ N := by exact_mod_cast hk.le
      have h2 := mul_le_mul_of_nonneg_right h1 hdt.le
      have h3 : 0 ≤ (k : ℝ) * dt := by positivity
      constructor <;> linarith
    have hyρ : ‖u k - Y (t0 + k * dt)‖ < ρ := by linarith
    have hs : u (k + 1) = rkClosed sys.frhs (t0 + k * dt) (u k) dt p := by rw [hu]; rfl
    rw [hs, add_zero]
    refine rkClosed_rob (B := B) (Λ := L) hdt ?_ (by linarith) ?_ p
    · have h1 := hl _ ht (t0 + k * dt) (t0 + k * dt) (u k) (Y (t0 + k * dt)) (by simpa using hρ) (by simpa using hρ) hyρ (by simpa using hρ)
      rw [sub_self, abs_zero, zero_add] at h1
      have h2 := norm_sub_norm_le (sys.frhs (t0 + k * dt) (u k)) (sys.frhs (t0 + k * dt) (Y (t0 + k * dt)))
      have h3 := mul_le_mul_of_nonneg_left hyρ.le hΛ
      rw [hBd]
      linarith [hMb _ ht]
    · intro c hc0 hc1 z hz
      have hcd : 0 ≤ c * dt := by positivity
      have hcd' : c * dt ≤ dt := by nlinarith
      have hzY : ‖z - Y (t0 + k * dt)‖ < ρ := by
        have := norm_add_le (z - u k) (u k - Y (t0 + k * dt))
        rw [sub_add_sub_cancel] at this
        have : dt * (3 * (B + 1)) ≤ ρ / 2 := by linarith
        linarith
      have h1 := hl _ ht (t0 + k * dt + c * dt) (t0 + k * dt) z (u k) (by rw [add_sub_cancel_left, abs_of_nonneg hcd]; linarith)
        (by simpa using hρ) hzY hyρ
      rw [add_sub_cancel_left, abs_of_nonneg hcd] at h1
      refine h1.trans ?_
      rw [hL, mul_assoc]
      refine mul_le_mul_of_nonneg_left ?_ hΛ
      linarith)
  refine ⟨_, rk_run sys t0 (Y t0) p s0 hs0 dt N osteps ho, ?_⟩
  rw [← hu]
  refine rsAccurate_of (fun k hk => ?_)
  have := hb k hk
  rwa [add_zero] at this

end
end Ormatex.Props
