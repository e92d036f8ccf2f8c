import Verif.Props.RobustRun
import Verif.Props.RadSharp

/-!
C120 for the shipped reaction systems: the evaporation term `max(u_g, 1e-16)^(2/3)` has a kink, so the order theorems (C91, C103) do
not apply to it; the robust theorem does.
-/

namespace Ormatex.Props
open Filter Topology Matrix Ormatex.Spec
open scoped NNReal Matrix.Norms.Operator

noncomputable section
variable {N n d ne r : ℕ} {P : Type} [EmptyCollection P]
set_option linter.unusedSectionVars false

/-! ### locally Lipschitz functions -/

/-- Lipschitz on a neighbourhood of the point -/
def LipAt {X Z : Type} [PseudoEMetricSpace X] [PseudoEMetricSpace Z] (f : X → Z) (x : X) : Prop :=
  ∃ Λ : ℝ≥0, ∃ U ∈ 𝓝 x, LipschitzOnWith Λ f U

section LipAt
variable {X : Type} [PseudoEMetricSpace X] {x : X}

theorem LipAt.continuousAt {Z : Type} [PseudoEMetricSpace Z] {f : X → Z} (h : LipAt f x) : ContinuousAt f x := by
  obtain ⟨Λ, U, hU, hl⟩ := h
  exact hl.continuousOn.continuousAt hU

theorem LipAt.comp {Z W : Type} [PseudoEMetricSpace Z] [PseudoEMetricSpace W] {g : Z → W} {f : X → Z} (hg : LipAt g (f x)) (hf : LipAt f x) :
    LipAt (fun z => g (f z)) x := by
  have hc := hf.continuousAt
  obtain ⟨Λ, U, hU, hl⟩ := hg
  obtain ⟨Λ', U', hU', hl'⟩ := hf
  refine ⟨Λ * Λ', U' ∩ f ⁻¹' U, inter_mem hU' (hc hU), ?_⟩
  exact hl.comp (hl'.mono Set.inter_subset_left) (fun z hz => hz.2)

theorem lipAt_of_contDiffAt {E F : Type} [NormedAddCommGroup E] [NormedSpace ℝ E] [NormedAddCommGroup F] [NormedSpace ℝ F] {f : E → F} {z : E}
    (h : ContDiffAt ℝ 1 f z) : LipAt f z := by
  obtain ⟨K, t, ht, hl⟩ := h.exists_lipschitzOnWith
  exact ⟨K, t, ht, hl⟩

theorem LipAt.prodMk {Z W : Type} [PseudoEMetricSpace Z] [PseudoEMetricSpace W] {f : X → Z} {g : X → W} (hf : LipAt f x) (hg : LipAt g x) :
    LipAt (fun z => (f z, g z)) x := by
  obtain ⟨Λ, U, hU, hl⟩ := hf
  obtain ⟨Λ', U', hU', hl'⟩ := hg
  refine ⟨max Λ Λ', U ∩ U', inter_mem hU hU', fun a ha b hb => ?_⟩
  rw [Prod.edist_eq]
  refine max_le ((hl ha.1 hb.1).trans ?_) ((hl' ha.2 hb.2).trans ?_) <;> gcongr
  · exact le_max_left _ _
  · exact le_max_right _ _

theorem LipAt.comp_smooth {E F : Type} [NormedAddCommGroup E] [NormedSpace ℝ E] [NormedAddCommGroup F] [NormedSpace ℝ F] {g : E → F} {f : X → E}
    (hf : LipAt f x) (hg : ContDiffAt ℝ 1 g (f x)) : LipAt (fun z => g (f z)) x := (lipAt_of_contDiffAt hg).comp hf

theorem lipAt_const {Z : Type} [PseudoEMetricSpace Z] (c : Z) : LipAt (fun _ : X => c) x :=
  ⟨0, Set.univ, univ_mem, (LipschitzWith.const c).lipschitzOnWith⟩

theorem LipAt.add {f g : X → ℝ} (hf : LipAt f x) (hg : LipAt g x) : LipAt (fun z => f z + g z) x :=
  (hf.prodMk hg).comp_smooth (g := fun p : ℝ × ℝ => p.1 + p.2) (contDiff_fst.add contDiff_snd).contDiffAt

theorem LipAt.mul {f g : X → ℝ} (hf : LipAt f x) (hg : LipAt g x) : LipAt (fun z => f z * g z) x :=
  (hf.prodMk hg).comp_smooth (g := fun p : ℝ × ℝ => p.1 * p.2) (contDiff_fst.mul contDiff_snd).contDiffAt

theorem LipAt.neg {f : X → ℝ} (hf : LipAt f x) : LipAt (fun z => -f z) x := hf.comp_smooth (g := fun p : ℝ => -p) contDiff_neg.contDiffAt

theorem LipAt.sub {f g : X → ℝ} (hf : LipAt f x) (hg : LipAt g x) : LipAt (fun z => f z - g z) x := by
  simpa only [sub_eq_add_neg] using hf.add hg.neg

theorem LipAt.rpow {f : X → ℝ} (hf : LipAt f x) (h0 : 0 < f x) (p : ℝ) : LipAt (fun z => f z ^ p) x :=
  hf.comp_smooth (g := fun y : ℝ => y ^ p) (Real.contDiffAt_rpow_const_of_ne h0.ne')

theorem LipAt.max_const {f : X → ℝ} (hf : LipAt f x) (c : ℝ) : LipAt (fun z => max (f z) c) x :=
  LipAt.comp (g := fun y : ℝ => max y c) ⟨1, Set.univ, univ_mem, (LipschitzWith.id.max_const c).lipschitzOnWith⟩ hf

theorem LipAt.sum {ι : Type} (s : Finset ι) {f : ι → X → ℝ} (hf : ∀ i, LipAt (f i) x) : LipAt (fun u => ∑ i ∈ s, f i u) x := by
  classical
  induction s using Finset.induction_on with
  | empty => simpa using lipAt_const (x := x) (0 : ℝ)
  | insert a s ha ih =>
    simp only [Finset.sum_insert ha]
    exact (hf a).add ih

theorem lipAt_pi {f : X → Vec d} (hf : ∀ k, LipAt (fun z => f z k) x) : LipAt f x := by
  choose Λ U hU hl using hf
  refine ⟨∑ k, Λ k, ⋂ k, U k, Filter.iInter_mem.2 hU, fun a ha b hb => ?_⟩
  rw [edist_pi_le_iff]
  intro k
  refine (hl k (Set.mem_iInter.1 ha k) (Set.mem_iInter.1 hb k)).trans ?_
  gcongr
  exact Finset.single_le_sum (f := Λ) (fun _ _ => zero_le) (Finset.mem_univ k)

theorem lipAt_coord (i : Fin d) (u : Vec d) : LipAt (fun u : Vec d => u i) u :=
  ⟨1, Set.univ, univ_mem, (LipschitzWith.eval i).lipschitzOnWith⟩

end LipAt

/-! ### the source terms -/

/-- the source is locally Lipschitz around every nonnegative state -/
def LipSource (src : Arr N n → Arr N n) : Prop :=
  ∀ u : Vec (n * N), (∀ k, 0 ≤ u k) → ∀ i j, LipAt (fun u : Vec (n * N) => src (unflat u) i j) u

theorem lipAt_entry (i : Fin N) (j : Fin n) (u : Vec (n * N)) : LipAt (fun u : Vec (n * N) => (unflat u : Arr N n) i j) u := lipAt_coord _ _

theorem lipAt_nonlin (a b : Fin n) (k : ℝ) (i : Fin N) (u : Vec (n * N)) :
    LipAt (fun u : Vec (n * N) => mxfNonlin ((unflat u : Arr N n) i a) ((unflat u : Arr N n) i b) k 1 1) u := by
  unfold mxfNonlin
  refine LipAt.mul (LipAt.mul (lipAt_const _) (LipAt.add (LipAt.rpow ((lipAt_entry i b u).max_const _)
    (lt_of_lt_of_le (by positivity) (le_max_right _ _)) _) (lipAt_const _))) (LipAt.sub ?_ ?_)
  · exact (lipAt_const 1).mul (lipAt_entry i b u)
  · exact (lipAt_const 1).mul (lipAt_entry i a u)

theorem lipAt_colAdd {s : Vec (n * N) → Arr N n} {y : Vec (n * N) → Vec N} {u : Vec (n * N)} (hs : ∀ i j, LipAt (fun u => s u i j) u)
    (hy : ∀ i, LipAt (fun u => y u i) u) (c : Fin n) (i : Fin N) (j : Fin n) : LipAt (fun u => colAdd (s u) c (y u) i j) u := by
  unfold colAdd
  by_cases h : j = c
  · simp only [h, if_true]
    exact (hs i c).add (hy i)
  · simp only [h, if_false]
    exact hs i j

theorem lipSource_zero : LipSource (fun _ : Arr N n => 0) := fun _ _ _ _ => lipAt_const 0

theorem lipSource_evap2 : LipSource (sourceEvap2 (N := N)) := by
  intro u _ i j
  unfold sourceEvap2
  exact lipAt_colAdd (fun i j => lipAt_colAdd (fun i j => lipAt_const 0) (fun i => lipAt_nonlin 0 1 _ i u) _ i j)
    (fun i => (lipAt_nonlin 0 1 _ i u).neg) _ i j

theorem lipSource_add {f g : Arr N n → Arr N n} (hf : LipSource f) (hg : LipSource g) : LipSource fun un => f un + g un :=
  fun u hu i j => (hf u hu i j).add (hg u hu i j)

theorem lipSource_evap9 : LipSource (nonlinEvap9 (N := N)) := by
  intro u _ i j
  unfold nonlinEvap9
  exact lipAt_colAdd (fun i j => lipAt_colAdd (fun i j => lipAt_colAdd (fun i j => lipAt_colAdd (fun i j => lipAt_const 0)
    (fun i => lipAt_nonlin 5 7 _ i u) _ i j) (fun i => (lipAt_nonlin 5 7 _ i u).neg) _ i j) (fun i => lipAt_nonlin 6 8 _ i u) _ i j)
    (fun i => (lipAt_nonlin 6 8 _ i u).neg) _ i j

theorem lipSource_purify (xs : Vec N) : LipSource (gasPurify xs) := by
  intro u _ i j
  unfold gasPurify
  refine lipAt_colAdd (fun i j => lipAt_colAdd (fun i j => lipAt_const 0) (fun i => ?_) _ i j) (fun i => ?_) _ i j <;>
  · exact LipAt.neg (LipAt.mul (LipAt.mul (lipAt_const _) (lipAt_entry _ _ u)) (lipAt_const _))

theorem lipSource_transmute (tr : Mat 9) (xs : Vec N) : LipSource (transmuteSrc tr xs) := by
  intro u _ i j
  unfold transmuteSrc
  simp only [Matrix.mul_apply]
  exact (lipAt_const _).mul (LipAt.sum _ fun c => (lipAt_entry i c u).mul (lipAt_const _))

theorem lipSource_src9 (fis tr : Mat 9) (xs : Vec N) : LipSource (src9 fis tr xs) :=
  lipSource_add (lipSource_add (lipSource_add (fun _ _ _ _ => lipAt_const _) (lipSource_transmute tr xs)) lipSource_evap9) (lipSource_purify xs)

theorem rad_lipAt {src : Arr N n → Arr N n} (hsrc : LipSource src) (bat : Mat n) (A : Mat N) (Ml : Vec N) (dir : List (Fin N)) {u : Vec (n * N)}
    (hu : ∀ k, 0 ≤ u k) : LipAt (fun u => radRhs src bat A Ml dir u) u := by
  refine lipAt_pi fun k => ?_
  obtain ⟨⟨j, i⟩, rfl⟩ := finProdFinEquiv.surjective k
  simp only [radRhs_apply]
  by_cases h : i ∈ dir
  · simp only [h, if_true]
    exact lipAt_const 0
  · simp only [h, if_false, Matrix.mul_apply, div_eq_mul_inv]
    exact ((LipAt.sum _ fun c => (lipAt_entry i c u).mul (lipAt_const _)).add (hsrc u hu i j)).sub
      ((LipAt.sum _ fun x => (lipAt_const _).mul (lipAt_entry x j u)).mul (lipAt_const _))

/-- an autonomous right-hand side which is locally Lipschitz along the solution -/
theorem lipIVP_auto {F : Vec d → Vec d} {Y : ℝ → Vec d} {t0 T : ℝ} (hY : ∀ t ∈ Set.Icc t0 T, HasDerivAt Y (F (Y t)) t)
    (hl : ∀ t ∈ Set.Icc t0 T, LipAt F (Y t)) : LipIVP (fun _ => F) Y t0 T := by
  refine ⟨fun t ht => (hY t ht).hasDerivWithinAt, fun s hs => ?_⟩
  have h2 : LipAt (Prod.snd : ℝ × Vec d → Vec d) (s, Y s) := ⟨1, Set.univ, univ_mem, LipschitzWith.prod_snd.lipschitzOnWith⟩
  exact LipAt.comp (f := (Prod.snd : ℝ × Vec d → Vec d)) (x := (s, Y s)) (hl s hs) h2

/-! ### the runs -/

/-- **Specification.**  Every method of the package, run on `sys` from `U t0` over `[t0, T]`, reports values within `C (dt + κ)` of `U`,
where `κ` is the accuracy of the phi kernels; and no entry is reported below `-C (dt + κ)`. -/
def RunsNear (sys : OdeSys d P) (U : ℝ → Vec d) (t0 T : ℝ) : Prop :=
  (∀ (hasRust : Bool) (m : String), m ∈ ["exprb2", "epi2", "exprb2_dense", "exprb2_pfd", "exprb2_pfd_rs", "exprb3", "pexprb4", "epi3"] →
    ∃ C δ R : ℝ, 0 ≤ C ∧ 0 < δ ∧ ∀ (K : Kernels d) (dt κ tol : ℝ) (nsteps : ℕ) (s : ExpRB d), 0 < dt → dt ≤ δ → 0 ≤ κ → κ ≤ δ →
      ApproxFor m K dt R κ → t0 + nsteps * dt ≤ T → ExpRB.new hasRust t0 (U t0) m tol = .ok s →
      ∀ {Q W : Type} (before : Option (W → ℝ → Vec d → P × W)) (after : Option (W → ℝ → Vec d → Q × W)) (w : W),
      ∃ l, integrateOrmatex (rbStepper hasRust K sys) s (U t0) t0 dt nsteps before after w = .ok l ∧
        RunAccurate l t0 dt nsteps U (C * (dt + κ)) ∧ ∀ y ∈ l.yRes, ∀ k, -(C * (dt + κ)) ≤ y k) ∧
  (∀ m : String, m ∈ ["exp1", "exp2", "exp3", "exp1_dense", "exp2_dense", "exp3_dense"] →
    ∃ C δ R : ℝ, 0 ≤ C ∧ 0 < δ ∧ ∀ (K : Kernels d) (dt κ : ℝ) (nsteps : ℕ) (s : ExpSplit d), 0 < dt → dt ≤ δ → 0 ≤ κ → κ ≤ δ →
      ApproxFor m K dt R κ → t0 + nsteps * dt ≤ T → ExpSplit.new t0 (U t0) m = .ok s →
      ∀ {Q W : Type} (before : Option (W → ℝ → Vec d → P × W)) (after : Option (W → ℝ → Vec d → Q × W)) (w : W),
      ∃ l, integrateOrmatex (splitStepper K sys) s (U t0) t0 dt nsteps before after w = .ok l ∧
        RunAccurate l t0 dt nsteps U (C * (dt + κ)) ∧ ∀ y ∈ l.yRes, ∀ k, -(C * (dt + κ)) ≤ y k) ∧
  (∃ C δ : ℝ, 0 ≤ C ∧ 0 < δ ∧ ∀ (dt : ℝ) (nsteps : ℕ) (s : Base (Vec d)), 0 < dt → dt ≤ δ → t0 + nsteps * dt ≤ T →
      RK.new t0 (U t0) "rk4" = .ok s → ∀ {Q W : Type} (after : Option (W → ℝ → Vec d → Q × W)) (w : W),
      ∃ l, integrateOrmatex (rkStepper sys) s (U t0) t0 dt nsteps none after w = .ok l ∧
        RunAccurate l t0 dt nsteps U (C * dt) ∧ ∀ y ∈ l.yRes, ∀ k, -(C * dt) ≤ y k)

/-- values near a nonnegative solution are not very negative -/
theorem near_nonneg {σ Q W : Type} {l : LoopState σ P Q W (Vec d)} {t0 dt T b : ℝ} {nsteps : ℕ} {U : ℝ → Vec d} (hdt : 0 < dt)
    (hT : t0 + nsteps * dt ≤ T) (hU : ∀ t ∈ Set.Icc t0 T, ∀ k, 0 ≤ U t k) (h : RunAccurate l t0 dt nsteps U b) :
    ∀ y ∈ l.yRes, ∀ k, -b ≤ y k := by
  intro y hy k
  obtain ⟨i, hi, rfl⟩ := List.getElem_of_mem hy
  have hb := h.2.2 i l.yRes[i] (List.getElem?_eq_getElem hi)
  rw [h.2.1] at hi
  have hin : (i : ℝ) ≤ nsteps := by exact_mod_cast Nat.lt_succ_iff.1 hi
  have h0 := hU (t0 + i * dt) ⟨by nlinarith [Nat.cast_nonneg (α := ℝ) i], by nlinarith⟩ k
  have h1 := (norm_le_pi_norm (l.yRes[i] - U (t0 + i * dt)) k).trans hb
  rw [Pi.sub_apply, Real.norm_eq_abs] at h1
  have := (abs_le.1 h1).1
  linarith

theorem runs_near {F : Vec d → Vec d} {M : Mat d} {U : ℝ → Vec d} {t0 T : ℝ}
    (hU : ∀ t ∈ Set.Icc t0 T, HasDerivAt U (F (U t)) t ∧ ∀ k, 0 ≤ U t k) (hl : ∀ u, (∀ k, 0 ≤ u k) → LipAt F u) :
    RunsNear (OdeSys.ofFrhs (P := P) (fun _ _ u => F u) fun _ _ => matrixLinOp M) U t0 T := by
  have hivp : LipIVP (fun _ => F) U t0 T := lipIVP_auto (fun t ht => (hU t ht).1) (fun t ht => hl _ (hU t ht).2)
  have hj := tameJacs_autodiff (P := P) (fun _ _ u => F u) (fun _ => rfl) (fun _ _ => matrixLinOp M) hivp
  have hpos : ∀ t ∈ Set.Icc t0 T, ∀ k, 0 ≤ U t k := fun t ht => (hU t ht).2
  refine ⟨fun hasRust m hm => ?_, fun m hm => ?_, ?_⟩
  · have hm' : (∃ p, (m, p) ∈ rbOrders) ∨ m = "epi3" := by
      simp only [List.mem_cons, List.not_mem_nil, or_false] at hm
      rcases hm with rfl | rfl | rfl | rfl | rfl | rfl | rfl | rfl
      · exact Or.inl ⟨2, by simp [rbOrders]⟩
      · exact Or.inl ⟨2, by simp [rbOrders]⟩
      · exact Or.inl ⟨2, by simp [rbOrders]⟩
      · exact Or.inl ⟨2, by simp [rbOrders]⟩
      · exact Or.inl ⟨2, by simp [rbOrders]⟩
      · exact Or.inl ⟨3, by simp [rbOrders]⟩
      · exact Or.inl ⟨4, by simp [rbOrders]⟩
      · exact Or.inr rfl
    rcases hm' with ⟨p, hp⟩ | rfl
    · obtain ⟨C, δ, R, hC, hδ, h⟩ := C120_rosenbrock hasRust _ U t0 T hivp hj m p hp
      refine ⟨C, δ, R, hC, hδ, fun K dt κ tol nsteps s h1 h2 h3 h4 h5 h6 h7 Q W before after w => ?_⟩
      obtain ⟨l, hr, ha⟩ := h K dt κ tol nsteps s h1 h2 h3 h4 h5 h6 h7 before after w
      exact ⟨l, hr, ha, near_nonneg h1 h6 hpos ha⟩
    · obtain ⟨C, δ, R, hC, hδ, h⟩ := C120_epi3 hasRust _ U t0 T hivp hj
      refine ⟨C, δ, R, hC, hδ, fun K dt κ tol nsteps s h1 h2 h3 h4 h5 h6 h7 Q W before after w => ?_⟩
      obtain ⟨l, hr, ha⟩ := h K dt κ tol nsteps s h1 h2 h3 h4 h5 h6 h7 before after w
      exact ⟨l, hr, ha, near_nonneg h1 h6 hpos ha⟩
  · obtain ⟨p, hp⟩ : ∃ p, (m, p) ∈ splitOrders := by
      simp only [List.mem_cons, List.not_mem_nil, or_false] at hm
      rcases hm with rfl | rfl | rfl | rfl | rfl | rfl
      · exact ⟨1, by simp [splitOrders]⟩
      · exact ⟨2, by simp [splitOrders]⟩
      · exact ⟨3, by simp [splitOrders]⟩
      · exact ⟨1, by simp [splitOrders]⟩
      · exact ⟨2, by simp [splitOrders]⟩
      · exact ⟨3, by simp [splitOrders]⟩
    obtain ⟨C, δ, hC, hδ, h⟩ := C120_split (OdeSys.ofFrhs (P := P) (fun _ _ u => F u) fun _ _ => matrixLinOp M) (matrixLinOp M) (fun _ _ => rfl)
      M rfl (fun _ => rfl) U t0 T hivp m p hp
    refine ⟨C, δ, ‖M‖, hC, hδ, fun K dt κ nsteps s h1 h2 h3 h4 h5 h6 h7 Q W before after w => ?_⟩
    obtain ⟨l, hr, ha⟩ := h K dt κ nsteps s h1 h2 h3 h4 h5 h6 h7 before after w
    exact ⟨l, hr, ha, near_nonneg h1 h6 hpos ha⟩
  · obtain ⟨C, δ, hC, hδ, h⟩ := C120_rk4 (OdeSys.ofFrhs (P := P) (fun _ _ u => F u) fun _ _ => matrixLinOp M) U t0 T hivp
    refine ⟨C, δ, hC, hδ, fun dt nsteps s h1 h2 h3 h4 Q W after w => ?_⟩
    obtain ⟨l, hr, ha⟩ := h dt nsteps s h1 h2 h3 h4 after w
    exact ⟨l, hr, ha, near_nonneg h1 h3 hpos ha⟩

/-- **C120 for the reaction systems.**  For every source term that keeps the orthant, is tame and locally Lipschitz, and every nonnegative
initial state: there is exactly one solution, it is nonnegative, and every method's reported concentrations are within
`C (dt + κ)` of it and above `-C (dt + κ)`. -/
theorem C120_rad {src : Arr N n → Arr N n} (hq : QuasiPositive src) (ht : TameSource src) (hsl : LipSource src) {bat : Mat n}
    (hbat : ∀ j c, j ≠ c → 0 ≤ bat j c) {A : Mat N} (hA : ∀ i k, i ≠ k → A i k ≤ 0) {Ml : Vec N} (hMl : ∀ i, 0 < Ml i) (dir : List (Fin N))
    {y0 : Vec (n * N)} (hy0 : ∀ k, 0 ≤ y0 k) {t0 T : ℝ} (h01 : t0 ≤ T) :
    ∃ U : ℝ → Vec (n * N), U t0 = y0 ∧ (∀ t ∈ Set.Icc t0 T, HasDerivAt U (radRhs src bat A Ml dir (U t)) t ∧ ∀ k, 0 ≤ U t k) ∧
      (∀ V : ℝ → Vec (n * N), V t0 = y0 → (∀ t ∈ Set.Icc t0 T, HasDerivAt V (radRhs src bat A Ml dir (V t)) t) →
        ∀ t ∈ Set.Icc t0 T, V t = U t) ∧
      RunsNear (radSys (P := P) src bat A Ml dir) U t0 T := by
  obtain ⟨U, h0, hU, huniq⟩ := C119_exists hq ht hbat hA hMl dir hy0 h01
  exact ⟨U, h0, hU, huniq, runs_near hU fun u hu => rad_lipAt hsl bat A Ml dir hu⟩

/-- **C120 for the shipped two-, three- and nine-species systems**, on every mesh whose element Péclet number admits it (as in C119). -/
theorem C120_shipped {m : LineMesh ne N 2} {Q : Quad 2} (hq : semQuad 1 = .ok Q) (hh : ∀ e, 0 < m.h e)
    {nu vel tau : Fin ne → ℝ} (hpe : ∀ e, |vel e| * m.h e ≤ 2 * nu e + tau e * m.h e * vel e)
    {bd : Option (Ends N)} {A : Mat N} {Ml b : Vec N}
    (h : semAssemble m Q (elemFields nu vel tau) bd = some (A, Ml, b)) (hMl : ∀ i, 0 < Ml i) (xs : Vec N)
    {bat2 : Mat 2} (h2 : genBatemanMatrix keymap2 decayLib2 = .ok bat2) {bat3 : Mat 3} (h3 : genBatemanMatrix keymap3 decayLib3 = .ok bat3)
    {bat9 tr fis : Mat 9} (h9 : genBatemanMatrix keymap9 decayLib9 = .ok bat9)
    (htr : genTransmuteMatrix keymap9 (transmuteLib (9 / 1000)) = .ok tr) (hfis : genTransmuteMatrix keymap9 fissionLib9 = .ok fis)
    {t0 T : ℝ} (h01 : t0 ≤ T) :
    (∀ y0 : Vec (2 * N), (∀ k, 0 ≤ y0 k) → ∃ U : ℝ → Vec (2 * N), U t0 = y0 ∧
      (∀ t ∈ Set.Icc t0 T, HasDerivAt U (radRhs sourceEvap2 bat2 A Ml (dirichletBd bd) (U t)) t ∧ ∀ k, 0 ≤ U t k) ∧
      RunsNear (radSys (P := P) sourceEvap2 bat2 A Ml (dirichletBd bd)) U t0 T) ∧
    (∀ y0 : Vec (3 * N), (∀ k, 0 ≤ y0 k) → ∃ U : ℝ → Vec (3 * N), U t0 = y0 ∧
      (∀ t ∈ Set.Icc t0 T, HasDerivAt U (radRhs (fun _ => 0) bat3 A Ml (dirichletBd bd) (U t)) t ∧ ∀ k, 0 ≤ U t k) ∧
      RunsNear (radSys (P := P) (fun _ => 0) bat3 A Ml (dirichletBd bd)) U t0 T) ∧
    (∀ y0 : Vec (9 * N), (∀ k, 0 ≤ y0 k) → ∃ U : ℝ → Vec (9 * N), U t0 = y0 ∧
      (∀ t ∈ Set.Icc t0 T, HasDerivAt U (radRhs (src9 fis tr xs) bat9 A Ml (dirichletBd bd) (U t)) t ∧ ∀ k, 0 ≤ U t k) ∧
      RunsNear (radSys (P := P) (src9 fis tr xs) bat9 A Ml (dirichletBd bd)) U t0 T) := by
  obtain ⟨w2, w3, w9⟩ := C119_well_posed hq hh hpe h hMl xs h2 h3 h9 htr hfis h01
  refine ⟨fun y0 hy0 => ?_, fun y0 hy0 => ?_, fun y0 hy0 => ?_⟩
  · obtain ⟨U, h0, hU, -⟩ := w2 y0 hy0
    exact ⟨U, h0, hU, runs_near hU fun u hu => rad_lipAt lipSource_evap2 bat2 A Ml _ hu⟩
  · obtain ⟨U, h0, hU, -⟩ := w3 y0 hy0
    exact ⟨U, h0, hU, runs_near hU fun u hu => rad_lipAt lipSource_zero bat3 A Ml _ hu⟩
  · obtain ⟨U, h0, hU, -⟩ := w9 y0 hy0
    exact ⟨U, h0, hU, runs_near hU fun u hu => rad_lipAt (lipSource_src9 fis tr xs) bat9 A Ml _ hu⟩

theorem tank_lipAt (bat tr : Mat 9) (fis : Vec 9) (nPhi tankVol : ℝ) {u : Vec 9} (hu : ∀ k, 0 ≤ u k) :
    LipAt (fun u => nonlinBatemanRhs bat tr fis nPhi tankVol 5 7 u) u := by
  have harea : LipAt (fun u : Vec 9 => bubbleArea (u 7) 100 (5 / 100) 10) u := by
    unfold bubbleArea
    obtain ⟨α, β, hα, hβ, hvol⟩ : ∃ α β : ℝ, 0 < α ∧ 0 ≤ β ∧ ∀ x : ℝ, (3 / 4) * (100 * (5 / 100) / 10 + 1 / 10 * ((100 * x / (101300 * (1 / 10 ^ 6))) * rgas * 900) / 10)
        / Real.pi = α + β * x := by
      refine ⟨(3 / 4) * (100 * (5 / 100) / 10) / Real.pi, (3 / 4) * (1 / 10 * ((100 / (101300 * (1 / 10 ^ 6))) * rgas * 900) / 10) / Real.pi,
        by positivity, ?_, fun x => by ring⟩
      have := Real.pi_pos
      unfold rgas
      positivity
    simp only [hvol]
    have hpos : 0 < α + β * u 7 := add_pos_of_pos_of_nonneg hα (mul_nonneg hβ (hu 7))
    have hl : LipAt (fun u : Vec 9 => α + β * u 7) u := (lipAt_const α).add ((lipAt_const β).mul (lipAt_coord 7 u))
    exact (lipAt_const _).mul ((hl.rpow hpos ((1 : ℝ) / 3)).rpow (Real.rpow_pos_of_pos hpos _) 2)
  have hbub : LipAt (fun u : Vec 9 => mxfBubble (u 5) (u 7) 100 (5 / 100) (k := 1 / 100)) u := by
    unfold mxfBubble
    simp only [div_eq_mul_inv (_ : ℝ) (1 - 5 / 100 : ℝ), div_eq_mul_inv (_ : ℝ) (5 / 100 : ℝ)]
    refine LipAt.mul ((lipAt_const _).mul ?_) (LipAt.sub ?_ ((lipAt_coord 5 u).mul (lipAt_const _)))
    · simpa only [div_eq_mul_inv] using harea
    · exact (((lipAt_coord 7 u).mul (lipAt_const _)).mul (lipAt_const _)).mul (lipAt_const _) |>.mul (lipAt_const _)
  refine lipAt_pi fun k => ?_
  have hentry : ∀ u : Vec 9, nonlinBatemanRhs bat tr fis nPhi tankVol 5 7 u k = (∑ c, (bat k c + nPhi * tr k c) * u c + nPhi * fis k)
      + ((if k = 5 then 1 else 0) - (if k = 7 then 1 else 0)) * mxfBubble (u 5) (u 7) 100 (5 / 100) (k := 1 / 100) := by
    intro u
    unfold nonlinBatemanRhs srcfXeAv atSet
    simp only [Pi.add_apply, Pi.smul_apply, smul_eq_mul, add_mul, Finset.sum_add_distrib, Matrix.mulVec, dotProduct, mul_assoc,
      ← Finset.mul_sum]
    congr 1
    by_cases h7 : k = 7
    · subst h7; simp
    · by_cases h5 : k = 5
      · subst h5; simp
      · simp [h5, h7]
  simp only [hentry]
  exact ((LipAt.sum _ fun c => (lipAt_const _).mul (lipAt_coord c u)).add (lipAt_const _)).add ((lipAt_const _).mul hbub)

/-- **C120 for the stirred tank** of `bateman_nonlin_sys.py`, for every flux `n_phi ≥ 0`. -/
theorem C120_tank {bat tr fis : Mat 9} (hbat : genBatemanMatrix keymap9 decayLibTank = .ok bat)
    (htr : genTransmuteMatrix keymap9 (transmuteLib (1 / 1000000000)) = .ok tr)
    (hfis : genTransmuteMatrix keymap9 fissionLibTank = .ok fis) {nPhi : ℝ} (hphi : 0 ≤ nPhi) (tankVol : ℝ)
    {y0 : Vec 9} (hy0 : ∀ k, 0 ≤ y0 k) {t0 T : ℝ} (h01 : t0 ≤ T) :
    ∃ U : ℝ → Vec 9, U t0 = y0 ∧
      (∀ t ∈ Set.Icc t0 T, HasDerivAt U (nonlinBatemanRhs bat tr fis.diag nPhi tankVol 5 7 (U t)) t ∧ ∀ k, 0 ≤ U t k) ∧
      RunsNear (nonlinBateman (P := P) bat tr fis.diag nPhi tankVol 5 7) U t0 T := by
  obtain ⟨U, h0, hU, -⟩ := C119_tank_exists hbat htr hfis hphi tankVol hy0 h01
  exact ⟨U, h0, hU, runs_near hU fun u hu => tank_lipAt bat tr _ nPhi tankVol hu⟩

/-! ### a system with a kink, driven with a wrong Jacobian -/

/-- A user Jacobian (`CustomJacLinOp`), correct or not, is tame as soon as the matrix and the time derivative it reports are bounded along
the solution. -/
theorem tameJacs_custom (sys : OdeSys d P) (M : ℝ → Vec d → Mat d) (D : ℝ → Vec d → Option (Vec d)) (eps : ℝ) (hkw : ∀ kw, sys.frhs kw = sys.frhs none)
    (hj : ∀ kw t u, sys.fjac kw t u = customJac (sys.frhs kw) t u (M t u) (D t u) eps) {Y : ℝ → Vec d} {t0 T B ρ : ℝ} (hρ : 0 < ρ)
    (hM : ∀ t ∈ Set.Icc t0 T, ∀ y, ‖y - Y t‖ < ρ → ‖M t y‖ ≤ B)
    (hD : ∀ t ∈ Set.Icc t0 T, ∀ y, ‖y - Y t‖ < ρ → ‖(customJac (sys.frhs none) t y (M t y) (D t y) eps).fdt‖ ≤ B) : TameJacs sys Y t0 T := by
  refine ⟨B, ρ, hρ, fun kw t ht y hy => ⟨M t y, ?_⟩⟩
  rw [hj kw, hkw kw]
  refine ⟨fun _ => rfl, rfl, ?_, hM t ht y hy, hD t ht y hy⟩
  unfold customJac
  cases D t y <;> rfl

/-- `y' = 1 + |y| - |t|`, not differentiable on `y = 0` or `t = 0`, with a user Jacobian that is simply `7` (the true one is `±1`)
and the finite-difference time derivative -/
def kinkSys : OdeSys 1 P where
  frhs := fun _ t u => fun i => 1 + |u i| - |t|
  fjac := fun _ t u => customJac (fun t u => fun i => 1 + |u i| - |t|) t u (fun _ _ => 7) none (1 / 10)
  fl := fun _ _ => matrixLinOp (fun _ _ => -3)

/-- its solution, which crosses the kink -/
def kinkY (t : ℝ) : Vec 1 := fun _ => t

theorem kink_ivp : LipIVP ((kinkSys (P := P)).frhs none) kinkY (-1) 1 := by
  refine ⟨fun t _ => ?_, fun s _ => ?_⟩
  · refine hasDerivWithinAt_pi.2 fun i => ?_
    have : (kinkSys (P := P)).frhs none t (kinkY t) i = 1 := by
      show 1 + |t| - |t| = 1
      ring
    rw [this]
    exact hasDerivWithinAt_id _ _
  · refine ⟨2, Set.univ, univ_mem, ?_⟩
    refine LipschitzOnWith.of_dist_le_mul fun a _ b _ => ?_
    rw [dist_pi_le_iff (by positivity)]
    intro i
    show dist (1 + |a.2 i| - |a.1|) (1 + |b.2 i| - |b.1|) ≤ 2 * dist a b
    rw [Real.dist_eq]
    have h1 : |a.1 - b.1| ≤ dist a b := by
      rw [← Real.dist_eq, Prod.dist_eq]
      exact le_max_left _ _
    have h2 : |a.2 i - b.2 i| ≤ dist a b := by
      rw [← Real.dist_eq, Prod.dist_eq]
      exact (dist_le_pi_dist a.2 b.2 i).trans (le_max_right _ _)
    have e : 1 + |a.2 i| - |a.1| - (1 + |b.2 i| - |b.1|) = (|a.2 i| - |b.2 i|) - (|a.1| - |b.1|) := by ring
    rw [e]
    have h3 := abs_abs_sub_abs_le_abs_sub (a.2 i) (b.2 i)
    have h4 := abs_abs_sub_abs_le_abs_sub a.1 b.1
    have h5 := abs_sub (|a.2 i| - |b.2 i|) (|a.1| - |b.1|)
    linarith

theorem kink_tame : TameJacs (kinkSys (P := P)) kinkY (-1) 1 := by
  refine tameJacs_custom (kinkSys (P := P)) (fun _ _ => fun _ _ => 7) (fun _ _ => none) (1 / 10) (fun _ => rfl) (fun _ _ _ => rfl)
    (B := 7) (ρ := 1) one_pos (fun _ _ _ _ => ?_) (fun t _ y _ => ?_)
  · refine norm_le_of_mulVec (by norm_num) fun v => ?_
    refine (pi_norm_le_iff_of_nonneg (by positivity)).2 fun i => ?_
    have hi : i = 0 := Subsingleton.elim _ _
    subst hi
    simp only [Matrix.mulVec, dotProduct, Fin.sum_univ_one, norm_mul]
    gcongr
    · norm_num
    · exact norm_le_pi_norm v 0
  · refine (pi_norm_le_iff_of_nonneg (by norm_num)).2 fun i => ?_
    show ‖(1 + |y i| - |t + 1 / 10| - (1 + |y i| - |t|)) / (1 / 10)‖ ≤ 7
    have h := abs_abs_sub_abs_le_abs_sub t (t + 1 / 10)
    have e : (1 + |y i| - |t + 1 / 10| - (1 + |y i| - |t|)) / (1 / 10) = 10 * (|t| - |t + 1 / 10|) := by ring
    rw [e, norm_mul, Real.norm_eq_abs (|t| - |t + 1 / 10|)]
    have : |t - (t + 1 / 10)| = 1 / 10 := by
      rw [sub_add_cancel_left, abs_neg]
      norm_num
    rw [this] at h
    norm_num
    linarith

/-- the hypotheses of C120 are met by a right-hand side with kinks crossed by the solution and a wrong Jacobian: the runs of
`exprb3` still converge -/
example : ∃ C δ R : ℝ, 0 ≤ C ∧ 0 < δ ∧ ∀ (K : Kernels 1) (dt κ tol : ℝ) (nsteps : ℕ) (s : ExpRB 1), 0 < dt → dt ≤ δ →
      0 ≤ κ → κ ≤ δ → ApproxFor "exprb3" K dt R κ →
      -1 + nsteps * dt ≤ 1 → ExpRB.new true (-1) (kinkY (-1)) "exprb3" tol = .ok s →
      ∀ {Q W : Type} (before : Option (W → ℝ → Vec 1 → List Unit × W)) (after : Option (W → ℝ → Vec 1 → Q × W)) (w : W),
      ∃ l, integrateOrmatex (rbStepper true K kinkSys) s (kinkY (-1)) (-1) dt nsteps before after w = .ok l ∧
        RunAccurate l (-1) dt nsteps kinkY (C * (dt + κ)) :=
  C120_rosenbrock true kinkSys kinkY (-1) 1 kink_ivp kink_tame "exprb3" 3 (by simp [rbOrders])

/-- the hypotheses of `C120_shipped` are met: three periodic elements, the shipped libraries -/
example {Q : Quad 2} (hq : semQuad 1 = .ok Q) : ∃ (A : Mat (2 + 1)) (Ml b : Vec (2 + 1)) (bat2 : Mat 2),
    semAssemble (perMesh 2) Q (elemFields (fun _ => 1) (fun _ => 1 / 2) (fun _ => 0)) none = some (A, Ml, b) ∧ (∀ i, 0 < Ml i) ∧
    genBatemanMatrix keymap2 decayLib2 = .ok bat2 ∧ ∀ y0 : Vec (2 * (2 + 1)), (∀ k, 0 ≤ y0 k) → ∃ U : ℝ → Vec (2 * (2 + 1)), U 0 = y0 ∧
      RunsNear (radSys (P := List Unit) sourceEvap2 bat2 A Ml []) U 0 10 := by
  have hw := quad1 (goodQuad (r := 0) hq)
  obtain ⟨A, Ml, b, h⟩ : ∃ A Ml b, semAssemble (perMesh 2) Q (elemFields (fun _ => 1) (fun _ => 1 / 2) (fun _ => 0)) none = some (A, Ml, b) := by
    unfold semAssemble
    rw [if_neg (by rintro ⟨e, k, hk⟩; simp [elemFields] at hk)]
    exact ⟨_, _, _, rfl⟩
  have hh : ∀ e, 0 < (perMesh 2).h e := fun _ => by simp only [perMesh]; positivity
  have hpos : ∀ i, 0 < Ml i := C118_mass_pos (r := 0) hq hh h
    (fun _ => by rw [abs_zero, hw.1, hw.2]; norm_num) (fun i => ⟨i, 0, by simp [perMesh]⟩)
  obtain ⟨⟨bat2, h2⟩, ⟨bat3, h3⟩, ⟨bat9, h9⟩, -, htr, ⟨fis, hfis⟩, -⟩ := C119_shipped
  obtain ⟨tr, htr⟩ := htr (9 / 1000)
  refine ⟨A, Ml, b, bat2, h, hpos, h2, fun y0 hy0 => ?_⟩
  obtain ⟨w2, -, -⟩ := C120_shipped (P := List Unit) hq hh (by intro e; simp only [perMesh]; norm_num) h hpos 0 h2 h3 h9 htr hfis
    (show (0 : ℝ) ≤ 10 by norm_num)
  obtain ⟨U, h0, -, hr⟩ := w2 y0 hy0
  exact ⟨U, h0, hr⟩

end
end Ormatex.Props
