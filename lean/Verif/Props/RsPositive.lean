import Verif.Props.RsConverge
import Verif.Props.RsSystems
import Verif.Props.BatemanFlow

/-!
C126: the implicit methods of `integrate_wrapper_rs` on linear kinetics (decay chains, compartment models): backward Euler keeps
concentrations nonnegative and never creates mass, for every step size; Crank-Nicolson does so for small steps only, and the
two-step formula of `bdf2` does not.
-/

namespace Ormatex.Props
open Matrix Ormatex.Spec Ormatex.Rs
open scoped Classical

section
variable {n : ℕ}

/-- **Specification.** Linear kinetics `y' = A y` that lose mass or keep it, with masses `w` per unit: transfer rates between
different species are nonnegative, and no species creates mass. -/
structure Kinetics (A : Mat n) (w : Vec n) : Prop where
  off : ∀ i j, i ≠ j → 0 ≤ A i j
  pos : ∀ i, 0 < w i
  loss : ∀ j, ∑ i, w i * A i j ≤ 0

/-- the mass of a state -/
def mass (w y : Vec n) : ℝ := ∑ i, w i * y i

theorem mass_mulVec (A : Mat n) (w x : Vec n) : mass w (A *ᵥ x) = ∑ j, (∑ i, w i * A i j) * x j := by
  unfold mass
  simp only [mulVec, dotProduct, Finset.mul_sum, Finset.sum_mul]
  rw [Finset.sum_comm]
  exact Finset.sum_congr rfl fun j _ => Finset.sum_congr rfl fun i _ => by ring

theorem mass_add (w x y : Vec n) : mass w (x + y) = mass w x + mass w y := by
  simp [mass, mul_add, Finset.sum_add_distrib]

theorem mass_smul (w : Vec n) (c : ℝ) (y : Vec n) : mass w (c • y) = c * mass w y := by
  simp only [mass, Pi.smul_apply, smul_eq_mul, Finset.mul_sum]
  exact Finset.sum_congr rfl fun i _ => by ring

theorem mass_nonneg {w y : Vec n} (hw : ∀ i, 0 < w i) (hy : ∀ i, 0 ≤ y i) : 0 ≤ mass w y :=
  Finset.sum_nonneg fun i _ => mul_nonneg (hw i).le (hy i)

theorem mass_mulVec_nonpos {A : Mat n} {w : Vec n} (hA : Kinetics A w) {x : Vec n} (hx : ∀ i, 0 ≤ x i) :
    mass w (A *ᵥ x) ≤ 0 := by
  rw [mass_mulVec]
  exact Finset.sum_nonpos fun j _ => mul_nonpos_of_nonpos_of_nonneg (hA.loss j) (hx j)

/-- the matrix `I - h A` is inverse-nonnegative -/
theorem kinetics_monotone {A : Mat n} {w : Vec n} (hA : Kinetics A w) {h : ℝ} (hh : 0 ≤ h) {x : Vec n}
    (hx : ∀ i, 0 ≤ ((1 - h • A) *ᵥ x) i) (i : Fin n) : 0 ≤ x i := by
  set σ : Vec n := fun i => if x i < 0 then w i else 0 with hσ
  have hσ0 : ∀ i, 0 ≤ σ i := fun i => by
    simp only [hσ]; split_ifs
    · exact (hA.pos i).le
    · exact le_rfl
  have hσw : ∀ i, σ i ≤ w i := fun i => by
    simp only [hσ]; split_ifs
    · exact le_rfl
    · exact (hA.pos i).le
  have hcol : ∀ j, 0 ≤ (∑ i, σ i * A i j) * x j := by
    intro j
    by_cases hj : x j < 0
    · refine mul_nonneg_of_nonpos_of_nonpos ?_ hj.le
      refine le_trans (Finset.sum_le_sum fun i _ => ?_) (hA.loss j)
      by_cases hij : i = j
      · subst hij; simp [hσ, hj]
      · exact mul_le_mul_of_nonneg_right (hσw i) (hA.off i j hij)
    · push Not at hj
      refine mul_nonneg (Finset.sum_nonneg fun i _ => ?_) hj
      by_cases hij : i = j
      · subst hij; simp [hσ, not_lt.2 hj]
      · exact mul_nonneg (hσ0 i) (hA.off i j hij)
  have hsum : mass σ x = mass σ ((1 - h • A) *ᵥ x) + h * mass σ (A *ᵥ x) := by
    rw [← mass_smul, ← mass_add]
    congr 1
    rw [sub_mulVec, one_mulVec, smul_mulVec, sub_add_cancel]
  have h1 : 0 ≤ mass σ ((1 - h • A) *ᵥ x) := Finset.sum_nonneg fun i _ => mul_nonneg (hσ0 i) (hx i)
  have h2 : 0 ≤ mass σ (A *ᵥ x) := by
    rw [mass_mulVec]
    exact Finset.sum_nonneg fun j _ => hcol j
  have h3 : 0 ≤ mass σ x := by
    rw [hsum]; positivity
  have hterm : ∀ k, σ k * x k ≤ 0 := fun k => by
    simp only [hσ]; split_ifs with hk
    · exact mul_nonpos_of_nonneg_of_nonpos (hA.pos k).le hk.le
    · simp
  have hz : mass σ x = 0 := le_antisymm (Finset.sum_nonpos fun k _ => hterm k) h3
  have hz' := (Finset.sum_eq_zero_iff_of_nonpos fun k _ => hterm k).1 hz i (Finset.mem_univ i)
  by_contra hi
  push Not at hi
  simp only [hσ, hi, if_true] at hz'
  exact (mul_neg_of_pos_of_neg (hA.pos i) hi).ne hz'

theorem kinetics_unit {A : Mat n} {w : Vec n} (hA : Kinetics A w) {h : ℝ} (hh : 0 ≤ h) : IsUnit (1 - h • A).det := by
  rw [isUnit_iff_ne_zero]
  intro h0
  obtain ⟨v, hv, hz⟩ := Matrix.exists_mulVec_eq_zero_iff.mpr h0
  refine hv ?_
  have h1 := kinetics_monotone hA hh (x := v) (fun i => by rw [hz]; exact le_rfl)
  have h2 := kinetics_monotone hA hh (x := -v) (fun i => by rw [mulVec_neg, hz]; simp)
  funext i
  have := h2 i
  simp only [Pi.neg_apply] at this
  refine le_antisymm ?_ (h1 i)
  show v i ≤ 0
  linarith

/-- the solution of `(I - h A) x = r` with `r ≥ 0` -/
theorem kinetics_solve {A : Mat n} {w : Vec n} (hA : Kinetics A w) {h : ℝ} (hh : 0 ≤ h) {r : Vec n} (hr : ∀ i, 0 ≤ r i) :
    (∀ i, 0 ≤ ((1 - h • A)⁻¹ *ᵥ r) i) ∧ mass w ((1 - h • A)⁻¹ *ᵥ r) ≤ mass w r ∧
      ((∀ j, ∑ i, w i * A i j = 0) → mass w ((1 - h • A)⁻¹ *ᵥ r) = mass w r) := by
  have hU := kinetics_unit hA hh
  set x := (1 - h • A)⁻¹ *ᵥ r with hx
  have hM : (1 - h • A) *ᵥ x = r := by rw [hx, mulVec_mulVec, mul_nonsing_inv _ hU, one_mulVec]
  have hpos : ∀ i, 0 ≤ x i := kinetics_monotone hA hh (by rw [hM]; exact hr)
  have hm : mass w x = mass w r + h * mass w (A *ᵥ x) := by
    rw [← mass_smul, ← mass_add]
    congr 1
    rw [← hM, sub_mulVec, one_mulVec, smul_mulVec, sub_add_cancel]
  refine ⟨hpos, ?_, fun hc => ?_⟩
  · rw [hm]
    have := mul_nonpos_of_nonneg_of_nonpos hh (mass_mulVec_nonpos hA hpos)
    linarith
  · rw [hm, mass_mulVec]
    simp [hc]

/-- **Specification.** What a user of linear kinetics `y' = A y + b` with source `b` expects of the states `u` of a run with step
size `dt`: concentrations are nonnegative, mass does not grow faster than the source feeds it, and exactly as fast when the
system loses nothing. -/
structure KineticRun (A : Mat n) (w b : Vec n) (dt : ℝ) (N : ℕ) (u : ℕ → Vec n) : Prop where
  nonneg : ∀ k ≤ N, ∀ i, 0 ≤ u k i
  bounded : ∀ k < N, mass w (u (k + 1)) ≤ mass w (u k) + dt * mass w b
  balance : (∀ j, ∑ i, w i * A i j = 0) → ∀ k ≤ N, mass w (u k) = mass w (u 0) + k * dt * mass w b

/-- the states of a run, step by step -/
private theorem kineticRun_of {A : Mat n} {w b : Vec n} {dt : ℝ} {N : ℕ} {u : ℕ → Vec n} (h0 : ∀ i, 0 ≤ u 0 i)
    (hs : ∀ k, (∀ i, 0 ≤ u k i) → (∀ i, 0 ≤ u (k + 1) i) ∧ mass w (u (k + 1)) ≤ mass w (u k) + dt * mass w b ∧
      ((∀ j, ∑ i, w i * A i j = 0) → mass w (u (k + 1)) = mass w (u k) + dt * mass w b)) : KineticRun A w b dt N u := by
  have hpos : ∀ k, ∀ i, 0 ≤ u k i := by
    intro k
    induction k with
    | zero => exact h0
    | succ k ih => exact (hs k ih).1
  refine ⟨fun k _ => hpos k, fun k _ => (hs k (hpos k)).2.1, fun hc k _ => ?_⟩
  induction k with
  | zero => simp
  | succ k ih =>
    rw [(hs k (hpos k)).2.2 hc, ih (by omega)]
    push_cast; ring

/-- a run of the binding that uses the implicit integrator -/
theorem wrap_bdf (gmres : Gmres n) (split : ℕ → Option (Split ℕ)) (sys : Sys n) (y0 : Vec n) (t0 dt : ℝ) (N : ℕ) (kd : Kwds)
    (o : RunOpts) (ord : ℕ) (out : List (Vec n) × List ℝ) (h1 : parseOpts kd = .ok o)
    (h2 : selectSolver split t0 y0 o.method o.expmvMethod o.krylovDim o.iom o.tolFdt = .ok (.bdf (Bdf.new t0 y0 ord)))
    (h3 : outLoop (solverIntegrator gmres sys) dt o.osteps N 0 (.bdf (Bdf.new t0 y0 ord)) [] [] = .ok out) :
    integrateWrapperRs gmres split sys y0 t0 dt N kd = .ok out := by
  unfold integrateWrapperRs
  simp only [h1, h2, Bind.bind, Except.bind]
  exact h3

/-- **C126, backward Euler on kinetics.** For linear kinetics with a nonnegative source, a nonnegative initial state, any step
size `dt ≥ 0`, number of steps and output interval, a call with `bdf1` or `backeuler` and an exact linear solver returns, and the
states of the run are nonnegative and do not create mass. -/
theorem C126_backward_euler (gmres : Gmres n) (hg : ExactGmres gmres) (split : ℕ → Option (Split ℕ)) {sys : Sys n} {A : Mat n}
    {b w : Vec n} (hs : AffineSys sys A b) (hA : Kinetics A w) (hb : ∀ i, 0 ≤ b i) (y0 : Vec n) (hy0 : ∀ i, 0 ≤ y0 i) (t0 dt : ℝ)
    (hdt : 0 ≤ dt) (N : ℕ) (kd : Kwds) (o : RunOpts) (hp : parseOpts kd = .ok o) (hm : o.method = "bdf1" ∨ o.method = "backeuler")
    (ho : 0 < o.osteps) :
    ∃ u : ℕ → Vec n, u 0 = y0 ∧
      integrateWrapperRs gmres split sys y0 t0 dt N kd =
        .ok ((outputSteps o.osteps N).map u, (outputSteps o.osteps N).map fun i : ℕ => t0 + i * dt) ∧
      KineticRun A w b dt N u := by
  set u : ℕ → Vec n := fun k => (beMap A b dt)^[k] y0 with hu
  have hsucc : ∀ k, u (k + 1) = (1 - dt • A)⁻¹ *ᵥ (u k + dt • b) := fun k => Function.iterate_succ_apply' _ _ _
  refine ⟨u, rfl, wrap_bdf gmres split sys y0 t0 dt N kd o 1 _ hp (by unfold selectSolver; rw [if_pos hm])
    (bdf_follow gmres sys 1 t0 dt u N o.osteps ho ?_), kineticRun_of hy0 ?_⟩
  · intro s k l hk g1 g2 g3 g4 g5
    rw [bdf_step_1 gmres sys s dt g1, stepOrder1_affine gmres hg hs s _ l g3 dt (kinetics_unit hA hdt), hsucc]
  · intro k hk
    have h := kinetics_solve hA hdt (r := u k + dt • b) (fun i => add_nonneg (hk i) (mul_nonneg hdt (hb i)))
    rw [hsucc]
    rwa [mass_add, mass_smul] at h

/-- **C126, Crank-Nicolson on kinetics.** The same for `cn` when no species loses more than all of itself in half a step:
`dt/2 · (-A i i) ≤ 1`. -/
theorem C126_crank_nicolson (gmres : Gmres n) (hg : ExactGmres gmres) (split : ℕ → Option (Split ℕ)) {sys : Sys n} {A : Mat n}
    {b w : Vec n} (hs : AffineSys sys A b) (hA : Kinetics A w) (hb : ∀ i, 0 ≤ b i) (y0 : Vec n) (hy0 : ∀ i, 0 ≤ y0 i) (t0 dt : ℝ)
    (hdt : 0 ≤ dt) (hsm : ∀ i, -1 ≤ dt / 2 * A i i) (N : ℕ) (kd : Kwds) (o : RunOpts) (hp : parseOpts kd = .ok o)
    (hm : o.method = "cn") (ho : 0 < o.osteps) :
    ∃ u : ℕ → Vec n, u 0 = y0 ∧
      integrateWrapperRs gmres split sys y0 t0 dt N kd =
        .ok ((outputSteps o.osteps N).map u, (outputSteps o.osteps N).map fun i : ℕ => t0 + i * dt) ∧
      KineticRun A w b dt N u := by
  set u : ℕ → Vec n := fun k => (cnMap A b dt)^[k] y0 with hu
  have hsucc : ∀ k, u (k + 1) = (1 - (dt / 2) • A)⁻¹ *ᵥ ((1 + (dt / 2) • A) *ᵥ u k + dt • b) :=
    fun k => Function.iterate_succ_apply' _ _ _
  have hd2 : 0 ≤ dt / 2 := by positivity
  refine ⟨u, rfl, wrap_bdf gmres split sys y0 t0 dt N kd o 3 _ hp (by unfold selectSolver; rw [hm]; simp)
    (bdf_follow gmres sys 3 t0 dt u N o.osteps ho ?_), kineticRun_of hy0 ?_⟩
  · intro s k l hk g1 g2 g3 g4 g5
    rw [bdf_step_3 gmres sys s dt g1, stepCn_affine gmres hg hs s _ l g3 dt (kinetics_unit hA hd2), hsucc]
  · intro k hk
    have hent : ∀ i j, 0 ≤ (1 + (dt / 2) • A) i j := by
      intro i j
      by_cases hij : i = j
      · subst hij
        have := hsm i
        simp only [Matrix.add_apply, Matrix.one_apply_eq, Matrix.smul_apply, smul_eq_mul]
        linarith
      · simp only [Matrix.add_apply, Matrix.one_apply_ne hij, Matrix.smul_apply, smul_eq_mul, zero_add]
        exact mul_nonneg hd2 (hA.off i j hij)
    have hr : ∀ i, 0 ≤ ((1 + (dt / 2) • A) *ᵥ u k + dt • b : Vec n) i := fun i =>
      add_nonneg (dotProduct_nonneg_of_nonneg (fun j => hent i j) hk) (mul_nonneg hdt (hb i))
    have h := kinetics_solve hA hd2 hr
    have hmr : mass w ((1 + (dt / 2) • A) *ᵥ u k + dt • b) = mass w (u k) + dt / 2 * mass w (A *ᵥ u k) + dt * mass w b := by
      rw [mass_add, add_mulVec, one_mulVec, smul_mulVec, mass_add, mass_smul, mass_smul]
    rw [hsucc]
    refine ⟨h.1, h.2.1.trans ?_, fun hc => (h.2.2 hc).trans ?_⟩
    · rw [hmr]
      have := mul_nonpos_of_nonneg_of_nonpos hd2 (mass_mulVec_nonpos hA hk)
      linarith
    · rw [hmr, mass_mulVec]
      simp [hc]

/-- the decay `y' = -y` is linear kinetics -/
theorem decay_kinetics : Kinetics (!![-1] : Mat 1) ![1] where
  off i j h := absurd (Subsingleton.elim i j) h
  pos i := by fin_cases i; simp
  loss j := by fin_cases j; simp

private theorem inv1 (a r : ℝ) (ha : a ≠ 0) : (!![a] : Mat 1)⁻¹ *ᵥ ![r] = ![r / a] := by
  have hU : IsUnit (!![a] : Mat 1).det := by simpa using ha
  have : (!![a] : Mat 1) *ᵥ ![r / a] = ![r] := by
    funext i; fin_cases i; simp [mulVec, dotProduct]; field_simp
  rw [← this, mulVec_mulVec, nonsing_inv_mul _ hU, one_mulVec]

/-- **C126, what fails.** On `y' = -y` from `1`, one step of `cn` with `dt = 4` returns `-1/3`, and two steps of `bdf2` return
`1, 1/5, -1/55`: both leave the nonnegative states, and no linear solver can help. -/
theorem C126_negative (gmres : Gmres 1) (hg : ExactGmres gmres) (split : ℕ → Option (Split ℕ)) (kd : Kwds) (o : RunOpts)
    (hp : parseOpts kd = .ok o) (ho : o.osteps = 1) :
    (o.method = "cn" → integrateWrapperRs gmres split (affineSys !![-1] 0) ![1] 0 4 1 kd = .ok ([![1], ![-(1 / 3)]], [0, 4])) ∧
    (o.method = "bdf2" → integrateWrapperRs gmres split (affineSys !![-1] 0) ![1] 0 4 2 kd =
      .ok ([![1], ![1 / 5], ![-(1 / 55)]], [0, 4, 8])) := by
  have hs := affineSys_affine (!![-1] : Mat 1) 0
  have e : ∀ c : ℝ, (1 - c • (!![-1] : Mat 1)) = !![1 + c] := fun c => by
    ext i j; fin_cases i; fin_cases j; simp
  have hU : ∀ c : ℝ, 0 ≤ c → IsUnit (1 - c • (!![-1] : Mat 1)).det := fun c hc => kinetics_unit decay_kinetics hc
  constructor
  · intro hm
    have h := bdf_follow gmres (affineSys !![-1] 0) 3 0 4 (fun k : ℕ => if k = 0 then ![1] else ![-(1 / 3)]) 1 o.osteps (by omega) (by
      intro s k l hk g1 g2 g3 g4 g5
      obtain rfl : k = 0 := by omega
      rw [bdf_step_3 gmres _ s 4 g1, stepCn_affine gmres hg hs s _ l g3 4 (hU _ (by norm_num)), e]
      congr 2
      have : (1 + ((4 : ℝ) / 2) • (!![-1] : Mat 1)) *ᵥ (if (0 : ℕ) = 0 then ![1] else ![-(1 / 3)]) + (4 : ℝ) • (0 : Vec 1) = ![-1] := by
        funext i; fin_cases i; norm_num [add_mulVec, mulVec, dotProduct, vecHead]
      rw [this, inv1 _ _ (by norm_num)]
      norm_num)
    refine wrap_bdf gmres split _ _ 0 4 1 kd o 3 _ hp (by unfold selectSolver; rw [hm]; simp) (h.trans ?_)
    rw [ho]
    norm_num [outputSteps, List.range_succ]
  · intro hm
    have h := bdf_follow gmres (affineSys !![-1] 0) 2 0 4 (fun k : ℕ => if k = 0 then ![1] else if k = 1 then ![1 / 5] else ![-(1 / 55)])
      2 o.osteps (by omega) (by
      intro s k l hk g1 g2 g3 g4 g5
      rw [bdf_step_2 gmres _ s 4 g1, g4]
      obtain rfl | rfl : k = 0 ∨ k = 1 := by omega
      · rw [if_neg (by omega), stepOrder1_affine gmres hg hs s _ l g3 4 (hU _ (by norm_num)), e]
        congr 2
        have : (if (0 : ℕ) = 0 then ![1] else if (0 : ℕ) = 1 then ![1 / 5] else ![-(1 / 55)]) + (4 : ℝ) • (0 : Vec 1) = ![1] := by simp
        rw [this, inv1 _ _ (by norm_num)]
        norm_num
      · obtain ⟨l', rfl⟩ := g5 0 rfl
        rw [if_pos rfl, stepOrder2_affine gmres hg hs s g1 _ _ l' g3 4 (hU _ (by norm_num)), e]
        congr 2
        have : ((4 / 3 : ℝ) • (if (1 : ℕ) = 0 then ![1] else if (1 : ℕ) = 1 then ![1 / 5] else ![-(1 / 55)]) -
            (1 / 3 : ℝ) • (if (0 : ℕ) = 0 then ![1] else if (0 : ℕ) = 1 then ![1 / 5] else ![-(1 / 55)]) +
            (2 * 4 / 3 : ℝ) • (0 : Vec 1) : Vec 1) = ![-(1 / 15)] := by
          funext i; fin_cases i; norm_num
        rw [this, inv1 _ _ (by norm_num)]
        norm_num)
    refine wrap_bdf gmres split _ _ 0 4 2 kd o 2 _ hp (by unfold selectSolver; rw [hm]; simp) (h.trans ?_)
    rw [ho]
    norm_num [outputSteps, List.range_succ]

/-- the decay chain of `bateman_sys_rhs` is linear kinetics -/
theorem chain3_kinetics : Kinetics chain3 ![1, 1, 1] where
  off i j h := by fin_cases i <;> fin_cases j <;> simp [chain3] at h ⊢
  pos i := by fin_cases i <;> simp
  loss j := by fin_cases j <;> simp [chain3, Fin.sum_univ_three]

/-- the matrices that `gen_bateman_matrix` builds from nonnegative decay constants are linear kinetics -/
theorem bateman_kinetics {keymap : List String} {lib : BatemanLib} (hl : NonnegLib lib) {M : Mat keymap.length}
    (h : genBatemanMatrix keymap lib = .ok M) : Kinetics M fun _ => 1 :=
  ⟨bateman_metzler hl h, fun _ => one_pos, fun j => by simpa using bateman_columns hl h j⟩

/-- the hypotheses are met: a hundred steps of size 1000 on the stiff decay chain -/
example : ∃ u : ℕ → Vec 3, u 0 = ![1, 2, 3] ∧ integrateWrapperRs (exactGmres 3) (fun _ => none) (affineSys chain3 0) ![1, 2, 3] 0 1000 100
    (fun k => if k = "method" then some (.str "bdf1") else none) =
      .ok ((outputSteps 1 100).map u, (outputSteps 1 100).map fun i : ℕ => 0 + i * 1000) ∧
    KineticRun chain3 ![1, 1, 1] 0 1000 100 u :=
  C126_backward_euler (exactGmres 3) (exactGmres_exact 3) (fun _ => none) (affineSys_affine chain3 0) chain3_kinetics (fun _ => le_rfl)
    ![1, 2, 3] (fun i => by fin_cases i <;> simp) 0 1000 (by norm_num) 100 _ (RunOpts.mk "bdf1" "pade" 100 2 1e-8 1e-8 1)
    (by simp [parseOpts, getValOrDefault, PyVal.asString, bind, Except.bind, pure, Except.pure]) (Or.inl rfl) one_pos

/-- the hypotheses of the Crank-Nicolson statement: the same chain with steps of size 0.2 -/
example : ∀ i, -1 ≤ (0.2 : ℝ) / 2 * chain3 i i := by
  intro i
  fin_cases i <;> norm_num [chain3]

end
end Ormatex.Props
