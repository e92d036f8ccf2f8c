import Verif.Props.NewtonErr
import Verif.Props.Steps
import Verif.Props.Krylov

/-!
The steps of the Leja integrator (C97): what they compute, and how errors of the Newton evaluations propagate through the
adaptive substepping into the new state.
-/

namespace Ormatex.Props
open Ormatex Ormatex.Spec Matrix
open scoped Classical

variable {n : ℕ} {P : Type}

/-- **Specification.** The augmented matrix `[[X, b2, b1], [0, 0, 1], [0, 0, 0]]`. -/
noncomputable def augSpec (X : Mat n) (b1 b2 : Vec n) : Mat (n + 2) :=
  (Matrix.fromBlocks X (Matrix.of fun i (j : Fin 2) => if j = 0 then b2 i else b1 i) 0 !![0, 1; 0, 0]).submatrix
    finSumFinEquiv.symm finSumFinEquiv.symm

/-- **Specification.** A converged evaluation `e` for the matrix `X` and the vector `w` has relative error at most `ε`. -/
def GoodEval (X : Mat n) (w : Vec n) (ε : ℝ) (e : LejaState n) : Prop :=
  e.conv → ‖e.pm - NormedSpace.exp X *ᵥ w‖ ≤ ε * ‖w‖

theorem augMatvec3_eq (A : LinOp n) (J : Mat n) (hA : IsMatrix A J) (dt : ℝ) (b1 b2 : Vec n) (op : LinOp (n + 2)) (v : Vec (n + 2))
    (h : buildATilde3 A dt 0 b1 b2 = .ok (op, v)) :
    IsMatrix op (augSpec (dt • J) b1 b2) ∧ v = concat 0 (lastUnit 2) := by
  unfold buildATilde3 buildATilde at h
  rw [if_neg (by simp)] at h
  obtain ⟨op', hop, h2⟩ := bind_ok h
  cases h2
  obtain ⟨op2, h3, _, h5⟩ := C14_block A J hA dt (augB [0, b1, b2]) (augK ([0, b1, b2].length - 1))
  rw [hop] at h3
  cases h3
  refine ⟨?_, rfl⟩
  have e : (Matrix.fromBlocks (dt • J) (augB [0, b1, b2]) 0 (augK ([0, b1, b2].length - 1))).submatrix finSumFinEquiv.symm
      finSumFinEquiv.symm = augSpec (dt • J) b1 b2 := by
    unfold augSpec
    congr 2
    · ext i j
      fin_cases j <;> simp [augB]
    · ext i j
      fin_cases i <;> fin_cases j <;> simp [augK]
  rw [← e]
  exact h5

/-- the head of `exp` of the augmented matrix -/
theorem augSpec_exp (X : Mat n) (b1 b2 : Vec n) :
    headN (NormedSpace.exp (augSpec X b1 b2) *ᵥ concat 0 (lastUnit 2)) = phiM 1 X *ᵥ b1 + phiM 2 X *ᵥ b2 := by
  have key := aug_exp (p := 2) X (augSpec X b1 b2) (fun l => if l = 1 then b1 else b2) 0 ?_
  · rw [phiM_zero] at key
    rw [key, Matrix.mulVec_zero, zero_add, Finset.sum_range_succ, Finset.sum_range_succ, Finset.sum_range_zero, zero_add]
    simp
  · intro w z
    obtain ⟨op, _, h2, h3⟩ := C14_block (matrixLinOp X) X (fun _ => rfl) 1
      (Matrix.of fun i (j : Fin 2) => if j = 0 then b2 i else b1 i) !![0, 1; 0, 0]
    rw [one_smul] at h3
    rw [augSpec, ← h3, h2, one_smul]
    have e1 : (Matrix.of fun i (j : Fin 2) => if j = 0 then b2 i else b1 i)
        = Matrix.of fun (i : Fin n) (q : Fin 2) => (if 2 - (q : ℕ) = 1 then b1 else b2) i := by
      ext i j
      fin_cases j <;> simp
    have e2 : (!![0, 1; 0, 0] : Matrix (Fin 2) (Fin 2) ℝ) = augK 2 := by
      ext i j
      fin_cases i <;> fin_cases j <;> simp [augK]
    rw [e1, e2]

open scoped Matrix.Norms.Operator in
/-- Errors of the accepted evaluations accumulate at most geometrically. -/
theorem composed_error (Z : Mat n) (inner : ℝ → Vec n → Vec n × ℕ × Prop) (ε ρ : ℝ) (hε : 0 ≤ ε) (hρ : 0 ≤ ρ)
    (hZ : ∀ d, 0 ≤ d → d ≤ 1 → ‖NormedSpace.exp (d • Z)‖ ≤ Real.exp (d * ρ))
    (hin : ∀ d w, 0 < d → d ≤ 1 → (inner d w).2.2 → ‖(inner d w).1 - NormedSpace.exp (d • Z) *ᵥ w‖ ≤ ε * ‖w‖)
    {ds : List ℝ} {v w : Vec n} (h : Composed inner ds v w) (hpos : ∀ d ∈ ds, 0 < d) (hsum : ds.sum ≤ 1) :
    ‖w‖ ≤ Real.exp (ds.sum * ρ) * (1 + ε) ^ ds.length * ‖v‖ ∧
    ‖w - NormedSpace.exp (ds.sum • Z) *ᵥ v‖ ≤ Real.exp (ds.sum * ρ) * ((1 + ε) ^ ds.length - 1) * ‖v‖ := by
  induction h with
  | nil v => simp
  | @snoc ds v w d hc hconv ih =>
    have hd : 0 < d := hpos d (by simp)
    have hpos' : ∀ e ∈ ds, 0 < e := fun e he => hpos e (by simp [he])
    have hs0 : 0 ≤ ds.sum := List.sum_nonneg fun e he => (hpos' e he).le
    have hsum' : ds.sum + d ≤ 1 := by simpa using hsum
    obtain ⟨h1, h2⟩ := ih hpos' (by linarith)
    have h3 := hin d w hd (by linarith) hconv
    have h4 := hZ d hd.le (by linarith)
    have h5 : (1 : ℝ) ≤ Real.exp (d * ρ) := Real.one_le_exp (by positivity)
    have hlen : (ds ++ [d]).length = ds.length + 1 := by simp
    have hsm : (ds ++ [d]).sum = d + ds.sum := by simp [add_comm]
    rw [hlen, hsm, add_mul, Real.exp_add]
    have hcomm : Commute (d • Z) (ds.sum • Z) := by
      simp only [Commute, SemiconjBy, smul_mul_smul_comm, mul_comm]
    have hadd : NormedSpace.exp ((d + ds.sum) • Z) = NormedSpace.exp (d • Z) * NormedSpace.exp (ds.sum • Z) := by
      rw [add_smul]
      exact NormedSpace.exp_add_of_commute hcomm
    have hE : ‖NormedSpace.exp (d • Z) *ᵥ w‖ ≤ Real.exp (d * ρ) * ‖w‖ :=
      (Matrix.linfty_opNorm_mulVec _ _).trans (mul_le_mul_of_nonneg_right h4 (norm_nonneg _))
    have hE2 : ‖NormedSpace.exp (d • Z) *ᵥ (w - NormedSpace.exp (ds.sum • Z) *ᵥ v)‖
        ≤ Real.exp (d * ρ) * ‖w - NormedSpace.exp (ds.sum • Z) *ᵥ v‖ :=
      (Matrix.linfty_opNorm_mulVec _ _).trans (mul_le_mul_of_nonneg_right h4 (norm_nonneg _))
    set a := Real.exp (d * ρ)
    set b := Real.exp (ds.sum * ρ) with hb
    set p := (1 + ε) ^ ds.length with hp
    have hp1 : 1 ≤ p := one_le_pow₀ (by linarith)
    have hb0 : 0 < b := Real.exp_pos _
    have hbp : 0 ≤ b * p * ‖v‖ := by positivity
    rw [pow_succ, ← hp]
    constructor
    · have e : (inner d w).1 = ((inner d w).1 - NormedSpace.exp (d • Z) *ᵥ w) + NormedSpace.exp (d • Z) *ᵥ w := by abel
      rw [e]
      refine (norm_add_le _ _).trans ?_
      have h6 : ε * ‖w‖ ≤ ε * (b * p * ‖v‖) := mul_le_mul_of_nonneg_left h1 hε
      have h7 : a * ‖w‖ ≤ a * (b * p * ‖v‖) := mul_le_mul_of_nonneg_left h1 (by linarith)
      have h8 : ε * (b * p * ‖v‖) ≤ a * (ε * (b * p * ‖v‖)) := le_mul_of_one_le_left (by positivity) h5
      calc _ ≤ ε * ‖w‖ + a * ‖w‖ := add_le_add h3 hE
        _ ≤ a * (ε * (b * p * ‖v‖)) + a * (b * p * ‖v‖) := by linarith
        _ = _ := by ring
    · have e : (inner d w).1 - NormedSpace.exp ((d + ds.sum) • Z) *ᵥ v
          = ((inner d w).1 - NormedSpace.exp (d • Z) *ᵥ w)
            + NormedSpace.exp (d • Z) *ᵥ (w - NormedSpace.exp (ds.sum • Z) *ᵥ v) := by
        rw [hadd, ← Matrix.mulVec_mulVec, Matrix.mulVec_sub]
        abel
      rw [e]
      refine (norm_add_le _ _).trans ?_
      have h6 : ε * ‖w‖ ≤ ε * (b * p * ‖v‖) := mul_le_mul_of_nonneg_left h1 hε
      have h7 : a * ‖w - NormedSpace.exp (ds.sum • Z) *ᵥ v‖ ≤ a * (b * (p - 1) * ‖v‖) :=
        mul_le_mul_of_nonneg_left h2 (by linarith)
      have h8 : ε * (b * p * ‖v‖) ≤ a * (ε * (b * p * ‖v‖)) := le_mul_of_one_le_left (by positivity) h5
      calc _ ≤ ε * ‖w‖ + a * ‖w - NormedSpace.exp (ds.sum • Z) *ᵥ v‖ := add_le_add h3 hE2
        _ ≤ a * (ε * (b * p * ‖v‖)) + a * (b * (p - 1) * ‖v‖) := by linarith
        _ = _ := by ring

/-- every returned product is a composition of converged evaluations over substeps that add up to 1 -/
theorem substep_composed (inner : ℝ → Vec n → Vec n × ℕ × Prop) (tauDt : ℝ) (htau : 0 < tauDt) (v w : Vec n) (substep : Bool)
    (it : ℕ) (c : Prop) (mt : ℝ) (h : expmvSubstep inner tauDt v substep = .ok (w, it, c, mt)) (hc : c) :
    ∃ ds : List ℝ, Composed inner ds v w ∧ ds.sum = 1 ∧ (∀ d ∈ ds, 0 < d) ∧ ds.length ≤ 1001 := by
  cases substep with
  | true => exact (C48_substeps inner tauDt htau v w it c mt h).1
  | false =>
    unfold expmvSubstep at h
    simp only [Bool.false_eq_true, not_false_eq_true, if_true] at h
    cases h
    exact ⟨[] ++ [1], Composed.snoc 1 (.nil v) hc, by simp, by simp, by simp⟩

/-- only the matrix of the operator matters -/
theorem realLeja_congr {A B : LinOp n} {M : Mat n} (hA : IsMatrix A M) (hB : IsMatrix B M) (dt : ℝ) (u : Vec n) (shift scale : ℝ)
    (nLeja : ℕ) (x coeffs : ℕ → ℝ) (tol abortTol : ℝ) :
    realLejaExpmv A dt u shift scale nLeja x coeffs tol abortTol = realLejaExpmv B dt u shift scale nLeja x coeffs tol abortTol := by
  have e : A.matvec = B.matvec := funext fun v => (hA v).trans (hB v).symm
  unfold realLejaExpmv realLejaBody
  simp only [e]

theorem complexLeja_congr {A B : LinOp n} {M : Mat n} (hA : IsMatrix A M) (hB : IsMatrix B M) (dt : ℝ) (u : Vec n) (shift scale : ℝ)
    (nLeja : ℕ) (x : ℕ → ℂ) (nReal : ℕ) (coeffs : ℕ → ℂ) (tol abortTol : ℝ) :
    complexConjLejaExpmv A dt u shift scale nLeja x nReal coeffs tol abortTol
      = complexConjLejaExpmv B dt u shift scale nLeja x nReal coeffs tol abortTol := by
  have e : A.matvec = B.matvec := funext fun v => (hA v).trans (hB v).symm
  unfold complexConjLejaExpmv
  rw [realLeja_congr hA hB]
  unfold complexHeadBody complexPairBody
  simp only [e]

theorem lejaShiftScale_congr {A B : LinOp n} {M : Mat n} (hA : IsMatrix A M) (hB : IsMatrix B M) (iter : ℕ) (b0 : Option (Vec n))
    (bRand : Vec n) (sf : ℝ) : lejaShiftScale A iter b0 bRand sf = lejaShiftScale B iter b0 bRand sf := by
  have e : A.matvec = B.matvec := funext fun v => (hA v).trans (hB v).symm
  have e2 : powerBody A = powerBody B := by funext s; unfold powerBody; simp only [e]
  have e3 : ∀ f s, powerLoop A iter powerTol f s = powerLoop B iter powerTol f s := by
    intro f
    induction f with
    | zero => intro s; rfl
    | succ f ih => intro s; unfold powerLoop; rw [e2, ih]
  unfold lejaShiftScale powerIter
  simp only [e3]

/-- **Specification.** The shift and scale a real Leja step uses for the augmented matrix `Z`: those of the interval `dt [leja_a, 0]`
if `leja_a` is given, otherwise those estimated from `Z` by power iteration (started from the vector `bk` of the last step). -/
def StepShift (o : LejaOpts) (bk : Option (Vec (n + 2))) (Z : Mat (n + 2)) (dt shift scale : ℝ) : Prop :=
  match o.lejaA with
  | none =>
    let r := lejaShiftScale (matrixLinOp Z) o.maxPowerIter bk (o.bRand (n + 2)) o.maxReEigScale
    shift = r.1 ∧ scale = r.2.1
  | some a => shift = dt * a / 2 ∧ scale = |dt * a / 4|

theorem lejaFinish_ok {s : ExpLeja n} {bk : Option (Vec (n + 2))} {yt u : Vec n} {dt : ℝ} {c : Prop} {mt : ℝ}
    {r : StepResult (Vec n)} {s' : ExpLeja n} (h : lejaFinish s bk yt u dt c mt = .ok (r, s')) :
    c ∧ r.t = s.base.t + dt ∧ r.y = yt + u := by
  unfold lejaFinish at h
  split at h
  · cases h
  · rename_i hc
    cases h
    exact ⟨not_not.1 hc, rfl, rfl⟩

theorem norm_headN_le (v : Vec (n + 2)) : ‖headN v‖ ≤ ‖v‖ :=
  (pi_norm_le_iff_of_nonneg (norm_nonneg _)).2 fun i => norm_le_pi_norm v (Fin.castAdd 2 i)

theorem norm_concat_lastUnit : ‖(concat (0 : Vec n) (lastUnit 2) : Vec (n + 2))‖ ≤ 1 := by
  refine (pi_norm_le_iff_of_nonneg zero_le_one).2 fun i => ?_
  refine Fin.addCases (fun i => ?_) (fun i => ?_) i
  · simp [concat]
  · simp only [concat, Fin.append_right, lastUnit]
    split_ifs <;> simp

open scoped Matrix.Norms.Operator in
/-- the common tail of the two step functions -/
theorem leja_tail (s : ExpLeja n) (hsub : 0 < s.substepSize) (X : Mat n) (b1 b2 : Vec n)
    (inner : ℝ → Vec (n + 2) → Vec (n + 2) × ℕ × Prop) (bk : Option (Vec (n + 2))) (substep : Bool) (y : Vec n) (dt : ℝ)
    (q : Vec (n + 2) × ℕ × Prop × ℝ) (r : StepResult (Vec n)) (s' : ExpLeja n)
    (h1 : expmvSubstep inner (1.1 * s.substepSize) (concat 0 (lastUnit 2)) substep = .ok q)
    (h2 : lejaFinish s bk y (headN q.1) dt q.2.2.1 q.2.2.2 = .ok (r, s')) (ε ρ : ℝ) (hε : 0 ≤ ε) (hρ : 0 ≤ ρ)
    (hZ : ∀ d, 0 ≤ d → d ≤ 1 → ‖NormedSpace.exp (d • augSpec X b1 b2)‖ ≤ Real.exp (d * ρ))
    (hin : ∀ d w, 0 < d → d ≤ 1 → (inner d w).2.2 → ‖(inner d w).1 - NormedSpace.exp (d • augSpec X b1 b2) *ᵥ w‖ ≤ ε * ‖w‖) :
    ‖r.y - (y + (phiM 1 X *ᵥ b1 + phiM 2 X *ᵥ b2))‖ ≤ Real.exp ρ * ((1 + ε) ^ 1001 - 1) := by
  obtain ⟨w, it, c, mt⟩ := q
  obtain ⟨hc, _, hy⟩ := lejaFinish_ok h2
  obtain ⟨ds, hcomp, hsum, hpos, hlen⟩ := substep_composed inner _ (by positivity) _ w substep it c mt h1 hc
  generalize 1001 = N at hlen ⊢
  have key := (composed_error (augSpec X b1 b2) inner ε ρ hε hρ hZ hin hcomp hpos hsum.le).2
  rw [hsum, one_smul, one_mul] at key
  rw [hy, ← augSpec_exp, add_sub_add_left_eq_sub]
  have e : headN w - headN (NormedSpace.exp (augSpec X b1 b2) *ᵥ concat (0 : Vec n) (lastUnit 2))
      = headN (w - NormedSpace.exp (augSpec X b1 b2) *ᵥ concat (0 : Vec n) (lastUnit 2)) := rfl
  simp only
  rw [e]
  refine (norm_headN_le _).trans (key.trans ?_)
  have hp1 : 1 ≤ (1 + ε) ^ ds.length := one_le_pow₀ (by linarith)
  have hp2 : (1 + ε) ^ ds.length ≤ (1 + ε) ^ N := pow_le_pow_right₀ (by linarith) hlen
  have h3 : 0 ≤ Real.exp ρ * ((1 + ε) ^ ds.length - 1) := mul_nonneg (Real.exp_pos _).le (by linarith)
  calc _ ≤ Real.exp ρ * ((1 + ε) ^ ds.length - 1) * 1 := mul_le_mul_of_nonneg_left norm_concat_lastUnit h3
    _ ≤ _ := by
      rw [mul_one]
      exact mul_le_mul_of_nonneg_left (by linarith) (Real.exp_pos _).le

section
variable [EmptyCollection P]

/-- the returned value of the second-order real step in the exact limit, and the third-order one: see `Steps.lean` -/
theorem ros_eq (J : Mat n) (y F c : Vec n) (dt : ℝ) :
    y + (phiM 1 (dt • J) *ᵥ (dt • F) + phiM 2 (dt • J) *ᵥ (dt ^ 2 • c)) = rosEuler J y F c dt 1 := by
  unfold rosEuler
  rw [one_mul, one_pow, one_mul, Matrix.mulVec_smul, Matrix.mulVec_smul, add_assoc]

open scoped Matrix.Norms.Operator in
/-- **C97, `epi2_leja_re`.**  If the step returns, its Newton evaluations on the augmented matrix `Z` used some shift and scale
(those given by `leja_a` if it is set, estimated by power iteration otherwise); whenever the converged ones among these evaluations have relative error at most `ε`
and `|exp(d Z)| ≤ e^(d ρ)`, the new state is the exponential Rosenbrock value
`y + dt phi_1(dt J) f + dt^2 phi_2(dt J) f_t` up to `e^ρ ((1+ε)^1001 - 1)`, whatever the substep pattern. -/
theorem C97_re (o : LejaOpts) (sys : OdeSys n P) (s : ExpLeja n) {t : ℝ} {y : Vec n} (hb : At s.base t y)
    (hsub : 0 < s.substepSize) (hm : s.base.method = "epi2_leja_re") (dt : ℝ) (kw : Option P) (J : Mat n)
    (hJ : IsMatrix (sys.fjac (some (kw.getD ∅)) t y).toLinOp J) (r : StepResult (Vec n)) (s' : ExpLeja n)
    (h : ExpLeja.step o sys s dt kw = .ok (r, s')) :
    let F := (sys.fjac (some (kw.getD ∅)) t y).frhsCached
    let c := (sys.fjac (some (kw.getD ∅)) t y).fdt
    let Z := augSpec (dt • J) (dt • F) (dt ^ 2 • c)
    r.t = t + dt ∧ ∃ shift scale, StepShift o s.bk Z dt shift scale ∧
      ∀ ε ρ : ℝ, 0 ≤ ε → 0 ≤ ρ → (∀ d, 0 ≤ d → d ≤ 1 → ‖NormedSpace.exp (d • Z)‖ ≤ Real.exp (d * ρ)) →
        (∀ d w, 0 < d → d ≤ 1 → GoodEval (d • Z) w ε (realLejaExpmv (matrixLinOp Z) d w shift scale o.nLeja o.lejaX
          (o.ddRe o.nLeja o.lejaX shift scale) o.tol 1e10)) →
        ‖r.y - rosEuler J y F c dt 1‖ ≤ Real.exp ρ * ((1 + ε) ^ 1001 - 1) := by
  intro F c Z
  unfold ExpLeja.step at h
  simp only at h
  rw [if_pos hm] at h
  unfold stepEpiRe at h
  simp only at h
  rw [hb.yNew, hb.time] at h
  obtain ⟨y', hy', h⟩ := bind_ok h
  cases hy'
  obtain ⟨⟨op, v⟩, hav, h⟩ := bind_ok h
  obtain ⟨hop, rfl⟩ := augMatvec3_eq _ J hJ dt _ _ op v hav
  simp only at h
  have hfin : ∀ (shift scale : ℝ) (bk : Option (Vec (n + 2))), StepShift o s.bk Z dt shift scale →
      (expmvSubstep (realInner op o shift scale) (1.1 * s.substepSize) (concat 0 (lastUnit 2)) o.substep >>= fun q =>
        lejaFinish s bk y (headN q.1) dt q.2.2.1 q.2.2.2) = .ok (r, s') →
      r.t = t + dt ∧ ∃ shift scale, StepShift o s.bk Z dt shift scale ∧
      ∀ ε ρ : ℝ, 0 ≤ ε → 0 ≤ ρ → (∀ d, 0 ≤ d → d ≤ 1 → ‖NormedSpace.exp (d • Z)‖ ≤ Real.exp (d * ρ)) →
        (∀ d w, 0 < d → d ≤ 1 → GoodEval (d • Z) w ε (realLejaExpmv (matrixLinOp Z) d w shift scale o.nLeja o.lejaX
          (o.ddRe o.nLeja o.lejaX shift scale) o.tol 1e10)) →
        ‖r.y - rosEuler J y F c dt 1‖ ≤ Real.exp ρ * ((1 + ε) ^ 1001 - 1) := by
    intro shift scale bk hsh hh
    obtain ⟨q, hq, hl⟩ := bind_ok hh
    refine ⟨?_, shift, scale, hsh, fun ε ρ hε hρ hZ hg => ?_⟩
    · rw [(lejaFinish_ok hl).2.1, hb.time]
    · rw [← ros_eq]
      refine leja_tail s hsub (dt • J) (dt • F) (dt ^ 2 • c) (realInner op o shift scale) bk o.substep y dt q r s' hq hl ε ρ hε hρ hZ
        fun d w hd0 hd1 hconv => ?_
      have e : realInner op o shift scale d w = ((realLejaExpmv (matrixLinOp Z) d w shift scale o.nLeja o.lejaX
          (o.ddRe o.nLeja o.lejaX shift scale) o.tol 1e10).pm, (realLejaExpmv (matrixLinOp Z) d w shift scale o.nLeja o.lejaX
          (o.ddRe o.nLeja o.lejaX shift scale) o.tol 1e10).i, (realLejaExpmv (matrixLinOp Z) d w shift scale o.nLeja o.lejaX
          (o.ddRe o.nLeja o.lejaX shift scale) o.tol 1e10).conv) := by
        unfold realInner
        simp only
        rw [realLeja_congr hop (fun _ => rfl : IsMatrix (matrixLinOp Z) Z)]
      rw [e] at hconv ⊢
      exact hg d w hd0 hd1 hconv
  cases ha : o.lejaA with
  | none =>
    rw [ha] at h
    refine hfin _ _ _ ?_ h
    unfold StepShift
    rw [ha, lejaShiftScale_congr hop (fun _ => rfl : IsMatrix (matrixLinOp Z) Z)]
    exact ⟨rfl, rfl⟩
  | some a =>
    rw [ha] at h
    refine hfin _ _ _ ?_ h
    unfold StepShift
    rw [ha]
    exact ⟨rfl, rfl⟩

/-- nodes and evaluation of the conjugate-pair methods: zero padding in front, then the generated sequence -/
noncomputable def pairEval (o : LejaOpts) (q : LejaSeq) (Z : Mat (n + 2)) (d : ℝ) (w : Vec (n + 2)) : LejaState (n + 2) :=
  let x : ℕ → ℂ := if o.nZeros > 0 then lejaSeqPadZeros o.nZeros q.zt else q.zt
  complexConjLejaExpmv (matrixLinOp Z) d w q.shift q.scale (o.nZeros + o.nLeja) x (o.nZeros + q.nReal)
    (o.ddIm (o.nZeros + o.nLeja) x q.shift q.scale) o.tol 1e10

/-- **Specification.** `q` is a point sequence the step may use: the one generated for the given `leja_a`, `leja_c` (scaled by
`dt`) or, without `leja_a`, for the interval end estimated from the augmented matrix `Z` by power iteration (started from the
vector `bk` of the last step). -/
def StepNodes (o : LejaOpts) (bk : Option (Vec (n + 2))) (Z : Mat (n + 2)) (dt : ℝ) (q : LejaSeq) : Prop :=
  ∃ a, genLejaConjugate o.nLeja a 0 (match o.lejaC with | none => 0 | some c => c * dt) = .ok q ∧
    (match o.lejaA with
      | none => a = -|(lejaShiftScale (matrixLinOp Z) o.maxPowerIter bk (o.bRand (n + 2)) o.maxReEigScale).2.2.1|
      | some a' => a = a' * dt)

open scoped Matrix.Norms.Operator in
/-- both orders of `_step_epi_im` -/
theorem im_core (o : LejaOpts) (sys : OdeSys n P) (s : ExpLeja n) {t : ℝ} {y : Vec n} (hb : At s.base t y)
    (hsub : 0 < s.substepSize) (dt : ℝ) (kw : P) (J : Mat n)
    (hJ : IsMatrix (sys.fjac (some kw) t y).toLinOp J) (third : Bool) (tp : ℝ) (yp : Vec n)
    (hp : third = true → s.base.tHist.get 1 = .ok tp ∧ s.base.yHist.get 1 = .ok yp) (r : StepResult (Vec n)) (s' : ExpLeja n)
    (h : stepEpiIm o sys s dt kw third = .ok (r, s')) :
    let F := (sys.fjac (some kw) t y).frhsCached
    let c := (sys.fjac (some kw) t y).fdt
    let rn := sys.frhs none tp yp - F - J *ᵥ (yp - y) - (tp - t) • c
    let b2 := if third then (dt * (2 / 3)) • rn + dt ^ 2 • c else dt ^ 2 • c
    let Z := augSpec (dt • J) (dt • F) b2
    r.t = t + dt ∧ ∃ q, StepNodes o s.bk Z dt q ∧
      ∀ ε ρ : ℝ, 0 ≤ ε → 0 ≤ ρ → (∀ d, 0 ≤ d → d ≤ 1 → ‖NormedSpace.exp (d • Z)‖ ≤ Real.exp (d * ρ)) →
        (∀ d w, 0 < d → d ≤ 1 → GoodEval (d • Z) w ε (pairEval o q Z d w)) →
        ‖r.y - (y + (phiM 1 (dt • J) *ᵥ (dt • F) + phiM 2 (dt • J) *ᵥ b2))‖ ≤ Real.exp ρ * ((1 + ε) ^ 1001 - 1) := by
  intro F c rn b2 Z
  unfold stepEpiIm at h
  simp only at h
  rw [hb.yNew, hb.time] at h
  obtain ⟨y', hy', h⟩ := bind_ok h
  cases hy'
  have htail : ∀ b : Vec n, b = b2 →
      (buildATilde3 (sys.fjac (some kw) t y).toLinOp dt 0 (dt • F) b >>= fun p => (do
          let (aT, v) := p
          let (lejaA, bk) := match o.lejaA with
            | none =>
              let r := lejaShiftScale aT o.maxPowerIter s.bk (o.bRand (n + 2)) o.maxReEigScale
              (-|r.2.2.1|, some r.2.2.2.1)
            | some a => (a * dt, s.bk)
          let lejaC := match o.lejaC with
            | none => 0
            | some c => c * dt
          let q ← genLejaConjugate o.nLeja lejaA 0 lejaC
          let (w, _iters, conv, maxTau) ← expmvSubstep (complexInner aT o q) (1.1 * s.substepSize) v o.substep
          lejaFinish s bk y (headN w) dt conv maxTau)) = .ok (r, s') →
      r.t = t + dt ∧ ∃ q, StepNodes o s.bk Z dt q ∧
      ∀ ε ρ : ℝ, 0 ≤ ε → 0 ≤ ρ → (∀ d, 0 ≤ d → d ≤ 1 → ‖NormedSpace.exp (d • Z)‖ ≤ Real.exp (d * ρ)) →
        (∀ d w, 0 < d → d ≤ 1 → GoodEval (d • Z) w ε (pairEval o q Z d w)) →
        ‖r.y - (y + (phiM 1 (dt • J) *ᵥ (dt • F) + phiM 2 (dt • J) *ᵥ b2))‖ ≤ Real.exp ρ * ((1 + ε) ^ 1001 - 1) := by
    rintro b rfl hh
    obtain ⟨⟨op, v⟩, hav, hh⟩ := bind_ok hh
    obtain ⟨hop, rfl⟩ := augMatvec3_eq _ J hJ dt _ _ op v hav
    simp only at hh
    have hfin : ∀ (a : ℝ) (bk : Option (Vec (n + 2))), (match o.lejaA with
        | none => a = -|(lejaShiftScale (matrixLinOp Z) o.maxPowerIter s.bk (o.bRand (n + 2)) o.maxReEigScale).2.2.1|
        | some a' => a = a' * dt) →
        (genLejaConjugate o.nLeja a 0 (match o.lejaC with | none => 0 | some c => c * dt) >>= fun q =>
          expmvSubstep (complexInner op o q) (1.1 * s.substepSize) (concat 0 (lastUnit 2)) o.substep >>= fun q =>
          lejaFinish s bk y (headN q.1) dt q.2.2.1 q.2.2.2) = .ok (r, s') →
        r.t = t + dt ∧ ∃ q, StepNodes o s.bk Z dt q ∧
        ∀ ε ρ : ℝ, 0 ≤ ε → 0 ≤ ρ → (∀ d, 0 ≤ d → d ≤ 1 → ‖NormedSpace.exp (d • Z)‖ ≤ Real.exp (d * ρ)) →
          (∀ d w, 0 < d → d ≤ 1 → GoodEval (d • Z) w ε (pairEval o q Z d w)) →
          ‖r.y - (y + (phiM 1 (dt • J) *ᵥ (dt • F) + phiM 2 (dt • J) *ᵥ b2))‖ ≤ Real.exp ρ * ((1 + ε) ^ 1001 - 1) := by
      intro a bk ha hh
      obtain ⟨q, hq, hh⟩ := bind_ok hh
      obtain ⟨z, hz, hl⟩ := bind_ok hh
      refine ⟨?_, q, ⟨a, hq, ha⟩, fun ε ρ hε hρ hZ hg => ?_⟩
      · rw [(lejaFinish_ok hl).2.1, hb.time]
      · refine leja_tail s hsub (dt • J) (dt • F) b2 (complexInner op o q) bk o.substep y dt z r s' hz hl ε ρ hε hρ hZ
          fun d w hd0 hd1 hconv => ?_
        have e : complexInner op o q d w = ((pairEval o q Z d w).pm, (pairEval o q Z d w).i, (pairEval o q Z d w).conv) := by
          unfold complexInner pairEval
          simp only
          rw [complexLeja_congr hop (fun _ => rfl : IsMatrix (matrixLinOp Z) Z)]
        rw [e] at hconv ⊢
        exact hg d w hd0 hd1 hconv
    cases ha : o.lejaA with
    | none =>
      rw [ha] at hh
      exact hfin _ _ (by rw [ha, lejaShiftScale_congr hop (fun _ => rfl : IsMatrix (matrixLinOp Z) Z)]) hh
    | some a =>
      rw [ha] at hh
      exact hfin _ _ (by rw [ha]) hh
  cases third with
  | false => exact htail _ (by simp [b2, c]) h
  | true =>
    obtain ⟨htp, hyp⟩ := hp rfl
    simp only [if_true] at h
    rw [hyp, htp] at h
    obtain ⟨yp', hy', h⟩ := bind_ok h
    cases hy'
    obtain ⟨tp', ht', h⟩ := bind_ok h
    cases ht'
    rw [remf_closed sys hb _ _ _ _ J hJ] at h
    obtain ⟨rn', hr', h⟩ := bind_ok h
    cases hr'
    exact htail _ (by simp [b2, rn, c, F]) h

open scoped Matrix.Norms.Operator in
/-- **C97, `epi2_leja_im`** (and `epi3_leja_im` before it has two states): the same with conjugate-pair nodes. -/
theorem C97_im2 (o : LejaOpts) (sys : OdeSys n P) (s : ExpLeja n) {t : ℝ} {y : Vec n} (hb : At s.base t y)
    (hsub : 0 < s.substepSize)
    (hm : s.base.method = "epi2_leja_im" ∨ s.base.method = "epi3_leja_im" ∧ s.base.yHist.len < 2) (dt : ℝ) (kw : Option P) (J : Mat n)
    (hJ : IsMatrix (sys.fjac (some (kw.getD ∅)) t y).toLinOp J) (r : StepResult (Vec n)) (s' : ExpLeja n)
    (h : ExpLeja.step o sys s dt kw = .ok (r, s')) :
    let F := (sys.fjac (some (kw.getD ∅)) t y).frhsCached
    let c := (sys.fjac (some (kw.getD ∅)) t y).fdt
    let Z := augSpec (dt • J) (dt • F) (dt ^ 2 • c)
    r.t = t + dt ∧ ∃ q, StepNodes o s.bk Z dt q ∧
      ∀ ε ρ : ℝ, 0 ≤ ε → 0 ≤ ρ → (∀ d, 0 ≤ d → d ≤ 1 → ‖NormedSpace.exp (d • Z)‖ ≤ Real.exp (d * ρ)) →
        (∀ d w, 0 < d → d ≤ 1 → GoodEval (d • Z) w ε (pairEval o q Z d w)) →
        ‖r.y - rosEuler J y F c dt 1‖ ≤ Real.exp ρ * ((1 + ε) ^ 1001 - 1) := by
  intro F c Z
  rw [← ros_eq]
  have h' : stepEpiIm o sys s dt (kw.getD ∅) false = .ok (r, s') := by
    unfold ExpLeja.step at h
    simp only at h
    rcases hm with hm | ⟨hm, hl⟩
    · rw [hm, if_neg (by decide), if_pos rfl] at h
      exact h
    · rw [hm, if_neg (by decide), if_neg (by decide), if_pos rfl, if_neg (by omega)] at h
      exact h
  exact im_core o sys s hb hsub dt _ J hJ false 0 0 (fun h => by cases h) r s' h'

open scoped Matrix.Norms.Operator in
/-- **C97, `epi3_leja_im`** with at least two states: the value of the two-step `epi3` formula. -/
theorem C97_im3 (o : LejaOpts) (sys : OdeSys n P) (s : ExpLeja n) {t : ℝ} {y : Vec n} (hb : At s.base t y)
    (hsub : 0 < s.substepSize) (hm : s.base.method = "epi3_leja_im") (hl : 2 ≤ s.base.yHist.len) (tp : ℝ) (yp : Vec n)
    (htp : s.base.tHist.get 1 = .ok tp) (hyp : s.base.yHist.get 1 = .ok yp) (dt : ℝ) (kw : Option P) (J : Mat n)
    (hJ : IsMatrix (sys.fjac (some (kw.getD ∅)) t y).toLinOp J) (r : StepResult (Vec n)) (s' : ExpLeja n)
    (h : ExpLeja.step o sys s dt kw = .ok (r, s')) :
    let F := (sys.fjac (some (kw.getD ∅)) t y).frhsCached
    let c := (sys.fjac (some (kw.getD ∅)) t y).fdt
    let rn := sys.frhs none tp yp - F - J *ᵥ (yp - y) - (tp - t) • c
    let Z := augSpec (dt • J) (dt • F) ((dt * (2 / 3)) • rn + dt ^ 2 • c)
    r.t = t + dt ∧ ∃ q, StepNodes o s.bk Z dt q ∧
      ∀ ε ρ : ℝ, 0 ≤ ε → 0 ≤ ρ → (∀ d, 0 ≤ d → d ≤ 1 → ‖NormedSpace.exp (d • Z)‖ ≤ Real.exp (d * ρ)) →
        (∀ d w, 0 < d → d ≤ 1 → GoodEval (d • Z) w ε (pairEval o q Z d w)) →
        ‖r.y - (rosEuler J y F c dt 1 + (dt * (2 / 3)) • (phiM 2 (dt • J) *ᵥ rn))‖ ≤ Real.exp ρ * ((1 + ε) ^ 1001 - 1) := by
  intro F c rn Z
  have h' : stepEpiIm o sys s dt (kw.getD ∅) true = .ok (r, s') := by
    unfold ExpLeja.step at h
    simp only at h
    rw [hm, if_neg (by decide), if_neg (by decide), if_pos rfl, if_pos (by omega)] at h
    exact h
  have e : rosEuler J y F c dt 1 + (dt * (2 / 3)) • (phiM 2 (dt • J) *ᵥ rn)
      = y + (phiM 1 (dt • J) *ᵥ (dt • F) + phiM 2 (dt • J) *ᵥ ((dt * (2 / 3)) • rn + dt ^ 2 • c)) := by
    rw [← ros_eq, Matrix.mulVec_add, Matrix.mulVec_smul _ (dt * (2 / 3)) rn]
    abel
  rw [e]
  exact im_core o sys s hb hsub dt _ J hJ true tp yp (fun _ => ⟨htp, hyp⟩) r s' h'

end
end Ormatex.Props
