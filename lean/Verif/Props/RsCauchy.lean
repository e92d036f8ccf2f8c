import Verif.Model.RsKernels
import Verif.Props.Pfd
import Verif.Props.PhiExt
import Verif.Props.RsHistory
import Mathlib.LinearAlgebra.Matrix.Charpoly.Eigs
import Mathlib.LinearAlgebra.Matrix.ToLinearEquiv
import Mathlib.LinearAlgebra.Matrix.Block

/-!
C82, C83, C87: contour (partial-fraction) products of the Rust crate.
-/

namespace Ormatex.Props
open Matrix Ormatex.Spec Ormatex.Rs

section
variable {N : ℕ}

/-! ### schedules -/

/-- A reduction with `+` does not depend on how the items are split. -/
theorem reduce_add {α β : Type*} [AddCommMonoid β] (f : α → β) (sp : Split α) :
    (sp.map f).reduce (· + ·) = (sp.items.map f).sum := by
  induction sp with
  | leaf x => simp [Split.map, Split.reduce, Split.items]
  | node l r ihl ihr => simp [Split.map, Split.reduce, Split.items, ihl, ihr]

theorem reduce_valid {β : Type*} [AddCommMonoid β] (f : ℕ → β) {s : ℕ} {t : Split ℕ} (h : ValidSplit s (some t)) :
    (t.map f).reduce (· + ·) = ∑ k ∈ Finset.range s, f k := by
  rw [reduce_add, (List.Perm.map f h).sum_eq]
  rfl

/-- the same with exact arithmetic -/
theorem list_range_sum {β : Type*} [AddCommMonoid β] (f : ℕ → β) (s : ℕ) :
    ((List.range s).map f).sum = ∑ k ∈ Finset.range s, f k := rfl

/-- **C82 (schedules).**  All three parallel reductions return the same value for every way in which the work is split. -/
theorem C82_schedule (c : Cauchy) (a : Mat N) (dt : ℝ) (v : Vec N) (l : ℕ) (sp sp' : Option (Split ℕ))
    (h : ValidSplit c.theta.length sp) (h' : ValidSplit c.theta.length sp') :
    c.phikApply a dt v l sp = c.phikApply a dt v l sp' ∧ c.expApply a dt v sp = c.expApply a dt v sp' ∧
      c.matexpDense a dt sp = c.matexpDense a dt sp' := by
  match sp, sp', h, h' with
  | none, none, _, _ => exact ⟨rfl, rfl, rfl⟩
  | none, some t, h, h' =>
    exfalso
    have h0 : c.theta.length = 0 := h
    rw [h0] at h'
    have : t.items.Perm [] := h'
    have : t.items = [] := List.perm_nil.1 this
    cases t with
    | leaf => simp [Split.items] at this
    | node l r =>
      have hl : ∀ t : Split ℕ, t.items ≠ [] := by
        intro t
        induction t with
        | leaf => simp [Split.items]
        | node l r ih _ => simp [Split.items, ih]
      exact hl _ this
  | some t, none, h, h' =>
    exfalso
    have h0 : c.theta.length = 0 := h'
    rw [h0] at h
    have : t.items = [] := List.perm_nil.1 h
    have hl : ∀ t : Split ℕ, t.items ≠ [] := by
      intro t
      induction t with
      | leaf => simp [Split.items]
      | node l r ih _ => simp [Split.items, ih]
    exact hl _ this
  | some t, some t', h, h' =>
    refine ⟨?_, ?_, ?_⟩
    · simp only [Cauchy.phikApply, reduce_valid _ h, reduce_valid _ h']
    · simp only [Cauchy.expApply, reduce_valid _ h, reduce_valid _ h']
    · simp only [Cauchy.matexpDense, reduce_valid _ h, reduce_valid _ h']

/-! ### values -/

theorem complexMatScale_eq (a : Mat N) (dt : ℝ) : complexMatScale a dt = (dt • a).map (algebraMap ℝ ℂ) := by
  ext i j
  simp [complexMatScale, mul_comm]

theorem inv_smul_field (z : ℂ) (M : Matrix (Fin N) (Fin N) ℂ) : (z • M)⁻¹ = z⁻¹ • M⁻¹ := by
  by_cases hz : z = 0
  · subst hz
    rcases Nat.eq_zero_or_pos N with h | h
    · subst h; exact Subsingleton.elim _ _
    · have : Nonempty (Fin N) := ⟨⟨0, h⟩⟩
      simp
  · by_cases hM : IsUnit M.det
    · let := invertibleOfNonzero hz
      rw [Matrix.inv_smul _ z hM, invOf_eq_inv]
    · rw [Matrix.nonsing_inv_apply_not_isUnit M hM, smul_zero, Matrix.nonsing_inv_apply_not_isUnit]
      rw [Matrix.det_smul]
      intro h
      exact hM (isUnit_of_mul_isUnit_right h)

theorem applyTerm_eq (c : Cauchy) (a : Mat N) (dt : ℝ) (v : Vec N) (l k : ℕ) (i : Fin N) :
    2 * (c.applyTerm a dt v l k i).re = pfdTerm (dt • a) v l (c.theta.getD k 0) (c.alpha.getD k 0) i := by
  unfold Cauchy.applyTerm pfdTerm
  rw [inv_smul_field, complexMatScale_eq, Matrix.smul_mulVec,
    show (fun i => c.alpha.getD k 0 * (v i : ℂ)) = c.alpha.getD k 0 • fun i => (v i : ℂ) from rfl, Matrix.mulVec_smul]
  set w := (((dt • a).map (algebraMap ℝ ℂ) - c.theta.getD k 0 • (1 : Matrix (Fin N) (Fin N) ℂ))⁻¹ *ᵥ fun i => (v i : ℂ)) i
    with hw
  show 2 * ((c.theta.getD k 0 ^ l)⁻¹ * (c.alpha.getD k 0 * w)).re = _
  rw [show 2 * c.alpha.getD k 0 / c.theta.getD k 0 ^ l * w
    = ((2 : ℝ) : ℂ) * ((c.theta.getD k 0 ^ l)⁻¹ * (c.alpha.getD k 0 * w)) by push_cast; ring, Complex.re_ofReal_mul]

theorem zip_sum {β : Type*} [AddCommMonoid β] (p q : List ℂ) (h : p.length = q.length) (f : ℂ → ℂ → β) :
    ((p.zip q).map fun pc => f pc.1 pc.2).sum = ∑ k ∈ Finset.range p.length, f (p.getD k 0) (q.getD k 0) := by
  induction p generalizing q with
  | nil => simp
  | cons x p ih =>
    cases q with
    | nil => simp at h
    | cons y q =>
      rw [List.zip_cons_cons, List.map_cons, List.sum_cons, ih q (by simpa using h), List.length_cons,
        Finset.sum_range_succ']
      simp only [List.getD_cons_zero, List.getD_cons_succ]
      rw [add_comm]

/-- **C82 (value).**  For every table accepted by the constructor with at least one pole and every schedule,
`phik_dense_apply_cauchy` returns what the Python `f_phi_k_pfd` returns with the same table, plus `alpha_0 v` when `k ≥ 1`. -/
theorem C82_value (theta alpha : List ℂ) (alpha0 : ℂ) (c : Cauchy) (hc : Cauchy.new theta alpha alpha0 = .ok c)
    (hpos : theta ≠ []) (a : Mat N) (dt : ℝ) (v : Vec N) (l : ℕ) (sp : Option (Split ℕ))
    (hsp : ValidSplit theta.length sp) :
    c.phikApply a dt v l sp
      = .ok (fPhiKPfd ⟨theta, alpha, alpha0.re⟩ (dt • a) v l + if l = 0 then 0 else alpha0.re • v) := by
  unfold Cauchy.new at hc
  split_ifs at hc with hlen
  push Not at hlen
  cases hc
  match sp, hsp with
  | none, h => exact absurd (List.length_eq_zero_iff.1 h) hpos
  | some t, h =>
    simp only [Cauchy.phikApply, reduce_valid _ h]
    congr 1
    funext i
    rw [pfd_eq, zip_sum theta alpha hlen (fun p q => pfdTerm (dt • a) v l p q)]
    simp only [Finset.sum_apply, Complex.re_sum, Finset.mul_sum, applyTerm_eq, Pi.add_apply]
    split_ifs
    · simp; ring
    · simp

/-- **C82 (order zero).**  The two routines for the exponential applied to a vector agree with each other and with the matrix
routine. -/
theorem C82_exp (c : Cauchy) (a : Mat N) (dt : ℝ) (v : Vec N) (sp : Option (Split ℕ)) :
    c.expApply a dt v sp = c.phikApply a dt v 0 sp ∧
      c.expApply a dt v sp = (c.matexpDense a dt sp).map (fun E => E *ᵥ v) := by
  match sp with
  | none => exact ⟨rfl, rfl⟩
  | some t =>
    constructor
    · simp only [Cauchy.expApply, Cauchy.phikApply]
      congr 3
      funext k
      unfold Cauchy.expApplyTerm Cauchy.applyTerm
      simp
    · simp only [Cauchy.expApply, Cauchy.matexpDense, Except.map]
      congr 1
      rw [reduce_add, reduce_add]
      have hsum : ∀ l : List ℕ, (l.map (c.expApplyTerm a dt v)).sum = (l.map (c.expTerm a dt)).sum *ᵥ fun i => (v i : ℂ) := by
        intro l
        induction l with
        | nil => simp
        | cons x l ih =>
          rw [List.map_cons, List.sum_cons, List.map_cons, List.sum_cons, ih, Matrix.add_mulVec]
          congr 1
          unfold Cauchy.expApplyTerm Cauchy.expTerm
          rw [show (fun i => c.alpha.getD x 0 * (v i : ℂ)) = c.alpha.getD x 0 • fun i => (v i : ℂ) from rfl,
            Matrix.mulVec_smul, Matrix.smul_mulVec]
      rw [hsum]
      set E := (t.items.map (c.expTerm a dt)).sum
      funext i
      rw [Matrix.add_mulVec, Matrix.smul_mulVec, Matrix.smul_mulVec]
      have e1 : realMat (1 : Matrix (Fin N) (Fin N) ℂ) = 1 := by
        ext i j
        simp [realMat, Matrix.one_apply, apply_ite]
      have e2 : ((E *ᵥ fun i => (v i : ℂ)) i).re = (realMat E *ᵥ v) i := by
        simp [Matrix.mulVec, dotProduct, realMat]
      rw [e1, Matrix.one_mulVec, e2]
      rfl

/-! ### nonsingular solves -/

/-- Specification: all eigenvalues of the real matrix `a` are real. -/
def RealSpectrum (a : Mat N) : Prop :=
  ∀ (lam : ℂ) (w : Fin N → ℂ), w ≠ 0 → a.map (algebraMap ℝ ℂ) *ᵥ w = lam • w → lam.im = 0

theorem real_spectrum_pole {a : Mat N} (ha : RealSpectrum a) (dt : ℝ) (p : ℂ) (hp : p.im ≠ 0) :
    IsUnit (complexMatScale a dt - p • (1 : Matrix (Fin N) (Fin N) ℂ)).det := by
  rw [isUnit_iff_ne_zero]
  intro h
  obtain ⟨w, hw, hz⟩ := Matrix.exists_mulVec_eq_zero_iff.2 h
  rw [Matrix.sub_mulVec, Matrix.smul_mulVec, Matrix.one_mulVec, sub_eq_zero] at hz
  have e : complexMatScale a dt = (dt : ℂ) • a.map (algebraMap ℝ ℂ) := by
    ext i j
    simp [complexMatScale, mul_comm]
  rw [e, Matrix.smul_mulVec] at hz
  by_cases hd : dt = 0
  · subst hd
    rw [Complex.ofReal_zero, zero_smul] at hz
    rcases smul_eq_zero.1 hz.symm with h0 | h0
    · rw [h0] at hp; exact hp rfl
    · exact hw h0
  · have hd' : (dt : ℂ) ≠ 0 := by exact_mod_cast hd
    have h2 : a.map (algebraMap ℝ ℂ) *ᵥ w = (p / dt) • w := by
      rw [div_eq_inv_mul, mul_smul, ← hz, smul_smul, inv_mul_cancel₀ hd', one_smul]
    have h3 := ha _ w hw h2
    rw [Complex.div_ofReal_im] at h3
    rcases div_eq_zero_iff.1 h3 with h | h
    · exact hp h
    · exact hd h

/-- symmetric matrices (diffusion operators) have a real spectrum -/
theorem realSpectrum_symm {a : Mat N} (ha : aᵀ = a) : RealSpectrum a := by
  intro lam w hw h
  set S : ℂ := ∑ i, ∑ j, (starRingEnd ℂ) (w i) * ((a i j : ℂ) * w j) with hS
  set W : ℝ := ∑ i, Complex.normSq (w i) with hW
  have h1 : S = lam * (W : ℂ) := by
    have : ∀ i, ∑ j, (a i j : ℂ) * w j = lam * w i := fun i => by
      have := congrFun h i
      simpa [Matrix.mulVec, dotProduct] using this
    rw [hS, hW, Complex.ofReal_sum, Finset.mul_sum]
    refine Finset.sum_congr rfl fun i _ => ?_
    rw [← Finset.mul_sum, this i, Complex.normSq_eq_conj_mul_self]
    ring
  have h2 : (starRingEnd ℂ) S = S := by
    rw [hS, map_sum]
    simp only [map_sum, map_mul, Complex.conj_conj, Complex.conj_ofReal]
    rw [Finset.sum_comm]
    refine Finset.sum_congr rfl fun i _ => Finset.sum_congr rfl fun j _ => ?_
    have : a j i = a i j := congrFun (congrFun ha i) j
    rw [this]
    ring
  have h4 : W ≠ 0 := by
    intro h0
    apply hw
    funext i
    have := (Finset.sum_eq_zero_iff_of_nonneg (fun i _ => Complex.normSq_nonneg (w i))).1 h0 i (Finset.mem_univ i)
    exact Complex.normSq_eq_zero.1 this
  have h5 := Complex.conj_eq_iff_im.1 h2
  rw [h1, Complex.im_mul_ofReal] at h5
  exact (mul_eq_zero.1 h5).resolve_right h4

/-- lower triangular matrices (decay chains) have a real spectrum -/
theorem realSpectrum_lower {a : Mat N} (ha : ∀ i j, i < j → a i j = 0) : RealSpectrum a := by
  intro lam w hw h
  have hdet : (a.map (algebraMap ℝ ℂ) - lam • (1 : Matrix (Fin N) (Fin N) ℂ)).det = 0 := by
    refine Matrix.exists_mulVec_eq_zero_iff.1 ⟨w, hw, ?_⟩
    rw [Matrix.sub_mulVec, Matrix.smul_mulVec, Matrix.one_mulVec, h, sub_self]
  rw [Matrix.det_of_isLowerTriangular] at hdet
  · obtain ⟨i, _, hi⟩ := Finset.prod_eq_zero_iff.1 hdet
    simp only [Matrix.sub_apply, Matrix.map_apply, Matrix.smul_apply, Matrix.one_apply_eq, smul_eq_mul, mul_one,
      sub_eq_zero] at hi
    rw [← hi]
    simp
  · intro i j hij
    have hij' : i < j := by simpa using hij
    simp only [Matrix.sub_apply, Matrix.map_apply, Matrix.smul_apply, Matrix.one_apply_ne hij'.ne, ha i j hij']
    simp

/-- **C87.**  Both tables the crate can build have only poles off the real axis, so for a matrix with real eigenvalues every
linear solve of the products, for every order, every step and every pole, has exactly one solution. -/
theorem C87_solvable (c : Cauchy) (hc : (∃ order, genCram order = .ok c) ∨ ∃ order, genParabolic order = .ok c)
    {a : Mat N} (ha : RealSpectrum a) (dt : ℝ) (l k : ℕ) (hk : k < c.theta.length) :
    c.theta.getD k 0 ≠ 0 ∧ IsUnit (c.theta.getD k 0 ^ l •
      (complexMatScale a dt - c.theta.getD k 0 • (1 : Matrix (Fin N) (Fin N) ℂ))).det := by
  have him : ∀ p ∈ c.theta, p.im ≠ 0 := by
    rcases hc with ⟨order, h⟩ | ⟨order, h⟩
    · unfold genCram at h
      split at h
      · unfold Cauchy.new at h
        rw [if_neg (by simp)] at h
        cases h
        intro p hp
        simp only [List.mem_cons, List.not_mem_nil, or_false] at hp
        rcases hp with h | h | h | h | h | h | h | h <;> rw [h] <;> norm_num [c64]
      · cases h
    · unfold genParabolic at h
      split_ifs at h with he
      unfold Cauchy.new at h
      rw [if_neg (by simp)] at h
      cases h
      intro p hp
      obtain ⟨i, hi, rfl⟩ := List.mem_map.1 hp
      have hi' := List.mem_range.1 hi
      have ho : 0 < order := by omega
      have hx : 0 < Real.pi * ((2 * i + 1 : ℕ) : ℝ) / (order : ℝ) := by positivity
      beta_reduce
      generalize Real.pi * ((2 * i + 1 : ℕ) : ℝ) / (order : ℝ) = x at hx ⊢
      have ho' : (0 : ℝ) < order := by exact_mod_cast ho
      have e : ((order : ℂ) * (0.1309 - 0.1194 * (x : ℂ) ^ 2 + 0.25 * (x : ℂ) * Complex.I))
          = ((order * (0.1309 - 0.1194 * x ^ 2) : ℝ) : ℂ) + ((order * (0.25 * x) : ℝ) : ℂ) * Complex.I := by
        push_cast
        ring
      rw [e]
      simp only [Complex.add_im, Complex.ofReal_im, Complex.mul_im, Complex.ofReal_re, Complex.I_im, Complex.I_re, mul_one,
        mul_zero, zero_add, add_zero]
      positivity
  have hmem : c.theta.getD k 0 ∈ c.theta := by
    simp only [List.getD, List.getElem?_eq_getElem hk, Option.getD_some]
    exact List.getElem_mem hk
  have h1 := him _ hmem
  have h0 : c.theta.getD k 0 ≠ 0 := by
    intro h
    rw [h] at h1
    exact h1 rfl
  refine ⟨h0, ?_⟩
  rw [Matrix.det_smul]
  exact (IsUnit.pow _ (IsUnit.pow _ (isUnit_iff_ne_zero.2 h0))).mul (real_spectrum_pole ha dt _ h1)

/-! ### phik_dense_cauchy -/

/-- Specification: an exact exponential `exp(dt a)` in place of `matexp_dense_cauchy`. -/
def ExactExp (mexp : ∀ m, Mat m → ℝ → RsM (Mat m)) : Prop :=
  ∀ m (a : Mat m) dt, mexp m a dt = .ok (NormedSpace.exp (dt • a))

theorem cauchyExt_pow_z (z B : Mat N) (i : Fin N) (hi : (i : ℕ) < N * 2) (j : ℕ) :
    ∀ (x : Fin N) (hx : (x : ℕ) < N * 2), (cauchyExt z B ^ j) ⟨i, hi⟩ ⟨x, hx⟩ = (z ^ j) i x := by
  induction j with
  | zero =>
    intro x hx
    simp [Matrix.one_apply, Fin.ext_iff]
  | succ j ih =>
    intro x hx
    rw [pow_succ, Matrix.mul_apply]
    rw [sum_first (by omega : N ≤ N * 2) _ (fun y hy => by
      rw [cauchyExt, Matrix.of_apply, dif_neg (by omega), mul_zero])]
    rw [pow_succ, Matrix.mul_apply]
    refine Finset.sum_congr rfl fun y _ => ?_
    rw [ih y]
    simp [cauchyExt]

theorem cauchyExt_pow_B (z B : Mat N) (i : Fin N) (hi : (i : ℕ) < N * 2) (j : ℕ) (x : Fin N) (hx : N + (x : ℕ) < N * 2) :
    (cauchyExt z B ^ j) ⟨i, hi⟩ ⟨N + x, hx⟩ = if j < 1 then 0 else (z ^ (j - 1) * B) i x := by
  cases j with
  | zero =>
    have := i.2
    rw [pow_zero, Matrix.one_apply, if_neg (by rw [Fin.mk.injEq]; omega), if_pos (by omega)]
  | succ j =>
    rw [pow_succ, Matrix.mul_apply]
    rw [sum_first (by omega : N ≤ N * 2) _ (fun y hy => by
      rw [cauchyExt, Matrix.of_apply, dif_neg (by omega), mul_zero])]
    rw [if_neg (by omega), Matrix.mul_apply]
    refine Finset.sum_congr rfl fun y _ => ?_
    rw [cauchyExt_pow_z z B i hi j y]
    simp [cauchyExt]

theorem cauchyExt_smul (a B : Mat N) (dt : ℝ) : dt • cauchyExt a B = cauchyExt (dt • a) (dt • B) := by
  ext i j
  simp only [cauchyExt, Matrix.smul_apply, Matrix.of_apply]
  split_ifs <;> simp

/-- **C83, the part that holds.**  With an exact exponential `phik_dense_cauchy(a, dt, 0)` is `exp(dt a)`, larger orders than
one are refused, and the value for order one is `dt phi_1(dt a)`: correct exactly for `dt = 1`. -/
theorem C83_partial {mexp : ∀ m, Mat m → ℝ → RsM (Mat m)} (h : ExactExp mexp) (a : Mat N) (dt : ℝ) :
    phikDenseCauchy mexp a dt 0 = .ok (phiM 0 (dt • a)) ∧
    phikDenseCauchy mexp a dt 1 = .ok (dt • phiM 1 (dt • a)) ∧
    ∀ k, 2 ≤ k → phikDenseCauchy mexp a dt k = .error .panic := by
  refine ⟨?_, ?_, fun k hk => ?_⟩
  · rw [phiM_zero]
    exact h N a dt
  · show cauchyPhiExt mexp (matPow a 1) (matPow a 0) dt = _
    unfold cauchyPhiExt
    rw [h, cauchyExt_smul]
    show Except.ok _ = _
    congr 1
    ext i j
    rw [Matrix.of_apply, exp_block _ (dt • matPow a 1) (dt • matPow a 0) 1 _ _ i j
      (fun m => cauchyExt_pow_B _ _ i _ m j _)]
    simp [matPow]
  · unfold phikDenseCauchy
    rw [if_neg (by omega)]

/-- **C83 is false.**  With an exact exponential `phik_dense_cauchy` is wrong for every step other than one already on the
zero matrix: `phi_1(0) = 1`, but the result is `dt`. -/
theorem C83_false {mexp : ∀ m, Mat m → ℝ → RsM (Mat m)} (h : ExactExp mexp) (dt : ℝ) (hdt : dt ≠ 1) :
    ∃ a : Mat 1, phikDenseCauchy mexp a dt 1 ≠ .ok (phiM 1 (dt • a)) := by
  refine ⟨0, fun hc => hdt ?_⟩
  rw [(C83_partial h 0 dt).2.1] at hc
  have := congrFun (congrFun (Except.ok.inj hc) 0) 0
  rw [smul_zero, phiM_at_zero] at this
  simpa using this

/-! ### non-vacuity -/

example : ExactExp (fun _ a dt => .ok (NormedSpace.exp (dt • a))) := fun _ _ _ => rfl

/-- Two schedules over three poles. -/
example : ValidSplit 3 (some (.node (.leaf 0) (.node (.leaf 1) (.leaf 2)))) ∧
    ValidSplit 3 (some (.node (.node (.leaf 0) (.leaf 1)) (.leaf 2))) := by
  constructor <;> exact List.Perm.refl _

/-- **C87, which tables exist.**  `gen_cram_expm` builds a table for order 16 only (eight poles, eight weights);
`gen_parabolic_expm` builds one exactly for even orders, with `order / 2` poles and weights. -/
theorem C87_available (order : ℕ) :
    ((∃ c, genCram order = .ok c) ↔ order = 16) ∧
    (∀ c, genCram order = .ok c → c.theta.length = 8 ∧ c.alpha.length = 8) ∧
    ((∃ c, genParabolic order = .ok c) ↔ Even order) ∧
    (∀ c, genParabolic order = .ok c → c.theta.length = order / 2 ∧ c.alpha.length = order / 2) := by
  refine ⟨⟨?_, ?_⟩, ?_, ⟨?_, ?_⟩, ?_⟩
  · rintro ⟨c, h⟩
    unfold genCram at h
    split at h
    · rfl
    · cases h
  · rintro rfl
    exact ⟨_, rfl⟩
  · intro c h
    unfold genCram at h
    split at h
    · cases h; exact ⟨rfl, rfl⟩
    · cases h
  · rintro ⟨c, h⟩
    unfold genParabolic at h
    split at h
    · rename_i he; exact Nat.even_iff.2 he
    · cases h
  · intro he
    unfold genParabolic Cauchy.new
    rw [if_pos (Nat.even_iff.1 he), if_neg (by simp)]
    exact ⟨_, rfl⟩
  · intro c h
    unfold genParabolic Cauchy.new at h
    split at h
    · rw [if_neg (by simp)] at h
      cases h
      constructor <;> simp
    · cases h

/-- The crate's table of order 16 is accepted and has eight poles. -/
example : ∃ c, genCram 16 = .ok c ∧ c.theta.length = 8 := ⟨_, rfl, rfl⟩

/-- A parabolic table. -/
example : ∃ c, genParabolic 4 = .ok c ∧ c.theta.length = 2 :=
  ⟨_, by unfold genParabolic Cauchy.new; rw [if_pos (by norm_num), if_neg (by simp)], by simp⟩

/-- A decay chain. -/
example : RealSpectrum (!![-1, 0; 1, -2] : Mat 2) := by
  refine realSpectrum_lower fun i j h => ?_
  fin_cases i <;> fin_cases j <;> first | rfl | (exact absurd h (by decide))

end
end Ormatex.Props
