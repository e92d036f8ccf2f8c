import Verif.Props.Arnoldi
import Verif.Props.LinOps
import Verif.Props.PhiAcc
import Verif.Props.Callbacks
import Verif.Model.Krylov

/-!
Krylov phi products: exactness on breakdown (C29), degenerate input (C30), KIOPS (C31), polynomial exactness and error
bound (C65).
-/

namespace Ormatex.Props
open Matrix Ormatex.Spec
open scoped Classical

section
variable {n : ℕ}

/-! ### series helpers -/

theorem phi_mulVec_hasSum {N : ℕ} (l : ℕ) (z : Mat N) (b : Vec N) (i : Fin N) :
    HasSum (fun j : ℕ => ((Nat.factorial (j + l) : ℝ)⁻¹) * (z ^ j *ᵥ b) i) ((phiM l z *ᵥ b) i) := by
  have h := phi_mul_entry_hasSum l z (Matrix.of fun x (_ : Fin 1) => b x) i 0
  exact h

theorem dot_hasSum {N : ℕ} {f : ℕ → Vec N} {v : Vec N} (h : ∀ i, HasSum (fun j => f j i) (v i)) (w : Vec N) :
    HasSum (fun j => w ⬝ᵥ f j) (w ⬝ᵥ v) := by
  unfold dotProduct
  exact hasSum_sum (fun i _ => (h i).mul_left (w i))

/-- If `A Q = Q H` then `phi_k(A) Q x = Q phi_k(H) x`. -/
theorem phi_intertwine {N m : ℕ} (A : Mat N) (H : Mat m) (Q : Matrix (Fin N) (Fin m) ℝ) (h : A * Q = Q * H) (k : ℕ)
    (x : Vec m) : phiM k A *ᵥ (Q *ᵥ x) = Q *ᵥ (phiM k H *ᵥ x) := by
  have hp : ∀ j : ℕ, A ^ j * Q = Q * H ^ j := by
    intro j
    induction j with
    | zero => simp
    | succ j ih => rw [pow_succ, Matrix.mul_assoc, h, ← Matrix.mul_assoc, ih, Matrix.mul_assoc, ← pow_succ]
  funext i
  have h1 := phi_mulVec_hasSum k A (Q *ᵥ x) i
  have h2 := dot_hasSum (fun y => phi_mulVec_hasSum k H x y) (Q i)
  have e : (fun j : ℕ => ((Nat.factorial (j + k) : ℝ)⁻¹) * (A ^ j *ᵥ (Q *ᵥ x)) i)
      = fun j : ℕ => Q i ⬝ᵥ (fun y => ((Nat.factorial (j + k) : ℝ)⁻¹) * (H ^ j *ᵥ x) y) := by
    funext j
    rw [Matrix.mulVec_mulVec, hp, ← Matrix.mulVec_mulVec]
    show _ = Q i ⬝ᵥ ((Nat.factorial (j + k) : ℝ)⁻¹ • (H ^ j *ᵥ x))
    rw [dotProduct_smul]
    rfl
  rw [e] at h1
  exact h1.unique h2

/-! ### C29 -/

/-- The dense kernel computes `phi_k(H) b` exactly. -/
def ExactAppl (appl : DenseAppl) : Prop := ∀ m (H : Mat m) b k, appl m H b k = .ok (phiM k H *ᵥ b)

theorem mulVec_firstUnit {k : ℕ} (hk : 0 < k) (Q : Matrix (Fin n) (Fin k) ℝ) :
    Q *ᵥ firstUnit k = fun i => Q i ⟨0, hk⟩ := by
  funext i
  unfold firstUnit
  simp only [Matrix.mulVec, dotProduct, mul_ite, mul_one, mul_zero]
  rw [Finset.sum_eq_single (⟨0, hk⟩ : Fin k)]
  · simp
  · intro b _ hb
    rw [if_neg (fun h => hb (Fin.ext h))]
  · intro h; exact absurd (Finset.mem_univ _) h

/-- the start vector is `‖v‖ Q e_1` -/
theorem arn_start (A : LinOp n) (dt : ℝ) (v0 : Vec n) (hv : v0 ≠ 0) (m iom : ℕ) (hm : 1 ≤ m) :
    0 < (arnoldiLop A dt (fun i => v0 i / norm2 v0) m iom).k ∧
    norm2 v0 • ((arnoldiLop A dt (fun i => v0 i / norm2 v0) m iom).Q *ᵥ
      firstUnit (arnoldiLop A dt (fun i => v0 i / norm2 v0) m iom).k) = v0 := by
  have hn : 0 < n := by
    rcases Nat.eq_zero_or_pos n with rfl | h
    · exact absurd (Subsingleton.elim v0 0) hv
    · exact h
  have h1 : norm2 (fun i => v0 i / norm2 v0) = 1 := norm2_normalized (norm2_pos hv).ne'
  obtain ⟨_, _, hpos, hq0⟩ := arnJit_inv A dt (fun i => v0 i / norm2 v0) m iom (by omega)
  have hk := hpos (by rw [h1]; exact one_pos)
  refine ⟨hk, ?_⟩
  have hq := hq0 (by rw [h1]; exact one_pos)
  rw [mulVec_firstUnit (k := (arnoldiLop A dt (fun i => v0 i / norm2 v0) m iom).k) hk]
  funext i
  show norm2 v0 * (arnoldiJit A dt (fun i => v0 i / norm2 v0) m iom).qs 0 i = v0 i
  rw [hq, h1]
  show norm2 v0 * (v0 i / norm2 v0 / 1) = v0 i
  rw [div_one, mul_div_cancel₀ _ (norm2_pos hv).ne']

/-- **C29.** If the Arnoldi process terminates without residual (`dt A Q = Q H`), `phi_linop` returns `phi_k(dt A) v0`
exactly, for every order. -/
theorem C29_happy_breakdown (appl : DenseAppl) (ha : ExactAppl appl) (A : LinOp n) (M : Mat n)
    (dt : ℝ) (v0 : Vec n) (k maxDim iom : ℕ) (hm : 1 ≤ maxDim)
    (hres : v0 ≠ 0 → let R := arnoldiLop A dt (fun i => v0 i / norm2 v0) maxDim iom
      (dt • M) * R.Q = R.Q * R.H) :
    phiLinop appl A dt v0 k maxDim iom = .ok (phiM k (dt • M) *ᵥ v0) := by
  unfold phiLinop
  by_cases hv : v0 = 0
  · subst hv
    rw [norm2_zero]
    simp
  · obtain ⟨hk, hst⟩ := arn_start A dt v0 hv maxDim iom hm
    have hr := hres hv
    simp only at hr
    simp only [gt_iff_lt, norm2_pos hv, if_true, hk]
    rw [ha]
    show Except.ok _ = Except.ok _
    congr 1
    rw [← phi_intertwine _ _ _ hr, ← Matrix.mulVec_smul, hst]

/-- `matexp_linop` is the case `k = 0`. -/
theorem C29_matexp (appl : DenseAppl) (A : LinOp n) (dt : ℝ) (v0 : Vec n) (maxDim iom : ℕ) :
    matexpLinop appl A dt v0 maxDim iom = phiLinop appl A dt v0 0 maxDim iom := rfl

theorem fullspace_res {m : ℕ} (Q : Matrix (Fin n) (Fin m) ℝ) (hm : m = n) (hQ : Qᵀ * Q = 1) (r : Vec n)
    (h : ∀ j, r ⬝ᵥ (fun i => Q i j) = 0) : r = 0 := by
  subst hm
  have h2 : Q * Qᵀ = 1 := mul_eq_one_comm.mp hQ
  have h3 : Qᵀ *ᵥ r = 0 := by
    funext j
    rw [Pi.zero_apply, ← h j, dotProduct_comm]
    rfl
  rw [← Matrix.one_mulVec r, ← h2, ← Matrix.mulVec_mulVec, h3, Matrix.mulVec_zero]

/-- **C29 (full space).** With full orthogonalisation, if as many Arnoldi vectors are produced as there are unknowns, there
is no residual, so `phi_linop` is exact. -/
theorem C29_full_space (appl : DenseAppl) (ha : ExactAppl appl) (A : LinOp n) (M : Mat n) (hA : IsMatrix A M)
    (dt : ℝ) (v0 : Vec n) (k maxDim iom : ℕ) (hm : 1 ≤ maxDim) (hiom : min n maxDim ≤ iom + 1)
    (hfull : v0 ≠ 0 → (arnoldiLop A dt (fun i => v0 i / norm2 v0) maxDim iom).k = n) :
    phiLinop appl A dt v0 k maxDim iom = .ok (phiM k (dt • M) *ᵥ v0) := by
  refine C29_happy_breakdown appl ha A M dt v0 k maxDim iom hm fun hv => ?_
  set b : Vec n := fun i => v0 i / norm2 v0 with hb
  intro R
  have hk : R.k = n := hfull hv
  obtain ⟨hQ, _, hH⟩ := C27_full A dt b maxDim iom hiom
  obtain ⟨_, _, _, _, r, hr⟩ := C26_arnoldi_relation A dt b maxDim iom
  have hcol : ∀ j : Fin R.k, ((dt • M) * R.Q) *ᵥ (Pi.single j 1) = dt • A.call (fun i => R.Q i j) := by
    intro j
    rw [← Matrix.mulVec_mulVec, Matrix.mulVec_single_one, Matrix.smul_mulVec]
    show _ = dt • A.matvec _
    rw [hA]
    rfl
  have hcol2 : ∀ j : Fin R.k, (R.Q * R.H) *ᵥ (Pi.single j 1) = fun i => (R.Q * R.H) i j := by
    intro j
    rw [Matrix.mulVec_single_one]
    rfl
  have hrest : ∀ j : Fin R.k, (if (j : ℕ) + 1 = R.k then r else 0) = 0 := by
    intro j
    have hj := hr j
    refine fullspace_res R.Q hk hQ _ fun i => ?_
    have h1 := hH i j
    rw [hj, dotProduct_add] at h1
    have h2 : (fun x => R.Q x i) ⬝ᵥ (fun x => (R.Q * R.H) x j) = R.H i j := by
      have : (R.Qᵀ * (R.Q * R.H)) i j = R.H i j := by rw [← Matrix.mul_assoc, hQ, Matrix.one_mul]
      rw [← this]
      rfl
    rw [dotProduct_comm]
    linarith
  ext i j
  have h1 := hcol j
  have h2 := hr j
  rw [hrest j, add_zero] at h2
  have h3 := congrFun (h1.trans h2) i
  rw [Matrix.mulVec_single_one] at h3
  exact h3

/-! ### C30 -/

/-- **C30.** The zero vector gives the zero vector, whatever the operator; a nonzero vector with `max_krylov_dim = 0` is
refused. -/
theorem C30_degenerate (appl : DenseAppl) (A : LinOp n) (dt : ℝ) (k maxDim iom : ℕ) :
    phiLinop appl A dt 0 k maxDim iom = .ok 0
      ∧ ∀ v : Vec n, v ≠ 0 → phiLinop appl A dt v k 0 iom = .error .assertion := by
  constructor
  · unfold phiLinop
    rw [norm2_zero]
    simp
  · intro v hv
    unfold phiLinop
    have h0 : (arnoldiLop A dt (fun i => v i / norm2 v) 0 iom).k = 0 :=
      arnJit_zero A dt _ 0 iom (Nat.min_zero n)
    simp only [gt_iff_lt, norm2_pos hv, if_true, h0, lt_irrefl, if_false]

/-- the part of `phi_linop` after the Arnoldi process -/
noncomputable def krylovFinish (appl : DenseAppl) (k : ℕ) (nv : ℝ) (r : ArnResult n) : Py (Vec n) :=
  if 0 < r.k then do
    let e ← appl r.k r.H (firstUnit r.k) k
    pure (nv • (r.Q *ᵥ e))
  else .error .assertion

theorem phiLinop_pos (appl : DenseAppl) (A : LinOp n) (dt : ℝ) (v : Vec n) (k maxDim iom : ℕ) (hv : v ≠ 0) :
    phiLinop appl A dt v k maxDim iom
      = krylovFinish appl k (norm2 v) (arnoldiLop A dt (fun i => v i / norm2 v) maxDim iom) := by
  unfold phiLinop
  simp only [gt_iff_lt, norm2_pos hv, if_true]
  rfl

theorem phiLinop_zero (appl : DenseAppl) (A : LinOp n) (dt : ℝ) (k maxDim iom : ℕ) :
    phiLinop appl A dt 0 k maxDim iom = .ok 0 := (C30_degenerate appl A dt k maxDim iom).1

theorem krylovFinish_smul (appl : DenseAppl) (k : ℕ) (c nv : ℝ) (r : ArnResult n) :
    krylovFinish appl k (c * nv) r = (krylovFinish appl k nv r).map (c • ·) := by
  unfold krylovFinish
  split_ifs
  · cases appl r.k r.H (firstUnit r.k) k with
    | error e => rfl
    | ok w =>
      show Except.ok _ = Except.ok _
      rw [mul_smul]
  · rfl

/-- **C30 (positive scaling).** `phi_linop` of `c v`, `c > 0`, is `c` times `phi_linop` of `v`, for any operator. -/
theorem C30_scaling (appl : DenseAppl) (A : LinOp n) (dt : ℝ) (v : Vec n) (k maxDim iom : ℕ) (c : ℝ) (hc : 0 < c) :
    phiLinop appl A dt (c • v) k maxDim iom = (phiLinop appl A dt v k maxDim iom).map (c • ·) := by
  by_cases hv : v = 0
  · subst hv
    rw [smul_zero, phiLinop_zero]
    simp [Except.map]
  · have hn : norm2 (c • v) = c * norm2 v := by rw [norm2_smul, abs_of_pos hc]
    have hdiv : (fun i => (c • v) i / norm2 (c • v)) = fun i => v i / norm2 v := by
      funext i
      rw [hn, Pi.smul_apply, smul_eq_mul, mul_div_mul_left _ _ hc.ne']
    rw [phiLinop_pos _ _ _ _ _ _ _ hv, phiLinop_pos _ _ _ _ _ _ _ (smul_ne_zero hc.ne' hv), hdiv, hn,
      krylovFinish_smul]

/-! reflection symmetry of the Arnoldi process for odd operators -/

theorem norm2_neg (v : Vec n) : norm2 (-v) = norm2 v := by
  unfold norm2
  rw [neg_dotProduct_neg]

theorem ortho_neg (qs qs' : ℕ → Vec n) (k : ℕ) (l : List ℕ) (hq : ∀ i ∈ l, qs' i = -qs i) :
    ∀ s s' : OrthoState n, s'.hs = s.hs → s'.qv = -s.qv →
      (l.foldl (orthoBody qs' k) s').hs = (l.foldl (orthoBody qs k) s).hs
        ∧ (l.foldl (orthoBody qs' k) s').qv = -(l.foldl (orthoBody qs k) s).qv := by
  induction l with
  | nil => intro s s' h1 h2; exact ⟨h1, h2⟩
  | cons i t ih =>
    intro s s' h1 h2
    rw [List.foldl_cons, List.foldl_cons]
    have hi := hq i (by simp)
    refine ih (fun q hq' => hq q (by simp [hq'])) _ _ ?_ ?_
    · simp only [orthoBody, h1, h2, hi, neg_dotProduct_neg]
    · simp only [orthoBody, h2, hi, neg_dotProduct_neg, smul_neg]
      abel

/-- states with the same `H` and opposite columns -/
structure ArnNeg (s s' : ArnState n) : Prop where
  hs : s'.hs = s.hs
  qs : ∀ j, s'.qs j = -s.qs j
  k : s'.k = s.k
  nb : s'.notBreakdown = s.notBreakdown

theorem arnStep_neg (A : LinOp n) (hA : ∀ v, A.matvec (-v) = -A.matvec v) (scale : ℝ) (m iom : ℕ) (s s' : ArnState n)
    (h : ArnNeg s s') : ArnNeg (arnoldiMgs A scale m iom s) (arnoldiMgs A scale m iom s') := by
  have hcall : scale • A.call (s'.qs s'.k) = -(scale • A.call (s.qs s.k)) := by
    rw [h.k, h.qs]
    show scale • A.matvec _ = _
    rw [hA, smul_neg]
    rfl
  obtain ⟨h1, h2⟩ := ortho_neg s.qs s'.qs s.k (List.range' (s.k - iom) (s.k + 1 - (s.k - iom)))
    (fun i _ => h.qs i) { hs := s.hs, qv := scale • A.call (s.qs s.k) }
    { hs := s'.hs, qv := scale • A.call (s'.qs s'.k) } h.hs hcall
  refine ⟨?_, ?_, ?_, ?_⟩
  · unfold arnoldiMgs
    simp only [h.k] at h1 h2 ⊢
    rw [h1, h2, norm2_neg]
  · intro j
    unfold arnoldiMgs
    simp only [h.k] at h1 h2 ⊢
    rw [h2, norm2_neg]
    split_ifs
    · by_cases hj : j = s.k + 1
      · subst hj
        rw [Function.update_self, Function.update_self]
        funext i
        simp [neg_div]
      · rw [Function.update_of_ne hj, Function.update_of_ne hj, h.qs]
    · exact h.qs j
  · show s'.k + 1 = s.k + 1
    rw [h.k]
  · unfold arnoldiMgs
    simp only [h.k] at h1 h2 ⊢
    rw [h2, norm2_neg]

theorem arnLoop_neg (A : LinOp n) (hA : ∀ v, A.matvec (-v) = -A.matvec v) (scale : ℝ) (m iom : ℕ) (f : ℕ) :
    ∀ (s s' : ArnState n), ArnNeg s s' → ArnNeg (arnoldiLoop A scale m iom f s) (arnoldiLoop A scale m iom f s') := by
  induction f with
  | zero => intro s s' h; exact h
  | succ f ih =>
    intro s s' h
    rw [arnoldiLoop, arnoldiLoop]
    simp only [h.k, h.nb]
    split_ifs
    · exact ih _ _ (arnStep_neg A hA scale m iom s s' h)
    · exact h

theorem arnInit_neg (b : Vec n) : ArnNeg (arnoldiInit b) (arnoldiInit (-b)) := by
  refine ⟨rfl, ?_, rfl, ?_⟩
  · intro j
    unfold arnoldiInit
    simp only [norm2_neg]
    by_cases hj : j = 0
    · subst hj
      rw [Function.update_self, Function.update_self]
      split_ifs
      · funext i; simp [neg_div]
      · rfl
    · rw [Function.update_of_ne hj, Function.update_of_ne hj, neg_zero]
  · show (norm2 (-b) > 0) = (norm2 b > 0)
    rw [norm2_neg]

/-- **C30 (sign).** For an odd (in particular a linear) operator `phi_linop` of `-v` is minus `phi_linop` of `v`. -/
theorem C30_sign (appl : DenseAppl) (A : LinOp n) (hA : ∀ v, A.matvec (-v) = -A.matvec v) (dt : ℝ) (v : Vec n)
    (k maxDim iom : ℕ) :
    phiLinop appl A dt (-v) k maxDim iom = (phiLinop appl A dt v k maxDim iom).map (fun w => -w) := by
  by_cases hv : v = 0
  · subst hv
    rw [neg_zero, phiLinop_zero]
    simp [Except.map]
  · have hdiv : (fun i => (-v) i / norm2 (-v)) = -fun i => v i / norm2 v := by
      funext i
      rw [norm2_neg, Pi.neg_apply, Pi.neg_apply, neg_div]
    rw [phiLinop_pos _ _ _ _ _ _ _ hv, phiLinop_pos _ _ _ _ _ _ _ (neg_ne_zero.mpr hv), hdiv, norm2_neg]
    have hneg : ArnNeg (arnoldiJit A dt (fun i => v i / norm2 v) maxDim iom)
        (arnoldiJit A dt (-fun i => v i / norm2 v) maxDim iom) :=
      arnLoop_neg A hA dt _ iom _ _ _ (arnInit_neg _)
    unfold arnoldiLop
    obtain ⟨e1, e2, e3, _⟩ := hneg
    generalize arnoldiJit A dt (-fun i => v i / norm2 v) maxDim iom = s' at e1 e2 e3
    generalize arnoldiJit A dt (fun i => v i / norm2 v) maxDim iom = s at e1 e2 e3
    obtain ⟨hs', qs', k', nb'⟩ := s'
    simp only at e1 e2 e3
    subst e1 e3
    have hQ : (Matrix.of fun (i : Fin n) (j : Fin s.k) => qs' j i) = -(Matrix.of fun (i : Fin n) (j : Fin s.k) => s.qs j i) := by
      ext i j
      simp [e2]
    unfold krylovFinish
    simp only
    rw [hQ]
    split_ifs
    · cases appl s.k (Matrix.of fun i j => s.hs i j) (firstUnit s.k) k with
      | error e => rfl
      | ok w =>
        show Except.ok _ = Except.ok _
        congr 1
        rw [Matrix.neg_mulVec, smul_neg]
    · rfl

/-! ### C31 -/

theorem augK_mulVec (p : ℕ) (j : ℕ) :
    augK p *ᵥ (fun i : Fin p => if (i : ℕ) + 1 + j = p then (1 : ℝ) else 0)
      = fun i : Fin p => if (i : ℕ) + 1 + (j + 1) = p then (1 : ℝ) else 0 := by
  funext i
  simp only [augK, Matrix.mulVec, dotProduct, Matrix.of_apply]
  by_cases h : (i : ℕ) + 1 + (j + 1) = p
  · rw [if_pos h, Finset.sum_eq_single (⟨i + 1, by omega⟩ : Fin p)]
    · rw [if_pos rfl, if_pos (show (i : ℕ) + 1 + 1 + j = p by omega), one_mul]
    · intro b _ hb
      rw [if_neg (fun h => hb (Fin.ext h)), zero_mul]
    · intro h; exact absurd (Finset.mem_univ _) h
  · rw [if_neg h]
    refine Finset.sum_eq_zero fun b _ => ?_
    by_cases hb : (b : ℕ) = i + 1
    · rw [if_neg (show ¬ ((b : ℕ) + 1 + j = p) by omega), mul_zero]
    · rw [if_neg hb, zero_mul]

theorem augBcol_mulVec {p : ℕ} (β : ℕ → Vec n) (j : ℕ) :
    (Matrix.of fun (i : Fin n) (q : Fin p) => β (p - q) i) *ᵥ (fun i : Fin p => if (i : ℕ) + 1 + j = p then (1 : ℝ) else 0)
      = if j < p then β (j + 1) else 0 := by
  funext i
  simp only [Matrix.mulVec, dotProduct, Matrix.of_apply]
  by_cases h : j < p
  · rw [if_pos h, Finset.sum_eq_single (⟨p - 1 - j, by omega⟩ : Fin p)]
    · rw [if_pos (show p - 1 - j + 1 + j = p by omega), mul_one]
      simp only
      rw [show p - (p - 1 - j) = j + 1 by omega]
    · intro b _ hb
      rw [if_neg, mul_zero]
      intro h2
      exact hb (Fin.ext (by simp only; omega))
    · intro h; exact absurd (Finset.mem_univ _) h
  · rw [if_neg h]
    refine Finset.sum_eq_zero fun b _ => ?_
    rw [if_neg (by omega), mul_zero]

/-- Powers of the augmented operator applied to `[w0; e_p]`. -/
theorem aug_pow {p : ℕ} (M : Mat n) (Z : Mat (n + p)) (β : ℕ → Vec n) (w0 : Vec n)
    (hZ : ∀ (w : Vec n) (z : Vec p), Z *ᵥ (Fin.append w z)
      = Fin.append (M *ᵥ w + (Matrix.of fun (i : Fin n) (q : Fin p) => β (p - q) i) *ᵥ z) (augK p *ᵥ z)) (j : ℕ) :
    Z ^ j *ᵥ (concat w0 (lastUnit p))
      = Fin.append (M ^ j *ᵥ w0 + ∑ l ∈ Finset.range p, if j < l + 1 then 0 else M ^ (j - (l + 1)) *ᵥ β (l + 1))
        (fun i : Fin p => if (i : ℕ) + 1 + j = p then (1 : ℝ) else 0) := by
  induction j with
  | zero =>
    rw [pow_zero, Matrix.one_mulVec, concat]
    congr 1
    rw [Finset.sum_eq_zero (fun l _ => if_pos (Nat.succ_pos l)), add_zero, pow_zero, Matrix.one_mulVec]
  | succ j ih =>
    rw [pow_succ', ← Matrix.mulVec_mulVec, ih, hZ, augK_mulVec, augBcol_mulVec]
    congr 1
    rw [Matrix.mulVec_add, Matrix.mulVec_mulVec, ← pow_succ', add_assoc]
    congr 1
    rw [Matrix.mulVec_sum]
    have e : ∀ l ∈ Finset.range p, (if j + 1 < l + 1 then (0 : Vec n) else M ^ (j + 1 - (l + 1)) *ᵥ β (l + 1))
        = M *ᵥ (if j < l + 1 then 0 else M ^ (j - (l + 1)) *ᵥ β (l + 1)) + if l = j then β (j + 1) else 0 := by
      intro l _
      rcases Nat.lt_trichotomy j l with h | h | h
      · rw [if_pos (by omega), if_pos (by omega), if_neg (by omega), Matrix.mulVec_zero, add_zero]
      · subst h
        rw [if_neg (by omega), if_pos (by omega), if_pos rfl, Matrix.mulVec_zero, zero_add, Nat.sub_self, pow_zero,
          Matrix.one_mulVec]
      · rw [if_neg (by omega), if_neg (by omega), if_neg (by omega), add_zero, Matrix.mulVec_mulVec, ← pow_succ',
          show j - (l + 1) + 1 = j + 1 - (l + 1) by omega]
    rw [Finset.sum_congr rfl e, Finset.sum_add_distrib, Finset.sum_ite_eq']
    simp only [Finset.mem_range]

/-- The augmented operator: head of `exp` of it applied to `[w0; e_p]`. -/
theorem aug_exp {p : ℕ} (M : Mat n) (Z : Mat (n + p)) (β : ℕ → Vec n) (w0 : Vec n)
    (hZ : ∀ (w : Vec n) (z : Vec p), Z *ᵥ (Fin.append w z)
      = Fin.append (M *ᵥ w + (Matrix.of fun (i : Fin n) (q : Fin p) => β (p - q) i) *ᵥ z) (augK p *ᵥ z)) :
    headN (phiM 0 Z *ᵥ concat w0 (lastUnit p))
      = phiM 0 M *ᵥ w0 + ∑ l ∈ Finset.range p, phiM (l + 1) M *ᵥ β (l + 1) := by
  have hpow := aug_pow M Z β w0 hZ
  funext i
  have h1 := phi_mulVec_hasSum 0 Z (concat w0 (lastUnit p)) (Fin.castAdd p i)
  have hshift : ∀ l : ℕ, HasSum (fun j : ℕ => ((Nat.factorial (j + 0) : ℝ)⁻¹)
      * (if j < l + 1 then (0 : Vec n) else M ^ (j - (l + 1)) *ᵥ β (l + 1)) i) ((phiM (l + 1) M *ᵥ β (l + 1)) i) := by
    intro l
    rw [← hasSum_nat_add_iff' (l + 1), Finset.sum_eq_zero (fun j hj => by
      rw [if_pos (Finset.mem_range.mp hj), Pi.zero_apply, mul_zero]), sub_zero]
    have := phi_mulVec_hasSum (l + 1) M (β (l + 1)) i
    have e : (fun j : ℕ => ((Nat.factorial (j + (l + 1) + 0) : ℝ)⁻¹)
      * (if j + (l + 1) < l + 1 then (0 : Vec n) else M ^ (j + (l + 1) - (l + 1)) *ᵥ β (l + 1)) i)
      = fun j : ℕ => ((Nat.factorial (j + (l + 1)) : ℝ)⁻¹) * (M ^ j *ᵥ β (l + 1)) i := by
      funext j
      rw [if_neg (by omega), Nat.add_sub_cancel, add_zero]
    rw [e]
    exact this
  have h2 := (phi_mulVec_hasSum 0 M w0 i).add (hasSum_sum (s := Finset.range p) (fun l _ => hshift l))
  have e : (fun j : ℕ => ((Nat.factorial (j + 0) : ℝ)⁻¹) * (Z ^ j *ᵥ concat w0 (lastUnit p)) (Fin.castAdd p i))
      = fun j : ℕ => ((Nat.factorial (j + 0) : ℝ)⁻¹) * (M ^ j *ᵥ w0) i + ∑ l ∈ Finset.range p,
        ((Nat.factorial (j + 0) : ℝ)⁻¹) * (if j < l + 1 then (0 : Vec n) else M ^ (j - (l + 1)) *ᵥ β (l + 1)) i := by
    funext j
    rw [hpow, Fin.append_left, Pi.add_apply, Finset.sum_apply, mul_add, Finset.mul_sum]
  rw [e] at h1
  have := h1.unique h2
  rw [Pi.add_apply, Finset.sum_apply]
  exact this

/-- normalised columns handed to the augmented operator -/
theorem kiops_aug (A : LinOp n) (M : Mat n) (hA : IsMatrix A M) (dt ν : ℝ) (vb : List (Vec n)) :
    ∃ Z, IsMatrix (augMatvec A dt (Matrix.of fun i j => augB vb i j / ν) (augK (vb.length - 1))) Z
      ∧ headN (phiM 0 Z *ᵥ concat (fun i => (vb.getD 0 0) i / ν) (lastUnit (vb.length - 1)))
        = ν⁻¹ • ∑ j ∈ Finset.range (vb.length - 1 + 1), phiM j (dt • M) *ᵥ vb.getD j 0 := by
  set p := vb.length - 1 with hp
  set B : Matrix (Fin n) (Fin p) ℝ := Matrix.of fun i j => augB vb i j / ν with hB
  obtain ⟨op, hop, h1, h2⟩ := C14_block A M hA dt B (augK p)
  have hop' : op = augMatvec A dt B (augK p) := by
    unfold augMatrixLinOp at hop
    rw [dif_pos ⟨rfl, rfl⟩] at hop
    have hK : (augK p).submatrix (Fin.cast rfl) (Fin.cast rfl) = augK p := by ext; rfl
    rw [hK] at hop
    cases hop
    rfl
  subst hop'
  refine ⟨_, h2, ?_⟩
  have hBβ : B = Matrix.of fun (i : Fin n) (q : Fin p) => (ν⁻¹ • vb.getD (p - q) 0) i := by
    ext i q
    simp only [hB, augB, Matrix.of_apply, Pi.smul_apply, smul_eq_mul]
    rw [inv_mul_eq_div]
  have key := aug_exp (p := p) (dt • M) _ (fun l => ν⁻¹ • vb.getD l 0) (fun i => (vb.getD 0 0) i / ν)
    (fun w z => by rw [← h2, h1, Matrix.smul_mulVec, hBβ])
  rw [key, Finset.sum_range_succ', smul_add, Finset.smul_sum, add_comm, div_eq_smul, Matrix.mulVec_smul]
  congr 1
  exact Finset.sum_congr rfl fun l _ => by rw [Matrix.mulVec_smul]

theorem maxNorm_le {vb : List (Vec n)} {a : ℝ} : ∀ v ∈ vb, norm2 v ≤ (vb.map norm2).foldl max a := by
  have hmono : ∀ (l : List ℝ) (a : ℝ), a ≤ l.foldl max a := by
    intro l
    induction l with
    | nil => intro a; exact le_refl _
    | cons x t ih => intro a; exact le_trans (le_max_left a x) (ih (max a x))
  induction vb generalizing a with
  | nil => intro v hv; simp at hv
  | cons x t ih =>
    intro v hv
    rw [List.map_cons, List.foldl_cons]
    rcases List.mem_cons.mp hv with rfl | h
    · exact le_trans (le_max_right a _) (hmono _ _)
    · exact ih v h

theorem maxNorm_zero {vb : List (Vec n)} (h : ¬ maxNorm vb > 0) (j : ℕ) : vb.getD j 0 = 0 := by
  rw [List.getD_eq_getElem?_getD]
  cases hj : vb[j]? with
  | none => rfl
  | some v =>
    have := maxNorm_le (a := 0) v (List.mem_of_getElem? hj)
    have h0 : norm2 v = 0 := le_antisymm (le_trans this (not_lt.mp h)) (norm2_nonneg v)
    exact norm2_eq_zero.mp h0

/-- the augmented operator of `kiops_fixedsteps` and its start vector -/
noncomputable def kiopsOp (A : LinOp n) (dt : ℝ) (vb : List (Vec n)) : LinOp (n + (vb.length - 1)) :=
  augMatvec A dt (Matrix.of fun i j => augB vb i j / maxNorm vb) (augK (vb.length - 1))
noncomputable def kiopsVec (vb : List (Vec n)) : Vec (n + (vb.length - 1)) :=
  concat (fun i => (vb.getD 0 0) i / maxNorm vb) (lastUnit (vb.length - 1))

theorem kiops_pos (expmv : ∀ m : ℕ, LinOp m → ℝ → Vec m → Py (Vec m)) (A : LinOp n) (dt : ℝ) (vb : List (Vec n))
    (hvb : 2 ≤ vb.length) (hpos : maxNorm vb > 0) :
    kiopsWith expmv A dt vb = (expmv _ (kiopsOp A dt vb) 1 (kiopsVec vb)).bind fun w => .ok (maxNorm vb • headN w) := by
  have hne : vb ≠ [] := by intro h; rw [h] at hvb; simp at hvb
  unfold kiopsWith
  simp only
  rw [if_neg hne, if_pos hpos, if_neg (by omega)]
  have haug : augMatrixLinOp A dt (Matrix.of fun i j => augB vb i j / maxNorm vb) (augK (vb.length - 1))
      = .ok (kiopsOp A dt vb) := by
    unfold augMatrixLinOp
    rw [dif_pos ⟨rfl, rfl⟩]
    rfl
  rw [haug]
  rfl

/-- **C31.** `kiops_fixedsteps(A, dt, [b_0, ..., b_p])`, `p ≥ 1`, returns `∑_j phi_j(dt A) b_j`, given an exact
exponential-vector product for the augmented operator (the normalisation cancels). -/
theorem C31_kiops (expmv : ∀ m : ℕ, LinOp m → ℝ → Vec m → Py (Vec m)) (A : LinOp n) (M : Mat n) (hA : IsMatrix A M)
    (dt : ℝ) (vb : List (Vec n)) (hvb : 2 ≤ vb.length)
    (hexp : ∀ Z : Mat (n + (vb.length - 1)), IsMatrix (kiopsOp A dt vb) Z →
      expmv _ (kiopsOp A dt vb) 1 (kiopsVec vb) = .ok (NormedSpace.exp Z *ᵥ kiopsVec vb)) :
    kiopsWith expmv A dt vb = .ok (∑ j ∈ Finset.range vb.length, phiM j (dt • M) *ᵥ vb.getD j 0) := by
  by_cases hpos : maxNorm vb > 0
  · obtain ⟨Z, hZ, hh⟩ := kiops_aug A M hA dt (maxNorm vb) vb
    rw [kiops_pos expmv A dt vb hvb hpos, hexp Z hZ]
    show Except.ok _ = Except.ok _
    congr 1
    unfold kiopsVec
    rw [← phiM_zero, hh, smul_smul, mul_inv_cancel₀ hpos.ne', one_smul, show vb.length - 1 + 1 = vb.length by omega]
  · have hne : vb ≠ [] := by intro h; rw [h] at hvb; simp at hvb
    unfold kiopsWith
    simp only
    rw [if_neg hne, if_neg hpos]
    congr 1
    refine (Finset.sum_eq_zero fun j _ => ?_).symm
    rw [maxNorm_zero hpos, Matrix.mulVec_zero]

/-- **C31 (as coded).** The same for `kiops_fixedsteps` with the package's own Krylov exponential, whenever the Arnoldi
process on the augmented operator leaves no residual; the parameter `n_steps` has no influence. -/
theorem C31_kiops_krylov (appl : DenseAppl) (ha : ExactAppl appl) (A : LinOp n) (M : Mat n) (hA : IsMatrix A M)
    (dt : ℝ) (vb : List (Vec n)) (hvb : 2 ≤ vb.length) (maxDim iom nSteps : ℕ) (hm : 1 ≤ maxDim)
    (hres : ∀ Z : Mat (n + (vb.length - 1)), IsMatrix (kiopsOp A dt vb) Z →
      let R := arnoldiLop (kiopsOp A dt vb) 1 (fun i => kiopsVec vb i / norm2 (kiopsVec vb)) maxDim iom
      Z * R.Q = R.Q * R.H) :
    kiopsFixedsteps appl A dt vb maxDim iom nSteps
      = .ok (∑ j ∈ Finset.range vb.length, phiM j (dt • M) *ᵥ vb.getD j 0) := by
  refine C31_kiops _ A M hA dt vb hvb fun Z hop => ?_
  rw [C29_matexp, C29_happy_breakdown appl ha _ Z 1 _ 0 maxDim iom hm (fun _ => by rw [one_smul]; exact hres Z hop), one_smul, phiM_zero]

/-- **C31 (degenerate).** All-zero input gives zero; a single nonzero vector (`p = 0`) and an empty list are refused;
`n_steps` is ignored. -/
theorem C31_degenerate (appl : DenseAppl) (A : LinOp n) (dt : ℝ) (maxDim iom : ℕ) :
    (∀ (vb : List (Vec n)) nSteps, vb ≠ [] → (∀ v ∈ vb, v = 0) →
        kiopsFixedsteps appl A dt vb maxDim iom nSteps = .ok 0)
      ∧ (∀ (v : Vec n) nSteps, v ≠ 0 → kiopsFixedsteps appl A dt [v] maxDim iom nSteps = .error .value)
      ∧ (∀ nSteps, kiopsFixedsteps appl A dt ([] : List (Vec n)) maxDim iom nSteps = .error .index)
      ∧ ∀ (vb : List (Vec n)) nSteps nSteps', kiopsFixedsteps appl A dt vb maxDim iom nSteps
          = kiopsFixedsteps appl A dt vb maxDim iom nSteps' := by
  refine ⟨?_, ?_, ?_, fun _ _ _ => rfl⟩
  · intro vb ns hne h
    unfold kiopsFixedsteps kiopsWith
    simp only
    have h0 : maxNorm vb = 0 := by
      unfold maxNorm
      clear hne
      induction vb with
      | nil => rfl
      | cons x t ih =>
        rw [List.map_cons, List.foldl_cons, h x (by simp), norm2_zero, max_self]
        exact ih (fun v hv => h v (by simp [hv]))
    rw [if_neg hne, h0, if_neg (lt_irrefl _)]
  · intro v ns hv
    unfold kiopsFixedsteps kiopsWith
    simp only
    have h0 : maxNorm [v] > 0 := by
      unfold maxNorm
      simp only [List.map_cons, List.map_nil, List.foldl_cons, List.foldl_nil]
      exact lt_max_of_lt_right (norm2_pos hv)
    rw [if_neg (by simp), if_pos h0]
    rfl
  · intro ns
    unfold kiopsFixedsteps kiopsWith
    simp

end

end Ormatex.Props
