import Verif.Props.ApproxKrylovRun
import Verif.Props.ApproxEpi3

/-!
C105 for the methods that call `kiops_fixedsteps` (`epi2`, `epi3`, `pexprb4`): the augmented operator does not become small with the
step, but its powers applied to the start vector do, and the Krylov error is governed by those.
-/

namespace Ormatex.Props
open Filter Asymptotics Topology Matrix Ormatex.Spec
open scoped Classical
open scoped Matrix.Norms.Operator

section
variable {n : ℕ} {P : Type} [EmptyCollection P]

/-- **Krylov error in terms of the first power that is not reproduced.**  With full orthogonalisation and `k` Arnoldi vectors the
error is at most `2 e^ρ |(dt A)^k v0|` plus that of the dense kernel. -/
theorem phiLinop_tail (appl : DenseAppl) (A : LinOp n) (M : Mat n) (hA : IsMatrix A M) (dt : ℝ) (v0 : Vec n)
    (hv : v0 ≠ 0) (l m iom : ℕ) (hm : 1 ≤ m) (hiom : min n m ≤ iom + 1) (ε ρ : ℝ) (hρ : 0 ≤ ρ)
    (hρM : ∀ x, norm2 ((dt • M) *ᵥ x) ≤ ρ * norm2 x)
    (ha : ∀ q (H : Mat q), q ≤ n → q ≤ m → (∀ x, norm2 (H *ᵥ x) ≤ ρ * norm2 x) →
      ∃ e, appl q H (firstUnit q) l = .ok e ∧ norm2 (e - phiM l H *ᵥ firstUnit q) ≤ ε) :
    let k := (arnoldiLop A dt (fun i => v0 i / norm2 v0) m iom).k
    ∃ w, phiLinop appl A dt v0 l m iom = .ok w
      ∧ norm2 (w - phiM l (dt • M) *ᵥ v0) ≤ 2 * Real.exp ρ * norm2 ((dt • M) ^ k *ᵥ v0) + norm2 v0 * ε := by
  intro k
  have hv0 := norm2_pos hv
  obtain ⟨w, hw, he⟩ := krylov_split appl A M dt v0 hv l m iom hm hiom ε (small_kernel appl A M hA dt v0 hv l m iom hm hiom ε ρ hρM ha)
    (2 * Real.exp ρ * (norm2 ((dt • M) ^ k *ᵥ v0) / norm2 v0)) (by
      obtain ⟨hk, hstart⟩ := arn_start A dt v0 hv m iom hm
      have hpoly := C65_polynomial A M hA dt v0 hv m iom hm
      obtain ⟨hQ, _, hH⟩ := C27_full A dt (fun i => v0 i / norm2 v0) m iom hiom
      have hHb := proj_bound A M hA dt ρ hρM (fun i => v0 i / norm2 v0) m iom hiom
      have hHm : (arnoldiLop A dt (fun i => v0 i / norm2 v0) m iom).H
          = (arnoldiLop A dt (fun i => v0 i / norm2 v0) m iom).Qᵀ * ((dt • M) * (arnoldiLop A dt (fun i => v0 i / norm2 v0) m iom).Q) := by
        ext i j
        have := hH i j
        rw [← this]
        unfold LinOp.call
        rw [hA, ← Matrix.smul_mulVec]
        rfl
      clear hH
      simp only [k] at hpoly ⊢
      clear k
      generalize arnoldiLop A dt (fun i => v0 i / norm2 v0) m iom = R at *
      have hstart' : R.Q *ᵥ firstUnit R.k = (norm2 v0)⁻¹ • v0 := by
        rw [← hstart, smul_smul]
        have : norm2 (norm2 v0 • R.Q *ᵥ firstUnit R.k) = norm2 v0 := by
          rw [norm2_smul, abs_of_nonneg (norm2_nonneg _), norm2_isometry hQ, norm2_firstUnit hk, mul_one]
        rw [this, inv_mul_cancel₀ hv0.ne', one_smul]
      have hj : ∀ j < R.k, (dt • M) ^ j *ᵥ (R.Q *ᵥ firstUnit R.k) = R.Q *ᵥ (R.H ^ j *ᵥ firstUnit R.k) := by
        intro j hj
        rw [hstart', Matrix.mulVec_smul, hpoly j hj, smul_smul, inv_mul_cancel₀ hv0.ne', one_smul]
      set τ := norm2 ((dt • M) ^ R.k *ᵥ v0) / norm2 v0 with hτ
      have hτ1 : norm2 ((dt • M) ^ R.k *ᵥ (R.Q *ᵥ firstUnit R.k)) = τ := by
        rw [hstart', Matrix.mulVec_smul, norm2_smul, abs_of_pos (inv_pos.2 hv0), hτ, inv_mul_eq_div]
      have hτ2 : norm2 (R.H ^ R.k *ᵥ firstUnit R.k) ≤ τ := by
        have e : R.H ^ R.k *ᵥ firstUnit R.k = R.Qᵀ *ᵥ ((dt • M) ^ R.k *ᵥ (R.Q *ᵥ firstUnit R.k)) := by
          obtain ⟨q, hq⟩ : ∃ q, R.k = q + 1 := ⟨R.k - 1, by omega⟩
          have h1 := hj q (by omega)
          have e1 : ∀ (X : Mat R.k) (x : Vec R.k), X ^ R.k *ᵥ x = X *ᵥ (X ^ q *ᵥ x) := fun X x => by
            rw [Matrix.mulVec_mulVec, ← pow_succ', ← hq]
          have e2 : ∀ (X : Mat n) (x : Vec n), X ^ R.k *ᵥ x = X *ᵥ (X ^ q *ᵥ x) := fun X x => by
            rw [Matrix.mulVec_mulVec, ← pow_succ', ← hq]
          rw [e1, e2, h1]
          conv_lhs => rw [hHm, ← Matrix.mulVec_mulVec, ← Matrix.mulVec_mulVec]
          rw [← hHm]
        rw [e, ← hτ1]
        exact norm2_transpose hQ _
      have hτ0 : 0 ≤ τ := (norm2_nonneg _).trans hτ2
      have hs : ∀ i, HasSum (fun j : ℕ => ((Nat.factorial (j + R.k + l) : ℝ)⁻¹ • ((dt • M) ^ (j + R.k) *ᵥ (R.Q *ᵥ firstUnit R.k)
          - R.Q *ᵥ (R.H ^ (j + R.k) *ᵥ firstUnit R.k))) i)
          ((phiM l (dt • M) *ᵥ (R.Q *ᵥ firstUnit R.k) - R.Q *ᵥ (phiM l R.H *ᵥ firstUnit R.k)) i) := by
        intro i
        have h := krylov_diff_hasSum (dt • M) R.H R.Q (firstUnit R.k) l i
        rw [← hasSum_nat_add_iff' R.k] at h
        rw [Finset.sum_eq_zero, sub_zero] at h
        · exact h
        · intro j hj'
          rw [hj j (Finset.mem_range.mp hj'), sub_self, smul_zero]
          rfl
      have hg := (expSeries ρ).mul_left (2 * τ)
      refine (norm2_hasSum_le hs hg fun j => ?_).trans (le_of_eq (by ring))
      have hb : norm2 ((dt • M) ^ (j + R.k) *ᵥ (R.Q *ᵥ firstUnit R.k)
          - R.Q *ᵥ (R.H ^ (j + R.k) *ᵥ firstUnit R.k)) ≤ 2 * τ * ρ ^ j := by
        refine (norm2_sub_le _ _).trans ?_
        rw [norm2_isometry hQ, pow_add, pow_add, ← Matrix.mulVec_mulVec, ← Matrix.mulVec_mulVec]
        have h1 := pow_norm2 (dt • M) ρ hρ hρM j ((dt • M) ^ R.k *ᵥ (R.Q *ᵥ firstUnit R.k))
        have h2 := (pow_norm2 R.H ρ hρ hHb j (R.H ^ R.k *ᵥ firstUnit R.k)).trans
          (mul_le_mul_of_nonneg_left hτ2 (by positivity))
        rw [hτ1] at h1
        linarith
      rw [norm2_smul, abs_of_nonneg (by positivity)]
      have hf : (Nat.factorial j : ℝ) ≤ (Nat.factorial (j + R.k + l) : ℝ) := by
        exact_mod_cast Nat.factorial_le (by omega)
      calc (Nat.factorial (j + R.k + l) : ℝ)⁻¹ * _ ≤ (Nat.factorial j : ℝ)⁻¹ * (2 * τ * ρ ^ j) :=
            mul_le_mul (inv_anti₀ (by positivity) hf) hb (norm2_nonneg _) (by positivity)
        _ = _ := by ring)
  refine ⟨w, hw, he.trans (le_of_eq ?_)⟩
  rw [mul_add]
  congr 1
  field_simp

/-- A shift in the last `p` components keeps the Arnoldi process from breaking down in the first `p - 1` steps: the component of
the residual at the next position is what the start vector has in its last component, divided by the subdiagonal. -/
theorem shift_residual {p k : ℕ} (Z : Mat (n + p))
    (hshift : ∀ (x : Vec (n + p)) (s : Fin p), (Z *ᵥ x) (Fin.natAdd n s) = if h : (s : ℕ) + 1 < p then x (Fin.natAdd n ⟨s + 1, h⟩) else 0)
    (Q : Matrix (Fin (n + p)) (Fin k) ℝ) (H : Mat k) (r : Vec (n + p)) (hk : 0 < k) (hkp : k < p)
    (hrel : ∀ j : Fin k, Z *ᵥ (fun i => Q i j) = Q *ᵥ (fun i => H i j) + if (j : ℕ) + 1 = k then r else 0)
    (hess : ∀ i j : Fin k, (j : ℕ) + 1 < i → H i j = 0) (hsub : ∀ i j : Fin k, (i : ℕ) = j + 1 → H i j ≠ 0)
    (c : ℝ) (w : Vec n) (hstart : Q *ᵥ firstUnit k = c • concat w (lastUnit p)) :
    c = (H ^ (k - 1) *ᵥ firstUnit k) ⟨k - 1, by omega⟩ * r (Fin.natAdd n ⟨p - 1 - k, by omega⟩) := by
  have hcol0 : ∀ s : Fin p, Q (Fin.natAdd n s) ⟨0, hk⟩ = if (s : ℕ) + 1 = p then c else 0 := by
    intro s
    have h := congrFun hstart (Fin.natAdd n s)
    rw [mulVec_firstUnit hk] at h
    refine h.trans ?_
    rw [Pi.smul_apply, smul_eq_mul]
    unfold concat lastUnit
    rw [Fin.append_right]
    split_ifs <;> simp
  have hQ : ∀ (j : ℕ) (hj : j < k) (s : Fin p), (s : ℕ) + 1 + j < p → Q (Fin.natAdd n s) ⟨j, hj⟩ = 0 := by
    intro j
    induction j using Nat.strong_induction_on with
    | _ j ih =>
      intro hj s hs
      rcases j with _ | j
      · rw [hcol0, if_neg (by omega)]
      · have h := congrFun (hrel ⟨j, by omega⟩) (Fin.natAdd n s)
        rw [if_neg (by simp only; omega), add_zero, hshift, dif_pos (by omega)] at h
        rw [ih j (by omega) (by omega) _ (by simp only; omega)] at h
        have h2 : (Q *ᵥ fun i => H i ⟨j, by omega⟩) (Fin.natAdd n s) = Q (Fin.natAdd n s) ⟨j + 1, hj⟩ * H ⟨j + 1, hj⟩ ⟨j, by omega⟩ := by
          show ∑ i, Q (Fin.natAdd n s) i * H i ⟨j, by omega⟩ = _
          rw [Finset.sum_eq_single (⟨j + 1, hj⟩ : Fin k)]
          · intro i _ hi
            rcases Nat.lt_trichotomy i (j + 1) with hlt | heq | hgt
            · rw [show i = ⟨(i : ℕ), i.2⟩ from rfl, ih i hlt i.2 s (by omega), zero_mul]
            · exact absurd (Fin.ext heq) hi
            · rw [hess i _ hgt, mul_zero]
          · simp
        rw [h2] at h
        rcases mul_eq_zero.1 h.symm with h3 | h3
        · exact h3
        · exact absurd h3 (hsub _ _ rfl)
  have hpow : ∀ (j : ℕ) (x : Vec (n + p)) (s : Fin p) (h : (s : ℕ) + j < p), (Z ^ j *ᵥ x) (Fin.natAdd n s) = x (Fin.natAdd n ⟨s + j, h⟩) := by
    intro j
    induction j with
    | zero => intro x s h; rw [pow_zero, Matrix.one_mulVec]; rfl
    | succ j ih =>
      intro x s h
      rw [pow_succ', ← Matrix.mulVec_mulVec, hshift, dif_pos (by omega), ih _ _ (by simp only; omega)]
      congr 2
      exact Fin.ext (by simp only; omega)
  have hpoly : ∀ j < k, Z ^ j *ᵥ (Q *ᵥ firstUnit k) = Q *ᵥ (H ^ j *ᵥ firstUnit k) := by
    intro j
    induction j with
    | zero => intro _; rw [pow_zero, pow_zero, Matrix.one_mulVec, Matrix.one_mulVec]
    | succ j ih =>
      intro hj
      rw [pow_succ', ← Matrix.mulVec_mulVec, ih (by omega), krylov_step_abs hk Z Q H r hrel,
        hess_support H hess j _ (by simp only; omega), zero_smul, add_zero, pow_succ', ← Matrix.mulVec_mulVec]
  have h1 := hpow k (Q *ᵥ firstUnit k) ⟨p - 1 - k, by omega⟩ (by simp only; omega)
  have e1 : Z ^ k *ᵥ (Q *ᵥ firstUnit k) = Q *ᵥ (H *ᵥ (H ^ (k - 1) *ᵥ firstUnit k))
      + (H ^ (k - 1) *ᵥ firstUnit k) ⟨k - 1, by omega⟩ • r := by
    rw [← krylov_step_abs hk Z Q H r hrel, ← hpoly (k - 1) (by omega)]
    generalize Q *ᵥ firstUnit k = x
    rw [Matrix.mulVec_mulVec, ← pow_succ', Nat.sub_add_cancel hk]
  have e2 : ∀ y : Vec k, (Q *ᵥ y) (Fin.natAdd n ⟨p - 1 - k, by omega⟩) = 0 := by
    intro y
    show ∑ i, Q (Fin.natAdd n ⟨p - 1 - k, by omega⟩) i * y i = 0
    refine Finset.sum_eq_zero fun i _ => ?_
    rw [show i = ⟨(i : ℕ), i.2⟩ from rfl, hQ i i.2 _ (by have := i.2; simp only; omega), zero_mul]
  rw [e1, Pi.add_apply, e2, zero_add, Pi.smul_apply, smul_eq_mul, hstart, Pi.smul_apply, smul_eq_mul] at h1
  rw [h1]
  unfold concat lastUnit
  rw [Fin.append_right, if_pos (by simp only; omega), mul_one]

theorem kiopsOp_append (A : LinOp n) (M : Mat n) (hA : IsMatrix A M) (dt : ℝ) (vb : List (Vec n)) (Z : Mat (n + (vb.length - 1)))
    (hZ : IsMatrix (kiopsOp A dt vb) Z) (w : Vec n) (z : Vec (vb.length - 1)) :
    Z *ᵥ (Fin.append w z) = Fin.append ((dt • M) *ᵥ w + (Matrix.of fun (i : Fin n) (q : Fin (vb.length - 1)) =>
      ((maxNorm vb)⁻¹ • vb.getD (vb.length - 1 - q) 0) i) *ᵥ z) (augK (vb.length - 1) *ᵥ z) := by
  rw [← hZ]
  have e1 : headN (Fin.append w z) = w := by funext i; simp [headN]
  have e2 : tailP (Fin.append w z) = z := by funext i; simp [tailP]
  show concat (dt • A.matvec (headN (Fin.append w z)) + _ *ᵥ tailP (Fin.append w z)) (_ *ᵥ tailP (Fin.append w z)) = _
  rw [e1, e2, hA, Matrix.smul_mulVec]
  unfold concat
  congr 3
  ext i q
  simp only [augB, Matrix.of_apply, Pi.smul_apply, smul_eq_mul]
  rw [inv_mul_eq_div]

/-- powers of the augmented operator beyond the `p`-th -/
theorem kiops_tail (A : LinOp n) (M : Mat n) (hA : IsMatrix A M) (dt : ℝ) (vb : List (Vec n)) (hvb : 1 ≤ vb.length) (hpos : maxNorm vb > 0)
    (Z : Mat (n + (vb.length - 1))) (hZ : IsMatrix (kiopsOp A dt vb) Z) (ρ : ℝ) (hρ : 0 ≤ ρ)
    (hρM : ∀ x, norm2 ((dt • M) *ᵥ x) ≤ ρ * norm2 x) (k : ℕ) (hk : vb.length - 1 ≤ k) :
    maxNorm vb * norm2 (Z ^ k *ᵥ kiopsVec vb) ≤ ∑ l ∈ Finset.range vb.length, ρ ^ (k - l) * norm2 (vb.getD l 0) := by
  have e := aug_pow (dt • M) Z (fun l => (maxNorm vb)⁻¹ • vb.getD l 0) (fun i => (vb.getD 0 0) i / maxNorm vb)
    (kiopsOp_append A M hA dt vb Z hZ) k
  have etail : (fun i : Fin (vb.length - 1) => if (i : ℕ) + 1 + k = vb.length - 1 then (1 : ℝ) else 0) = 0 := by
    funext i
    rw [if_neg (by omega)]
    rfl
  have hr : Finset.range vb.length = Finset.range (vb.length - 1 + 1) := by congr 1; omega
  have e' : Z ^ k *ᵥ kiopsVec vb
      = (maxNorm vb)⁻¹ • concat (∑ l ∈ Finset.range vb.length, (dt • M) ^ (k - l) *ᵥ vb.getD l 0) (0 : Vec (vb.length - 1)) := by
    refine Eq.trans e ?_
    have hhead : (dt • M) ^ k *ᵥ (fun i => (vb.getD 0 0) i / maxNorm vb)
        + ∑ l ∈ Finset.range (vb.length - 1), (if k < l + 1 then 0 else (dt • M) ^ (k - (l + 1)) *ᵥ ((maxNorm vb)⁻¹ • vb.getD (l + 1) 0))
        = (maxNorm vb)⁻¹ • ∑ l ∈ Finset.range vb.length, (dt • M) ^ (k - l) *ᵥ vb.getD l 0 := by
      rw [hr, Finset.sum_range_succ', smul_add, Finset.smul_sum, add_comm, Nat.sub_zero, div_eq_smul, Matrix.mulVec_smul]
      congr 1
      refine Finset.sum_congr rfl fun l hl => ?_
      rw [if_neg (by have := Finset.mem_range.1 hl; omega), Matrix.mulVec_smul]
    rw [etail, hhead]
    unfold concat
    funext i
    refine Fin.addCases (fun i => ?_) (fun i => ?_) i
    · rw [Fin.append_left, Pi.smul_apply, Pi.smul_apply, Fin.append_left]
    · rw [Fin.append_right, Pi.smul_apply, Fin.append_right]
      simp
  rw [e', norm2_smul, abs_of_pos (inv_pos.2 hpos), ← mul_assoc, mul_inv_cancel₀ hpos.ne', one_mul]
  refine (norm2_concat_le _ _).trans ?_
  rw [norm2_zero, add_zero]
  refine (norm2_sum_le _ _).trans (Finset.sum_le_sum fun l _ => ?_)
  exact pow_norm2 (dt • M) ρ hρ hρM (k - l) _

theorem kiopsOp_shift (A : LinOp n) (dt : ℝ) (vb : List (Vec n)) (Z : Mat (n + (vb.length - 1)))
    (hZ : IsMatrix (kiopsOp A dt vb) Z) (x : Vec (n + (vb.length - 1))) (s : Fin (vb.length - 1)) :
    (Z *ᵥ x) (Fin.natAdd n s) = if h : (s : ℕ) + 1 < vb.length - 1 then x (Fin.natAdd n ⟨s + 1, h⟩) else 0 := by
  rw [← hZ]
  show (concat _ (augK (vb.length - 1) *ᵥ tailP x)) (Fin.natAdd n s) = _
  unfold concat
  rw [Fin.append_right]
  simp only [Matrix.mulVec, dotProduct, augK, Matrix.of_apply, ite_mul, one_mul, zero_mul]
  split_ifs with h
  · rw [Finset.sum_eq_single (⟨s + 1, h⟩ : Fin (vb.length - 1))]
    · simp [tailP]
    · intro b _ hb
      rw [if_neg fun h' => hb (Fin.ext h')]
    · simp
  · refine Finset.sum_eq_zero fun b _ => ?_
    rw [if_neg (by have := b.2; omega)]

theorem kiopsVec_norm (vb : List (Vec n)) (hvb : 2 ≤ vb.length) (hpos : maxNorm vb > 0) : 1 ≤ norm2 (kiopsVec vb) ∧ norm2 (kiopsVec vb) ≤ 2 := by
  constructor
  · have h := abs_le_norm2 (kiopsVec vb) (Fin.natAdd n ⟨vb.length - 1 - 1, by omega⟩)
    have e : kiopsVec vb (Fin.natAdd n ⟨vb.length - 1 - 1, by omega⟩) = 1 := by
      unfold kiopsVec concat lastUnit
      rw [Fin.append_right, if_pos (by simp only; omega)]
    rw [e, abs_one] at h
    exact h
  · refine (norm2_concat_le _ _).trans ?_
    have h1 := norm2_div_le (vb.getD 0 0) _ hpos (getD_norm_le vb _)
    have h2 : norm2 (lastUnit (vb.length - 1)) ≤ 1 := by
      refine Real.sqrt_le_iff.2 ⟨zero_le_one, ?_⟩
      simp only [dotProduct, lastUnit, mul_ite, mul_one, mul_zero, one_pow]
      rw [Finset.sum_eq_single (⟨vb.length - 1 - 1, by omega⟩ : Fin (vb.length - 1))]
      · split_ifs <;> norm_num
      · intro b _ hb
        rw [if_neg (fun h => hb (Fin.ext (by simp only; omega)))]
      · simp
    linarith

/-- the Arnoldi process of `kiops_fixedsteps` does not break down before `p` vectors -/
theorem kiops_no_breakdown (A : LinOp n) (M : Mat n) (hA : IsMatrix A M) (dt : ℝ) (vb : List (Vec n)) (hvb : 2 ≤ vb.length)
    (hvb5 : vb.length ≤ 5) (hpos : maxNorm vb > 0) (ρ : ℝ) (hρ : 0 ≤ ρ) (hρ1 : ρ ≤ 1) (hρM : ∀ x, norm2 ((dt • M) *ᵥ x) ≤ ρ * norm2 x)
    (m iom : ℕ) (hm : vb.length - 1 ≤ m) (hiom : min (n + (vb.length - 1)) m ≤ iom + 1) :
    vb.length - 1 ≤ (arnoldiLop (kiopsOp A dt vb) 1 (fun i => kiopsVec vb i / norm2 (kiopsVec vb)) m iom).k := by
  obtain ⟨Z, hZ, -⟩ := kiops_aug A M hA dt (maxNorm vb) vb
  change IsMatrix (kiopsOp A dt vb) Z at hZ
  obtain ⟨n1, n2⟩ := kiopsVec_norm vb hvb hpos
  have hv : kiopsVec vb ≠ 0 := by
    intro h
    rw [h, norm2_zero] at n1
    linarith
  set v := kiopsVec vb with hvd
  set b : Vec (n + (vb.length - 1)) := fun i => v i / norm2 v with hb
  have hb0 : b ≠ 0 := by
    intro h
    have := norm2_normalized (norm2_pos hv).ne'
    rw [← hb, h, norm2_zero] at this
    exact zero_ne_one this
  obtain ⟨hk, hstart⟩ := arn_start (kiopsOp A dt vb) 1 v hv m iom (by omega)
  obtain ⟨-, hess, -, -, -⟩ := C26_arnoldi_relation (kiopsOp A dt vb) 1 b m iom
  obtain ⟨-, -, h3, h4⟩ := (C28_termination (kiopsOp A dt vb) 1 b m iom (by omega)).2 hb0
  have hrel := arn_relation (kiopsOp A dt vb) 1 b m iom
  have hZn := kiopsOp_norm A M hA dt vb hpos ρ hρ hρM Z hZ
  have hσ : ∀ x, norm2 (Z *ᵥ x) ≤ 6 * norm2 x := fun x => (hZn x).trans (mul_le_mul_of_nonneg_right (by
    have : (vb.length : ℝ) ≤ 5 := by exact_mod_cast hvb5
    linarith) (norm2_nonneg _))
  have hHb := proj_bound (kiopsOp A dt vb) Z hZ 1 6 (by rw [one_smul]; exact hσ) b m iom hiom
  by_contra hlt
  push Not at hlt
  have h5 := fun j => h4 j (arnRes (kiopsOp A dt vb) 1 b m iom)
  generalize arnRes (kiopsOp A dt vb) 1 b m iom = r at *
  change 0 < (arnoldiLop (kiopsOp A dt vb) 1 b m iom).k at hk
  change norm2 v • (arnoldiLop (kiopsOp A dt vb) 1 b m iom).Q *ᵥ firstUnit (arnoldiLop (kiopsOp A dt vb) 1 b m iom).k = v at hstart
  generalize arnoldiLop (kiopsOp A dt vb) 1 b m iom = R at *
  have hr : norm2 r ≤ 1e-12 := by
    refine h5 ⟨R.k - 1, by omega⟩ (by simp only; omega) ?_ (by omega)
    have := hrel ⟨R.k - 1, by omega⟩
    rw [if_pos (by simp only; omega)] at this
    exact this
  have hst : R.Q *ᵥ firstUnit R.k = (norm2 v)⁻¹ • concat (fun i => (vb.getD 0 0) i / maxNorm vb) (lastUnit (vb.length - 1)) := by
    have hn0 : norm2 v ≠ 0 := by linarith
    have : concat (fun i => (vb.getD 0 0) i / maxNorm vb) (lastUnit (vb.length - 1)) = v := rfl
    rw [this]
    nth_rewrite 2 [← hstart]
    rw [smul_smul, inv_mul_cancel₀ hn0, one_smul]
  have key := shift_residual Z (kiopsOp_shift A dt vb Z hZ) R.Q R.H r hk hlt
    (fun j => by
      have := hrel j
      rw [one_smul] at this
      rw [← this, ← hZ]
      rfl) hess (fun i j h => by have := h3 i j h; intro h0; rw [h0] at this; norm_num at this) _ _ hst
  have c1 := abs_le_norm2 (R.H ^ (R.k - 1) *ᵥ firstUnit R.k) ⟨R.k - 1, by omega⟩
  have c2 := pow_norm2 R.H 6 (by norm_num) hHb (R.k - 1) (firstUnit R.k)
  rw [norm2_firstUnit hk, mul_one] at c2
  have c3 : (6 : ℝ) ^ (R.k - 1) ≤ 6 ^ 3 := pow_le_pow_right₀ (by norm_num) (by omega)
  have c4 := abs_le_norm2 r (Fin.natAdd n ⟨vb.length - 1 - 1 - R.k, by omega⟩)
  have c5 : (1 / 2 : ℝ) ≤ |(norm2 v)⁻¹| := by
    rw [abs_of_pos (by positivity), one_div]
    exact inv_anti₀ (by linarith) n2
  rw [key, abs_mul] at c5
  have c6 := mul_le_mul (c1.trans (c2.trans c3)) (c4.trans hr) (abs_nonneg _) (by norm_num)
  have := c5.trans c6
  norm_num at this

theorem maxNorm_le_of (vb : List (Vec n)) (c : ℝ) (hc : 0 ≤ c) (h : ∀ v ∈ vb, norm2 v ≤ c) : maxNorm vb ≤ c := by
  unfold maxNorm
  have : ∀ (l : List (Vec n)) (a : ℝ), a ≤ c → (∀ v ∈ l, norm2 v ≤ c) → (l.map norm2).foldl max a ≤ c := by
    intro l
    induction l with
    | nil => intro a ha _; exact ha
    | cons x t ih =>
      intro a ha hl
      exact ih (max a (norm2 x)) (max_le ha (hl x (by simp))) fun v hv => hl v (by simp [hv])
  exact this vb 0 hc h

/-- Error of `kiops_fixedsteps` with `m ≥ p + q` Krylov vectors: `O(ρ^q)` plus the breakdown tolerance, where the latter counts only
if it is smaller than the operator and the last vector. -/
theorem kiops_trunc (expm : ∀ m, Mat m → Mat m) (hx : ∀ m A, expm m A = NormedSpace.exp A) (A : LinOp n) (M : Mat n)
    (hA : IsMatrix A M) (dt : ℝ) (vb : List (Vec n)) (hvb : 2 ≤ vb.length) (hvb5 : vb.length ≤ 5) (q m iom nSteps : ℕ)
    (hm : vb.length - 1 + q ≤ m) (hiom : min (n + (vb.length - 1)) m ≤ iom + 1) (ρ : ℝ) (hρ : 0 ≤ ρ) (hρ1 : ρ ≤ 1)
    (hρM : ∀ x, norm2 ((dt • M) *ᵥ x) ≤ ρ * norm2 x) :
    ∃ w, kiopsFixedsteps (applCode expm) A dt vb m iom nSteps = .ok w
      ∧ norm2 (w - ∑ j ∈ Finset.range vb.length, phiM j (dt • M) *ᵥ vb.getD j 0)
        ≤ 2 * Real.exp 6 * (5 * maxNorm vb * ρ ^ q
          + min (1e-12 * maxNorm vb) (4 * ρ * maxNorm vb + norm2 (vb.getD (vb.length - 1) 0))) := by
  have hν0 : 0 ≤ maxNorm vb := (norm2_nonneg _).trans (getD_norm_le vb 0)
  have hβ0 := norm2_nonneg (vb.getD (vb.length - 1) 0)
  have he6 := Real.exp_pos 6
  by_cases hpos : maxNorm vb > 0
  · obtain ⟨Z, hZ, hh⟩ := kiops_aug A M hA dt (maxNorm vb) vb
    have hZ' : IsMatrix (kiopsOp A dt vb) Z := hZ
    have hσ : ∀ x, norm2 (((1 : ℝ) • Z) *ᵥ x) ≤ 6 * norm2 x := fun x => by
      rw [one_smul]
      refine (kiopsOp_norm A M hA dt vb hpos ρ hρ hρM Z hZ x).trans (mul_le_mul_of_nonneg_right ?_ (norm2_nonneg _))
      have : (vb.length : ℝ) ≤ 5 := by exact_mod_cast hvb5
      linarith
    obtain ⟨n1, n2⟩ := kiopsVec_norm vb hvb hpos
    have hv : kiopsVec vb ≠ 0 := by
      intro h
      rw [h, norm2_zero] at n1
      linarith
    have hb : (fun i => kiopsVec vb i / norm2 (kiopsVec vb)) ≠ 0 := by
      intro h
      have := norm2_normalized (norm2_pos hv).ne'
      rw [h, norm2_zero] at this
      exact zero_ne_one this
    have hk : ∀ r (H : Mat r), r ≤ n + (vb.length - 1) → r ≤ m → (∀ x, norm2 (H *ᵥ x) ≤ 6 * norm2 x) →
        ∃ e, applCode expm r H (firstUnit r) 0 = .ok e ∧ norm2 (e - phiM 0 H *ᵥ firstUnit r) ≤ 0 := by
      intro r H h1 h2 hH
      have := applCode_error expm hx 6 (by norm_num) 0 r r le_rfl H hH
      rwa [if_pos rfl] at this
    obtain ⟨w, hw, ht⟩ := phiLinop_tail (applCode expm) (kiopsOp A dt vb) Z hZ' 1 (kiopsVec vb) hv 0 m iom (by omega) hiom 0 6 (by norm_num) hσ hk
    have hnb := kiops_no_breakdown A M hA dt vb hvb hvb5 hpos ρ hρ hρ1 hρM m iom (by omega) hiom
    have htail := fun k => kiops_tail A M hA dt vb (by omega) hpos Z hZ ρ hρ hρM k
    rw [mul_zero, add_zero, one_smul] at ht
    -- the claim about the augmented system
    have main : maxNorm vb * norm2 (w - phiM 0 Z *ᵥ kiopsVec vb) ≤ 2 * Real.exp 6 * (5 * maxNorm vb * ρ ^ q
          + min (1e-12 * maxNorm vb) (4 * ρ * maxNorm vb + norm2 (vb.getD (vb.length - 1) 0))) := by
      set k := (arnoldiLop (kiopsOp A dt vb) 1 (fun i => kiopsVec vb i / norm2 (kiopsVec vb)) m iom).k with hkd
      have hmin0 : 0 ≤ min (1e-12 * maxNorm vb) (4 * ρ * maxNorm vb + norm2 (vb.getD (vb.length - 1) 0)) :=
        le_min (by positivity) (by positivity)
      have hq0 : 0 ≤ 5 * maxNorm vb * ρ ^ q := by positivity
      -- the tail
      have T : ∀ c, (∑ l ∈ Finset.range vb.length, ρ ^ (k - l) * norm2 (vb.getD l 0) ≤ c) →
          maxNorm vb * norm2 (w - phiM 0 Z *ᵥ kiopsVec vb) ≤ 2 * Real.exp 6 * c := fun c hc => by
        have h1 := mul_le_mul_of_nonneg_left ht hν0
        have h2 := (htail k hnb).trans hc
        calc _ ≤ _ := h1
          _ = 2 * Real.exp 6 * (maxNorm vb * norm2 (Z ^ k *ᵥ kiopsVec vb)) := by ring
          _ ≤ _ := mul_le_mul_of_nonneg_left h2 (by positivity)
      have T1 : ∑ l ∈ Finset.range vb.length, ρ ^ (k - l) * norm2 (vb.getD l 0)
          ≤ 4 * ρ * maxNorm vb + norm2 (vb.getD (vb.length - 1) 0) := by
        have hr : Finset.range vb.length = Finset.range (vb.length - 1 + 1) := by congr 1; omega
        rw [hr, Finset.sum_range_succ]
        refine add_le_add ?_ ?_
        · calc ∑ l ∈ Finset.range (vb.length - 1), ρ ^ (k - l) * norm2 (vb.getD l 0)
              ≤ ∑ _l ∈ Finset.range (vb.length - 1), ρ * maxNorm vb := by
                refine Finset.sum_le_sum fun l hl => ?_
                have := Finset.mem_range.1 hl
                exact mul_le_mul (pow_le_of_le_one hρ hρ1 (by omega)) (getD_norm_le vb l) (norm2_nonneg _) hρ
            _ = ((vb.length - 1 : ℕ) : ℝ) * (ρ * maxNorm vb) := by rw [Finset.sum_const, Finset.card_range, nsmul_eq_mul]
            _ ≤ 4 * (ρ * maxNorm vb) := by
                refine mul_le_mul_of_nonneg_right ?_ (by positivity)
                have : vb.length - 1 ≤ 4 := by omega
                exact_mod_cast this
            _ = _ := by ring
        · exact mul_le_of_le_one_left hβ0 (pow_le_one₀ hρ hρ1)
      -- residual below the tolerance
      have small : (∃ w', phiLinop (applCode expm) (kiopsOp A dt vb) 1 (kiopsVec vb) 0 m iom = .ok w' ∧
          norm2 (w' - phiM 0 ((1 : ℝ) • Z) *ᵥ kiopsVec vb) ≤ norm2 (kiopsVec vb) * (1e-12 * Real.exp 6 + 0)) →
          maxNorm vb * norm2 (w - phiM 0 Z *ᵥ kiopsVec vb) ≤ 2 * Real.exp 6 * (5 * maxNorm vb * ρ ^ q
          + min (1e-12 * maxNorm vb) (4 * ρ * maxNorm vb + norm2 (vb.getD (vb.length - 1) 0))) := by
        rintro ⟨w', hw', he'⟩
        obtain rfl : w = w' := by rw [hw] at hw'; exact Except.ok.inj hw'
        rw [one_smul, add_zero] at he'
        rcases le_total (1e-12 * maxNorm vb) (4 * ρ * maxNorm vb + norm2 (vb.getD (vb.length - 1) 0)) with h | h
        · rw [min_eq_left h]
          have h1 : norm2 (w - phiM 0 Z *ᵥ kiopsVec vb) ≤ 2 * (1e-12 * Real.exp 6) :=
            he'.trans (mul_le_mul_of_nonneg_right n2 (by positivity))
          calc _ ≤ maxNorm vb * (2 * (1e-12 * Real.exp 6)) := mul_le_mul_of_nonneg_left h1 hν0
            _ = 2 * Real.exp 6 * (1e-12 * maxNorm vb) := by ring
            _ ≤ _ := mul_le_mul_of_nonneg_left (by linarith) (by positivity)
        · rw [min_eq_right h]
          exact (T _ T1).trans (mul_le_mul_of_nonneg_left (by linarith) (by positivity))
      obtain ⟨-, h2, -, h4⟩ := (C28_termination (kiopsOp A dt vb) 1 (fun i => kiopsVec vb i / norm2 (kiopsVec vb)) m iom (by omega)).2 hb
      rcases h2.lt_or_eq with hlt | heq
      · exact small (C65_residual_bound (applCode expm) (kiopsOp A dt vb) Z hZ' 1 (kiopsVec vb) hv 0 m iom (by omega) hiom 0 6 1e-12
          (by norm_num) hσ hk fun j r hj hr => h4 j r hj hr hlt)
      · rcases Nat.le_total m (n + (vb.length - 1)) with hmn | hmn
        · have hkm : k = m := by rw [hkd, heq, min_eq_right hmn]
          refine (T (5 * maxNorm vb * ρ ^ q) ?_).trans (mul_le_mul_of_nonneg_left (by linarith) (by positivity))
          calc ∑ l ∈ Finset.range vb.length, ρ ^ (k - l) * norm2 (vb.getD l 0)
              ≤ ∑ _l ∈ Finset.range vb.length, ρ ^ q * maxNorm vb := by
                refine Finset.sum_le_sum fun l hl => ?_
                have := Finset.mem_range.1 hl
                exact mul_le_mul (pow_le_pow_of_le_one hρ hρ1 (by omega)) (getD_norm_le vb l) (norm2_nonneg _) (by positivity)
            _ = (vb.length : ℝ) * (ρ ^ q * maxNorm vb) := by rw [Finset.sum_const, Finset.card_range, nsmul_eq_mul]
            _ ≤ 5 * (ρ ^ q * maxNorm vb) := by
                refine mul_le_mul_of_nonneg_right ?_ (by positivity)
                exact_mod_cast hvb5
            _ = _ := by ring
        · exact small (C65_full_dimension (applCode expm) (kiopsOp A dt vb) Z hZ' 1 (kiopsVec vb) hv 0 m iom hmn (by omega) 0 6
            (by norm_num) hσ hk)
    refine ⟨maxNorm vb • headN w, ?_, ?_⟩
    · unfold kiopsFixedsteps
      rw [kiops_pos _ A dt vb hvb hpos, C29_matexp, hw]
      rfl
    · have e : ∑ j ∈ Finset.range vb.length, phiM j (dt • M) *ᵥ vb.getD j 0 = maxNorm vb • headN (phiM 0 Z *ᵥ kiopsVec vb) := by
        unfold kiopsVec
        rw [hh, smul_smul, mul_inv_cancel₀ hpos.ne', one_smul, show vb.length - 1 + 1 = vb.length by omega]
      have e2 : headN w - headN (phiM 0 Z *ᵥ kiopsVec vb) = headN (w - phiM 0 Z *ᵥ kiopsVec vb) := rfl
      rw [e, ← smul_sub, norm2_smul, abs_of_pos hpos, e2]
      exact (mul_le_mul_of_nonneg_left (norm2_headN_le _) hν0).trans main
  · have hne : vb ≠ [] := by intro h; rw [h] at hvb; simp at hvb
    refine ⟨0, ?_, ?_⟩
    · unfold kiopsFixedsteps kiopsWith
      simp only
      rw [if_neg hne, if_neg hpos]
    · rw [Finset.sum_eq_zero fun j _ => by rw [maxNorm_zero hpos, Matrix.mulVec_zero], sub_zero, norm2_zero]
      have : 0 ≤ min (1e-12 * maxNorm vb) (4 * ρ * maxNorm vb + norm2 (vb.getD (vb.length - 1) 0)) :=
        le_min (by positivity) (by positivity)
      positivity

/-- The constant of `kiops_fixedsteps`. -/
noncomputable def kiopsConst (n : ℕ) (R : ℝ) : ℝ := 10 * Real.exp 6 * Real.sqrt n * (Real.sqrt n * R + 1) ^ 4

theorem kiopsConst_nonneg {R : ℝ} (hR : 0 ≤ R) : 0 ≤ kiopsConst n R := by unfold kiopsConst; positivity

/-- `kiops_fixedsteps` of the package on the lists the methods call it with: error `O(dt^q + min(1e-12, dt))`. -/
theorem realKernels_kiops (expm : ∀ m, Mat m → Mat m) (hx : ∀ m A, expm m A = NormedSpace.exp A) (tab : Pfd)
    (rs : Mat n → ℝ → Vec n → ℕ → Vec n) (maxDim iom : ℕ) {dt R : ℝ} (h0 : 0 < dt) (hR : 0 ≤ R)
    (hsmall : Real.sqrt n * R * dt ≤ 1) (q : ℕ) (hq4 : q ≤ 4) (hpm : q + 4 ≤ maxDim) (hiom : min (n + 4) maxDim ≤ iom + 1) :
    ApproxKiops (realKernels n expm tab rs maxDim iom) dt R (kiopsConst n R * (dt ^ q + min 1e-12 dt)) := by
  intro A M hA hM bs hb2 hb5 B hB hlast
  set s := Real.sqrt n with hs
  have hs0 : 0 ≤ s := Real.sqrt_nonneg _
  set ρ := s * R * dt with hρ
  have hρ0 : 0 ≤ ρ := by positivity
  have hρM : ∀ x, norm2 ((dt • M) *ᵥ x) ≤ ρ * norm2 x := fun x => by
    refine (norm2_mulVec_le _ x).trans (mul_le_mul_of_nonneg_right ?_ (norm2_nonneg x))
    rw [norm_smul, Real.norm_of_nonneg (by positivity)]
    calc s * (dt * ‖M‖) ≤ s * (dt * R) := by gcongr
      _ = ρ := by rw [hρ]; ring
  have hB0 : 0 ≤ B := by
    obtain ⟨b, hb⟩ : ∃ b, b ∈ bs := List.exists_mem_of_length_pos (by omega)
    exact (norm_nonneg b).trans (hB b hb)
  obtain ⟨w, hw, he⟩ := kiops_trunc expm hx A M hA dt bs hb2 hb5 q maxDim iom 1 (by omega) (by omega) ρ hρ0 hsmall hρM
  refine ⟨w, hw, (norm_le_norm2 _).trans (he.trans ?_)⟩
  have hν : maxNorm bs ≤ s * B := maxNorm_le_of bs _ (by positivity) fun v hv =>
    (norm2_le_norm v).trans (mul_le_mul_of_nonneg_left (hB v hv) hs0)
  have hν0 : 0 ≤ maxNorm bs := (norm2_nonneg _).trans (getD_norm_le bs 0)
  have hβ : norm2 (bs.getD (bs.length - 1) 0) ≤ s * (dt * B) :=
    (norm2_le_norm _).trans (mul_le_mul_of_nonneg_left hlast hs0)
  set G := s * R + 1 with hG
  have hG1 : 1 ≤ G := by have : 0 ≤ s * R := by positivity
                         linarith
  have hG0 : 0 ≤ G := by linarith
  have a1 : ρ ^ q ≤ G ^ 4 * dt ^ q := by
    rw [hρ, mul_pow]
    refine mul_le_mul_of_nonneg_right ?_ (by positivity)
    have hsR : 0 ≤ s * R := by positivity
    calc (s * R) ^ q ≤ G ^ q := by gcongr; linarith
      _ ≤ G ^ 4 := pow_le_pow_right₀ hG1 hq4
  have b1 : (1 : ℝ) ≤ G ^ 4 := one_le_pow₀ hG1
  have b2 : G ≤ G ^ 4 := le_self_pow₀ hG1 (by norm_num)
  have hmin0 : 0 ≤ min (1e-12 : ℝ) dt := le_min (by norm_num) h0.le
  have a2 : 5 * maxNorm bs * ρ ^ q ≤ 5 * (s * B) * (G ^ 4 * dt ^ q) :=
    mul_le_mul (by linarith) a1 (by positivity) (by positivity)
  have a3 : min (1e-12 * maxNorm bs) (4 * ρ * maxNorm bs + norm2 (bs.getD (bs.length - 1) 0)) ≤ 5 * (s * B) * (G ^ 4 * min 1e-12 dt) := by
    have hsB : 0 ≤ s * B := by positivity
    rcases le_total (1e-12 : ℝ) dt with h | h
    · rw [min_eq_left h]
      refine (min_le_left _ _).trans ?_
      calc 1e-12 * maxNorm bs ≤ 1e-12 * (s * B) := mul_le_mul_of_nonneg_left hν (by norm_num)
        _ = (s * B) * (1 * 1e-12) := by ring
        _ ≤ (s * B) * (G ^ 4 * 1e-12) := by gcongr
        _ ≤ _ := by
          have : 0 ≤ (s * B) * (G ^ 4 * (1e-12 : ℝ)) := by positivity
          linarith
    · rw [min_eq_right h]
      refine (min_le_right _ _).trans ?_
      calc 4 * ρ * maxNorm bs + norm2 (bs.getD (bs.length - 1) 0) ≤ 4 * ρ * (s * B) + s * (dt * B) :=
            add_le_add (mul_le_mul_of_nonneg_left hν (by positivity)) hβ
        _ = (s * B) * ((4 * (s * R) + 1) * dt) := by rw [hρ]; ring
        _ ≤ (s * B) * ((5 * G ^ 4) * dt) := by
            refine mul_le_mul_of_nonneg_left (mul_le_mul_of_nonneg_right ?_ h0.le) hsB
            have : 0 ≤ s * R := by positivity
            linarith
        _ = _ := by ring
  calc 2 * Real.exp 6 * (5 * maxNorm bs * ρ ^ q + min (1e-12 * maxNorm bs) (4 * ρ * maxNorm bs + norm2 (bs.getD (bs.length - 1) 0)))
      ≤ 2 * Real.exp 6 * (5 * (s * B) * (G ^ 4 * dt ^ q) + 5 * (s * B) * (G ^ 4 * min 1e-12 dt)) :=
        mul_le_mul_of_nonneg_left (add_le_add a2 a3) (by positivity)
    _ = kiopsConst n R * (dt ^ q + min 1e-12 dt) * B := by
        unfold kiopsConst
        rw [← hs, ← hG]
        ring

/-- the constant of both Krylov kernels -/
noncomputable def bothConst (n : ℕ) (R : ℝ) : ℝ := krylovConst n R + kiopsConst n R

theorem bothConst_nonneg {R : ℝ} (hR : 0 ≤ R) : 0 ≤ bothConst n R := add_nonneg (krylovConst_nonneg hR) (kiopsConst_nonneg hR)

theorem realKernels_aug (m : String) (p : ℕ) (hm : (m, p) ∈ [("epi2", 2), ("epi3", 3), ("pexprb4", 4)])
    (expm : ∀ m, Mat m → Mat m) (hx : ∀ m A, expm m A = NormedSpace.exp A) (tab : Pfd) (rs : Mat n → ℝ → Vec n → ℕ → Vec n)
    (maxDim iom : ℕ) (hpm : p + 4 ≤ maxDim) (hiom : min (n + 4) maxDim ≤ iom + 1) {dt R R' : ℝ} (h0 : 0 < dt) (h1 : dt ≤ 1)
    (hR' : 0 ≤ R') (hRR : R ≤ R') (hsmall : Real.sqrt n * R' * dt ≤ 1) :
    ApproxFor m (realKernels n expm tab rs maxDim iom) dt R (bothConst n R' * (dt ^ p + min 1e-12 dt)) := by
  have hmin0 : 0 ≤ min (1e-12 : ℝ) dt := le_min (by norm_num) h0.le
  have hE : 0 ≤ dt ^ p + min (1e-12 : ℝ) dt := by positivity
  have k1 := krylovConst_nonneg (n := n) hR'
  have k2 := kiopsConst_nonneg (n := n) hR'
  have c1 : krylovConst n R' * (dt ^ p + min 1e-12 dt) ≤ bothConst n R' * (dt ^ p + min 1e-12 dt) :=
    mul_le_mul_of_nonneg_right (by unfold bothConst; linarith) hE
  have c2 : kiopsConst n R' * (dt ^ p + min 1e-12 dt) ≤ bothConst n R' * (dt ^ p + min 1e-12 dt) :=
    mul_le_mul_of_nonneg_right (by unfold bothConst; linarith) hE
  have up : ∀ {kmax}, ApproxLinop (realKernels n expm tab rs maxDim iom) dt R' (krylovConst n R' * (dt ^ p + min 1e-12 dt)) kmax →
      ApproxLinop (realKernels n expm tab rs maxDim iom) dt R (bothConst n R' * (dt ^ p + min 1e-12 dt)) kmax :=
    fun h A M hA hM c a b v k d e => by
      obtain ⟨w, hw, hh⟩ := h A M hA (hM.trans hRR) c a b v k d e
      exact ⟨w, hw, hh.trans (mul_le_mul_of_nonneg_right c1 (norm_nonneg _))⟩
  have kp : p ≤ 4 → ApproxKiops (realKernels n expm tab rs maxDim iom) dt R (bothConst n R' * (dt ^ p + min 1e-12 dt)) := by
    intro hp4 A M hA hM bs h2 h5 B hB hl
    obtain ⟨w, hw, hh⟩ := realKernels_kiops expm hx tab rs maxDim iom h0 hR' hsmall p hp4 hpm hiom A M hA (hM.trans hRR) bs h2 h5 B hB hl
    obtain ⟨b, hb⟩ : ∃ b, b ∈ bs := List.exists_mem_of_length_pos (by omega)
    exact ⟨w, hw, hh.trans (mul_le_mul_of_nonneg_right c2 ((norm_nonneg b).trans (hB b hb)))⟩
  simp only [List.mem_cons, List.not_mem_nil, or_false, Prod.mk.injEq] at hm
  rcases hm with ⟨rfl, rfl⟩ | ⟨rfl, rfl⟩ | ⟨rfl, rfl⟩
  · exact ⟨fun h => absurd h (by decide), fun _ => kp (by omega), fun h => absurd h (by decide), fun h => absurd h (by decide),
      fun h => absurd h (by decide)⟩
  · exact ⟨fun _ => up (realKernels_linop expm tab rs maxDim iom h0 h1 hR' hsmall 3 3 (by omega) (by omega) (by omega) (by omega) (by omega) (by omega)),
      fun _ => kp (by omega), fun h => absurd h (by decide), fun h => absurd h (by decide), fun h => absurd h (by decide)⟩
  · exact ⟨fun _ => up (realKernels_linop expm tab rs maxDim iom h0 h1 hR' hsmall 4 2 (by omega) (by omega) (by omega) (by omega) (by omega) (by omega)),
      fun _ => kp (by omega), fun h => absurd h (by decide), fun h => absurd h (by decide), fun h => absurd h (by decide)⟩

/-- From a bound in terms of the kernel error to one in terms of the step. -/
theorem kernel_to_step (p : ℕ) (hp1 : 1 ≤ p) (C δ R : ℝ) (hC : 0 ≤ C) (hδ : 0 < δ) :
    ∃ C' δ' : ℝ, 0 ≤ C' ∧ 0 < δ' ∧ δ' ≤ δ ∧ δ' ≤ 1 ∧ ∀ dt ε, 0 < dt → dt ≤ δ' → 0 ≤ ε →
      Real.sqrt n * max R 0 * dt ≤ 1 ∧ 0 ≤ bothConst n (max R 0) * (dt ^ p + min 1e-12 dt) ∧
      bothConst n (max R 0) * (dt ^ p + min 1e-12 dt) ≤ δ ∧
      C * (dt ^ p + ε + bothConst n (max R 0) * (dt ^ p + min 1e-12 dt)) ≤ C' * (dt ^ p + ε + min 1e-12 dt) := by
  set R' := max R 0 with hR'
  have hR0 : 0 ≤ R' := le_max_right _ _
  set D := bothConst n R' with hD
  have hD0 : 0 ≤ D := bothConst_nonneg hR0
  set S := Real.sqrt n * R' with hS
  have hS0 : 0 ≤ S := by positivity
  refine ⟨C * (D + 1), min (min δ 1) (min (δ / (2 * D + 1)) (1 / (S + 1))), by positivity, by positivity,
    (min_le_left _ _).trans (min_le_left _ _), (min_le_left _ _).trans (min_le_right _ _), ?_⟩
  intro dt ε h1 h2 h3
  have hd1 : dt ≤ 1 := h2.trans ((min_le_left _ _).trans (min_le_right _ _))
  have hdD : dt ≤ δ / (2 * D + 1) := h2.trans ((min_le_right _ _).trans (min_le_left _ _))
  have hdS : dt ≤ 1 / (S + 1) := h2.trans ((min_le_right _ _).trans (min_le_right _ _))
  have hmin0 : 0 ≤ min (1e-12 : ℝ) dt := le_min (by norm_num) h1.le
  have hmin1 : min (1e-12 : ℝ) dt ≤ dt := min_le_right _ _
  have hpd : dt ^ p ≤ dt := pow_le_of_le_one h1.le hd1 (by omega)
  have hp0 : 0 ≤ dt ^ p := by positivity
  refine ⟨?_, by positivity, ?_, ?_⟩
  · rw [le_div_iff₀ (by positivity)] at hdS
    nlinarith
  · rw [le_div_iff₀ (by positivity)] at hdD
    nlinarith [mul_le_mul_of_nonneg_left (add_le_add hpd hmin1) hD0]
  · rw [mul_assoc]
    refine mul_le_mul_of_nonneg_left ?_ hC
    nlinarith [mul_nonneg hD0 h3]

/-- **C105, methods calling `kiops_fixedsteps`.**  `integrate` with `epi2` or `pexprb4` and the package's own Krylov kernels, with a
Krylov dimension of at least `p + 4` and full orthogonalisation, converges with the order of the method, up to the breakdown
tolerance `1e-12` of the Arnoldi process (`expm`, the matrix exponential of the library, is exact). -/
theorem C105_kiops (hasRust : Bool) (sys : OdeSys n P) (hj : ExactJacs sys)
    (m : String) (p : ℕ) (hm : (m, p) ∈ [("epi2", 2), ("pexprb4", 4)]) (Y : ℝ → Vec n) (t0 T : ℝ)
    (hY : ∀ t ∈ Set.Icc t0 T, SmoothIVP (sys.frhs none) (p + 2) t Y) :
    ∃ C δ : ℝ, 0 ≤ C ∧ 0 < δ ∧ ∀ (expm : ∀ m, Mat m → Mat m) (tab : Pfd) (rs : Mat n → ℝ → Vec n → ℕ → Vec n) (maxDim iom : ℕ)
      (dt ε tol : ℝ) (nsteps : ℕ) (s : ExpRB n), (∀ m A, expm m A = NormedSpace.exp A) →
      p + 4 ≤ maxDim → min (n + 4) maxDim ≤ iom + 1 → 0 < dt → dt ≤ δ → 0 ≤ ε → ε ≤ δ →
      t0 + nsteps * dt ≤ T → ExpRB.new hasRust t0 (Y t0) m tol = .ok s →
      ((0 ≤ tol ∧ tol ≤ ε) ∨ (∀ kw t y, (sys.fjac kw t y).fdt = 0) ∨ m ∈ alwaysCorrected) →
      ∀ {Q W : Type} (before : Option (W → ℝ → Vec n → P × W)) (after : Option (W → ℝ → Vec n → Q × W)) (w : W),
      ∃ l, integrateOrmatex (rbStepper hasRust (realKernels n expm tab rs maxDim iom) sys) s (Y t0) t0 dt nsteps before after w = .ok l ∧
        RunAccurate l t0 dt nsteps Y (C * (dt ^ p + ε + min 1e-12 dt)) := by
  have hm' : (m, p) ∈ rbOrders := by
    simp only [List.mem_cons, List.not_mem_nil, or_false, Prod.mk.injEq] at hm
    rcases hm with ⟨rfl, rfl⟩ | ⟨rfl, rfl⟩ <;> simp [rbOrders]
  have hm2 : (m, p) ∈ [("epi2", 2), ("epi3", 3), ("pexprb4", 4)] := by
    simp only [List.mem_cons] at hm ⊢; tauto
  have hp1 : 1 ≤ p := by
    simp only [List.mem_cons, List.not_mem_nil, or_false, Prod.mk.injEq] at hm
    omega
  obtain ⟨C, δ, R, hC, hδ, h⟩ := C103_rosenbrock hasRust sys hj m p hm' Y t0 T hY
  obtain ⟨C', δ', hC', hδ', hle, hle1, hst⟩ := kernel_to_step (n := n) p hp1 C δ R hC hδ
  refine ⟨C', δ', hC', hδ', ?_⟩
  intro expm tab rs maxDim iom dt ε tol N s hx hpm hiom h1 h2 h3 h4 h5 h6 h7 Q W before after w
  obtain ⟨s1, s2, s3, s4⟩ := hst dt ε h1 h2 h3
  obtain ⟨l, hl, hacc⟩ := h _ dt ε _ tol N s h1 (h2.trans hle) h3 (h4.trans hle) s2 s3
    (realKernels_aug m p hm2 expm hx tab rs maxDim iom hpm hiom h1 (h2.trans hle1) (le_max_right _ _) (le_max_left _ _) s1) h5 h6 h7 before after w
  exact ⟨l, hl, hacc.1, hacc.2.1, fun i y hi => (hacc.2.2 i y hi).trans s4⟩

/-- **C105, the multistep method** `epi3` with the package's own Krylov kernels. -/
theorem C105_epi3 (hasRust : Bool) (sys : OdeSys n P) (hj : ExactJacs sys)
    (Y : ℝ → Vec n) (t0 T : ℝ) (hY : ∀ t ∈ Set.Icc t0 T, SmoothIVP (sys.frhs none) 5 t Y) :
    ∃ C δ : ℝ, 0 ≤ C ∧ 0 < δ ∧ ∀ (expm : ∀ m, Mat m → Mat m) (tab : Pfd) (rs : Mat n → ℝ → Vec n → ℕ → Vec n) (maxDim iom : ℕ)
      (dt ε tol : ℝ) (nsteps : ℕ) (s : ExpRB n), (∀ m A, expm m A = NormedSpace.exp A) →
      7 ≤ maxDim → min (n + 4) maxDim ≤ iom + 1 → 0 < dt → dt ≤ δ → 0 ≤ ε → ε ≤ δ →
      t0 + nsteps * dt ≤ T → ExpRB.new hasRust t0 (Y t0) "epi3" tol = .ok s →
      ((0 ≤ tol ∧ tol ≤ ε) ∨ (∀ kw t y, (sys.fjac kw t y).fdt = 0)) →
      ∀ {Q W : Type} (before : Option (W → ℝ → Vec n → P × W)) (after : Option (W → ℝ → Vec n → Q × W)) (w : W),
      ∃ l, integrateOrmatex (rbStepper hasRust (realKernels n expm tab rs maxDim iom) sys) s (Y t0) t0 dt nsteps before after w = .ok l ∧
        RunAccurate l t0 dt nsteps Y (C * (dt ^ 3 + ε + min 1e-12 dt)) := by
  obtain ⟨C, δ, R, hC, hδ, h⟩ := C103_epi3 hasRust sys hj Y t0 T hY
  obtain ⟨C', δ', hC', hδ', hle, hle1, hst⟩ := kernel_to_step (n := n) 3 (by norm_num) C δ R hC hδ
  refine ⟨C', δ', hC', hδ', ?_⟩
  intro expm tab rs maxDim iom dt ε tol N s hx hpm hiom h1 h2 h3 h4 h5 h6 h7 Q W before after w
  obtain ⟨s1, s2, s3, s4⟩ := hst dt ε h1 h2 h3
  obtain ⟨l, hl, hacc⟩ := h _ dt ε _ tol N s h1 (h2.trans hle) h3 (h4.trans hle) s2 s3
    (realKernels_aug "epi3" 3 (by simp) expm hx tab rs maxDim iom (by omega) hiom h1 (h2.trans hle1) (le_max_right _ _) (le_max_left _ _) s1) h5 h6 h7 before after w
  exact ⟨l, hl, hacc.1, hacc.2.1, fun i y hi => (hacc.2.2 i y hi).trans s4⟩

/-- `epi3` with the default Krylov dimension 100 on the demonstration system. -/
example (tab : Pfd) (rs : Mat 2 → ℝ → Vec 2 → ℕ → Vec 2) :
    ∃ C δ : ℝ, 0 ≤ C ∧ 0 < δ ∧ ∀ (dt : ℝ) (nsteps : ℕ) (s : ExpRB 2), 0 < dt → dt ≤ δ → 0 + nsteps * dt ≤ 1 / 2 →
    ExpRB.new false 0 (demoY 0) "epi3" 0 = .ok s →
    ∃ l, integrateOrmatex (rbStepper false (realKernels 2 (fun _ A => NormedSpace.exp A) tab rs 100 100)
        (OdeSys.ofFrhs demoF (fun _ _ => matrixLinOp 1))) s (demoY 0) 0 dt nsteps
        (none : Option (Unit → ℝ → Vec 2 → List ℕ × Unit)) (none : Option (Unit → ℝ → Vec 2 → Unit × Unit)) () = .ok l ∧
      RunAccurate l 0 dt nsteps demoY (C * (dt ^ 3 + min 1e-12 dt)) := by
  obtain ⟨C, δ, hC, hδ, h⟩ := C105_epi3 false (OdeSys.ofFrhs demoF (fun _ _ => matrixLinOp 1))
    (exactJacs_autodiff demoF (fun _ => rfl) _) demoY 0 (1 / 2)
    (fun t ht => demo_smooth_at _ t (by linarith [ht.2]))
  refine ⟨C, δ, hC, hδ, fun dt N s h1 h2 h3 h4 => ?_⟩
  have := h (fun _ A => NormedSpace.exp A) tab rs 100 100 dt 0 0 N s (fun _ _ => rfl) (by norm_num) (by norm_num) h1 h2 le_rfl hδ.le h3 h4
    (Or.inl ⟨le_rfl, le_rfl⟩)
    (none : Option (Unit → ℝ → Vec 2 → List ℕ × Unit)) (none : Option (Unit → ℝ → Vec 2 → Unit × Unit)) ()
  rw [add_zero] at this
  exact this

end
end Ormatex.Props
