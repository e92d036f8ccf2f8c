import Verif.Model.Phi
import Verif.Spec.Phi

/-!
Dense phi routines: inverse recurrence (C18), block extension (C19, C23), argument validation (C25).
-/

namespace Ormatex.Props
open Matrix Ormatex.Spec

/-! ### helper: reading the exponential of a block matrix -/

theorem hasSum_entry {a b : Type*} {f : ℕ → Matrix a b ℝ} {M : Matrix a b ℝ} (h : HasSum f M) (i : a) (j : b) :
    HasSum (fun n => f n i j) (M i j) :=
  Pi.hasSum.mp (Pi.hasSum.mp h i) j

theorem exp_entry_hasSum {m : ℕ} (Z : Mat m) (i c : Fin m) :
    HasSum (fun j : ℕ => ((Nat.factorial j : ℝ)⁻¹) * (Z ^ j) i c) (NormedSpace.exp Z i c) := by
  have h := phiM_hasSum 0 Z
  rw [phiM_zero] at h
  simpa using hasSum_entry h i c

theorem phi_mul_entry_hasSum {N M : ℕ} (l : ℕ) (z : Mat N) (B : Matrix (Fin N) (Fin M) ℝ) (i : Fin N) (x : Fin M) :
    HasSum (fun j : ℕ => ((Nat.factorial (j + l) : ℝ)⁻¹) * (z ^ j * B) i x) ((phiM l z * B) i x) := by
  have h : ∀ y : Fin N, HasSum (fun j : ℕ => ((Nat.factorial (j + l) : ℝ)⁻¹) * (z ^ j) i y * B y x)
      (phiM l z i y * B y x) := by
    intro y
    have := hasSum_entry (phiM_hasSum l z) i y
    exact HasSum.mul_right (B y x) (by simpa using this)
  have h2 := hasSum_sum (s := Finset.univ) (fun y _ => h y)
  have e : (fun j : ℕ => ∑ y, ((Nat.factorial (j + l) : ℝ)⁻¹) * (z ^ j) i y * B y x)
      = fun j : ℕ => ((Nat.factorial (j + l) : ℝ)⁻¹) * (z ^ j * B) i x := by
    funext j
    rw [Matrix.mul_apply, Finset.mul_sum]
    exact Finset.sum_congr rfl fun y _ => by ring
  rw [e] at h2
  rw [Matrix.mul_apply]
  exact h2

/-- If the powers of `Z` read off at `(r i, c x)` are those of `z` shifted by `l` places and multiplied by `B`, then the
exponential reads off `phi_l(z) B`. -/
theorem exp_block {m N M : ℕ} (Z : Mat m) (z : Mat N) (B : Matrix (Fin N) (Fin M) ℝ) (l : ℕ) (ri cx : Fin m)
    (i : Fin N) (x : Fin M)
    (h : ∀ j : ℕ, (Z ^ j) ri cx = if j < l then 0 else (z ^ (j - l) * B) i x) :
    NormedSpace.exp Z ri cx = (phiM l z * B) i x := by
  have h1 := (hasSum_nat_add_iff' l).mpr (exp_entry_hasSum Z ri cx)
  have e0 : ∑ j ∈ Finset.range l, ((Nat.factorial j : ℝ)⁻¹) * (Z ^ j) ri cx = 0 := by
    refine Finset.sum_eq_zero fun j hj => ?_
    rw [h j, if_pos (Finset.mem_range.mp hj), mul_zero]
  rw [e0, sub_zero] at h1
  have e1 : (fun j : ℕ => ((Nat.factorial (j + l) : ℝ)⁻¹) * (Z ^ (j + l)) ri cx)
      = fun j : ℕ => ((Nat.factorial (j + l) : ℝ)⁻¹) * (z ^ j * B) i x := by
    funext j
    rw [h (j + l), if_neg (by omega), Nat.add_sub_cancel]
  rw [e1] at h1
  exact h1.unique (phi_mul_entry_hasSum l z B i x)

theorem sum_first {m N : ℕ} (hN : N ≤ m) (f : Fin m → ℝ) (h : ∀ y : Fin m, N ≤ (y : ℕ) → f y = 0) :
    ∑ y, f y = ∑ y : Fin N, f ⟨y, lt_of_lt_of_le y.2 hN⟩ := by
  obtain ⟨d, rfl⟩ := Nat.exists_eq_add_of_le hN
  rw [Fin.sum_univ_add]
  rw [Finset.sum_eq_zero (s := (Finset.univ : Finset (Fin d)))]
  · rw [add_zero]
    rfl
  · intro y _
    exact h _ (by simp)

/-! ### C18 -/

/-- **C18.** `f_phi_k(z, k) = phi_k(z)` for every invertible `z` and every order, given an exact exponential and an exact
solver for `z Y = X`. -/
theorem C18_phi_inverse {N : ℕ} (expm : Mat N → Mat N) (solve : Mat N → Mat N → Mat N) (z : Mat N)
    (hz : IsUnit z.det) (hexp : expm z = NormedSpace.exp z) (hsolve : ∀ X, z * solve z X = X) (k : ℕ) :
    fPhiK expm solve z k = phiM k z := by
  unfold fPhiK
  induction k with
  | zero => rw [fPhiKInv, hexp, phiM_zero]
  | succ k ih =>
    rw [fPhiKInv, ih]
    have h1 := hsolve (phiM k z - ((1 : ℝ) / (Nat.factorial k)) • 1)
    have h2 := phiM_recurrence k z
    rw [← one_div] at h2
    rw [← h2] at h1 ⊢
    have h3 := congrArg (fun X => z⁻¹ * X) h1
    simp only [← Matrix.mul_assoc] at h3
    rw [Matrix.nonsing_inv_mul z hz, Matrix.one_mul] at h3
    rw [Matrix.one_mul] at h3
    rw [h3]

/-- The hypotheses of C18 hold for every invertible matrix with the mathematical exponential and inverse. -/
theorem C18_hyps_met {N : ℕ} (z : Mat N) (hz : IsUnit z.det) (k : ℕ) :
    fPhiK NormedSpace.exp (fun z X => z⁻¹ * X) z k = phiM k z :=
  C18_phi_inverse _ _ z hz rfl (fun X => by rw [← Matrix.mul_assoc, Matrix.mul_nonsing_inv z hz, Matrix.one_mul]) k

/-- A concrete invertible instance. -/
example : IsUnit (Matrix.det (!![2, 1; 0, -3] : Mat 2)) := by
  rw [Matrix.det_fin_two_of, isUnit_iff_ne_zero]; norm_num

/-- The error estimate returned beside the matrix is `eps / r_min^k`. -/
theorem C18_error_estimate (eps r : ℝ) (k : ℕ) : fPhiKInvErr eps r k = eps / r ^ k := by
  induction k with
  | zero => simp [fPhiKInvErr]
  | succ k ih => rw [fPhiKInvErr, ih, pow_succ, div_div]

/-! ### C19 -/

theorem phiExt_col0 {N : ℕ} (z : Mat N) (k : ℕ) (y : Fin ((k + 1) * N)) (x : Fin N) (hx : (x : ℕ) < (k + 1) * N) :
    phiExtMat z k y ⟨x, hx⟩ = if h : (y : ℕ) < N then z ⟨y, h⟩ x else 0 := by
  unfold phiExtMat
  split_ifs with h0 h1 h1
  · simp [h1]
  · simp [h1]
  · have : (y : ℕ) < k * N := lt_of_lt_of_le h1 (Nat.le_mul_of_pos_left N (by omega))
    simp [h1, this]
  · simp [h1]

theorem phiExt_colS {N : ℕ} (z : Mat N) (k l : ℕ) (hl : l + 1 ≤ k) (y : Fin ((k + 1) * N)) (x : Fin N)
    (hx : (l + 1) * N + (x : ℕ) < (k + 1) * N) :
    phiExtMat z k y ⟨(l + 1) * N + x, hx⟩ = if (y : ℕ) = l * N + x then 1 else 0 := by
  unfold phiExtMat
  have h0 : k ≠ 0 := by omega
  have e : (l + 1) * N = l * N + N := by ring
  have hle : (l + 1) * N ≤ k * N := Nat.mul_le_mul_right _ hl
  have hxl := x.2
  rw [if_neg h0]
  simp only [Matrix.of_apply]
  rw [dif_neg (by omega)]
  by_cases hy : (y : ℕ) = l * N + x
  · rw [if_pos (by omega), if_pos (by omega), if_pos hy]
  · rw [if_neg hy]
    split_ifs with h1 h2
    · omega
    · rfl
    · rfl

theorem phiExt_pow {N : ℕ} (z : Mat N) (k : ℕ) (i : Fin N) (hi : (i : ℕ) < (k + 1) * N) (j : ℕ) :
    ∀ (l : ℕ) (_ : l ≤ k) (x : Fin N) (hx : l * N + (x : ℕ) < (k + 1) * N),
      (phiExtMat z k ^ j) ⟨i, hi⟩ ⟨l * N + x, hx⟩ = if j < l then 0 else (z ^ (j - l) * 1) i x := by
  induction j with
  | zero =>
    intro l hl x hx
    rw [pow_zero, Matrix.one_apply]
    have hx2 := x.2
    have hi2 := i.2
    rcases Nat.eq_zero_or_pos l with rfl | hl0
    · simp only [zero_mul, zero_add, Nat.lt_irrefl, if_false, Nat.sub_zero, pow_zero, Matrix.one_mul,
        Matrix.one_apply, Fin.ext_iff]
    · rw [if_pos hl0, if_neg]
      rw [Fin.mk.injEq]
      have : N ≤ l * N := Nat.le_mul_of_pos_left N hl0
      omega
  | succ j ih =>
    intro l hl x hx
    rw [pow_succ, Matrix.mul_apply]
    have hNm : N ≤ (k + 1) * N := Nat.le_mul_of_pos_left N (by omega)
    rcases l with _ | l
    · have e : (⟨0 * N + (x : ℕ), hx⟩ : Fin ((k + 1) * N)) = ⟨x, by omega⟩ := by simp
      rw [e]
      simp only [phiExt_col0]
      rw [sum_first hNm _ (fun y hy => by rw [dif_neg (by omega), mul_zero])]
      simp only [Fin.is_lt, dite_true, Nat.not_lt_zero, if_false, Nat.sub_zero, Matrix.mul_one]
      rw [pow_succ, Matrix.mul_apply]
      refine Finset.sum_congr rfl fun y _ => ?_
      have h := ih 0 (Nat.zero_le _) y (by have := y.2; omega)
      simp only [zero_mul, zero_add, Nat.not_lt_zero, if_false, Nat.sub_zero, Matrix.mul_one] at h
      rw [h]
    · have e : (l + 1) * N = l * N + N := by ring
      simp only [phiExt_colS z k l hl]
      have hb : l * N + (x : ℕ) < (k + 1) * N := by omega
      rw [Finset.sum_eq_single (⟨l * N + x, hb⟩ : Fin ((k + 1) * N))]
      · rw [if_pos rfl, mul_one, ih l (by omega) x hb]
        simp only [Nat.add_lt_add_iff_right, Nat.add_sub_add_right]
      · intro y _ hy
        rw [if_neg, mul_zero]
        intro h
        exact hy (Fin.ext h)
      · intro h
        exact absurd (Finset.mem_univ _) h

/-- **C19.** With `return_all`, `f_phi_k_ext(z, k)` is the array `phi_0(z), ..., phi_k(z)`, for every `z`. -/
theorem C19_ext_all {N : ℕ} (z : Mat N) (k : ℕ) (l : Fin (k + 1)) :
    fPhiKExtAll (fun _ A => NormedSpace.exp A) z k l = phiM l z := by
  ext i x
  have h := exp_block (phiExtMat z k) z 1 l ⟨i, by nlinarith [i.2, Nat.zero_le (k * N)]⟩ ⟨l * N + x, by
      have h1 := l.2
      have h2 := x.2
      have : (l : ℕ) * N ≤ k * N := Nat.mul_le_mul_right _ (by omega)
      nlinarith⟩ i x (fun j => phiExt_pow z k i _ j l (by omega) x _)
  rw [Matrix.mul_one] at h
  exact h

/-- **C19.** `f_phi_k_ext(z, k) = phi_k(z)` for every matrix (singular ones included) and every order. -/
theorem C19_ext {N : ℕ} (z : Mat N) (k : ℕ) : fPhiKExt (fun _ A => NormedSpace.exp A) z k = phiM k z := by
  have h := C19_ext_all z k (Fin.last k)
  exact h

/-- A singular instance: `phi_2` of the zero matrix is `I/2`. -/
example : fPhiKExt (fun _ A => NormedSpace.exp A) (0 : Mat 3) 2 = ((2 : ℝ)⁻¹) • 1 := by
  rw [C19_ext, phiM_at_zero]; norm_num

/-! ### C23 -/

section appl
variable {N M : ℕ} (z : Mat N) (B : Matrix (Fin N) (Fin M) ℝ)

theorem applExt_colz (k : ℕ) (y : Fin (N + k * M)) (x : Fin N) (hx : (x : ℕ) < N + k * M) :
    applExtMat z B k y ⟨x, hx⟩ = if h : (y : ℕ) < N then z ⟨y, h⟩ x else 0 := by
  unfold applExtMat
  have := x.2
  simp only [Matrix.of_apply]
  split_ifs <;> first | rfl | omega

theorem applExt_colB (k : ℕ) (y : Fin (N + k * M)) (x : Fin M) (hx : N + (x : ℕ) < N + k * M) :
    applExtMat z B k y ⟨N + x, hx⟩ = if h : (y : ℕ) < N then B ⟨y, h⟩ x else 0 := by
  unfold applExtMat
  have := x.2
  simp only [Matrix.of_apply]
  split_ifs <;> first | omega | rfl | (congr; omega)

theorem applExt_colS (k l : ℕ) (hl : l + 1 < k) (y : Fin (N + k * M)) (x : Fin M)
    (hx : N + ((l + 1) * M + (x : ℕ)) < N + k * M) :
    applExtMat z B k y ⟨N + ((l + 1) * M + x), hx⟩ = if (y : ℕ) = N + (l * M + x) then 1 else 0 := by
  unfold applExtMat
  have hx2 := x.2
  have e : (l + 1) * M = l * M + M := by ring
  have hle : (l + 1) * M ≤ (k - 1) * M := Nat.mul_le_mul_right _ (by omega)
  simp only [Matrix.of_apply]
  split_ifs <;> first | rfl | omega

theorem applExt_pow_z (k : ℕ) (i : Fin N) (hi : (i : ℕ) < N + k * M) (j : ℕ) :
    ∀ (x : Fin N) (hx : (x : ℕ) < N + k * M), (applExtMat z B k ^ j) ⟨i, hi⟩ ⟨x, hx⟩ = (z ^ j) i x := by
  induction j with
  | zero =>
    intro x hx
    simp [Matrix.one_apply, Fin.ext_iff]
  | succ j ih =>
    intro x hx
    rw [pow_succ, Matrix.mul_apply]
    simp only [applExt_colz]
    rw [sum_first (Nat.le_add_right N (k * M)) _ (fun y hy => by rw [dif_neg (by omega), mul_zero])]
    simp only [Fin.is_lt, dite_true]
    rw [pow_succ, Matrix.mul_apply]
    exact Finset.sum_congr rfl fun y _ => by rw [ih y]

theorem applExt_pow_B (k : ℕ) (i : Fin N) (hi : (i : ℕ) < N + k * M) (j : ℕ) :
    ∀ (l : ℕ) (_ : l < k) (x : Fin M) (hx : N + (l * M + (x : ℕ)) < N + k * M),
      (applExtMat z B k ^ j) ⟨i, hi⟩ ⟨N + (l * M + x), hx⟩
        = if j < l + 1 then 0 else (z ^ (j - (l + 1)) * B) i x := by
  induction j with
  | zero =>
    intro l hl x hx
    rw [pow_zero, Matrix.one_apply, if_pos (Nat.succ_pos l), if_neg]
    rw [Fin.mk.injEq]
    have := i.2
    omega
  | succ j ih =>
    intro l hl x hx
    rw [pow_succ, Matrix.mul_apply]
    rcases l with _ | l
    · have e : (⟨N + (0 * M + (x : ℕ)), hx⟩ : Fin (N + k * M)) = ⟨N + x, by omega⟩ := by simp
      rw [e]
      simp only [applExt_colB]
      rw [sum_first (Nat.le_add_right N (k * M)) _ (fun y hy => by rw [dif_neg (by omega), mul_zero])]
      simp only [Fin.is_lt, dite_true]
      rw [if_neg (by omega), Matrix.mul_apply]
      exact Finset.sum_congr rfl fun y _ => by rw [applExt_pow_z z B k i hi j y]; simp
    · have e : (l + 1) * M = l * M + M := by ring
      simp only [applExt_colS z B k l hl]
      have hb : N + (l * M + (x : ℕ)) < N + k * M := by omega
      rw [Finset.sum_eq_single (⟨N + (l * M + x), hb⟩ : Fin (N + k * M))]
      · rw [if_pos rfl, mul_one, ih l (by omega) x hb]
        simp only [Nat.add_lt_add_iff_right, Nat.add_sub_add_right]
      · intro y _ hy
        rw [if_neg, mul_zero]
        intro h
        exact hy (Fin.ext h)
      · intro h
        exact absurd (Finset.mem_univ _) h

end appl

/-- Entry form used for the error bound of the code's kernel: the block read by `f_phi_k_appl` from the exact exponential
of the extended matrix is `phi_k(z) B`. -/
theorem applExt_exp {N M : ℕ} (z : Mat N) (B : Matrix (Fin N) (Fin M) ℝ) (k : ℕ) (i : Fin N) (x : Fin M)
    (hi : (i : ℕ) < N + (k + 1) * M) (hx : N + (k + 1) * M - M + (x : ℕ) < N + (k + 1) * M) :
    NormedSpace.exp (applExtMat z B (k + 1)) ⟨i, hi⟩ ⟨N + (k + 1) * M - M + x, hx⟩ = (phiM (k + 1) z * B) i x := by
  have e : (k + 1) * M = k * M + M := by ring
  have e2 : N + (k + 1) * M - M + (x : ℕ) = N + (k * M + x) := by omega
  have e3 : (⟨N + (k + 1) * M - M + x, hx⟩ : Fin (N + (k + 1) * M)) = ⟨N + (k * M + x), e2 ▸ hx⟩ := by
    rw [Fin.mk.injEq, e2]
  rw [e3]
  exact exp_block _ z B (k + 1) _ _ i x (fun j => applExt_pow_B z B (k + 1) i hi j k (by omega) x _)

/-- **C23.** `f_phi_k_appl(z, B, k) = phi_k(z) B` for every `z`, `B` (a vector is the case `M = 1`) and order, given an
exact exponential in both branches. -/
theorem C23_appl {N M : ℕ} (expm : ∀ m, Mat m → Mat m) (phi0 : ∀ m, Mat m → Py (Mat m))
    (hexp : ∀ m A, expm m A = NormedSpace.exp A) (h0 : ∀ m A, phi0 m A = .ok (NormedSpace.exp A))
    (z : Mat N) (B : Matrix (Fin N) (Fin M) ℝ) (k : ℕ) :
    fPhiKAppl expm phi0 z B k = .ok (phiM k z * B) := by
  rcases k with _ | k
  · rw [fPhiKAppl, hexp, phiM_zero]
  · rw [fPhiKAppl]
    simp only [h0]
    show Except.ok _ = Except.ok _
    congr 1
    ext i x
    exact applExt_exp z B k i x _ _

/-- The hypotheses of C23 are met by the mathematical exponential. -/
example {N M : ℕ} (z : Mat N) (B : Matrix (Fin N) (Fin M) ℝ) (k : ℕ) :
    fPhiKAppl (fun _ A => NormedSpace.exp A) (fun _ A => .ok (NormedSpace.exp A)) z B k = .ok (phiM k z * B) :=
  C23_appl _ _ (fun _ _ => rfl) (fun _ _ => rfl) z B k

/-! ### C25 -/

/-- **C25.** The common validator accepts exactly square arrays and non-negative orders, and returns the size; anything
else is an assertion failure. -/
theorem C25_validate (r c : ℕ) (k : ℤ) :
    validateArgs r c k = if 0 ≤ k ∧ r = c then .ok r else .error .assertion := by
  unfold validateArgs pyAssert
  by_cases h : 0 ≤ k <;> by_cases h2 : r = c <;> simp [h, h2] <;> rfl

/-- **C25.** The validator of the product routines accepts exactly: `k ≥ 0`, square `z`, and `b` a vector of matching
length or a matrix with that many rows. -/
theorem C25_validate_appl (r c : ℕ) (bs : List ℕ) (k : ℤ) :
    (∃ out, validateArgsAppl r c bs k = .ok out)
      ↔ 0 ≤ k ∧ r = c ∧ (bs = [r] ∨ ∃ m, bs = [r, m]) := by
  unfold validateArgsAppl pyAssert
  by_cases h : 0 ≤ k <;> by_cases h2 : r = c <;> simp only [h, h2, if_true, if_false, true_and, false_and, iff_false,
    not_exists]
  · match bs with
    | [] => simp [bind, Except.bind]
    | [a] => by_cases h3 : a = c <;> simp [h3, bind, Except.bind, pure, Except.pure]
    | [a, m] => by_cases h3 : a = c <;> simp [h3, bind, Except.bind, pure, Except.pure]
    | a :: m :: d :: t => simp [bind, Except.bind]
  · intro out; simp [bind, Except.bind]
  · intro out; simp [bind, Except.bind]
  · intro out; simp [bind, Except.bind]

/-- **C25.** `f_phi_k_sq` (Taylor degree 4) is available exactly for the orders `k ≤ 3`, for every matrix; the other
orders are an assertion failure. -/
theorem C25_sq_orders {N : ℕ} (z : Mat N) (k : ℕ) :
    (k ≤ 3 → ∃ P, fPhiKSq z k = .ok P) ∧ (3 < k → fPhiKSq z k = .error .assertion) := by
  constructor
  · intro hk
    have h4 : k + 1 ≤ 4 := by omega
    unfold fPhiKSq fPhiKSqAll fPhiKPolyAll
    simp only [h4, if_true, bind, Except.bind, pure, Except.pure]
    have hlen : ∀ (l : List (Mat N)) (s : ℕ), l.length = k + 1 → ((sqStep k)^[s] l).length = k + 1 := by
      intro l s
      have hin : ∀ (j jj : ℕ) (l : List (Mat N)), (sqInner j l jj).length = l.length := by
        intro j jj
        induction jj with
        | zero => intro l; rfl
        | succ jj ih => intro l; rw [sqInner, ih, List.length_set]
      have hout : ∀ (j : ℕ) (l : List (Mat N)), (sqOuter l j).length = l.length := by
        intro j
        induction j with
        | zero => intro l; rfl
        | succ j ih => intro l; rw [sqOuter, ih, hin, List.length_set]
      induction s generalizing l with
      | zero => intro h; exact h
      | succ s ih =>
        intro h
        rw [Function.iterate_succ_apply]
        refine ih _ ?_
        rw [sqStep, List.length_set, hout, h]
    generalize hl : (sqStep k)^[nScale (infNorm z)] _ = l
    have hl2 : l.length = k + 1 := by
      rw [← hl]
      exact hlen _ _ (by simp)
    rw [List.getElem?_eq_getElem (by omega)]
    exact ⟨_, rfl⟩
  · intro hk
    have h4 : ¬ (k + 1 ≤ 4) := by omega
    unfold fPhiKSq fPhiKSqAll fPhiKPolyAll
    simp only [h4, if_false]
    rfl

end Ormatex.Props
