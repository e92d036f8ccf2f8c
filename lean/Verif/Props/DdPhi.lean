import Verif.Props.DdTs

/-!
C95: `leja_coeffs_dd_phi` (Zivcovich's fast divided differences of the phi functions).
-/

namespace Ormatex.Props
open Matrix Polynomial Ormatex.Spec

section
set_option linter.unusedSectionVars false
variable {K : Type*} [RCLike K]

/-! ### one sweep of the algorithm -/

theorem ddCell_fold (c : ℕ → K) (a : ℕ) : ∀ (n : ℕ) (dd : ℕ → K),
    let r := (List.range' a n).reverse.foldl (ddPhiCell c) dd
    (∀ k, k < a ∨ a + n ≤ k → r k = dd k) ∧ ∀ k, a ≤ k → k < a + n → r k = dd k + c k * r (k + 1) := by
  intro n
  induction n with
  | zero => intro dd; exact ⟨fun k _ => rfl, fun k h1 h2 => by omega⟩
  | succ n ih =>
    intro dd
    have hr : (List.range' a (n + 1)).reverse.foldl (ddPhiCell c) dd
        = (List.range' a n).reverse.foldl (ddPhiCell c) (ddPhiCell c dd (a + n)) := by
      rw [List.range'_1_concat, List.reverse_append]
      rfl
    rw [hr]
    obtain ⟨h1, h2⟩ := ih (ddPhiCell c dd (a + n))
    set r := (List.range' a n).reverse.foldl (ddPhiCell c) (ddPhiCell c dd (a + n))
    have hne : ∀ k, k ≠ a + n → ddPhiCell c dd (a + n) k = dd k := fun k hk => by simp [ddPhiCell, hk]
    have heq : ddPhiCell c dd (a + n) (a + n) = dd (a + n) + c (a + n) * dd (a + n + 1) := by simp [ddPhiCell]
    refine ⟨fun k hk => ?_, fun k ha hb => ?_⟩
    · rw [h1 k (by omega), hne k (by omega)]
    · rcases Nat.lt_or_ge k (a + n) with h | h
      · rw [h2 k ha h, hne k (by omega)]
      · obtain rfl : k = a + n := by omega
        rw [h1 (a + n) (by omega), heq, h1 (a + n + 1) (by omega), hne _ (by omega)]

theorem ddStep_spec (n N : ℕ) (z : ℕ → K) (j : ℕ) (hN : n - j ≤ N) (dd : ℕ → K) :
    (∀ k, N ≤ k → ddPhiStep n N z j dd k = dd k) ∧
    ∀ k, k < N → ddPhiStep n N z j dd k
      = dd k + (z j - if k < n - j then z (j + 1 + k) else 0) * ddPhiStep n N z j dd (k + 1) := by
  obtain ⟨h1, h2⟩ := ddCell_fold (fun _ => z j) (n - j) (N - (n - j)) dd
  set d1 := (List.range' (n - j) (N - (n - j))).reverse.foldl (ddPhiCell fun _ => z j) dd with hd1
  have hs : ddPhiStep n N z j dd = (List.range' 0 (n - j)).reverse.foldl (ddPhiCell fun k => z j - z (k + j + 1)) d1 := by
    unfold ddPhiStep
    simp only
    rw [List.range_eq_range']
  obtain ⟨h3, h4⟩ := ddCell_fold (fun k => z j - z (k + j + 1)) 0 (n - j) d1
  rw [← hs] at h3 h4
  refine ⟨fun k hk => ?_, fun k hk => ?_⟩
  · rw [h3 k (by omega), h1 k (by omega)]
  · rcases Nat.lt_or_ge k (n - j) with h | h
    · rw [h4 k (by omega) (by omega), h1 k (by omega), if_pos h, show k + j + 1 = j + 1 + k by omega]
    · rw [h3 k (by omega), h2 k h (by omega), if_neg (by omega), sub_zero, h3 (k + 1) (by omega)]

/-- Inserting a node in front. -/
theorem newton_insert (N : ℕ) (y d d' : ℕ → K) (w : K) (hN : d' N = d N) (hk : ∀ k < N, d' k = d k + (w - y k) * d' (k + 1)) :
    newtonPoly (fun k => match k with | 0 => w | k + 1 => y k) d' (N + 1) = newtonPoly y d (N + 1) := by
  set y' : ℕ → K := fun k => match k with | 0 => w | k + 1 => y k with hy'
  have hb : ∀ k, newtonBasis y' (k + 1) = (X - C w) * newtonBasis y k := by
    intro k
    unfold newtonBasis
    rw [Finset.prod_range_succ']
    rw [mul_comm]
  unfold newtonPoly
  rw [Finset.sum_range_succ', Finset.sum_range_succ]
  have e0 : newtonBasis y' 0 = 1 := by simp [newtonBasis]
  have e1 : ∀ k ∈ Finset.range N, C (d k) * newtonBasis y k
      = C (d' k) * newtonBasis y k - C (d' (k + 1)) * newtonBasis y (k + 1) + C (d' (k + 1)) * newtonBasis y' (k + 1) := by
    intro k hk'
    have hd : d k = d' k - (w - y k) * d' (k + 1) := by rw [hk k (Finset.mem_range.1 hk')]; ring
    rw [hd, hb, newtonBasis_succ, C_sub, C_mul, C_sub]
    ring
  rw [Finset.sum_congr rfl e1, Finset.sum_add_distrib, ← hN, e0, Finset.sum_range_sub' (fun k => C (d' k) * newtonBasis y k)]
  have e2 : newtonBasis y 0 = 1 := by simp [newtonBasis]
  rw [e2]
  ring

/-- The Taylor polynomial whose divided differences are computed. -/
noncomputable def taylorPoly (N s : ℕ) : K[X] := ∑ k ∈ Finset.range (N + 1), C (ddPhiInit s k : K) * X ^ k

/-- The nodes `z_j, ..., z_n, 0, 0, ...` -/
def tailNodes (n : ℕ) (z : ℕ → K) (j : ℕ) : ℕ → K := fun k => if k < n + 1 - j then z (j + k) else 0

theorem ddAfter_poly (n N s : ℕ) (z : ℕ → K) (hN : n ≤ N) (r : ℕ) (hr : r ≤ n + 1) :
    newtonPoly (tailNodes n z (n + 1 - r)) (ddPhiAfter n N s z r) (N + 1) = taylorPoly N s := by
  induction r with
  | zero =>
    unfold newtonPoly taylorPoly
    refine Finset.sum_congr rfl fun k _ => ?_
    congr 1
    unfold newtonBasis
    have : ∀ l ∈ Finset.range k, (X - C (tailNodes n z (n + 1 - 0) l) : K[X]) = X := by
      intro l _
      unfold tailNodes
      rw [if_neg (by omega)]
      simp
    rw [Finset.prod_congr rfl this, Finset.prod_const, Finset.card_range]
  | succ r ih =>
    rw [← ih (by omega)]
    obtain ⟨h1, h2⟩ := ddStep_spec n N z (n - r) (by omega) (ddPhiAfter n N s z r)
    have hn : tailNodes n z (n + 1 - (r + 1))
        = fun k => match k with | 0 => z (n - r) | k + 1 => tailNodes n z (n + 1 - r) k := by
      funext k
      cases k with
      | zero =>
        simp only [tailNodes]
        rw [if_pos (by omega)]
        congr 1
        omega
      | succ k =>
        simp only [tailNodes]
        by_cases hk : k < r
        · rw [if_pos (by omega), if_pos (by omega)]
          congr 1
          omega
        · rw [if_neg (by omega), if_neg (by omega)]
    rw [hn]
    refine newton_insert N _ _ _ _ (h1 N le_rfl) fun k hk => ?_
    rw [show ddPhiAfter n N s z (r + 1) = ddPhiStep n N z (n - r) (ddPhiAfter n N s z r) from rfl, h2 k hk]
    congr 3
    unfold tailNodes
    by_cases hk' : k < r
    · rw [if_pos (by omega), if_pos (by omega)]
      congr 1
      omega
    · rw [if_neg (by omega), if_neg (by omega)]

theorem bidiag_single (n : ℕ) (z : ℕ → K) (j : ℕ) (hj : j < n + 1) :
    bidiag (n + 1) z *ᵥ (fun i => if (i : ℕ) = j then 1 else 0) - z j • (fun i : Fin (n + 1) => if (i : ℕ) = j then (1 : K) else 0)
      = fun i : Fin (n + 1) => if (i : ℕ) = j + 1 then 1 else 0 := by
  funext i
  simp only [Pi.sub_apply, Pi.smul_apply, smul_eq_mul, Matrix.mulVec, dotProduct, bidiag, Matrix.of_apply]
  rw [Finset.sum_eq_single (⟨j, hj⟩ : Fin (n + 1))]
  · by_cases h1 : (i : ℕ) = j
    · have : i = ⟨j, hj⟩ := Fin.ext h1
      simp [this]
    · have : ¬ i = ⟨j, hj⟩ := fun h => h1 (by rw [h])
      simp [this, h1]
  · intro b _ hb
    have : ¬ (b : ℕ) = j := fun h => hb (Fin.ext h)
    simp [this]
  · simp

/-- the basis polynomials applied to a unit vector -/
theorem newtonVec_unit (n : ℕ) (z : ℕ → K) (j : ℕ) (k : ℕ) :
    newtonVec (tailNodes n z j) (bidiag (n + 1) z) (fun i => if (i : ℕ) = j then 1 else 0) k
      = fun i : Fin (n + 1) => if (i : ℕ) = j + k then 1 else 0 := by
  induction k with
  | zero => rw [newtonVec_zero]; rfl
  | succ k ih =>
    rw [newtonVec_succ, ih]
    by_cases hk : j + k < n + 1
    · have : tailNodes n z j k = z (j + k) := by unfold tailNodes; rw [if_pos (by omega)]
      rw [this, bidiag_single n z (j + k) hk]
      rfl
    · have h0 : (fun i : Fin (n + 1) => if (i : ℕ) = j + k then (1 : K) else 0) = 0 := by
        funext i
        rw [if_neg (by have := i.2; omega)]
        rfl
      rw [h0, Matrix.mulVec_zero, smul_zero, sub_zero]
      funext i
      rw [if_neg (by have := i.2; omega)]
      rfl

/-- **The sweep computes divided differences of the Taylor polynomial.** -/
theorem ddAfter_entry (n N s : ℕ) (z : ℕ → K) (hN : n ≤ N) (i j : Fin (n + 1)) (hij : j ≤ i) :
    ddPhiAfter n N s z (n + 1 - j) ((i : ℕ) - j) = (aeval (bidiag (n + 1) z) (taylorPoly N s : K[X])) i j := by
  have hp := ddAfter_poly n N s z hN (n + 1 - j) (by omega)
  rw [show n + 1 - (n + 1 - (j : ℕ)) = j by have := j.2; omega] at hp
  have hij' : (j : ℕ) ≤ i := hij
  have h1 : (aeval (bidiag (n + 1) z) (taylorPoly N s : K[X]) *ᵥ (fun i : Fin (n + 1) => if (i : ℕ) = j then 1 else 0)) i
      = (aeval (bidiag (n + 1) z) (taylorPoly N s : K[X])) i j := by
    rw [Matrix.mulVec, dotProduct, Finset.sum_eq_single j]
    · simp
    · intro b _ hb
      have : ¬ (b : ℕ) = j := fun h => hb (Fin.ext h)
      simp [this]
    · simp
  rw [← h1, ← hp]
  unfold newtonPoly
  rw [map_sum, Matrix.sum_mulVec, Finset.sum_apply, Finset.sum_eq_single ((i : ℕ) - j)]
  · rw [← smul_eq_C_mul, map_smul, Matrix.smul_mulVec, Pi.smul_apply, smul_eq_mul]
    have := congrFun (newtonVec_unit n z j ((i : ℕ) - j)) i
    unfold newtonVec at this
    rw [this, if_pos (by omega), mul_one]
  · intro k _ hk
    rw [← smul_eq_C_mul, map_smul, Matrix.smul_mulVec, Pi.smul_apply, smul_eq_mul]
    have := congrFun (newtonVec_unit n z j k) i
    unfold newtonVec at this
    rw [this, if_neg (by omega), mul_zero]
  · intro h
    exact absurd (Finset.mem_range.2 (by have := i.2; omega)) h

theorem taylor_entry (n N s : ℕ) (z : ℕ → K) (i j : Fin (n + 1)) (hij : j ≤ i) (hN : n ≤ N) :
    (aeval (bidiag (n + 1) z) (taylorPoly N s : K[X])) i j
      = ∑ p ∈ Finset.range (N + 1 - ((i : ℕ) - j)), (Nat.factorial (p + ((i : ℕ) - j) + 0) : K)⁻¹
          * ((1 / (s : K)) ^ (p + ((i : ℕ) - j)) * bipow (fun i => (0 : K) + 1 * z i) 1 (p + ((i : ℕ) - j)) i j) := by
  have hb : xiShift (n + 1) z 0 1 = bidiag (n + 1) z := by unfold xiShift; simp
  have hterm : (aeval (bidiag (n + 1) z) (taylorPoly N s : K[X])) i j
      = ∑ q ∈ Finset.range (N + 1), (Nat.factorial q : K)⁻¹ * ((1 / (s : K)) ^ q * bipow (fun i => (0 : K) + 1 * z i) 1 q i j) := by
    unfold taylorPoly
    rw [map_sum, Matrix.sum_apply]
    refine Finset.sum_congr rfl fun q _ => ?_
    rw [← smul_eq_C_mul, map_smul, map_pow, aeval_X, Matrix.smul_apply, ← hb, bipow_eq, smul_eq_mul, ddPhiInit]
    rw [div_pow, one_pow, ← mul_assoc]
    congr 1
    rw [one_div, mul_inv, one_div]
  rw [hterm]
  set d := (i : ℕ) - j with hd
  have hdN : d ≤ N := by have := i.2; omega
  rw [show N + 1 = d + (N + 1 - d) by omega, Finset.sum_range_add, Finset.sum_eq_zero, zero_add,
    show d + (N + 1 - d) - d = N + 1 - d by omega]
  · refine Finset.sum_congr rfl fun p _ => ?_
    rw [add_comm d p, add_zero]
  · intro q hq
    have := Finset.mem_range.1 hq
    rw [bipow_gt _ _ _ _ _ (by omega), mul_zero, mul_zero]

theorem tail_mono (ρ : ℝ) (h0 : 0 ≤ ρ) (h1 : ρ ≤ 3.5) (N : ℕ) (hN : 31 ≤ N) :
    ρ ^ N / (Nat.factorial N : ℝ) ≤ 1e-17 := by
  obtain ⟨e, rfl⟩ : ∃ e, N = 31 + e := ⟨N - 31, by omega⟩
  have hf : ((Nat.factorial 31 : ℕ) : ℝ) * 32 ^ e ≤ (Nat.factorial (31 + e) : ℝ) := by
    exact_mod_cast Nat.factorial_mul_pow_le_factorial (m := 31) (n := e)
  have hp : ρ ^ (31 + e) ≤ 3.5 ^ 31 * 32 ^ e := by
    calc ρ ^ (31 + e) ≤ 3.5 ^ (31 + e) := pow_le_pow_left₀ h0 h1 _
      _ = 3.5 ^ 31 * 3.5 ^ e := pow_add _ _ _
      _ ≤ _ := by
        refine mul_le_mul_of_nonneg_left (pow_le_pow_left₀ (by norm_num) (by norm_num) _) (by norm_num)
  have hpos : (0 : ℝ) < (Nat.factorial 31 : ℝ) * 32 ^ e := by
    have := Nat.factorial_pos 31
    positivity
  calc ρ ^ (31 + e) / (Nat.factorial (31 + e) : ℝ) ≤ 3.5 ^ 31 * 32 ^ e / ((Nat.factorial 31 : ℝ) * 32 ^ e) :=
        div_le_div₀ (by positivity) hp hpos hf
    _ = 3.5 ^ 31 / (Nat.factorial 31 : ℝ) := by
        rw [mul_div_mul_right _ _ (by positivity)]
    _ ≤ 1e-17 := by norm_num [Nat.factorial]

/-- The (transposed) table is entrywise close to the exact one. -/
theorem ddTable_close (n s : ℕ) (hs : 1 ≤ s) (z : ℕ → K) (S : ℝ) (hS : 0 ≤ S) (hz : ∀ i < n + 1, ‖z i‖ ≤ S) (hS2 : S / s ≤ 3.5)
    (i j : Fin (n + 1)) :
    ‖(ddPhiTable n s z)ᵀ i j - exactTable 0 (n + 1) z 0 1 (1 / (s : K)) i j‖
      ≤ (1e-17 * Real.exp (S / s)) * cmpMat (n + 1) (1 / s) i j := by
  have hs0 : (0 : ℝ) < s := by exact_mod_cast hs
  have hnorm : ‖(1 / (s : K))‖ * S = S / s := by rw [norm_div, norm_one, RCLike.norm_natCast]; ring
  rw [Matrix.transpose_apply, ddPhiTable, Matrix.of_apply, cmpMat, Matrix.of_apply]
  rcases lt_trichotomy i j with h1 | h1 | h1
  · have h2 : (i : ℕ) < j := h1
    rw [if_neg h1.ne, if_neg (by omega), exactTable_upper _ _ _ _ _ _ _ _ h1, sub_zero, norm_zero, if_neg (not_le.2 h1), mul_zero]
  · subst h1
    rw [if_pos rfl, if_pos le_rfl, exactTable_diag, phi_scalar_zero, zero_add, one_mul, div_eq_inv_mul, one_div, sub_self, norm_zero]
    positivity
  · have h2 : (j : ℕ) < i := h1
    rw [if_neg h1.ne', if_pos h2, if_pos h1.le, ddAfter_entry n (n + 30) s z (by omega) i j h1.le, taylor_entry _ _ _ _ _ _ h1.le (by omega)]
    refine (exactTable_trunc 0 (n + 1) z 0 1 (1 / (s : K)) S (by simpa using hz) i j h1.le _).trans ?_
    rw [hnorm, mul_one, norm_div, norm_one, RCLike.norm_natCast]
    refine mul_le_mul_of_nonneg_right ?_ (by positivity)
    refine mul_le_mul_of_nonneg_right ?_ (Real.exp_pos _).le
    exact tail_mono _ (by positivity) hS2 _ (by have := i.2; omega)

theorem vecMul_iter {m : ℕ} (F : Matrix (Fin m) (Fin m) K) (a b : Fin m) : ∀ t : ℕ,
    ((fun v => Matrix.vecMul v F)^[t] (F a)) b = (Fᵀ ^ (t + 1)) b a := by
  intro t
  induction t generalizing b with
  | zero => simp
  | succ t ih =>
    rw [Function.iterate_succ_apply', pow_succ', Matrix.mul_apply]
    simp only [Matrix.vecMul, dotProduct]
    refine Finset.sum_congr rfl fun l _ => ?_
    rw [ih l, Matrix.transpose_apply, mul_comm]

theorem spread_le (n : ℕ) (z : ℕ → K) (a b : ℕ) (ha : a < n + 1) (hb : b < n + 1) : ‖z a - z b‖ ≤ ddPhiSpread n z := by
  have key : ∀ p : Fin (n + 1) × Fin (n + 1), (if (p.2 : ℕ) < p.1 then ‖z p.2 - z p.1‖ else 0) ≤ ddPhiSpread n z :=
    fun p => le_ciSup (f := fun p : Fin (n + 1) × Fin (n + 1) => if (p.2 : ℕ) < p.1 then ‖z p.2 - z p.1‖ else 0)
      (Set.finite_range _).bddAbove p
  rcases lt_trichotomy a b with h | h | h
  · have := key (⟨b, hb⟩, ⟨a, ha⟩)
    rwa [if_pos h] at this
  · subst h
    have := key (⟨a, ha⟩, ⟨a, ha⟩)
    rw [if_neg (lt_irrefl _)] at this
    simpa using this
  · have := key (⟨a, ha⟩, ⟨b, hb⟩)
    rw [norm_sub_rev]
    rwa [if_pos h] at this

theorem spread_eq_le (n : ℕ) (z : ℕ → K) (S : ℝ) (hS : 0 ≤ S) (h : ∀ a < n + 1, ∀ b < n + 1, ‖z a - z b‖ ≤ S) : ddPhiSpread n z ≤ S := by
  unfold ddPhiSpread
  refine ciSup_le fun p => ?_
  split_ifs
  · exact h _ p.2.2 _ p.1.2
  · exact hS

theorem mean_dist (n : ℕ) (y : ℕ → K) (S : ℝ) (hy : ∀ a < n + 1, ∀ b < n + 1, ‖y a - y b‖ ≤ S) (a : ℕ) (ha : a < n + 1) :
    ‖y a - (∑ i ∈ Finset.range (n + 1), y i) / ((n + 1 : ℕ) : K)‖ ≤ S := by
  have hn : ((n + 1 : ℕ) : K) ≠ 0 := Nat.cast_ne_zero.2 (by omega)
  have e : y a - (∑ i ∈ Finset.range (n + 1), y i) / ((n + 1 : ℕ) : K)
      = (∑ i ∈ Finset.range (n + 1), (y a - y i)) / ((n + 1 : ℕ) : K) := by
    rw [Finset.sum_sub_distrib, Finset.sum_const, Finset.card_range, nsmul_eq_mul]
    field_simp
  rw [e, norm_div, RCLike.norm_natCast, div_le_iff₀ (by positivity)]
  calc _ ≤ ∑ i ∈ Finset.range (n + 1), ‖y a - y i‖ := norm_sum_le _ _
    _ ≤ ∑ i ∈ Finset.range (n + 1), S := Finset.sum_le_sum fun i hi => hy a ha i (Finset.mem_range.1 hi)
    _ = S * ((n + 1 : ℕ) : ℝ) := by rw [Finset.sum_const, Finset.card_range, nsmul_eq_mul, mul_comm]

/-- **C95.**  `leja_coeffs_dd_phi(x, shift, scale, h, l)` returns, for every phi order `l` and every list of `m ≥ 1` nodes
(distinct or not), the divided differences of `phi_l` at the nodes `w_i = h (shift + scale x_i)` (with respect to `w`), with error
at most `|e^mu| e^S ((1 + 1e-17)^(floor(S/3.5)+1) - 1) / (l+i)!`.  Here `mu` is the mean of the nodes and `l` zeros, and `S` bounds
their mutual distances. -/
theorem C95_dd_phi (m : ℕ) (x : ℕ → K) (shift scale h : K) (l i : ℕ) (hi : i < m) (w : ℕ → K)
    (hw : ∀ a, w a = h * (shift + scale * x a)) (mu : K) (hmu : mu = (∑ a ∈ Finset.range m, w a) / ((l + m : ℕ) : K)) (S : ℝ)
    (hS : ∀ a < m, ∀ b < m, ‖w a - w b‖ ≤ S) (hSl : l ≠ 0 → ∀ a < m, ‖w a‖ ≤ S) :
    ‖lejaCoeffsDdPhi m x shift scale h l i - exactDd l m w 0 1 1 i‖
      ≤ ‖NormedSpace.exp mu‖ * (Real.exp S * ((1 + 1e-17) ^ (⌊S / 3.5⌋₊ + 1) - 1) / (Nat.factorial (l + i) : ℝ)) := by
  obtain rfl : w = fun a => h * (shift + scale * x a) := funext hw
  have hS0 : 0 ≤ S := (norm_nonneg _).trans (hS i hi i hi)
  obtain ⟨n, hn⟩ : ∃ n, l + m = n + 1 := ⟨l + m - 1, by omega⟩
  have hn' : l + m - 1 = n := by omega
  set y := ddPhiNodes l x shift scale h with hy
  have hyy : y = fun i => if i < l then 0 else (fun a => h * (shift + scale * x a)) (i - l) := rfl
  have hsum : (∑ a ∈ Finset.range (l + m), y a) = ∑ a ∈ Finset.range m, h * (shift + scale * x a) := by
    rw [Finset.sum_range_add, Finset.sum_eq_zero, zero_add]
    · refine Finset.sum_congr rfl fun a _ => ?_
      rw [hyy]
      simp
    · intro a ha
      rw [hyy]
      simp [Finset.mem_range.1 ha]
  have hmu' : ddPhiMu m l x shift scale h = mu := by
    unfold ddPhiMu
    rw [← hy, hsum, hmu]
  have hydist : ∀ a < n + 1, ∀ b < n + 1, ‖y a - y b‖ ≤ S := by
    intro a ha b hb
    rw [hyy]
    simp only
    split_ifs with h1 h2 h2
    · simpa using hS0
    · rw [zero_sub, norm_neg]
      exact hSl (by omega) _ (by omega)
    · rw [sub_zero]
      exact hSl (by omega) _ (by omega)
    · exact hS _ (by omega) _ (by omega)
  set z : ℕ → K := fun i => y i - mu with hz
  set s := ddPhiScaling n z with hs
  have hs1 : 1 ≤ s := by
    rw [hs]
    unfold ddPhiScaling
    have := le_max_right ⌈ddPhiSpread n z / 3.5⌉ 1
    omega
  have hs0 : (0 : ℝ) < s := by exact_mod_cast hs1
  have hsK : (s : K) ≠ 0 := Nat.cast_ne_zero.2 (by omega)
  set T := ddPhiSpread n z with hT
  have hT0 : 0 ≤ T := (norm_nonneg _).trans (spread_le n z 0 0 (by omega) (by omega))
  have hTS : T ≤ S := spread_eq_le n z S hS0 fun a ha b hb => by
    rw [hz]
    simpa using hydist a ha b hb
  have hTs : T / s ≤ 3.5 := by
    have h1 : T / 3.5 ≤ s := by
      refine (Int.le_ceil _).trans ?_
      have h2 : (⌈T / 3.5⌉ : ℤ) ≤ ((max ⌈T / 3.5⌉ 1).toNat : ℤ) := by
        rw [Int.toNat_of_nonneg (le_trans zero_le_one (le_max_right _ _))]
        exact le_max_left _ _
      exact_mod_cast h2
    rw [div_le_iff₀ hs0]
    rw [div_le_iff₀ (by norm_num)] at h1
    linarith
  have hsS : s ≤ ⌊S / 3.5⌋₊ + 1 := by
    have h1 : ⌈T / 3.5⌉ ≤ (⌊S / 3.5⌋₊ : ℤ) + 1 := by
      rw [Int.ceil_le]
      push_cast
      exact (div_le_div_of_nonneg_right hTS (by norm_num)).trans (Nat.lt_floor_add_one _).le
    have h2 : (max ⌈T / 3.5⌉ 1) ≤ (⌊S / 3.5⌋₊ : ℤ) + 1 := max_le h1 (by omega)
    rw [hs]
    unfold ddPhiScaling
    rw [← hT]
    omega
  have hzT : ∀ a < n + 1, ‖z a‖ ≤ T := by
    intro a ha
    have := mean_dist n y T (fun a ha b hb => by
      have := spread_le n z a b ha hb
      rw [hz] at this
      simpa using this) a ha
    rw [hz]
    simp only
    rw [hmu, ← hsum, hn]
    exact this
  -- the computed row
  have hres : lejaCoeffsDdPhi m x shift scale h l i
      = NormedSpace.exp mu * ((ddPhiTable n s z)ᵀ ^ s) ⟨l + i, by omega⟩ 0 := by
    have key : ∀ n', n' = n → ∀ hh : l + i < n' + 1,
        NormedSpace.exp mu * ((fun v => Matrix.vecMul v (ddPhiTable n' (ddPhiScaling n' z) z))^[ddPhiScaling n' z - 1]
          (ddPhiTable n' (ddPhiScaling n' z) z 0)) ⟨l + i, hh⟩
        = NormedSpace.exp mu * ((ddPhiTable n s z)ᵀ ^ s) ⟨l + i, by omega⟩ 0 := by
      rintro _ rfl hh
      rw [vecMul_iter]
      have : s - 1 + 1 = s := by omega
      rw [← hs, this]
    have hdef : lejaCoeffsDdPhi m x shift scale h l i = if hh : l + i < (l + m - 1) + 1 then NormedSpace.exp mu
        * ((fun v => Matrix.vecMul v (ddPhiTable (l + m - 1) (ddPhiScaling (l + m - 1) z) z))^[ddPhiScaling (l + m - 1) z - 1]
          (ddPhiTable (l + m - 1) (ddPhiScaling (l + m - 1) z) z 0)) ⟨l + i, hh⟩ else 0 := by
      rw [hz, ← hmu']
      rfl
    rw [hdef, dif_pos (by omega)]
    exact key _ hn' _
  have hex : exactDd l m (fun a => h * (shift + scale * x a)) 0 1 1 i
      = NormedSpace.exp mu * exactTable 0 (n + 1) z 0 1 1 ⟨l + i, by omega⟩ 0 := by
    rw [← exactTable_translate]
    have hzy : (fun i => z i + mu) = y := by funext a; rw [hz]; simp
    rw [hzy, hyy]
    unfold exactDd firstCol
    rw [dif_pos hi]
    have := exactTable_pad m (fun a => h * (shift + scale * x a)) l 0 i hi
    rw [zero_add] at this
    rw [← this]
    have key : ∀ n' (_ : n' = n + 1) (h1 : l + i < n') (h2 : 0 < n'),
        exactTable 0 n' (fun i => if i < l then (0 : K) else (fun a => h * (shift + scale * x a)) (i - l)) 0 1 1 ⟨l + i, h1⟩ ⟨0, h2⟩
          = exactTable 0 (n + 1) (fun i => if i < l then (0 : K) else (fun a => h * (shift + scale * x a)) (i - l)) 0 1 1
            ⟨l + i, by omega⟩ 0 := by
      rintro _ rfl _ _; rfl
    exact key _ hn _ _
  have key := (pow_dominated (exactTable 0 (n + 1) z 0 1 (1 / (s : K))) (ddPhiTable n s z)ᵀ (cmpMat (n + 1) (1 / s)) (Real.exp (T / s))
    (1e-17 * Real.exp (T / s)) (Real.exp_pos _).le (by positivity) (cmpMat_nonneg _ _ (by positivity))
    (fun a b => by
      rw [cmpMat, Matrix.of_apply]
      split_ifs with h1
      · have := exactTable_le 0 (n + 1) z 0 1 (1 / (s : K)) T (by simpa using hzT) a b h1
        rw [mul_one, norm_div, norm_one, RCLike.norm_natCast, one_div_mul_eq_div] at this
        exact this
      · rw [exactTable_upper _ _ _ _ _ _ _ _ (not_le.1 h1)]
        simp)
    (fun a b => ddTable_close n s hs1 z T hT0 hzT hTs a b) s ⟨l + i, by omega⟩ 0).2.2
  rw [exactTable_pow, mul_one_div_cancel hsK, cmpMat_pow, mul_one_div_cancel hs0.ne', cmpMat, Matrix.of_apply,
    if_pos (Fin.zero_le _)] at key
  simp only [Fin.val_zero, Nat.sub_zero, one_pow] at key
  rw [hres, hex, ← mul_sub, norm_mul]
  refine mul_le_mul_of_nonneg_left (key.trans ?_) (norm_nonneg _)
  have e : Real.exp T = Real.exp (T / s) ^ s := by
    rw [← Real.exp_nat_mul]; congr 1; field_simp
  rw [← one_add_mul (1e-17 : ℝ) (Real.exp (T / s)), mul_pow, ← e, ← sub_one_mul, mul_one_div]
  refine div_le_div_of_nonneg_right ?_ (by positivity)
  rw [mul_comm]
  refine mul_le_mul (Real.exp_le_exp.2 hTS) ?_ ?_ (Real.exp_pos _).le
  · exact sub_le_sub_right (pow_le_pow_right₀ (by norm_num) hsS) _
  · rw [sub_nonneg]
    exact one_le_pow₀ (by norm_num)

/-- Two equal nodes and `phi_2`: spread 1, one substep, coefficients to `1e-15`. -/
example : ∃ x : ℕ → ℝ, x 0 = x 1 ∧ ∀ i < 2, |lejaCoeffsDdPhi 2 x 0 1 1 2 i - exactDd 2 2 x 0 1 1 i| ≤ 1e-15 := by
  refine ⟨fun _ => 1, rfl, fun i hi => ?_⟩
  have h := C95_dd_phi 2 (fun _ => (1 : ℝ)) 0 1 1 2 i hi (fun _ => 1) (by simp) (1 / 2) (by
    simp; norm_num) 1 (by intro a _ b _; simp) (by intro _ a _; simp)
  rw [Real.norm_eq_abs] at h
  refine h.trans ?_
  have he : Real.exp 1 < 2.7182818286 := Real.exp_one_lt_d9
  have he2 : ‖NormedSpace.exp (1 / 2 : ℝ)‖ ≤ 2.7182818286 := by
    rw [← Real.exp_eq_exp_ℝ, Real.norm_eq_abs, abs_of_pos (Real.exp_pos _)]
    exact (Real.exp_le_exp.2 (by norm_num)).trans he.le
  have hfl : ⌊(1 : ℝ) / 3.5⌋₊ = 0 := by
    rw [Nat.floor_eq_zero]; norm_num
  have hf : (1 : ℝ) ≤ Nat.factorial (2 + i) := by exact_mod_cast Nat.factorial_pos _
  rw [hfl]
  have hpos : (0 : ℝ) ≤ Real.exp 1 * ((1 + 1e-17) ^ (0 + 1) - 1) := mul_nonneg (Real.exp_pos _).le (by norm_num)
  calc _ ≤ 2.7182818286 * (Real.exp 1 * ((1 + 1e-17) ^ (0 + 1) - 1)) :=
        mul_le_mul he2 (div_le_self hpos hf) (by positivity) (by norm_num)
    _ ≤ 2.7182818286 * (2.7182818286 * ((1 + 1e-17) ^ (0 + 1) - 1)) := by
        refine mul_le_mul_of_nonneg_left (mul_le_mul_of_nonneg_right he.le (by norm_num)) (by norm_num)
    _ ≤ _ := by norm_num

end
end Ormatex.Props
