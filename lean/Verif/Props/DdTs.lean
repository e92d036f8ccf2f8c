import Verif.Props.DdSeries
import Verif.Props.DdTaylor
import Mathlib.Analysis.Complex.ExponentialBounds

/-!
C92-C94: the Taylor-series divided-difference routines `leja_coeffs_ts_phi`, `leja_coeffs_ts_phi_substep` and
`leja_coeffs_ts_ss`.
-/

namespace Ormatex.Props
open Matrix Polynomial Ormatex.Spec

section
set_option linter.unusedSectionVars false
variable {K : Type*} [RCLike K]

theorem TArr.put_same (F : TArr K) (a b : ℕ) (v : K) : F.put a b v a b = v := by simp [TArr.put]

theorem TArr.put_ne (F : TArr K) (a b : ℕ) (v : K) (c d : ℕ) (h : ¬ (c = a ∧ d = b)) : F.put a b v c d = F c d := by
  unfold TArr.put
  by_cases hc : c = a
  · subst hc
    have hd : d ≠ b := fun hd => h ⟨rfl, hd⟩
    simp [hd]
  · simp [hc]

/-- the `p`-th term of the series for entry `(i, j)` -/
noncomputable def tsTerm (z : ℕ → K) (scale h : K) (k p i j : ℕ) : K :=
  (Nat.factorial (p + (i - j) + k) : K)⁻¹ * (h ^ (p + (i - j)) * bipow z scale (p + (i - j)) i j)

theorem tsTerm_diag_succ (z : ℕ → K) (scale h : K) (k p j : ℕ) :
    h * z j * (tsTerm z scale h k p j j / ((p + 2 + k - 1 : ℕ) : K)) = tsTerm z scale h k (p + 1) j j := by
  unfold tsTerm
  simp only [Nat.sub_self, add_zero, bipow_diag]
  rw [show p + 2 + k - 1 = p + k + 1 by omega, show p + 1 + k = p + k + 1 by omega, Nat.factorial_succ]
  have h0 : (Nat.factorial (p + k) : K) ≠ 0 := by exact_mod_cast Nat.factorial_ne_zero _
  have h1 : ((p + k + 1 : ℕ) : K) ≠ 0 := Nat.cast_ne_zero.2 (by omega)
  push_cast at h1 ⊢
  field_simp
  ring

theorem tsTerm_succ (z : ℕ → K) (scale h : K) (k p i j : ℕ) (hij : j < i) :
    h * (z i * tsTerm z scale h k p i j + scale * tsTerm z scale h k (p + 1) (i - 1) j) / ((p + 2 + i - j + k - 1 : ℕ) : K)
      = tsTerm z scale h k (p + 1) i j := by
  obtain ⟨i, rfl⟩ : ∃ i', i = i' + 1 := ⟨i - 1, by omega⟩
  obtain ⟨d, rfl⟩ : ∃ d, i = j + d := ⟨i - j, by omega⟩
  unfold tsTerm
  have e1 : j + d + 1 - j = d + 1 := by omega
  have e2 : j + d + 1 - 1 - j = d := by omega
  have e3 : p + 2 + (j + d + 1) - j + k - 1 = p + d + k + 2 := by omega
  rw [e1, e2, e3, show p + 1 + (d + 1) = (p + (d + 1)) + 1 by omega, bipow_succ_succ, show p + 1 + d = p + (d + 1) by omega,
    show p + (d + 1) + 1 + k = (p + (d + 1) + k) + 1 by omega, Nat.factorial_succ, Nat.add_sub_cancel]
  have h0 : (Nat.factorial (p + (d + 1) + k) : K) ≠ 0 := by exact_mod_cast Nat.factorial_ne_zero _
  have h1 : ((p + d + k + 2 : ℕ) : K) ≠ 0 := Nat.cast_ne_zero.2 (by omega)
  have e5 : ((p + (d + 1) + k + 1 : ℕ) : K) = ((p + d + k + 2 : ℕ) : K) := by congr 1; omega
  push_cast at h1 e5 ⊢
  rw [e5, pow_succ]
  field_simp

/-- row `j` and column `j` of the work array after `p` passes -/
def TsRow (m : ℕ) (z : ℕ → K) (scale h : K) (k : ℕ) (F : TArr K) (j p : ℕ) : Prop :=
  (∀ i, j ≤ i → i < m → F j i = (h * scale) ^ j * tsTerm z scale h k p i j) ∧
  ∀ i, j < i → i < m → F i j = (h * scale) ^ j * ∑ q ∈ Finset.range (p + 1), tsTerm z scale h k q i j

theorem tsInit_row (m : ℕ) (z : ℕ → K) (scale h : K) (k j : ℕ) : TsRow m z scale h k (tsInit scale h k) j 0 := by
  have key : ∀ i, j ≤ i → (h * scale) ^ i / (Nat.factorial (i + k - j) : K) = (h * scale) ^ j * tsTerm z scale h k 0 i j := by
    intro i hij
    obtain ⟨d, rfl⟩ : ∃ d, i = j + d := ⟨i - j, by omega⟩
    unfold tsTerm
    rw [Nat.add_sub_cancel_left, zero_add, bipow_first, show j + d + k - j = d + k by omega, pow_add, mul_pow h scale d]
    ring
  refine ⟨fun i h1 _ => ?_, fun i h1 _ => ?_⟩
  · rw [tsInit, max_eq_right h1, min_eq_left h1, key i h1]
  · rw [tsInit, max_eq_left h1.le, min_eq_right h1.le, key i h1.le]
    simp

theorem tsCell_fold (m : ℕ) (z : ℕ → K) (scale h : K) (k j p : ℕ) (F : TArr K) (hF : TsRow m z scale h k F j p) (n : ℕ) :
    let F0 := F.put j j (h * z j * (F j j / ((p + 2 + k - 1 : ℕ) : K)))
    let G := (List.range' (j + 1) n).foldl (tsCell z scale h k (p + 2) j) F0
    j + n < m →
    (∀ i, j ≤ i → i ≤ j + n → G j i = (h * scale) ^ j * tsTerm z scale h k (p + 1) i j) ∧
    (∀ i, j + n < i → i < m → G j i = (h * scale) ^ j * tsTerm z scale h k p i j) ∧
    (∀ i, j < i → i ≤ j + n → G i j = (h * scale) ^ j * ∑ q ∈ Finset.range (p + 2), tsTerm z scale h k q i j) ∧
    (∀ i, j + n < i → i < m → G i j = (h * scale) ^ j * ∑ q ∈ Finset.range (p + 1), tsTerm z scale h k q i j) ∧
    ∀ a b, min a b ≠ j → G a b = F a b := by
  intro F0
  induction n with
  | zero =>
    intro G hn
    simp only [add_zero] at hn
    have hG : G = F.put j j (h * z j * (F j j / ((p + 2 + k - 1 : ℕ) : K))) := by simp [G, F0]
    rw [hG]
    refine ⟨?_, ?_, ?_, ?_, ?_⟩
    · intro i h1 h2
      obtain rfl : i = j := by omega
      rw [TArr.put_same, hF.1 i le_rfl hn, ← tsTerm_diag_succ]
      ring
    · intro i h1 h2
      rw [TArr.put_ne _ _ _ _ _ _ (by omega), hF.1 i (by omega) h2]
    · intro i h1 h2
      omega
    · intro i h1 h2
      rw [TArr.put_ne _ _ _ _ _ _ (by omega), hF.2 i (by omega) h2]
    · intro a b hab
      rw [TArr.put_ne]
      rintro ⟨rfl, rfl⟩
      simp at hab
  | succ n ih =>
    intro G hn
    obtain ⟨h1, h2, h3, h4, h5⟩ := ih (by omega)
    set H := (List.range' (j + 1) n).foldl (tsCell z scale h k (p + 2) j) F0 with hH
    have hG : G = tsCell z scale h k (p + 2) j H (j + 1 + n) := by
      show (List.range' (j + 1) (n + 1)).foldl _ F0 = _
      rw [List.range'_1_concat, List.foldl_append]
      rfl
    set i0 := j + 1 + n with hi0
    set v := h * (z i0 * H j i0 + scale * H j (i0 - 1)) / ((p + 2 + i0 - j + k - 1 : ℕ) : K) with hv
    have hvv : v = (h * scale) ^ j * tsTerm z scale h k (p + 1) i0 j := by
      rw [hv, h2 i0 (by omega) (by omega), h1 (i0 - 1) (by omega) (by omega), ← tsTerm_succ z scale h k p i0 j (by omega)]
      ring
    have hcell : G = (H.put j i0 v).put i0 j ((H.put j i0 v) i0 j + (H.put j i0 v) j i0) := hG
    have hji : ∀ i, G j i = H.put j i0 v j i := by
      intro i
      rw [hcell, TArr.put_ne _ _ _ _ _ _ (by omega)]
    have hij : ∀ i, j < i → i ≠ i0 → G i j = H i j := by
      intro i h1 h2
      rw [hcell, TArr.put_ne _ _ _ _ _ _ (by omega), TArr.put_ne _ _ _ _ _ _ (by omega)]
    refine ⟨?_, ?_, ?_, ?_, ?_⟩
    · intro i ha hb
      rw [hji]
      by_cases hi : i = i0
      · rw [hi, TArr.put_same, hvv]
      · rw [TArr.put_ne _ _ _ _ _ _ (by omega), h1 i ha (by omega)]
    · intro i ha hb
      rw [hji, TArr.put_ne _ _ _ _ _ _ (by omega), h2 i (by omega) hb]
    · intro i ha hb
      by_cases hi : i = i0
      · rw [hi, hcell, TArr.put_same, TArr.put_same, TArr.put_ne _ _ _ _ _ _ (by omega), h4 i0 (by omega) (by omega), hvv,
          Finset.sum_range_succ (n := p + 1)]
        ring
      · rw [hij i ha hi, h3 i ha (by omega)]
    · intro i ha hb
      rw [hij i (by omega) (by omega), h4 i (by omega) hb]
    · intro a b hab
      rw [hcell, TArr.put_ne, TArr.put_ne, h5 a b hab]
      · rintro ⟨rfl, rfl⟩
        exact hab (min_eq_left (by omega))
      · rintro ⟨rfl, rfl⟩
        exact hab (min_eq_right (by omega))

theorem tsRow_spec (m : ℕ) (z : ℕ → K) (scale h : K) (k j p : ℕ) (hj : j < m) (F : TArr K) (hF : TsRow m z scale h k F j p) :
    TsRow m z scale h k (tsRow m z scale h k (p + 2) F j) j (p + 1) ∧
    ∀ a b, min a b ≠ j → tsRow m z scale h k (p + 2) F j a b = F a b := by
  obtain ⟨h1, _, h3, _, h5⟩ := tsCell_fold m z scale h k j p F hF (m - (j + 1)) (by omega)
  exact ⟨⟨fun i ha hb => h1 i ha (by omega), fun i ha hb => h3 i ha (by omega)⟩, h5⟩

theorem TsRow.congr {m : ℕ} {z : ℕ → K} {scale h : K} {k j p : ℕ} {F G : TArr K} (hF : TsRow m z scale h k F j p)
    (hG : ∀ a b, min a b = j → G a b = F a b) : TsRow m z scale h k G j p :=
  ⟨fun i h1 h2 => by rw [hG j i (min_eq_left h1)]; exact hF.1 i h1 h2,
   fun i h1 h2 => by rw [hG i j (min_eq_right h1.le)]; exact hF.2 i h1 h2⟩

/-- the work array after `P` passes -/
theorem tsLoop_spec (m : ℕ) (z : ℕ → K) (scale h : K) (k P : ℕ) :
    let F := (List.range' 2 P).foldl (tsPass m z scale h k) (tsInit scale h k)
    ∀ j i, j < i → i < m → F i j = (h * scale) ^ j * ∑ q ∈ Finset.range (P + 1), tsTerm z scale h k q i j := by
  have key : ∀ P, let F := (List.range' 2 P).foldl (tsPass m z scale h k) (tsInit scale h k)
      (∀ j < m - 1, TsRow m z scale h k F j P) := by
    intro P
    induction P with
    | zero => intro F j _; exact tsInit_row m z scale h k j
    | succ P ih =>
      intro F
      have hF : F = tsPass m z scale h k ((List.range' 2 P).foldl (tsPass m z scale h k) (tsInit scale h k)) (P + 2) := by
        show (List.range' 2 (P + 1)).foldl _ _ = _
        rw [List.range'_1_concat, List.foldl_append, Nat.add_comm 2 P]
        rfl
      set H := (List.range' 2 P).foldl (tsPass m z scale h k) (tsInit scale h k)
      -- rows that are not touched need no hypothesis: restrict to the touched rows
      have key2 : ∀ r, let G := (List.range r).foldl (tsRow m z scale h k (P + 2)) H
          r ≤ m - 1 → (∀ j < r, TsRow m z scale h k G j (P + 1)) ∧ ∀ j, r ≤ j → j < m - 1 → TsRow m z scale h k G j P := by
        intro r
        induction r with
        | zero => intro G _; exact ⟨fun j hj => by omega, fun j _ hj => ih j hj⟩
        | succ r ihr =>
          intro G hr
          obtain ⟨h1, h2⟩ := ihr (by omega)
          have hG : G = tsRow m z scale h k (P + 2) ((List.range r).foldl (tsRow m z scale h k (P + 2)) H) r := by
            show (List.range (r + 1)).foldl _ H = _
            rw [List.range_succ, List.foldl_append]
            rfl
          set H' := (List.range r).foldl (tsRow m z scale h k (P + 2)) H
          obtain ⟨h3, h4⟩ := tsRow_spec m z scale h k r P (by omega) H' (h2 r le_rfl (by omega))
          rw [← hG] at h3 h4
          refine ⟨fun j hj => ?_, fun j hj hj' => ?_⟩
          · rcases Nat.lt_or_ge j r with h | h
            · exact (h1 j h).congr fun a b hab => h4 a b (by omega)
            · obtain rfl : j = r := by omega
              exact h3
          · exact (h2 j (by omega) hj').congr fun a b hab => h4 a b (by omega)
      rw [hF]
      exact (key2 (m - 1) le_rfl).1
  intro F j i hji him
  exact (key P j (by omega)).2 i hji him

/-- **C92, the table.**  Below the diagonal the entry `(i, j)` of `leja_coeffs_ts_phi(..., full=True)` is the first 16 terms of the
Taylor series of the divided difference times `(h*scale)^j`; on the diagonal it is `exp(h z_i)`, whatever `k`; above it is 0. -/
theorem C92_table (m : ℕ) (x : ℕ → K) (shift scale h : K) (k i j : ℕ) (hi : i < m) :
    lejaCoeffsTsPhiFull m x shift scale h k i j =
      if i = j then NormedSpace.exp (h * (shift + scale * x i))
      else if j < i then (h * scale) ^ j
        * ∑ q ∈ Finset.range 16, tsTerm (fun i => shift + scale * x i) scale h k q i j
      else 0 := by
  unfold lejaCoeffsTsPhiFull
  simp only
  split_ifs with h1 h2
  · rfl
  · exact tsLoop_spec m _ scale h k 15 j i h2 hi
  · rfl

/-- **C92, accuracy.**  Every returned coefficient of index `i ≥ 1`, for every phi order `k`, and also coefficient 0 when `k = 0`,
is the exact Newton coefficient of `phi_k(h (shift + scale x))` up to `(ρ^16/16!) e^ρ |h scale|^i / i!`, where `ρ = |h| R` and `R`
bounds the shifted and scaled nodes.  Nodes may coincide. -/
theorem C92_ts_phi_partial (m : ℕ) (x : ℕ → K) (shift scale h : K) (k i : ℕ) (hi : i < m) (hk : i = 0 → k = 0) (R : ℝ)
    (hz : ∀ i < m, ‖shift + scale * x i‖ ≤ R) :
    ‖lejaCoeffsTsPhi m x shift scale h k i - exactDd k m x shift scale h i‖
      ≤ ((‖h‖ * R) ^ 16 / (Nat.factorial 16 : ℝ) * Real.exp (‖h‖ * R)) * (‖h * scale‖ ^ i / (Nat.factorial i : ℝ)) := by
  have hR : 0 ≤ R := (norm_nonneg _).trans (hz i hi)
  unfold lejaCoeffsTsPhi exactDd firstCol
  rw [dif_pos hi, C92_table m x shift scale h k i 0 hi]
  rcases Nat.eq_zero_or_pos i with h0 | h0
  · subst h0
    obtain rfl := hk rfl
    rw [if_pos rfl, exactTable_diag, phi_scalar_zero, sub_self, norm_zero]
    positivity
  · rw [if_neg (by omega), if_pos h0, pow_zero, one_mul]
    have := exactTable_trunc k m x shift scale h R hz ⟨i, hi⟩ ⟨0, by omega⟩ (by rw [Fin.le_def]; simp) 16
    simpa only [Nat.sub_zero, tsTerm] using this

/-- **C92, what fails.**  Coefficient 0 is `exp(h z_0)` for every `k`, not `phi_k(h z_0)`; already for the single node 0 and
`k = 2` it is 1 instead of 1/2. -/
theorem C92_first_entry (m : ℕ) (x : ℕ → K) (shift scale h : K) (k : ℕ) (hm : 0 < m) :
    lejaCoeffsTsPhi m x shift scale h k 0 = NormedSpace.exp (h * (shift + scale * x 0)) := by
  unfold lejaCoeffsTsPhi
  rw [C92_table m x shift scale h k 0 0 hm, if_pos rfl]

theorem C92_false : ¬ ∀ (m : ℕ) (x : ℕ → ℝ) (shift scale h : ℝ) (k i : ℕ), i < m →
    |lejaCoeffsTsPhi m x shift scale h k i - exactDd k m x shift scale h i| ≤ 1 / 4 := by
  intro hall
  have h1 := hall 1 (fun _ => 0) 0 1 1 2 0 (by norm_num)
  rw [C92_first_entry _ _ _ _ _ _ (by norm_num)] at h1
  have h2 : exactDd 2 1 (fun _ => (0 : ℝ)) 0 1 1 0 = 1 / 2 := by
    unfold exactDd firstCol
    rw [dif_pos (by norm_num), exactTable_diag]
    have := phi_at_zero (𝔸 := ℝ) 2
    simp only [mul_zero, add_zero]
    rw [this]
    norm_num [Nat.factorial]
  rw [h2] at h1
  simp only [mul_zero, add_zero, NormedSpace.exp_zero] at h1
  norm_num [abs_le] at h1

/-- Three nodes of which two coincide, `phi_1`, coefficients 1 and 2 are within `1e-13`. -/
example : ∃ (x : ℕ → ℝ), x 0 = x 2 ∧ ∀ i, 1 ≤ i → i < 3 →
    |lejaCoeffsTsPhi 3 x 0 1 1 1 i - exactDd 1 3 x 0 1 1 i| ≤ 1.4e-13 := by
  refine ⟨fun i => if i = 1 then 1 else -1, by simp, fun i h1 h2 => ?_⟩
  have h := C92_ts_phi_partial 3 (fun i => if i = 1 then (1 : ℝ) else -1) 0 1 1 1 i h2 (by omega) 1 (by
    intro i _; split <;> simp)
  rw [Real.norm_eq_abs] at h
  refine h.trans ?_
  have he : Real.exp 1 < 2.7182818286 := Real.exp_one_lt_d9
  have hf : (1 : ℝ) ≤ Nat.factorial i := by exact_mod_cast Nat.factorial_pos i
  simp only [norm_one, one_pow, mul_one]
  calc (1 / (Nat.factorial 16 : ℝ) * Real.exp 1) * (1 / (Nat.factorial i : ℝ)) ≤ (1 / (Nat.factorial 16 : ℝ) * Real.exp 1) * 1 := by
        refine mul_le_mul_of_nonneg_left ?_ (by positivity)
        rw [div_le_one (by linarith)]
        exact hf
    _ ≤ (1 / (Nat.factorial 16 : ℝ) * 2.7182818286) * 1 := by gcongr
    _ ≤ _ := by norm_num [Nat.factorial]

/-! ### substepping -/

theorem lower_pow {m : ℕ} (B : Matrix (Fin m) (Fin m) K) (hB : ∀ i j, i < j → B i j = 0) (n : ℕ) :
    (∀ i j, i < j → (B ^ n) i j = 0) ∧ ∀ i, (B ^ n) i i = B i i ^ n := by
  induction n with
  | zero =>
    refine ⟨fun i j h => ?_, fun i => by simp⟩
    rw [pow_zero, Matrix.one_apply, if_neg h.ne]
  | succ n ih =>
    refine ⟨fun i j h => ?_, fun i => ?_⟩
    · rw [pow_succ, Matrix.mul_apply]
      refine Finset.sum_eq_zero fun l _ => ?_
      rcases lt_or_ge i l with h1 | h1
      · rw [ih.1 i l h1, zero_mul]
      · rw [hB l j (lt_of_le_of_lt h1 h), mul_zero]
    · rw [pow_succ, Matrix.mul_apply, Finset.sum_eq_single i]
      · rw [ih.2, pow_succ]
      · intro l _ hl
        rcases lt_or_gt_of_ne hl with h1 | h1
        · rw [hB l i h1, mul_zero]
        · rw [ih.1 i l h1, zero_mul]
      · simp

/-- the first `t` products with an array, started at `e_1`, are the first column of the `t`-th power -/
theorem arr_iterate (m : ℕ) (F : TArr K) (t : ℕ) : ∀ i (hi : i < m),
    ((fun y => TArr.mulVec m F y)^[t] (fun i => if i = 0 then 1 else 0)) i
      = ((Matrix.of fun a b : Fin m => F a b) ^ t) ⟨i, hi⟩ ⟨0, by omega⟩ := by
  induction t with
  | zero => intro i hi; simp [Matrix.one_apply]
  | succ t ih =>
    intro i hi
    rw [Function.iterate_succ_apply', pow_succ', Matrix.mul_apply]
    show ∑ b ∈ Finset.range m, F i b * _ = _
    rw [← Fin.sum_univ_eq_sum_range (fun b => F i b * ((fun y => TArr.mulVec m F y)^[t] (fun i => if i = 0 then 1 else 0)) b)]
    refine Finset.sum_congr rfl fun b _ => ?_
    rw [ih b b.2, Matrix.of_apply]

theorem substep_eq (m : ℕ) (x : ℕ → K) (shift : K) (scale : ℝ) (k : ℕ) (hs : 0 < scale) (i : ℕ) (hi : i < m) :
    lejaCoeffsTsPhiSubstep m x shift scale k i
      = ((Matrix.of fun a b : Fin m => lejaCoeffsTsPhiFull m x shift (scale : K) ((1 / scale : ℝ) : K) k a b)
          ^ ⌈scale⌉.toNat) ⟨i, hi⟩ ⟨0, by omega⟩ := by
  have h1 : 1 ≤ ⌈scale⌉.toNat := by
    have : 0 < ⌈scale⌉ := Int.ceil_pos.2 hs
    omega
  rw [← arr_iterate m _ _ i hi, ← Nat.sub_add_cancel h1, Function.iterate_succ_apply]
  rfl

/-- the distance of the computed table (`k = 0`, `|h scale| = 1`) from the exact one -/
theorem ts_table_close (m : ℕ) (x : ℕ → K) (shift scale h : K) (hh : h * scale = 1) (R : ℝ)
    (hz : ∀ i < m, ‖shift + scale * x i‖ ≤ R) (i j : Fin m) :
    ‖lejaCoeffsTsPhiFull m x shift scale h 0 i j - exactTable 0 m x shift scale h i j‖
      ≤ ((‖h‖ * R) ^ 16 / (Nat.factorial 16 : ℝ) * Real.exp (‖h‖ * R)) * cmpMat m 1 i j := by
  have hR : 0 ≤ R := (norm_nonneg _).trans (hz i i.2)
  rw [C92_table m x shift scale h 0 i j i.2]
  rcases lt_trichotomy i j with h1 | h1 | h1
  · have h2 : (i : ℕ) < j := h1
    rw [if_neg (by omega), if_neg (by omega), exactTable_upper _ _ _ _ _ _ _ _ h1, sub_zero, norm_zero, cmpMat, Matrix.of_apply,
      if_neg (not_le.2 h1), mul_zero]
  · subst h1
    rw [if_pos rfl, exactTable_diag, phi_scalar_zero, sub_self, norm_zero, cmpMat, Matrix.of_apply, if_pos le_rfl]
    positivity
  · have h2 : (j : ℕ) < i := h1
    rw [if_neg (by omega), if_pos h2, hh, one_pow, one_mul, cmpMat, Matrix.of_apply, if_pos h1.le]
    have := exactTable_trunc 0 m x shift scale h R hz i j h1.le 16
    rw [hh, norm_one] at this
    exact this

theorem exact_table_bound (m : ℕ) (x : ℕ → K) (shift scale h : K) (hh : ‖h * scale‖ = 1) (R : ℝ)
    (hz : ∀ i < m, ‖shift + scale * x i‖ ≤ R) (i j : Fin m) :
    ‖exactTable 0 m x shift scale h i j‖ ≤ Real.exp (‖h‖ * R) * cmpMat m 1 i j := by
  rw [cmpMat, Matrix.of_apply]
  split_ifs with h1
  · have := exactTable_le 0 m x shift scale h R hz i j h1
    rwa [hh] at this
  · rw [exactTable_upper _ _ _ _ _ _ _ _ (not_le.1 h1)]
    simp

theorem cmpMat_nonneg (m : ℕ) (σ : ℝ) (hσ : 0 ≤ σ) (i j : Fin m) : 0 ≤ cmpMat m σ i j := by
  rw [cmpMat, Matrix.of_apply]
  split_ifs <;> positivity

/-- **C93, integer scales.**  For `scale = n`, `n ≥ 1`, `leja_coeffs_ts_phi_substep` returns the Newton coefficients of
`exp(shift + scale x)` with error at most `e^R ((1 + (R/n)^16/16!)^n - 1) n^i/i!`. -/
theorem C93_substep_partial (m : ℕ) (x : ℕ → K) (shift : K) (n : ℕ) (hn : 1 ≤ n) (i : ℕ) (hi : i < m) (R : ℝ)
    (hz : ∀ i < m, ‖shift + (n : K) * x i‖ ≤ R) :
    ‖lejaCoeffsTsPhiSubstep m x shift (n : ℝ) 0 i - exactDd 0 m x shift (n : K) 1 i‖
      ≤ Real.exp R * ((1 + (R / n) ^ 16 / (Nat.factorial 16 : ℝ)) ^ n - 1) * ((n : ℝ) ^ i / (Nat.factorial i : ℝ)) := by
  have hR : 0 ≤ R := (norm_nonneg _).trans (hz i hi)
  have hn0 : (0 : ℝ) < n := by exact_mod_cast hn
  have hnK : (n : K) ≠ 0 := by exact_mod_cast (by omega : n ≠ 0)
  rw [substep_eq m x shift n 0 hn0 i hi, Int.ceil_natCast, Int.toNat_natCast]
  have hcast : (((n : ℝ) : ℝ) : K) = (n : K) := by push_cast; rfl
  set h : K := ((1 / (n : ℝ) : ℝ) : K) with hh
  have hh' : h = 1 / (n : K) := by rw [hh]; push_cast; rfl
  have hhs : h * (n : K) = 1 := by rw [hh']; field_simp
  rw [hcast]
  have hnorm : ‖h‖ * R = R / n := by
    rw [hh', norm_div, norm_one, RCLike.norm_natCast]; ring
  have hclose := fun a b => ts_table_close m x shift (n : K) h hhs R hz a b
  have hbound := fun a b => exact_table_bound m x shift (n : K) h (by rw [hhs, norm_one]) R hz a b
  rw [hnorm] at hclose hbound
  have key := (pow_dominated (exactTable 0 m x shift (n : K) h)
    (Matrix.of fun a b : Fin m => lejaCoeffsTsPhiFull m x shift (n : K) h 0 a b) (cmpMat m 1) (Real.exp (R / n))
    ((R / n) ^ 16 / (Nat.factorial 16 : ℝ) * Real.exp (R / n)) (Real.exp_pos _).le (by positivity)
    (cmpMat_nonneg m 1 zero_le_one) hbound hclose n ⟨i, hi⟩ ⟨0, by omega⟩).2.2
  rw [exactTable_pow, mul_comm (n : K) h, hhs, cmpMat_pow, mul_one] at key
  unfold exactDd firstCol
  rw [dif_pos hi]
  refine key.trans (le_of_eq ?_)
  rw [cmpMat, Matrix.of_apply, if_pos (by rw [Fin.le_def]; simp)]
  simp only [Nat.sub_zero]
  congr 1
  have e : Real.exp R = Real.exp (R / n) ^ n := by
    rw [← Real.exp_nat_mul]; congr 1; field_simp
  rw [e, ← one_add_mul ((R / n) ^ 16 / (Nat.factorial 16 : ℝ)) (Real.exp (R / n)), mul_pow]
  ring

/-- **C93, the first coefficient** for every positive scale: the total time is `ceil(scale)/scale` instead of 1. -/
theorem C93_first_entry (m : ℕ) (x : ℕ → K) (shift : K) (scale : ℝ) (k : ℕ) (hs : 0 < scale) (hm : 0 < m) :
    lejaCoeffsTsPhiSubstep m x shift scale k 0
      = NormedSpace.exp ((((⌈scale⌉ : ℝ) / scale : ℝ) : K) * (shift + scale * x 0)) := by
  rw [substep_eq m x shift scale k hs 0 hm, (lower_pow _ ?_ _).2]
  · rw [Matrix.of_apply, C92_table _ _ _ _ _ _ _ _ hm, if_pos rfl, ← NormedSpace.exp_nsmul]
    congr 1
    rw [nsmul_eq_mul, ← mul_assoc]
    congr 1
    have h1 : ((⌈scale⌉.toNat : ℕ) : ℝ) = (⌈scale⌉ : ℝ) := by
      have : ((⌈scale⌉.toNat : ℕ) : ℤ) = ⌈scale⌉ := Int.toNat_of_nonneg (Int.ceil_nonneg hs.le)
      exact_mod_cast congrArg (Int.cast : ℤ → ℝ) this
    rw [← h1]
    push_cast
    ring
  · intro i j hij
    have hij' : (i : ℕ) < j := hij
    rw [Matrix.of_apply, C92_table _ _ _ _ _ _ _ _ i.2, if_neg (by omega), if_neg (by omega)]

/-- **C93, negation.**  For non-integer scales the result is not the divided differences of `exp(shift + scale x)`: with
`scale = 3/2`, one node 0 and `shift = 1`, it is `exp(4/3)` instead of `exp(1)`. -/
theorem C93_false : ¬ ∀ (m : ℕ) (x : ℕ → ℝ) (shift scale : ℝ) (i : ℕ), 0 < scale → i < m →
    |lejaCoeffsTsPhiSubstep m x shift scale 0 i - exactDd 0 m x shift scale 1 i| ≤ 1 / 2 := by
  intro hall
  have h1 := hall 1 (fun _ => 0) 1 (3 / 2) 0 (by norm_num) (by norm_num)
  rw [C93_first_entry _ _ _ _ _ (by norm_num) (by norm_num)] at h1
  have hc : (⌈(3 / 2 : ℝ)⌉ : ℤ) = 2 := by
    rw [Int.ceil_eq_iff]; norm_num
  have h2 : exactDd 0 1 (fun _ => (0 : ℝ)) 1 (3 / 2) 1 0 = Real.exp 1 := by
    unfold exactDd firstCol
    rw [dif_pos (by norm_num), exactTable_diag, phi_scalar_zero, Real.exp_eq_exp_ℝ]
    norm_num
  rw [h2, hc, ← Real.exp_eq_exp_ℝ] at h1
  have h3 : (((((2 : ℤ) : ℝ) / (3 / 2) : ℝ) : ℝ) : ℝ) * (1 + ((3 / 2 : ℝ) : ℝ) * 0) = 1 + 1 / 3 := by norm_num
  have h4 : Real.exp (1 + 1 / 3) - Real.exp 1 ≥ Real.exp 1 * (1 / 3) := by
    rw [Real.exp_add]
    have := Real.add_one_le_exp (1 / 3 : ℝ)
    have he := Real.exp_pos 1
    nlinarith
  have h5 : 2.7182818283 < Real.exp 1 := Real.exp_one_gt_d9
  have h6 := (abs_le.1 h1).2
  simp only [RCLike.ofReal_real_eq_id, id] at h6
  rw [h3] at h6
  linarith

/-- Two nodes, `scale = 3`: three substeps, coefficient 1 is within `1e-9`. -/
example : ∃ x : ℕ → ℝ, |lejaCoeffsTsPhiSubstep 2 x 0 ((3 : ℕ) : ℝ) 0 1 - exactDd 0 2 x 0 ((3 : ℕ) : ℝ) 1 1| ≤ 1.4e-11 := by
  refine ⟨fun i => if i = 0 then 1 else -1, ?_⟩
  have h := C93_substep_partial 2 (fun i => if i = 0 then (1 : ℝ) else -1) 0 3 (by norm_num) 1 (by norm_num) 3 (by
    intro i _; split <;> norm_num)
  rw [Real.norm_eq_abs] at h
  refine h.trans ?_
  have he : Real.exp 3 ≤ 20.1 := by
    have h1 : Real.exp 1 < 2.7182818286 := Real.exp_one_lt_d9
    have : Real.exp 3 = Real.exp 1 ^ 3 := by rw [← Real.exp_nat_mul]; norm_num
    rw [this]
    calc Real.exp 1 ^ 3 ≤ 2.7182818286 ^ 3 := by gcongr
      _ ≤ 20.1 := by norm_num
  have hpos : (0 : ℝ) ≤ (1 + ((3 : ℝ) / ((3 : ℕ) : ℝ)) ^ 16 / (Nat.factorial 16 : ℝ)) ^ 3 - 1 := by norm_num [Nat.factorial]
  calc _ ≤ 20.1 * ((1 + ((3 : ℝ) / ((3 : ℕ) : ℝ)) ^ 16 / (Nat.factorial 16 : ℝ)) ^ 3 - 1) * (((3 : ℕ) : ℝ) ^ 1 / (Nat.factorial 1 : ℝ)) := by
        gcongr
    _ ≤ _ := by norm_num [Nat.factorial]

/-! ### `leja_coeffs_ts_ss` -/

/-- transposition of a work array -/
def arrTr (F : TArr K) : TArr K := fun a b => F b a

theorem arrTr_put (F : TArr K) (a b : ℕ) (v : K) : arrTr (F.put a b v) = (arrTr F : TArr K).put b a v := by
  funext c d
  by_cases h : c = b ∧ d = a
  · obtain ⟨rfl, rfl⟩ := h
    rw [TArr.put_same]
    exact TArr.put_same F d c v
  · rw [TArr.put_ne _ _ _ _ _ _ h]
    exact TArr.put_ne F a b v d c (fun hh => h ⟨hh.2, hh.1⟩)

theorem ssCell_tr (z : ℕ → K) (l k j : ℕ) (F : TArr K) (i : ℕ) (hij : j < i) :
    arrTr (ssCell z l k j F i) = tsCell z 1 1 l (k + 1) j (arrTr F) i := by
  have e : k + i - j + l = k + 1 + i - j + l - 1 := by omega
  have e2 : arrTr (F.put i j ((z i * F i j + F (i - 1) j) / ((k + 1 + i - j + l - 1 : ℕ) : K)))
      = (arrTr F : TArr K).put j i (1 * (z i * (arrTr F) j i + 1 * (arrTr F) j (i - 1)) / ((k + 1 + i - j + l - 1 : ℕ) : K)) := by
    rw [arrTr_put, one_mul, one_mul]
    rfl
  unfold ssCell tsCell
  simp only
  rw [e, arrTr_put, e2]
  set H := (arrTr F : TArr K).put j i (1 * (z i * (arrTr F) j i + 1 * (arrTr F) j (i - 1)) / ((k + 1 + i - j + l - 1 : ℕ) : K))
  set G := F.put i j ((z i * F i j + F (i - 1) j) / ((k + 1 + i - j + l - 1 : ℕ) : K))
  have h1 : G i j = H j i := congrFun (congrFun e2 j) i
  have h2 : G j i = H i j := congrFun (congrFun e2 i) j
  rw [h1, h2, add_comm]

theorem ssRow_tr (m : ℕ) (z : ℕ → K) (l k : ℕ) (F : TArr K) (j : ℕ) :
    arrTr (ssRow m z l k F j) = tsRow m z 1 1 l (k + 1) (arrTr F) j := by
  have hfold : ∀ (n : ℕ) (G : TArr K), arrTr ((List.range' (j + 1) n).foldl (ssCell z l k j) G)
      = (List.range' (j + 1) n).foldl (tsCell z 1 1 l (k + 1) j) (arrTr G) := by
    intro n G
    induction n with
    | zero => rfl
    | succ n ih =>
      rw [List.range'_1_concat, List.foldl_append, List.foldl_append]
      show arrTr (ssCell z l k j _ (j + 1 + n)) = _
      rw [ssCell_tr _ _ _ _ _ _ (by omega), ih]
      rfl
  unfold ssRow tsRow
  simp only
  rw [hfold, arrTr_put]
  congr 2
  rw [show k + 1 + l - 1 = k + l by omega, one_mul]
  rfl

theorem ssLoop_tr (m : ℕ) (z : ℕ → K) (l P : ℕ) :
    arrTr ((List.range' 1 P).foldl (ssPass m z l) (ssInit l)) = (List.range' 2 P).foldl (tsPass m z 1 1 l) (tsInit 1 1 l) := by
  have hpass : ∀ (k : ℕ) (G : TArr K), arrTr (ssPass m z l G k) = tsPass m z 1 1 l (arrTr G) (k + 1) := by
    intro k G
    unfold ssPass tsPass
    induction m - 1 with
    | zero => rfl
    | succ r ih =>
      rw [List.range_succ, List.foldl_append, List.foldl_append]
      show arrTr (ssRow m z l k _ r) = tsRow m z 1 1 l (k + 1) _ r
      rw [ssRow_tr, ih]
  induction P with
  | zero =>
    funext a b
    show (ssInit l : TArr K) b a = (tsInit 1 1 l : TArr K) a b
    unfold ssInit tsInit
    rw [max_comm, min_comm]
    simp
  | succ P ih =>
    rw [List.range'_1_concat, List.range'_1_concat, List.foldl_append, List.foldl_append]
    show arrTr (ssPass m z l _ (1 + P)) = tsPass m z 1 1 l _ (2 + P)
    rw [hpass, ih]
    congr 1
    omega

/-- The transposed table of `leja_coeffs_ts_ss` before the squarings, for nodes `z`. -/
noncomputable def ssTable (m : ℕ) (z : ℕ → K) (l : ℕ) : Matrix (Fin m) (Fin m) K :=
  Matrix.of fun i j =>
    if i = j then NormedSpace.exp (z i)
    else if j < i then ∑ q ∈ Finset.range 20, tsTerm z 1 1 l q i j else 0

theorem ssSquare_iter (m : ℕ) (z : ℕ → K) (l t : ℕ) :
    (ssSquare m)^[t] ((ssTable m z l)ᵀ, z)
      = ((Matrix.diagonal fun i : Fin m => ((2 : K) ^ t) ^ (i : ℕ)) * ((ssTable m z l) ^ 2 ^ t)ᵀ
          * (Matrix.diagonal fun i : Fin m => (((2 : K) ^ t) ^ (i : ℕ))⁻¹), fun i => 2 ^ t * z i) := by
  induction t with
  | zero =>
    simp only [Function.iterate_zero, id_eq, pow_zero, one_pow, inv_one, pow_one, one_mul]
    rw [Matrix.diagonal_one, Matrix.one_mul, Matrix.mul_one]
  | succ t ih =>
    rw [Function.iterate_succ_apply', ih]
    set B := ssTable m z l with hB
    have hlow : ∀ i j, i < j → B i j = 0 := by
      intro i j hij
      rw [hB, ssTable, Matrix.of_apply, if_neg hij.ne, if_neg (not_lt.2 hij.le)]
    have hdiag : ∀ i, B i i = NormedSpace.exp (z i) := by
      intro i
      rw [hB, ssTable, Matrix.of_apply, if_pos rfl]
    unfold ssSquare
    simp only [Prod.mk.injEq]
    refine ⟨?_, ?_⟩
    · have hRinv : (Matrix.diagonal fun i : Fin m => (2 : K) ^ (i : ℕ))⁻¹ = Matrix.diagonal fun i : Fin m => ((2 : K) ^ (i : ℕ))⁻¹ := by
        refine Matrix.inv_eq_right_inv ?_
        rw [Matrix.diagonal_mul_diagonal, ← Matrix.diagonal_one]
        congr 1
        funext i
        exact mul_inv_cancel₀ (pow_ne_zero _ two_ne_zero)
      rw [hRinv]
      have hcancel : (Matrix.diagonal fun i : Fin m => (((2 : K) ^ t) ^ (i : ℕ))⁻¹) * (Matrix.diagonal fun i : Fin m => ((2 : K) ^ t) ^ (i : ℕ))
          = 1 := by
        rw [Matrix.diagonal_mul_diagonal, ← Matrix.diagonal_one]
        congr 1
        funext i
        exact inv_mul_cancel₀ (pow_ne_zero _ (pow_ne_zero _ two_ne_zero))
      set D := Matrix.diagonal fun i : Fin m => ((2 : K) ^ t) ^ (i : ℕ) with hD
      set D' := Matrix.diagonal fun i : Fin m => (((2 : K) ^ t) ^ (i : ℕ))⁻¹ with hD'
      have hsq : D * (B ^ 2 ^ t)ᵀ * D' * (D * (B ^ 2 ^ t)ᵀ * D') = D * (B ^ 2 ^ (t + 1))ᵀ * D' := by
        calc _ = D * (B ^ 2 ^ t)ᵀ * (D' * D) * (B ^ 2 ^ t)ᵀ * D' := by simp only [Matrix.mul_assoc]
          _ = D * ((B ^ 2 ^ t)ᵀ * (B ^ 2 ^ t)ᵀ) * D' := by rw [hcancel, Matrix.mul_one]; simp only [Matrix.mul_assoc]
          _ = _ := by rw [← Matrix.transpose_mul, ← pow_add, pow_succ 2 t, mul_two]
      rw [hsq]
      have hout : (Matrix.diagonal fun i : Fin m => (2 : K) ^ (i : ℕ)) * (D * (B ^ 2 ^ (t + 1))ᵀ * D')
          * (Matrix.diagonal fun i : Fin m => ((2 : K) ^ (i : ℕ))⁻¹)
          = (Matrix.diagonal fun i : Fin m => ((2 : K) ^ (t + 1)) ^ (i : ℕ)) * (B ^ 2 ^ (t + 1))ᵀ
            * (Matrix.diagonal fun i : Fin m => (((2 : K) ^ (t + 1)) ^ (i : ℕ))⁻¹) := by
        have e1 : (Matrix.diagonal fun i : Fin m => (2 : K) ^ (i : ℕ)) * D = Matrix.diagonal fun i : Fin m => ((2 : K) ^ (t + 1)) ^ (i : ℕ) := by
          rw [hD, Matrix.diagonal_mul_diagonal]
          congr 1
          funext i
          rw [pow_succ 2 t, mul_pow, mul_comm]
        have e2 : D' * (Matrix.diagonal fun i : Fin m => ((2 : K) ^ (i : ℕ))⁻¹) = Matrix.diagonal fun i : Fin m => (((2 : K) ^ (t + 1)) ^ (i : ℕ))⁻¹ := by
          rw [hD', Matrix.diagonal_mul_diagonal]
          congr 1
          funext i
          rw [pow_succ 2 t, mul_pow, mul_inv]
        rw [← e1, ← e2]
        simp only [Matrix.mul_assoc]
      rw [hout]
      ext a b
      rw [Matrix.of_apply]
      split_ifs with hab
      · subst hab
        rw [Matrix.mul_assoc, Matrix.diagonal_mul, Matrix.mul_diagonal, Matrix.transpose_apply, (lower_pow B hlow _).2, hdiag,
          ← NormedSpace.exp_nsmul]
        have hne : ((2 : K) ^ (t + 1)) ^ (a : ℕ) ≠ 0 := pow_ne_zero _ (pow_ne_zero _ two_ne_zero)
        rw [mul_comm (NormedSpace.exp _), mul_inv_cancel_left₀ hne, nsmul_eq_mul]
        congr 1
        push_cast
        ring
      · rfl
    · funext i
      ring

theorem ss_table_close (m : ℕ) (z : ℕ → K) (R : ℝ) (hz : ∀ i < m, ‖z i‖ ≤ R) (i j : Fin m) :
    ‖ssTable m z 0 i j - exactTable 0 m z 0 1 1 i j‖
      ≤ (R ^ 20 / (Nat.factorial 20 : ℝ) * Real.exp R) * cmpMat m 1 i j := by
  have hR : 0 ≤ R := (norm_nonneg _).trans (hz i i.2)
  rw [ssTable, Matrix.of_apply]
  rcases lt_trichotomy i j with h1 | h1 | h1
  · rw [if_neg h1.ne, if_neg (not_lt.2 h1.le), exactTable_upper _ _ _ _ _ _ _ _ h1, sub_zero, norm_zero, cmpMat, Matrix.of_apply,
      if_neg (not_le.2 h1), mul_zero]
  · subst h1
    rw [if_pos rfl, exactTable_diag, phi_scalar_zero, one_mul, one_mul, zero_add, sub_self, norm_zero, cmpMat, Matrix.of_apply,
      if_pos le_rfl]
    positivity
  · rw [if_neg h1.ne', if_pos h1, cmpMat, Matrix.of_apply, if_pos h1.le]
    have := exactTable_trunc 0 m z 0 1 1 R (by simpa using hz) i j h1.le 20
    simp only [norm_one, one_mul, zero_add] at this
    simpa only [tsTerm, norm_one, one_mul] using this

theorem ss_result (m : ℕ) (x : ℕ → K) (shift : K) (scale : ℝ) (hIn : K) (l : ℕ) (i : ℕ) (hi : i < m) :
    let s := numSquarings scale
    let nu : K := (∑ i ∈ Finset.range m, (shift + scale * x i)) / m
    let z : ℕ → K := fun i => 1 / 2 ^ s * (shift + scale * x i - nu)
    lejaCoeffsTsSs m x shift scale hIn l i
      = NormedSpace.exp nu * ((((2 : K) ^ s) ^ i)⁻¹ * (ssTable m z l ^ 2 ^ s) ⟨i, hi⟩ ⟨0, by omega⟩) := by
  intro s nu z
  have hF0 : (Matrix.of fun a b : Fin m => if a = b then NormedSpace.exp (z a) else if (a : ℕ) < b then
      ((List.range' 1 19).foldl (ssPass m z l) (ssInit l)) a b else 0) = (ssTable m z l)ᵀ := by
    ext a b
    rw [Matrix.of_apply, Matrix.transpose_apply, ssTable, Matrix.of_apply]
    by_cases hab : a = b
    · rw [if_pos hab, if_pos hab.symm, hab]
    · rw [if_neg hab, if_neg (show ¬ b = a from fun h => hab h.symm)]
      by_cases h2 : (a : ℕ) < b
      · rw [if_pos h2, if_pos (show a < b from h2)]
        have h3 := tsLoop_spec m z 1 1 l 19 a b h2 b.2
        simp only [mul_one, one_pow, one_mul] at h3
        rw [← h3, ← ssLoop_tr]
        rfl
      · rw [if_neg h2, if_neg (show ¬ a < b from h2)]
  unfold lejaCoeffsTsSs
  simp only
  rw [dif_pos hi]
  show NormedSpace.exp nu * ((ssSquare m)^[s] ((Matrix.of fun a b : Fin m => if a = b then NormedSpace.exp (z a) else
    if (a : ℕ) < b then ((List.range' 1 19).foldl (ssPass m z l) (ssInit l)) a b else 0), z)).1 ⟨0, by omega⟩ ⟨i, hi⟩ = _
  rw [hF0, ssSquare_iter]
  simp only
  rw [Matrix.mul_assoc, Matrix.diagonal_mul, Matrix.mul_diagonal, Matrix.transpose_apply]
  simp only [pow_zero, one_mul]
  rw [mul_comm (((2 : K) ^ s) ^ i)⁻¹]

/-- **C94, `l = 0`.**  `leja_coeffs_ts_ss` returns the divided differences of `exp` at the nodes `w_i = shift + scale x_i` (with
respect to `w`, not `x`), with error at most `|e^nu| e^R ((1 + (R/2^s)^20/20!)^(2^s) - 1)/i!`, where `nu` is the mean of the
nodes, `R` bounds `|w_i - nu|` and `s` is the number of squarings. -/
theorem C94_ts_ss_partial (m : ℕ) (x : ℕ → K) (shift : K) (scale : ℝ) (hIn : K) (i : ℕ) (hi : i < m) (R : ℝ) (nu : K)
    (hnu : nu = (∑ i ∈ Finset.range m, (shift + scale * x i)) / m)
    (hz : ∀ i < m, ‖shift + scale * x i - nu‖ ≤ R) :
    ‖lejaCoeffsTsSs m x shift scale hIn 0 i - exactDd 0 m (fun i => shift + scale * x i) 0 1 1 i‖
      ≤ ‖NormedSpace.exp nu‖ * (Real.exp R * ((1 + (R / 2 ^ numSquarings scale) ^ 20 / (Nat.factorial 20 : ℝ))
          ^ 2 ^ numSquarings scale - 1) / (Nat.factorial i : ℝ)) := by
  have hR : 0 ≤ R := (norm_nonneg _).trans (hz i hi)
  have hres := ss_result m x shift scale hIn 0 i hi
  simp only at hres
  rw [hres]
  clear hres
  rw [← hnu]
  set s := numSquarings scale with hs
  set z : ℕ → K := fun i => 1 / 2 ^ s * (shift + scale * x i - nu) with hzdef
  have h2 : (2 : K) ^ s ≠ 0 := pow_ne_zero _ two_ne_zero
  have hzb : ∀ i < m, ‖z i‖ ≤ R / 2 ^ s := by
    intro i hi
    rw [hzdef]
    simp only
    rw [norm_mul, norm_div, norm_one, norm_pow, RCLike.norm_ofNat, one_div, div_eq_inv_mul]
    exact mul_le_mul_of_nonneg_left (hz i hi) (by positivity)
  have key := (pow_dominated (exactTable 0 m z 0 1 1) (ssTable m z 0) (cmpMat m 1) (Real.exp (R / 2 ^ s))
    ((R / 2 ^ s) ^ 20 / (Nat.factorial 20 : ℝ) * Real.exp (R / 2 ^ s)) (Real.exp_pos _).le (by positivity)
    (cmpMat_nonneg m 1 zero_le_one)
    (fun a b => by
      have := exact_table_bound m z 0 1 1 (by simp) (R / 2 ^ s) (by simpa using hzb) a b
      simpa using this)
    (fun a b => ss_table_close m z (R / 2 ^ s) hzb a b) (2 ^ s) ⟨i, hi⟩ ⟨0, by omega⟩).2.2
  rw [exactTable_pow, mul_one, cmpMat_pow, mul_one, cmpMat, Matrix.of_apply, if_pos (by rw [Fin.le_def]; simp)] at key
  simp only [Nat.sub_zero] at key
  have hex : exactDd 0 m (fun i => shift + scale * x i) 0 1 1 i
      = NormedSpace.exp nu * ((((2 : K) ^ s) ^ i)⁻¹ * exactTable 0 m z 0 1 ((2 ^ s : ℕ) : K) ⟨i, hi⟩ ⟨0, by omega⟩) := by
    unfold exactDd firstCol
    rw [dif_pos hi, exactTable_rescale 0 m z 0 1 ((2 ^ s : ℕ) : K) ⟨i, hi⟩ ⟨0, by omega⟩ (by rw [Fin.le_def]; simp)]
    simp only [Nat.sub_zero, mul_one, zero_add, one_mul]
    push_cast
    rw [inv_mul_cancel_left₀ (pow_ne_zero _ h2), ← exactTable_translate]
    congr 2
    funext i
    rw [hzdef]
    field_simp
    ring
  rw [hex, ← mul_sub, ← mul_sub, norm_mul, norm_mul, norm_inv, norm_pow, norm_pow, RCLike.norm_ofNat]
  refine mul_le_mul_of_nonneg_left ?_ (norm_nonneg _)
  have h3 : (0 : ℝ) < (2 ^ s) ^ i := by positivity
  calc ((2 ^ s) ^ i)⁻¹ * _ ≤ ((2 ^ s) ^ i)⁻¹ * _ := mul_le_mul_of_nonneg_left key (by positivity)
    _ = _ := by
      have e : Real.exp R = Real.exp (R / 2 ^ s) ^ 2 ^ s := by
        rw [← Real.exp_nat_mul]; congr 1; push_cast; field_simp
      rw [e, ← one_add_mul ((R / 2 ^ s) ^ 20 / (Nat.factorial 20 : ℝ)) (Real.exp (R / 2 ^ s)), mul_pow]
      push_cast
      field_simp

/-- **C94, the argument `h_in` is ignored and the diagonal is always `exp`**: coefficient 0 is `exp(shift + scale x_0)` for every
`h_in` and every `l`. -/
theorem C94_first_entry (m : ℕ) (x : ℕ → K) (shift : K) (scale : ℝ) (hIn : K) (l : ℕ) (hm : 0 < m) :
    lejaCoeffsTsSs m x shift scale hIn l 0 = NormedSpace.exp (shift + scale * x 0) := by
  have hres := ss_result m x shift scale hIn l 0 hm
  simp only at hres
  rw [hres, (lower_pow _ ?_ _).2]
  · rw [ssTable, Matrix.of_apply, if_pos rfl, ← NormedSpace.exp_nsmul, pow_zero, inv_one, one_mul, ← NormedSpace.exp_add]
    congr 1
    rw [nsmul_eq_mul]
    have h2 : (2 : K) ^ numSquarings scale ≠ 0 := pow_ne_zero _ two_ne_zero
    push_cast
    field_simp
    ring
  · intro i j hij
    rw [ssTable, Matrix.of_apply, if_neg hij.ne, if_neg (not_lt.2 hij.le)]

/-- **C94, negation.**  The result is not the divided differences of `phi_l(h (shift + scale x))`: neither for a step fraction
`h ≠ 1` nor for `l > 1`. -/
theorem C94_false :
    (¬ ∀ (m : ℕ) (x : ℕ → ℝ) (shift scale h : ℝ) (i : ℕ), 0 < scale → i < m →
      |lejaCoeffsTsSs m x shift scale h 0 i - exactDd 0 m x shift scale h i| ≤ 1) ∧
    (¬ ∀ (m : ℕ) (x : ℕ → ℝ) (shift scale : ℝ) (l i : ℕ), 0 < scale → i < m →
      |lejaCoeffsTsSs m x shift scale 1 l i - exactDd l m x shift scale 1 i| ≤ 1 / 4) := by
  refine ⟨fun hall => ?_, fun hall => ?_⟩
  · have h1 := hall 1 (fun _ => 0) 1 1 0 0 (by norm_num) (by norm_num)
    rw [C94_first_entry _ _ _ _ _ _ (by norm_num)] at h1
    have h2 : exactDd 0 1 (fun _ => (0 : ℝ)) 1 1 0 0 = 1 := by
      unfold exactDd firstCol
      rw [dif_pos (by norm_num), exactTable_diag, phi_scalar_zero, zero_mul, NormedSpace.exp_zero]
    rw [h2, mul_zero, add_zero, ← Real.exp_eq_exp_ℝ] at h1
    have h5 : 2.7182818283 < Real.exp 1 := Real.exp_one_gt_d9
    have h6 := (abs_le.1 h1).2
    linarith
  · have h1 := hall 1 (fun _ => 0) 0 1 2 0 (by norm_num) (by norm_num)
    rw [C94_first_entry _ _ _ _ _ _ (by norm_num)] at h1
    have h2 : exactDd 2 1 (fun _ => (0 : ℝ)) 0 1 1 0 = 1 / 2 := by
      unfold exactDd firstCol
      rw [dif_pos (by norm_num), exactTable_diag]
      have := phi_at_zero (𝔸 := ℝ) 2
      simp only [mul_zero, add_zero]
      rw [this]
      norm_num [Nat.factorial]
    rw [h2] at h1
    simp only [mul_zero, add_zero, NormedSpace.exp_zero] at h1
    norm_num [abs_le] at h1

/-- Two nodes `1, -1` with `scale = 1`: the hypotheses hold with mean 0 and `R = 1`. -/
example : ∃ x : ℕ → ℝ, ∀ i < 2, |lejaCoeffsTsSs 2 x 0 1 1 0 i - exactDd 0 2 x 0 1 1 i| ≤ 1e-15 := by
  refine ⟨fun i => if i = 0 then 1 else -1, fun i hi => ?_⟩
  have h := C94_ts_ss_partial 2 (fun i => if i = 0 then (1 : ℝ) else -1) 0 1 1 i hi 1 0 (by
    simp [Finset.sum_range_succ]) (by
    intro i _; split <;> simp)
  rw [Real.norm_eq_abs] at h
  have hs : numSquarings 1 = 1 := by simp [numSquarings]
  have hw : (fun i => (0 : ℝ) + ((1 : ℝ) : ℝ) * (if i = 0 then (1 : ℝ) else -1)) = fun i : ℕ => if i = 0 then (1 : ℝ) else -1 := by
    funext i; simp
  rw [hs] at h
  simp only [RCLike.ofReal_real_eq_id, id, zero_add, one_mul] at h
  refine h.trans ?_
  have he : Real.exp 1 < 2.7182818286 := Real.exp_one_lt_d9
  have hf : (1 : ℝ) ≤ Nat.factorial i := by exact_mod_cast Nat.factorial_pos i
  have hpos : (0 : ℝ) ≤ Real.exp 1 * ((1 + (1 / 2 ^ 1) ^ 20 / (Nat.factorial 20 : ℝ)) ^ 2 ^ 1 - 1) :=
    mul_nonneg (Real.exp_pos _).le (by norm_num [Nat.factorial])
  rw [NormedSpace.exp_zero, norm_one, one_mul]
  calc _ ≤ Real.exp 1 * ((1 + (1 / 2 ^ 1) ^ 20 / (Nat.factorial 20 : ℝ)) ^ 2 ^ 1 - 1) := div_le_self hpos hf
    _ ≤ 2.7182818286 * ((1 + (1 / 2 ^ 1) ^ 20 / (Nat.factorial 20 : ℝ)) ^ 2 ^ 1 - 1) :=
        mul_le_mul_of_nonneg_right he.le (by norm_num [Nat.factorial])
    _ ≤ _ := by norm_num [Nat.factorial]

end
end Ormatex.Props
