import Verif.Props.ArnDecomp
import Verif.Props.RsArnoldi
import Verif.Props.RsPadeAcc
import Verif.Props.KrylovCode

/-!
C107: error of the Krylov phi products for any orthogonalisation depth, with the dense kernels of the package and of the
crate.
-/

namespace Ormatex.Props
open Matrix Ormatex.Spec Ormatex.Rs
open scoped Classical
variable {n : ℕ}

/-! ### The Arnoldi iteration of the crate -/

theorem rsTol_pos : 0 < rsBreakdownTol := by unfold rsBreakdownTol; norm_num

/-- one pass of the crate's iteration -/
theorem rs_pass (A : LinOp n) (scale : ℝ) (m iom k : ℕ) (s : Arn n)
    (h : ArnCore (fun x => scale • A.call x) iom s.hs s.qs k (k + 1)) :
    let p := arnoldiInner A scale k m iom s
    ArnCore (fun x => scale • A.call x) iom p.1.hs p.1.qs (k + 1) (if k + 1 < m ∧ p.2 = false then k + 2 else k + 1)
      ∧ (p.2 = true ↔ norm2 (resid (fun x => scale • A.call x) p.1.hs p.1.qs k) < 1e-12)
      ∧ p.1.qs 0 = s.qs 0
      ∧ ∀ j < k, resid (fun x => scale • A.call x) p.1.hs p.1.qs j = resid (fun x => scale • A.call x) s.hs s.qs j := by
  have hd : (max ((k : ℤ) - iom) 0).toNat = k - iom := by omega
  unfold arnoldiInner
  simp only [hd, rs_orth_eq]
  set o := (List.range' (k - iom) (k + 1 - (k - iom))).foldl (orthoBody s.qs k) ⟨s.hs, scale • A.call (s.qs k)⟩ with ho
  have key := h.step o ho (if k + 1 < m then setH o.hs (k + 1) k (norm2 o.qv) else o.hs)
    (if (decide (k + 1 < m) && !decide (norm2 o.qv < rsBreakdownTol)) = true then
      fun c => if c = k + 1 then (1 / norm2 o.qv) • o.qv else s.qs c else s.qs)
    (k + 1 < m ∧ decide (norm2 o.qv < rsBreakdownTol) = false) ?_ ?_ ?_
  · refine ⟨key.1, ?_, ?_, key.2.2⟩
    · rw [key.2.1]
      exact decide_eq_true_iff
    · split_ifs <;> simp
  · intro i j hij
    split_ifs
    · unfold setH
      rw [if_neg (by omega)]
    · rfl
  · intro j hj
    split_ifs
    · simp only
      rw [if_neg (by omega)]
    · rfl
  · rintro ⟨h1, h2⟩
    have h3 : ¬ norm2 o.qv < rsBreakdownTol := by simpa using h2
    refine ⟨?_, ?_, ?_⟩
    · have := rsTol_pos
      push Not at h3
      exact (lt_of_lt_of_le this h3).ne'
    · rw [if_pos h1]
      simp [setH]
    · rw [if_pos (by simp [h1, h3])]
      simp

/-- the whole iteration -/
theorem rs_loop (A : LinOp n) (scale : ℝ) (m iom : ℕ) (r : ℕ) : ∀ (k : ℕ) (s : Arn n), k + r = m → 0 < r →
    ArnCore (fun x => scale • A.call x) iom s.hs s.qs k (k + 1) →
    let R := arnoldiLoopRs A scale m iom r k s k
    ArnCore (fun x => scale • A.call x) iom R.1.hs R.1.qs R.2 R.2 ∧ k < R.2 ∧ R.2 ≤ m ∧ R.1.qs 0 = s.qs 0
      ∧ (R.2 < m → norm2 (resid (fun x => scale • A.call x) R.1.hs R.1.qs (R.2 - 1)) < 1e-12)
      ∧ (∀ j < k, resid (fun x => scale • A.call x) R.1.hs R.1.qs j = resid (fun x => scale • A.call x) s.hs s.qs j)
      ∧ ∀ j, k ≤ j → j + 1 < R.2 → 1e-12 ≤ norm2 (resid (fun x => scale • A.call x) R.1.hs R.1.qs j) := by
  induction r with
  | zero => intro k s _ h; omega
  | succ r ih =>
    intro k s hk _ h
    obtain ⟨p1, p2, p3, p4⟩ := rs_pass A scale m iom k s h
    rw [arnoldiLoopRs]
    simp only at p1 p2 p3 p4 ⊢
    set p := arnoldiInner A scale k m iom s with hp
    cases hb : p.2 with
    | true =>
      simp only [if_true]
      rw [hb] at p1
      rw [if_neg (by simp)] at p1
      refine ⟨p1, by omega, by omega, p3, fun _ => ?_, p4, fun j h1 h2 => by omega⟩
      exact p2.mp hb
    | false =>
      simp only [Bool.false_eq_true, if_false]
      have hbig : 1e-12 ≤ norm2 (resid (fun x => scale • A.call x) p.1.hs p.1.qs k) := by
        by_contra hc
        push Not at hc
        have := p2.mpr hc
        rw [hb] at this
        exact Bool.noConfusion this
      rcases Nat.eq_zero_or_pos r with rfl | hr
      · rw [if_neg (by omega)] at p1
        rw [arnoldiLoopRs]
        exact ⟨p1, by simp, by simp only; omega, p3, fun h => by simp only at h; omega, p4,
          fun j h1 h2 => by simp only at h2; omega⟩
      · rw [if_pos ⟨by omega, hb⟩] at p1
        obtain ⟨q1, q2, q3, q4, q5, q6, q7⟩ := ih (k + 1) p.1 (by omega) hr p1
        refine ⟨q1, by omega, q3, q4.trans p3, q5, fun j hj => ?_, fun j h1 h2 => ?_⟩
        · rw [q6 j (by omega), p4 j hj]
        · by_cases hj : j = k
          · subst hj
            rw [q6 j (by omega)]
            exact hbig
          · exact q7 j (by omega) h2

/-- **C107 (the crate's Arnoldi iteration, ties included).** For every matrix operator, nonzero start vector, dimension and
orthogonalisation depth `arnoldi_rs` returns between 1 and `min n m` columns: a decomposition of `scale A` that starts at
`b / |b|`, whose residual is below `1e-12` when it stops early and vanishes when the columns span the space and all of them
are orthogonalised. -/
theorem C107_arnoldi (A : LinOp n) (M : Mat n) (hA : IsMatrix A M) (scale : ℝ) (b : Vec n) (hb : b ≠ 0) (m iom : ℕ)
    (hm : 0 < m) : ∃ (R : ArnResult n) (r : Vec n), arnoldiRs A scale b m iom = .ok R ∧ R.k ≤ min n m
      ∧ Decomp (scale • M) iom R.k R.Q R.H r
      ∧ norm2 b • (R.Q *ᵥ firstUnit R.k) = b
      ∧ (R.k < min n m → norm2 r < 1e-12)
      ∧ (∀ i j : Fin R.k, (i : ℕ) < j → (j : ℕ) ≤ i + (iom + 1) → (fun x => R.Q x i) ⬝ᵥ (fun x => R.Q x j) = 0)
      ∧ (∀ i j : Fin R.k, (i : ℕ) = j + 1 → 1e-12 ≤ |R.H i j|)
      ∧ (R.k = n → n ≤ iom + 1 → r = 0) := by
  have hn : 0 < n := by
    rcases Nat.eq_zero_or_pos n with rfl | h
    · exact absurd (Subsingleton.elim b 0) hb
    · exact h
  have hpos := norm2_pos hb
  set q0 : Vec n := (1 / norm2 b) • b with hq0
  have hu : norm2 ((fun c : ℕ => if c = 0 then q0 else 0) 0) = 1 := by
    simp only [if_true, hq0]
    rw [norm2_smul, abs_of_pos (by positivity)]
    field_simp
  obtain ⟨h1, h2, h3, h4, h5, _, h7⟩ := rs_loop A scale (min m n) iom (min m n) 0
    ⟨fun _ _ => 0, fun c => if c = 0 then q0 else 0⟩ (by omega) (by omega) (ArnCore.init _ iom _ hu)
  have hf : ∀ x, scale • A.call x = (scale • M) *ᵥ x := by
    intro x
    rw [Matrix.smul_mulVec]
    show scale • A.matvec x = _
    rw [hA x]
  set L := arnoldiLoopRs A scale (min m n) iom (min m n) 0 ⟨fun _ _ => 0, fun c => if c = 0 then q0 else 0⟩ 0 with hL
  have hD := h1.decomp hf h2
  refine ⟨⟨L.2, Matrix.of fun i j => L.1.qs j i, Matrix.of fun i j => L.1.hs i j⟩, _, ?_, ?_, hD, ?_, ?_, ?_, ?_, ?_⟩
  · unfold arnoldiRs
    simp only
    rw [if_neg (by omega), if_neg hpos.ne']
  · show L.2 ≤ min n m
    omega
  · show norm2 b • ((Matrix.of fun i (j : Fin L.2) => L.1.qs j i) *ᵥ firstUnit L.2) = b
    rw [mulVec_firstUnit h2]
    have : L.1.qs 0 = q0 := by rw [h4]; simp
    funext i
    show norm2 b * L.1.qs 0 i = b i
    rw [this, hq0]
    simp only [Pi.smul_apply, smul_eq_mul]
    field_simp
  · intro hlt
    exact h5 (by rw [Nat.min_comm]; exact hlt)
  · intro i j hij hd
    exact h1.orth i j hij j.2 hd
  · intro i j hij
    have hj : (j : ℕ) + 1 < L.2 := by rw [← hij]; exact i.2
    have h8 := h7 j (Nat.zero_le _) hj
    rw [h1.next j (by omega) hj, norm2_smul, h1.unit _ hj, mul_one] at h8
    show 1e-12 ≤ |L.1.hs i j|
    rw [hij]
    exact h8
  · intro hkn hiom
    have hkn' : L.2 = n := hkn
    have hd : ∀ i j, i < L.2 → j < L.2 → L.1.qs i ⬝ᵥ L.1.qs j = if i = j then 1 else 0 := by
      intro i j hi hj
      rcases Nat.lt_trichotomy i j with h | h | h
      · rw [if_neg (by omega), h1.orth i j h hj (by omega)]
      · subst h
        rw [if_pos rfl, ← norm2_sq, h1.unit i hi, one_mul]
      · rw [if_neg (by omega), dotProduct_comm, h1.orth j i h hi (by omega)]
    refine fullspace_res (Matrix.of fun i (j : Fin L.2) => L.1.qs j i) hkn' ?_ _ ?_
    · ext i j
      rw [Matrix.mul_apply, Matrix.one_apply]
      have := hd i j i.2 j.2
      simp only [Fin.ext_iff]
      rw [← this]
      rfl
    · intro j
      exact h1.resOrth j (L.2 - 1) (by have := j.2; omega) (by omega) (by omega)

/-! ### The dense Padé kernel of the crate -/

/-- the evaluator chosen by `expmv_method = "pade"` -/
noncomputable def padeKernel : DenseRs := padeApply fun _ B => matexpRs B 1

/-- error allowance for the crate's dense kernel: order at most `N`, norm at most `σ`, phi order `l` -/
noncomputable def rsDenseErr (N : ℕ) (σ : ℝ) (l : ℕ) : ℝ :=
  Real.sqrt N * (Real.exp (N * σ + 1) * (2 / 10 ^ 15 * max 1 (2 * (N ^ 2 * σ + l * N) / 5.371920351148152)))

theorem rsDenseErr_nonneg (N : ℕ) (σ : ℝ) (l : ℕ) : 0 ≤ rsDenseErr N σ l := by
  unfold rsDenseErr
  have : (0 : ℝ) ≤ max 1 (2 * (N ^ 2 * σ + l * N) / 5.371920351148152) := le_trans zero_le_one (le_max_left _ _)
  positivity

section
open scoped Matrix.Norms.Operator

theorem ext_entry {q : ℕ} (Z : Mat q) (σ : ℝ) (hσ : 0 ≤ σ) (hZ : ∀ i j, |Z i j| ≤ σ) (l : ℕ) (i j : Fin ((l + 1) * q)) :
    |phiExtMatRs Z l i j| ≤ (if (i : ℕ) < q then (if (j : ℕ) < q then σ else 0) else 0) + if (i : ℕ) < l * q then (if (j : ℕ) = i + q then 1 else 0) else 0 := by
  unfold phiExtMatRs
  rw [Matrix.of_apply]
  by_cases h1 : (i : ℕ) < l * q ∧ q ≤ (j : ℕ)
  · rw [if_pos h1]
    have : (0 : ℝ) ≤ if (i : ℕ) < q then (if (j : ℕ) < q then σ else 0) else 0 := by split_ifs <;> first | exact hσ | exact le_rfl
    by_cases h2 : (i : ℕ) = j - q
    · have e : (if (i : ℕ) < l * q then (if (j : ℕ) = i + q then (1 : ℝ) else 0) else 0) = 1 := by
        rw [if_pos h1.1, if_pos (by omega)]
      rw [if_pos h2, e, abs_one]
      linarith
    · have e : (0 : ℝ) ≤ if (i : ℕ) < l * q then (if (j : ℕ) = i + q then (1 : ℝ) else 0) else 0 := by
        split_ifs <;> norm_num
      rw [if_neg h2, abs_zero]
      linarith
  · rw [if_neg h1]
    have h0 : (0 : ℝ) ≤ if (i : ℕ) < l * q then (if (j : ℕ) = i + q then 1 else 0) else 0 := by split_ifs <;> norm_num
    by_cases h2 : (i : ℕ) < q ∧ (j : ℕ) < q
    · rw [dif_pos h2, if_pos h2.1, if_pos h2.2]
      have := hZ ⟨i, h2.1⟩ ⟨j, h2.2⟩
      linarith
    · rw [dif_neg h2, abs_zero]
      have : (0 : ℝ) ≤ if (i : ℕ) < q then (if (j : ℕ) < q then σ else 0) else 0 := by split_ifs <;> first | exact hσ | exact le_rfl
      linarith

theorem ext_sum_lt (N q : ℕ) (σ : ℝ) (hσ : 0 ≤ σ) : ∑ j : Fin N, (if (j : ℕ) < q then σ else 0) ≤ q * σ := by
  rw [Fin.sum_univ_eq_sum_range (fun j => if j < q then σ else 0), Finset.sum_ite, Finset.sum_const_zero, add_zero,
    Finset.sum_const, nsmul_eq_mul]
  refine mul_le_mul_of_nonneg_right ?_ hσ
  have h : (Finset.range N).filter (· < q) ⊆ Finset.range q := by
    intro x hx
    rw [Finset.mem_filter] at hx
    exact Finset.mem_range.mpr hx.2
  have := Finset.card_le_card h
  rw [Finset.card_range] at this
  exact_mod_cast this

theorem ext_sum_eq_le (N a : ℕ) : ∑ j : Fin N, (if (j : ℕ) = a then (1 : ℝ) else 0) ≤ 1 := by
  rw [Finset.sum_ite, Finset.sum_const_zero, add_zero, Finset.sum_const, nsmul_eq_mul, mul_one]
  have : (Finset.univ.filter fun j : Fin N => (j : ℕ) = a).card ≤ 1 := by
    refine Finset.card_le_one.2 fun x hx y hy => ?_
    simp only [Finset.mem_filter, Finset.mem_univ, true_and] at hx hy
    exact Fin.ext (by omega)
  exact_mod_cast this

theorem ext_row {q : ℕ} (Z : Mat q) (σ : ℝ) (hσ : 0 ≤ σ) (hZ : ∀ i j, |Z i j| ≤ σ) (l : ℕ) (i : Fin ((l + 1) * q)) :
    ∑ j, |phiExtMatRs Z l i j| ≤ (if (i : ℕ) < q then q * σ else 0) + if (i : ℕ) < l * q then 1 else 0 := by
  refine (Finset.sum_le_sum fun j _ => ext_entry Z σ hσ hZ l i j).trans ?_
  rw [Finset.sum_add_distrib]
  refine add_le_add ?_ ?_
  · split_ifs with h
    · exact ext_sum_lt _ q σ hσ
    · simp
  · split_ifs with h
    · exact ext_sum_eq_le _ _
    · simp

theorem ext_norm {q : ℕ} (Z : Mat q) (σ : ℝ) (hσ : 0 ≤ σ) (hZ : ∀ i j, |Z i j| ≤ σ) (l : ℕ) :
    ‖phiExtMatRs Z l‖ ≤ q * σ + 1 := by
  have hq : 0 ≤ q * σ := by positivity
  rw [← infNorm_eq_norm]
  unfold infNorm
  rcases isEmpty_or_nonempty (Fin ((l + 1) * q)) with he | he
  · rw [Real.iSup_of_isEmpty]; linarith
  refine ciSup_le fun i => (ext_row Z σ hσ hZ l i).trans ?_
  split_ifs <;> linarith

theorem ext_l1 {q : ℕ} (Z : Mat q) (σ : ℝ) (hσ : 0 ≤ σ) (hZ : ∀ i j, |Z i j| ≤ σ) (l : ℕ) :
    normL1 (phiExtMatRs Z l) ≤ q ^ 2 * σ + l * q := by
  unfold normL1
  refine (Finset.sum_le_sum fun i _ => ext_row Z σ hσ hZ l i).trans ?_
  rw [Finset.sum_add_distrib]
  refine add_le_add ?_ ?_
  · refine (ext_sum_lt _ q (q * σ) (by positivity)).trans (le_of_eq (by ring))
  · refine (ext_sum_lt _ (l * q) 1 zero_le_one).trans (le_of_eq (by push_cast; ring))

/-- Error of the crate's Padé evaluator on the first unit vector. -/
theorem padeKernel_error (q N : ℕ) (hq : q ≤ N) (H : Mat q) (dt σ : ℝ) (hσ : 0 ≤ σ) (l : ℕ)
    (hH : ∀ x, norm2 ((dt • H) *ᵥ x) ≤ σ * norm2 x) (hbig : N ^ 2 * σ + l * N ≤ 10 ^ 15) :
    ∃ e, padeKernel q H dt (unitVec q) l = .ok e ∧ norm2 (e - phiM l (dt • H) *ᵥ firstUnit q) ≤ rsDenseErr N σ l := by
  refine ⟨_, rfl, ?_⟩
  set Z := dt • H with hZ
  have hent : ∀ i j, |Z i j| ≤ σ := entry_le_norm2 Z σ hH
  have hqN : (q : ℝ) ≤ N := by exact_mod_cast hq
  have hq0 : (0 : ℝ) ≤ q := Nat.cast_nonneg _
  have hl0 : (0 : ℝ) ≤ l := Nat.cast_nonneg _
  have hB : (q : ℝ) ^ 2 * σ + l * q ≤ N ^ 2 * σ + l * N :=
    add_le_add (mul_le_mul_of_nonneg_right (pow_le_pow_left₀ hq0 hqN 2) hσ) (mul_le_mul_of_nonneg_left hqN hl0)
  have hR : (q : ℝ) * σ + 1 ≤ N * σ + 1 := by linarith [mul_le_mul_of_nonneg_right hqN hσ]
  have hent2 : ∀ i j, |phiExtRs (fun _ A => matexpRs A 1) Z l i j - phiM l Z i j| ≤
      Real.exp (N * σ + 1) * (2 / 10 ^ 15 * max 1 (2 * (N ^ 2 * σ + l * N) / 5.371920351148152)) := by
    intro i j
    rcases Nat.eq_zero_or_pos l with rfl | hl
    · have h1 : normL1 Z ≤ q ^ 2 * σ := by
        unfold normL1
        refine (Finset.sum_le_sum fun i _ => Finset.sum_le_sum fun j _ => hent i j).trans (le_of_eq ?_)
        simp
        ring
      have h2 : ‖Z‖ ≤ q * σ := by
        rw [← infNorm_eq_norm]
        unfold infNorm
        rcases isEmpty_or_nonempty (Fin q) with he | he
        · rw [Real.iSup_of_isEmpty]; positivity
        refine ciSup_le fun i => (Finset.sum_le_sum fun j _ => hent i j).trans (le_of_eq (by simp))
      have hB' : normL1 Z ≤ N ^ 2 * σ + ((0 : ℕ) : ℝ) * N := by
        refine h1.trans (le_trans ?_ hB)
        simp
      have h3 := C80_accuracy Z 1 (by rw [one_smul]; exact hB'.trans hbig)
      rw [one_smul] at h3
      show |matexpRs Z 1 i j - phiM 0 Z i j| ≤ _
      rw [phiM_zero]
      refine (norm_entry_le (matexpRs Z 1 - NormedSpace.exp Z) i j).trans (h3.trans ?_)
      have : Nonempty (Fin q) := ⟨i⟩
      have h4 : ‖NormedSpace.exp Z‖ ≤ Real.exp (N * σ + 1) :=
        (exp_norm_le Z).trans (Real.exp_le_exp.mpr (by linarith))
      refine mul_le_mul h4 ?_ (by positivity) (Real.exp_pos _).le
      refine mul_le_mul_of_nonneg_left (max_le_max le_rfl ?_) (by positivity)
      exact div_le_div_of_nonneg_right (by linarith) (by norm_num)
    · have h1 := ext_l1 Z σ hσ hent l
      have h2 := ext_norm Z σ hσ hent l
      refine (C80_phi_ext Z l hl (h1.trans (hB.trans hbig)) i j).trans ?_
      have : Nonempty (Fin ((l + 1) * q)) := ⟨⟨i, lt_of_lt_of_le i.2 (Nat.le_mul_of_pos_left q (by omega))⟩⟩
      have h4 : ‖NormedSpace.exp (phiExtMatRs Z l)‖ ≤ Real.exp (N * σ + 1) :=
        (exp_norm_le _).trans (Real.exp_le_exp.mpr (by linarith))
      refine mul_le_mul h4 ?_ (by positivity) (Real.exp_pos _).le
      refine mul_le_mul_of_nonneg_left (max_le_max le_rfl ?_) (by positivity)
      exact div_le_div_of_nonneg_right (by linarith) (by norm_num)
  have hc0 : 0 ≤ Real.exp (N * σ + 1) * (2 / 10 ^ 15 * max 1 (2 * (N ^ 2 * σ + l * N) / 5.371920351148152)) := by
    have : (0 : ℝ) ≤ max 1 (2 * (N ^ 2 * σ + l * N) / 5.371920351148152) := le_trans zero_le_one (le_max_left _ _)
    positivity
  refine (norm2_le_of_entries _ _ hc0 fun i => ?_).trans ?_
  · have hpos : 0 < q := lt_of_le_of_lt (Nat.zero_le _) i.2
    have e1 : ∀ W : Mat q, (W *ᵥ firstUnit q) i = W i ⟨0, hpos⟩ := by
      intro W
      rw [mulVec_firstUnit hpos]
    show |(phiExtRs (fun _ A => matexpRs A 1) Z l *ᵥ firstUnit q) i - (phiM l Z *ᵥ firstUnit q) i| ≤ _
    rw [e1, e1]
    exact hent2 i _
  · unfold rsDenseErr
    exact mul_le_mul_of_nonneg_right (Real.sqrt_le_sqrt hqN) hc0

end

/-! ### Products -/

/-- error bound of a Krylov product: norm bound `ρ` of the scaled operator, breakdown residual `δ`, depth `iom`, `q` columns
when there is no breakdown, phi order `l` -/
noncomputable def krylovErr (ρ δ : ℝ) (iom q l : ℕ) : ℝ :=
  max (δ * Real.exp (Real.sqrt (iom + 2) * ρ))
    ((ρ ^ q * Real.exp ρ + Real.sqrt q * (Real.sqrt (iom + 2) * ρ) ^ q * Real.exp (Real.sqrt (iom + 2) * ρ))
      / (Nat.factorial (q + l) : ℝ))

/-- assembling the product from its parts -/
theorem krylov_assemble {Z : Mat n} {iom k : ℕ} {Q : Matrix (Fin n) (Fin k) ℝ} {H : Mat k} {r : Vec n} (D : Decomp Z iom k Q H r)
    (ρ δ : ℝ) (hρ : 0 ≤ ρ) (hZ : ∀ x, norm2 (Z *ᵥ x) ≤ ρ * norm2 x) (v : Vec n) (hst : norm2 v • (Q *ᵥ firstUnit k) = v) (q l : ℕ)
    (hq : k ≤ q) (hr : k < q → norm2 r ≤ δ) (e : Vec k) (ε : ℝ) (he : norm2 (e - phiM l H *ᵥ firstUnit k) ≤ ε) :
    norm2 (norm2 v • (Q *ᵥ e) - phiM l Z *ᵥ v) ≤ norm2 v * (krylovErr ρ δ iom q l + Real.sqrt q * ε) := by
  have e1 : phiM l Z *ᵥ v = norm2 v • (phiM l Z *ᵥ (Q *ᵥ firstUnit k)) := by
    rw [← Matrix.mulVec_smul, hst]
  rw [e1, ← smul_sub, norm2_smul, abs_of_nonneg (norm2_nonneg _)]
  refine mul_le_mul_of_nonneg_left ?_ (norm2_nonneg _)
  have e2 : Q *ᵥ e - phiM l Z *ᵥ (Q *ᵥ firstUnit k)
      = Q *ᵥ (e - phiM l H *ᵥ firstUnit k)
        - (phiM l Z *ᵥ (Q *ᵥ firstUnit k) - Q *ᵥ (phiM l H *ᵥ firstUnit k)) := by
    rw [Matrix.mulVec_sub]; abel
  rw [e2]
  refine (norm2_sub_le _ _).trans ?_
  have h1 : norm2 (Q *ᵥ (e - phiM l H *ᵥ firstUnit k)) ≤ Real.sqrt q * ε := by
    refine (unitCols_bound Q D.unit _).trans ?_
    exact mul_le_mul (Real.sqrt_le_sqrt (by exact_mod_cast hq)) he (norm2_nonneg _) (Real.sqrt_nonneg _)
  have h2 : norm2 (phiM l Z *ᵥ (Q *ᵥ firstUnit k) - Q *ᵥ (phiM l H *ᵥ firstUnit k)) ≤ krylovErr ρ δ iom q l := by
    unfold krylovErr
    rcases Nat.lt_or_ge k q with hlt | hge
    · exact (D.residual ρ δ hρ hZ (hr hlt) l).trans (le_max_left _ _)
    · obtain rfl : k = q := by omega
      exact (D.error ρ hρ hZ l).trans (le_max_right _ _)
  linarith

/-- **C107 (`apply_phi_linop` of the crate, any depth, its own Padé kernel).** For every matrix, step, nonzero vector, phi
order, Krylov dimension and orthogonalisation depth the product succeeds, with an explicit error bound.  The breakdown
tolerance acts on the unscaled operator, so it enters multiplied by `|dt|`. -/
theorem C107_phi (m iom : ℕ) (hm : 0 < m) (A : LinOp n) (M : Mat n) (hA : IsMatrix A M) (dt : ℝ) (v : Vec n) (hv : v ≠ 0)
    (l : ℕ) (ρ : ℝ) (hρ : 0 ≤ ρ) (hM : ∀ x, norm2 ((dt • M) *ᵥ x) ≤ ρ * norm2 x)
    (hbig : ((min n m : ℕ) : ℝ) ^ 2 * (Real.sqrt (iom + 2) * ρ) + l * (min n m : ℕ) ≤ 10 ^ 15) :
    ∃ w, (KrylovExpm.mk padeKernel m iom).applyPhiLinop A dt v l = .ok w ∧
      norm2 (w - phiM l (dt • M) *ᵥ v) ≤ norm2 v * (krylovErr ρ (|dt| * 1e-12) iom (min n m) l
        + Real.sqrt (min n m : ℕ) * rsDenseErr (min n m) (Real.sqrt (iom + 2) * ρ) l) := by
  obtain ⟨R, r, hR, hk, D, hst, hres, _⟩ := C107_arnoldi A M hA 1 v hv m iom hm
  have D' := D.smul dt
  rw [one_smul] at D'
  obtain ⟨e, he, hee⟩ := padeKernel_error R.k (min n m) hk R.H dt (Real.sqrt (iom + 2) * ρ)
    (mul_nonneg (Real.sqrt_nonneg _) hρ) l (D'.bound ρ hρ hM) hbig
  refine ⟨norm2 v • (R.Q *ᵥ e), ?_, ?_⟩
  · unfold KrylovExpm.applyPhiLinop
    simp only
    rw [hR]
    show (do let e ← padeKernel R.k R.H dt (unitVec R.k) l; pure (norm2 v • (R.Q *ᵥ e))) = _
    rw [he]
    rfl
  · refine krylov_assemble D' ρ (|dt| * 1e-12) hρ hM v hst (min n m) l hk (fun hlt => ?_) e _ hee
    rw [norm2_smul]
    exact mul_le_mul_of_nonneg_left (hres hlt).le (abs_nonneg _)

/-- **C107 (`apply_linop` of the crate).** -/
theorem C107_exp (m iom : ℕ) (hm : 0 < m) (A : LinOp n) (M : Mat n) (hA : IsMatrix A M) (dt : ℝ) (v : Vec n) (hv : v ≠ 0)
    (ρ : ℝ) (hρ : 0 ≤ ρ) (hM : ∀ x, norm2 ((dt • M) *ᵥ x) ≤ ρ * norm2 x)
    (hbig : ((min n m : ℕ) : ℝ) ^ 2 * (Real.sqrt (iom + 2) * ρ) ≤ 10 ^ 15) :
    ∃ w, (KrylovExpm.mk padeKernel m iom).applyLinop A dt v = .ok w ∧
      norm2 (w - NormedSpace.exp (dt • M) *ᵥ v) ≤ norm2 v * (krylovErr ρ 1e-12 iom (min n m) 0
        + Real.sqrt (min n m : ℕ) * rsDenseErr (min n m) (Real.sqrt (iom + 2) * ρ) 0) := by
  obtain ⟨R, r, hR, hk, D, hst, hres, _⟩ := C107_arnoldi A M hA dt v hv m iom hm
  obtain ⟨e, he, hee⟩ := padeKernel_error R.k (min n m) hk R.H 1 (Real.sqrt (iom + 2) * ρ)
    (mul_nonneg (Real.sqrt_nonneg _) hρ) 0 (by rw [one_smul]; exact D.bound ρ hρ hM) (by simpa using hbig)
  rw [one_smul] at hee
  refine ⟨norm2 v • (R.Q *ᵥ e), ?_, ?_⟩
  · unfold KrylovExpm.applyLinop
    simp only
    rw [hR]
    show (do let e ← padeKernel R.k R.H 1 (unitVec R.k) 0; pure (norm2 v • (R.Q *ᵥ e))) = _
    rw [he]
    rfl
  · rw [← phiM_zero]
    exact krylov_assemble D ρ 1e-12 hρ hM v hst (min n m) 0 hk (fun hlt => (hres hlt).le) e _ hee

/-- norm of the extended operator -/
theorem rsExt_norm (A : LinOp n) (M : Mat n) (hA : IsMatrix A M) (t : ℝ) (vb : List (Vec n)) (ρ β : ℝ) (hρ : 0 ≤ ρ)
    (hM : ∀ x, norm2 ((t • M) *ᵥ x) ≤ ρ * norm2 x) (hβ : ∑ j : Fin (vb.length - 1), norm2 (vb.getD (vb.length - 1 - j) 0) ≤ β)
    (ext : LinOp (n + (vb.length - 1))) (hext : extendedLinOp t A vb = .ok ext) (Z : Mat (n + (vb.length - 1)))
    (hZ : IsMatrix ext Z) (x : Vec (n + (vb.length - 1))) : norm2 (Z *ᵥ x) ≤ (ρ + β + 1) * norm2 x := by
  rw [← hZ]
  have e : ext.matvec x = concat ((t • M) *ᵥ headN x + extB vb *ᵥ tailP x) (augK (vb.length - 1) *ᵥ tailP x) := by
    unfold extendedLinOp at hext
    split_ifs at hext
    have := Except.ok.inj hext
    rw [← this]
    show concat (t • A.matvec (headN x) + _) _ = _
    rw [hA, Matrix.smul_mulVec]
    rfl
  rw [e]
  have hB : norm2 (extB vb *ᵥ tailP x) ≤ β * norm2 x := by
    have e2 : extB vb *ᵥ tailP x = ∑ j : Fin (vb.length - 1), (tailP x j) • vb.getD (vb.length - 1 - j) 0 := by
      funext i
      simp [Matrix.mulVec, dotProduct, extB, Finset.sum_apply, mul_comm]
    rw [e2]
    refine (norm2_sum_le _ _).trans ?_
    refine (Finset.sum_le_sum fun j _ => ?_).trans (le_trans (le_of_eq (Finset.sum_mul _ _ (norm2 x)).symm)
      (mul_le_mul_of_nonneg_right hβ (norm2_nonneg x)))
    rw [norm2_smul, mul_comm]
    exact mul_le_mul_of_nonneg_left ((abs_le_norm2 _ _).trans (norm2_tailP_le x)) (norm2_nonneg _)
  have h1 := (hM (headN x)).trans (mul_le_mul_of_nonneg_left (norm2_headN_le x) hρ)
  have h2 := (norm2_augK_le (vb.length - 1) (tailP x)).trans (norm2_tailP_le x)
  have h3 := norm2_concat_le ((t • M) *ᵥ headN x + extB vb *ᵥ tailP x) (augK (vb.length - 1) *ᵥ tailP x)
  have h4 := norm2_add_le ((t • M) *ᵥ headN x) (extB vb *ᵥ tailP x)
  calc _ ≤ ρ * norm2 x + β * norm2 x + norm2 x := by linarith
    _ = _ := by ring

theorem extV_norm (vb : List (Vec n)) (h : 2 ≤ vb.length) : norm2 (extV vb) ≤ norm2 (vb.getD 0 0) + 1 := by
  have e : extV vb = concat (vb.getD 0 0) (lastUnit (vb.length - 1)) := by
    funext i
    unfold extV concat lastUnit
    refine Fin.addCases (fun i => ?_) (fun j => ?_) i
    · rw [Fin.append_left, dif_pos (by simp)]
      simp
    · rw [Fin.append_right, dif_neg (by simp)]
      simp only [Fin.val_natAdd]
      by_cases hj : (j : ℕ) + 1 = vb.length - 1
      · rw [if_pos (by omega), if_pos hj]
      · rw [if_neg (by omega), if_neg hj]
  rw [e]
  refine (norm2_concat_le _ _).trans (add_le_add le_rfl ?_)
  refine Real.sqrt_le_iff.2 ⟨zero_le_one, ?_⟩
  simp only [dotProduct, lastUnit, mul_ite, mul_one, mul_zero, one_pow]
  rw [Finset.sum_eq_single (⟨vb.length - 1 - 1, by omega⟩ : Fin (vb.length - 1))]
  · split_ifs <;> norm_num
  · intro b _ hb
    rw [if_neg (fun h => hb (Fin.ext (by simp only; omega)))]
  · simp

/-- **C107 (`kiops_fixedsteps` of the crate, any depth, its own Padé kernel).** The linear combination
`∑_j phi_j(t A) v_j` is returned for every list of at least two vectors, with an explicit error in terms of the norm of
`t A` and the lengths of the vectors. -/
theorem C107_kiops (m iom : ℕ) (hm : 0 < m) (A : LinOp n) (M : Mat n) (hA : IsMatrix A M) (t : ℝ) (vb : List (Vec n))
    (h2 : 2 ≤ vb.length) (ρ β : ℝ) (hρ : 0 ≤ ρ) (hM : ∀ x, norm2 ((t • M) *ᵥ x) ≤ ρ * norm2 x)
    (hβ : ∑ j : Fin (vb.length - 1), norm2 (vb.getD (vb.length - 1 - j) 0) ≤ β)
    (hbig : ((min (n + (vb.length - 1)) m : ℕ) : ℝ) ^ 2 * (Real.sqrt (iom + 2) * (ρ + β + 1)) ≤ 10 ^ 15) :
    ∃ w, (KrylovExpm.mk padeKernel m iom).kiops t A vb 1 = .ok w ∧
      norm2 (w - ∑ j ∈ Finset.range vb.length, phiM j (t • M) *ᵥ vb.getD j 0) ≤ (norm2 (vb.getD 0 0) + 1) *
        (krylovErr (ρ + β + 1) 1e-12 iom (min (n + (vb.length - 1)) m) 0
          + Real.sqrt (min (n + (vb.length - 1)) m : ℕ) *
            rsDenseErr (min (n + (vb.length - 1)) m) (Real.sqrt (iom + 2) * (ρ + β + 1)) 0) := by
  have hβ0 : 0 ≤ β := le_trans (Finset.sum_nonneg fun _ _ => norm2_nonneg _) hβ
  obtain ⟨Z, hZ, hval⟩ := kiops_aug A M hA t 1 vb
  obtain ⟨ext, hext⟩ : ∃ ext, extendedLinOp t A vb = .ok ext := by
    unfold extendedLinOp
    rw [if_neg (by omega)]
    exact ⟨_, rfl⟩
  have hZ' : IsMatrix ext Z := by
    have e : ext = augMatvec A t (Matrix.of fun i j => augB vb i j / 1) (augK (vb.length - 1)) := by
      unfold extendedLinOp at hext
      rw [if_neg (by omega)] at hext
      have := Except.ok.inj hext
      rw [← this]
      unfold augMatvec
      congr 1
      funext rhs
      have : (Matrix.of fun i j => augB vb i j / 1) = extB vb := by
        ext i j; simp [augB, extB]
      rw [this]
      rfl
    rw [e]
    exact hZ
  have hN := rsExt_norm A M hA t vb ρ β hρ hM hβ ext hext Z hZ'
  obtain ⟨w, hw, he⟩ := C107_exp m iom hm ext Z hZ' 1 (extV vb) (extV_ne vb h2) (ρ + β + 1) (by positivity)
    (by rw [one_smul]; exact hN) hbig
  refine ⟨headN w, ?_, ?_⟩
  · unfold KrylovExpm.kiops
    rw [hext]
    change (do let w ← (KrylovExpm.mk padeKernel m iom).applyLinop ext 1 (extV vb); pure (headN w)) = _
    rw [hw]
    rfl
  · have e : ∑ j ∈ Finset.range vb.length, phiM j (t • M) *ᵥ vb.getD j 0 = headN (NormedSpace.exp ((1 : ℝ) • Z) *ᵥ extV vb) := by
      rw [one_smul, rs_extV_eq vb h2, ← phiM_zero, hval, inv_one, one_smul, show vb.length - 1 + 1 = vb.length by omega]
    rw [e]
    refine (norm2_headN_le (w - NormedSpace.exp ((1 : ℝ) • Z) *ᵥ extV vb)).trans (he.trans ?_)
    refine mul_le_mul_of_nonneg_right (extV_norm vb h2) ?_
    refine add_nonneg ?_ (mul_nonneg (Real.sqrt_nonneg _) (rsDenseErr_nonneg _ _ _))
    unfold krylovErr
    exact le_max_of_le_left (by positivity)

/-! ### The Python routine with any depth -/

/-- **C107 (`phi_linop` of the package, any depth).** The analogue of `C65_apriori` for incomplete orthogonalisation, with
the package's dense kernel (and an exact `expm` for `l = 0`). -/
theorem C107_python (expm : ∀ m, Mat m → Mat m) (hx : ∀ m A, expm m A = NormedSpace.exp A) (A : LinOp n) (M : Mat n)
    (hA : IsMatrix A M) (dt : ℝ) (v0 : Vec n) (hv : v0 ≠ 0) (l m iom : ℕ) (hm : 1 ≤ m) (ρ : ℝ) (hρ : 0 ≤ ρ)
    (hρM : ∀ x, norm2 ((dt • M) *ᵥ x) ≤ ρ * norm2 x) :
    ∃ w, phiLinop (applCode expm) A dt v0 l m iom = .ok w
      ∧ norm2 (w - phiM l (dt • M) *ᵥ v0) ≤ norm2 v0 * (krylovErr ρ 1e-12 iom (min n m) l
        + Real.sqrt (min n m : ℕ) * if l = 0 then 0 else denseErr (min n m) (Real.sqrt (iom + 2) * ρ)) := by
  have hn : 0 < n := by
    rcases Nat.eq_zero_or_pos n with rfl | h
    · exact absurd (Subsingleton.elim v0 0) hv
    · exact h
  have hb : (fun i => v0 i / norm2 v0) ≠ 0 := by
    intro h
    have := norm2_normalized (norm2_pos hv).ne'
    rw [h, norm2_zero] at this
    exact zero_ne_one this
  obtain ⟨hk, hstart⟩ := arn_start A dt v0 hv m iom hm
  have hmin : 0 < min n m := by omega
  obtain ⟨inv, hstop, _, _⟩ := arnJit_inv A dt (fun i => v0 i / norm2 v0) m iom hmin
  have hvalid := arn_valid A dt (fun i => v0 i / norm2 v0) m iom hmin
  have core : ArnCore (fun x => dt • A.call x) iom (arnoldiJit A dt (fun i => v0 i / norm2 v0) m iom).hs
      (arnoldiJit A dt (fun i => v0 i / norm2 v0) m iom).qs (arnoldiJit A dt (fun i => v0 i / norm2 v0) m iom).k
      (arnoldiJit A dt (fun i => v0 i / norm2 v0) m iom).k :=
    ⟨fun j hj => inv.unit j (by omega), inv.hess, inv.fresh, inv.band, fun j h1 h2 => inv.next j h1 (by omega),
      fun i j h1 h2 => inv.orth i j h1 (by omega), inv.resOrth⟩
  have hf : ∀ x, dt • A.call x = (dt • M) *ᵥ x := by
    intro x
    rw [Matrix.smul_mulVec]
    show dt • A.matvec x = _
    rw [hA x]
  have D := core.decomp hf hk
  have hres : (arnoldiLop A dt (fun i => v0 i / norm2 v0) m iom).k < min n m →
      norm2 (arnRes A dt (fun i => v0 i / norm2 v0) m iom) ≤ 1e-12 := by
    intro hlt
    obtain ⟨_, _, _, h4⟩ := (C28_termination A dt (fun i => v0 i / norm2 v0) m iom hm).2 hb
    have hl : (arnoldiLop A dt (fun i => v0 i / norm2 v0) m iom).k - 1
      < (arnoldiLop A dt (fun i => v0 i / norm2 v0) m iom).k := by omega
    have h1 : (((⟨_, hl⟩ : Fin _) : ℕ)) + 1 = (arnoldiLop A dt (fun i => v0 i / norm2 v0) m iom).k := by
      simp only; omega
    refine h4 ⟨_, hl⟩ _ h1 ?_ hlt
    have := arn_relation A dt (fun i => v0 i / norm2 v0) m iom ⟨_, hl⟩
    rw [if_pos h1] at this
    exact this
  have hkle : (arnoldiLop A dt (fun i => v0 i / norm2 v0) m iom).k ≤ min n m := inv.kle
  change Decomp _ _ (arnoldiLop A dt (fun i => v0 i / norm2 v0) m iom).k (arnoldiLop A dt (fun i => v0 i / norm2 v0) m iom).Q
    (arnoldiLop A dt (fun i => v0 i / norm2 v0) m iom).H (arnRes A dt (fun i => v0 i / norm2 v0) m iom) at D
  clear core inv hstop hvalid
  rw [phiLinop_pos _ _ _ _ _ _ _ hv]
  unfold krylovFinish
  rw [if_pos hk]
  generalize arnRes A dt (fun i => v0 i / norm2 v0) m iom = r at *
  generalize arnoldiLop A dt (fun i => v0 i / norm2 v0) m iom = R at *
  obtain ⟨e, he, hee⟩ := applCode_error expm hx (Real.sqrt (iom + 2) * ρ) (mul_nonneg (Real.sqrt_nonneg _) hρ) l (min n m) R.k
    hkle R.H (D.bound ρ hρ hρM)
  rw [he]
  exact ⟨_, rfl, krylov_assemble D ρ 1e-12 hρ hρM v0 hstart (min n m) l hkle hres e _ hee⟩

/-! ### Non-vacuity -/

/-- The wrapper's default depth: `KrylovExpm::new` with the Padé evaluator and `iom = None`. -/
example : KrylovExpm.new padeKernel 30 none = .ok (KrylovExpm.mk padeKernel 30 2) := rfl

/-- A bound of the operator norm in the form the theorems ask for, for a matrix that is not normal, and the size
condition. -/
example : (∀ x, norm2 ((0.1 : ℝ) • (!![-3, 1; 0, -4] : Mat 2) *ᵥ x) ≤ 1 * norm2 x) ∧
    ((min 2 30 : ℕ) : ℝ) ^ 2 * (Real.sqrt ((2 : ℕ) + 2) * 1) + (1 : ℕ) * (min 2 30 : ℕ) ≤ 10 ^ 15 := by
  refine ⟨fun x => ?_, ?_⟩
  · rw [one_mul]
    unfold norm2
    refine Real.sqrt_le_sqrt ?_
    simp [Matrix.mulVec, dotProduct, Fin.sum_univ_two]
    nlinarith [sq_nonneg (x 0), sq_nonneg (x 1), sq_nonneg (x 0 - x 1), sq_nonneg (x 0 + x 1)]
  · have : Real.sqrt ((2 : ℕ) + 2) = 2 := by
      rw [show (((2 : ℕ) : ℝ) + 2) = 2 ^ 2 by norm_num, Real.sqrt_sq (by norm_num)]
    rw [this]
    norm_num

end Ormatex.Props
