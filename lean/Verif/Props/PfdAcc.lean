import Verif.Model.PfdTables
import Verif.Props.PfdCertA
import Verif.Props.PfdCertB
import Verif.Props.PfdCertC
import Verif.Props.LejaTol
import Mathlib.LinearAlgebra.Matrix.NonsingularInverse

/-!
Accuracy of the shipped CRAM tables (C99, C100): the bounds certified on integers in `Props/PfdCert*.lean`, carried over to the code's
`f_phi_k_pfd` on matrices with real nonpositive spectrum.
-/

namespace Ormatex.Props.Cert
open Ormatex Ormatex.Spec Matrix

/-- pole of an entry -/
noncomputable def RTerm.pole (D : ℤ) (e : RTerm) : ℂ := ⟨e.pr / D, e.pi / D⟩
/-- coefficient of an entry -/
noncomputable def RTerm.coef (D : ℤ) (e : RTerm) : ℂ := ⟨e.wr / D / e.den, e.wi / D / e.den⟩

theorem val_eq (D : ℤ) (e : RTerm) (x : ℝ) : e.val D x = (2 * e.coef D / ((x : ℂ) - e.pole D)).re := by
  rw [Complex.div_re, RTerm.val]
  simp only [RTerm.pole, RTerm.coef, Complex.normSq_apply, Complex.sub_re, Complex.sub_im, Complex.ofReal_re, Complex.ofReal_im,
    Complex.mul_re, Complex.mul_im, Complex.re_ofNat, Complex.im_ofNat]
  by_cases hd : (e.den : ℝ) = 0
  · simp [hd]
  · set a : ℝ := x - e.pr / D
    set b : ℝ := e.pi / D
    have : a * a + (0 - b) * (0 - b) = a ^ 2 + b ^ 2 := by ring
    rw [this]
    by_cases hz : a ^ 2 + b ^ 2 = 0
    · simp [hz]
    · field_simp
      ring

theorem pole_divPole (D : ℤ) (e : RTerm) : (divPole D e).pole D = e.pole D := rfl

theorem coef_divPole (D : ℤ) (hD : D ≠ 0) (e : RTerm) (hpi : e.pi ≠ 0) (hden : e.den ≠ 0) :
    (divPole D e).coef D = e.coef D / e.pole D := by
  have hD' : (D : ℝ) ≠ 0 := by exact_mod_cast hD
  have hd' : (e.den : ℝ) ≠ 0 := by exact_mod_cast hden
  have hp' : (e.pi : ℝ) ≠ 0 := by exact_mod_cast hpi
  have hn : (e.pr : ℝ) * e.pr + e.pi * e.pi ≠ 0 := by
    have : 0 < (e.pi : ℝ) * e.pi := mul_self_pos.2 hp'
    nlinarith [mul_self_nonneg (e.pr : ℝ)]
  have hn2 : (e.pr : ℝ) ^ 2 + (e.pi : ℝ) ^ 2 ≠ 0 := by rw [sq, sq]; exact hn
  apply Complex.ext
  · rw [Complex.div_re]
    simp only [RTerm.pole, RTerm.coef, divPole, Complex.normSq_mk]
    push_cast
    field_simp
  · rw [Complex.div_im]
    simp only [RTerm.pole, RTerm.coef, divPole, Complex.normSq_mk]
    push_cast
    field_simp

/-- the scalar rational function of a table -/
noncomputable def pfdScalar (tab : Pfd) (k : ℕ) (x : ℝ) : ℝ :=
  (if k = 0 then tab.c0 else 0) + ((tab.poles.zip tab.coeffs).map fun pc => (2 * pc.2 / pc.1 ^ k / ((x : ℂ) - pc.1)).re).sum

/-- the table consists of the given integers over `D` -/
def Matches (tab : Pfd) (D C0 : ℤ) (t : List RTerm) : Prop :=
  tab.c0 = C0 / D ∧ tab.poles.zip tab.coeffs = t.map fun e => (e.pole D, e.coef D)

theorem scalar_zero {tab : Pfd} {D C0 : ℤ} {t : List RTerm} (h : Matches tab D C0 t) (x : ℝ) : pfdScalar tab 0 x = rVal D C0 t x := by
  rw [pfdScalar, if_pos rfl, h.1, h.2, rVal, List.map_map]
  congr 2
  refine List.map_congr_left fun e _ => ?_
  rw [val_eq]
  simp

theorem mem_divTab (D : ℤ) (t : List RTerm) (k : ℕ) :
    divTab D t k = t.map (fun e => (divPole D)^[k] e) := by
  unfold divTab
  induction k with
  | zero => simp
  | succ k ih =>
    rw [Function.iterate_succ_apply', ih, List.map_map]
    refine List.map_congr_left fun e _ => ?_
    rw [Function.comp, Function.iterate_succ_apply']

theorem side_elem {D : ℤ} {t : List RTerm} (hs : sideTab D t = true) : 0 < D ∧ ∀ e ∈ t, e.pi ≠ 0 ∧ 0 < e.den := by
  unfold sideTab at hs
  simp only [Bool.and_eq_true, decide_eq_true_eq, List.all_eq_true] at hs
  exact hs.1

theorem iter_divPole {D : ℤ} (hD : 0 < D) (e : RTerm) (he : e.pi ≠ 0 ∧ 0 < e.den) (k : ℕ) :
    ((divPole D)^[k] e).pole D = e.pole D ∧ ((divPole D)^[k] e).coef D = e.coef D / e.pole D ^ k ∧
      ((divPole D)^[k] e).pi ≠ 0 ∧ 0 < ((divPole D)^[k] e).den := by
  induction k with
  | zero => simpa using he
  | succ k ih =>
    rw [Function.iterate_succ_apply']
    obtain ⟨h1, h2, h3, h4⟩ := ih
    refine ⟨by rw [pole_divPole, h1], ?_, h3, ?_⟩
    · rw [coef_divPole D hD.ne' _ h3 h4.ne', h1, h2, pow_succ, div_div]
    · refine mul_pos h4 ?_
      have := mul_self_pos.2 h3
      nlinarith [mul_self_nonneg ((divPole D)^[k] e).pr]

theorem scalar_succ {tab : Pfd} {D C0 : ℤ} {t : List RTerm} (h : Matches tab D C0 t) (hs : sideTab D t = true) (k : ℕ) (x : ℝ) :
    pfdScalar tab (k + 1) x = rVal D 0 (divTab D t (k + 1)) x := by
  obtain ⟨hD, he⟩ := side_elem hs
  rw [pfdScalar, if_neg (by omega), h.2, rVal, mem_divTab, List.map_map, List.map_map]
  simp only [Int.cast_zero, zero_div]
  congr 2
  refine List.map_congr_left fun e hm => ?_
  obtain ⟨h1, h2, _⟩ := iter_divPole hD e (he e hm) (k + 1)
  simp only [Function.comp]
  rw [val_eq, h1, h2, mul_div_assoc]

/-- no pole is real -/
def NonReal (tab : Pfd) : Prop := ∀ p ∈ tab.poles, p.im ≠ 0

theorem ne_of_nonReal {p : ℂ} (hp : p.im ≠ 0) (x : ℝ) : (x : ℂ) - p ≠ 0 := by
  intro h
  have := congrArg Complex.im h
  simp at this
  exact hp this

theorem scalar_rec (tab : Pfd) (hp : NonReal tab) (k : ℕ) (x : ℝ) :
    x * pfdScalar tab (k + 1) x = pfdScalar tab k x - pfdScalar tab k 0 := by
  rw [pfdScalar, pfdScalar, pfdScalar, if_neg (by omega), zero_add, add_sub_add_left_eq_sub]
  have hp' : ∀ pc ∈ tab.poles.zip tab.coeffs, pc.1.im ≠ 0 := fun pc h => hp _ (List.of_mem_zip h).1
  generalize tab.poles.zip tab.coeffs = l at hp'
  induction l with
  | nil => simp
  | cons pc l ih =>
    simp only [List.map_cons, List.sum_cons]
    rw [mul_add, ih fun q hq => hp' q (by simp [hq])]
    have h1 := hp' pc (by simp)
    have h2 := ne_of_nonReal h1 x
    have h3 := ne_of_nonReal h1 0
    have h4 : pc.1 ≠ 0 := by rintro h; rw [h] at h1; simp at h1
    have e : x * (2 * pc.2 / pc.1 ^ (k + 1) / ((x : ℂ) - pc.1)).re
        = (2 * pc.2 / pc.1 ^ k / ((x : ℂ) - pc.1)).re - (2 * pc.2 / pc.1 ^ k / (((0 : ℝ) : ℂ) - pc.1)).re := by
      rw [← Complex.re_ofReal_mul, ← Complex.sub_re]
      congr 1
      simp only [Complex.ofReal_zero, zero_sub] at h3 ⊢
      rw [pow_succ]
      field_simp
      ring
    rw [e]; ring

/-! ### matrices with real spectrum -/

variable {N : ℕ}

theorem pfdTerm_diag (V W : Mat N) (d : Fin N → ℝ) (hWV : W * V = 1) (b : Vec N) (k : ℕ) (p c : ℂ) (hp : ∀ i, (d i : ℂ) - p ≠ 0) :
    pfdTerm (V * diagonal d * W) b k p c = V *ᵥ fun i => (2 * c / p ^ k / ((d i : ℂ) - p)).re * (W *ᵥ b) i := by
  have hVW : V * W = 1 := mul_eq_one_comm.mp hWV
  set Vc := V.map (algebraMap ℝ ℂ) with hVc
  set Wc := W.map (algebraMap ℝ ℂ) with hWc
  have hWVc : Wc * Vc = 1 := by rw [hVc, hWc, ← Matrix.map_mul, hWV, Matrix.map_one _ (map_zero _) (map_one _)]
  have hVWc : Vc * Wc = 1 := mul_eq_one_comm.mp hWVc
  have e1 : (V * diagonal d * W).map (algebraMap ℝ ℂ) - p • (1 : Matrix (Fin N) (Fin N) ℂ)
      = Vc * diagonal (fun i => (d i : ℂ) - p) * Wc := by
    have e2 : (diagonal fun i => (d i : ℂ) - p) = diagonal (fun i => (d i : ℂ)) - p • (1 : Matrix (Fin N) (Fin N) ℂ) := by
      ext i j
      by_cases h : i = j
      · subst h; simp
      · simp [h]
    rw [e2, Matrix.mul_sub, Matrix.sub_mul, Matrix.mul_smul, Matrix.smul_mul, Matrix.mul_one, hVWc, Matrix.map_mul, Matrix.map_mul]
    congr 3
    ext i j
    by_cases h : i = j
    · subst h; simp
    · simp [h]
  have e3 : ((V * diagonal d * W).map (algebraMap ℝ ℂ) - p • (1 : Matrix (Fin N) (Fin N) ℂ))⁻¹
      = Vc * diagonal (fun i => ((d i : ℂ) - p)⁻¹) * Wc := by
    rw [e1]
    apply Matrix.inv_eq_right_inv
    calc Vc * diagonal (fun i => (d i : ℂ) - p) * Wc * (Vc * diagonal (fun i => ((d i : ℂ) - p)⁻¹) * Wc)
        = Vc * (diagonal (fun i => (d i : ℂ) - p) * (Wc * Vc) * diagonal (fun i => ((d i : ℂ) - p)⁻¹)) * Wc := by
          simp only [Matrix.mul_assoc]
      _ = 1 := by
          rw [hWVc, Matrix.mul_one, Matrix.diagonal_mul_diagonal]
          have : (fun i => ((d i : ℂ) - p) * ((d i : ℂ) - p)⁻¹) = fun _ => 1 := by
            funext i; exact mul_inv_cancel₀ (hp i)
          rw [this, Matrix.diagonal_one, Matrix.mul_one, hVWc]
  funext i
  rw [pfdTerm, e3, ← Matrix.mulVec_mulVec, ← Matrix.mulVec_mulVec]
  have e4 : Wc *ᵥ (fun j => (b j : ℂ)) = fun l => (((W *ᵥ b) l : ℝ) : ℂ) := by
    funext l
    simp [hWc, Matrix.mulVec, dotProduct]
  rw [e4]
  have e5 : (diagonal fun i => ((d i : ℂ) - p)⁻¹) *ᵥ (fun l => (((W *ᵥ b) l : ℝ) : ℂ))
      = fun l => ((d l : ℂ) - p)⁻¹ * (((W *ᵥ b) l : ℝ) : ℂ) := by
    funext l; rw [Matrix.mulVec_diagonal]
  rw [e5]
  simp only [Matrix.mulVec, dotProduct, hVc, Matrix.map_apply]
  rw [Finset.mul_sum, Complex.re_sum]
  refine Finset.sum_congr rfl fun l _ => ?_
  have e6 : 2 * c / p ^ k * ((algebraMap ℝ ℂ) (V i l) * (((d l : ℂ) - p)⁻¹ * ((∑ x, W l x * b x : ℝ) : ℂ)))
      = ((V i l : ℝ) : ℂ) * (2 * c / p ^ k / ((d l : ℂ) - p) * ((∑ x, W l x * b x : ℝ) : ℂ)) := by
    rw [Complex.coe_algebraMap]; ring
  rw [e6, Complex.re_ofReal_mul, Complex.re_mul_ofReal]

theorem fPhiKPfd_diag (tab : Pfd) (V W : Mat N) (d : Fin N → ℝ) (hWV : W * V = 1) (b : Vec N) (k : ℕ) (hp : NonReal tab) :
    fPhiKPfd tab (V * diagonal d * W) b k = V *ᵥ fun i => pfdScalar tab k (d i) * (W *ᵥ b) i := by
  have hVW : V * W = 1 := mul_eq_one_comm.mp hWV
  have hp' : ∀ pc ∈ tab.poles.zip tab.coeffs, pc.1.im ≠ 0 := fun pc h => hp _ (List.of_mem_zip h).1
  rw [pfd_eq]
  have e : (fun i => pfdScalar tab k (d i) * (W *ᵥ b) i) = (fun i => (if k = 0 then tab.c0 else 0) * (W *ᵥ b) i)
      + fun i => ((tab.poles.zip tab.coeffs).map fun pc => (2 * pc.2 / pc.1 ^ k / ((d i : ℂ) - pc.1)).re).sum * (W *ᵥ b) i := by
    funext i; rw [pfdScalar, add_mul]; rfl
  rw [e, Matrix.mulVec_add]
  congr 1
  · have e2 : (fun i => (if k = 0 then tab.c0 else 0) * (W *ᵥ b) i) = (if k = 0 then tab.c0 else 0) • (W *ᵥ b) := rfl
    rw [e2, Matrix.mulVec_smul, Matrix.mulVec_mulVec, hVW, Matrix.one_mulVec]
    split_ifs <;> simp
  · generalize tab.poles.zip tab.coeffs = l at hp'
    induction l with
    | nil =>
      simp only [List.map_nil, List.sum_nil, zero_mul]
      exact (Matrix.mulVec_zero V).symm
    | cons pc l ih =>
      simp only [List.map_cons, List.sum_cons]
      rw [ih fun q hq => hp' q (by simp [hq]),
        pfdTerm_diag V W d hWV b k _ _ fun i => ne_of_nonReal (hp' pc (by simp)) _, ← Matrix.mulVec_add]
      congr 1
      funext i
      simp only [Pi.add_apply]
      ring

theorem phiM_diag (V W : Mat N) (d : Fin N → ℝ) (hWV : W * V = 1) (k : ℕ) :
    phiM k (V * diagonal d * W) = V * diagonal (fun i => phi k (d i)) * W := by
  have hVW : V * W = 1 := mul_eq_one_comm.mp hWV
  have hpow : ∀ j, (V * diagonal d * W) ^ j = V * diagonal (fun i => d i ^ j) * W := by
    intro j
    induction j with
    | zero => simp [hVW]
    | succ j ih =>
      rw [pow_succ, ih]
      calc V * diagonal (fun i => d i ^ j) * W * (V * diagonal d * W)
          = V * (diagonal (fun i => d i ^ j) * (W * V) * diagonal d) * W := by simp only [Matrix.mul_assoc]
        _ = _ := by rw [hWV, Matrix.mul_one, Matrix.diagonal_mul_diagonal]; simp only [pow_succ]
  have h1 : HasSum (fun j : ℕ => ((Nat.factorial (j + k) : ℝ)⁻¹) • diagonal (fun i => d i ^ j)) (diagonal fun i => phi k (d i)) := by
    have h2 : ∀ i, HasSum (fun j : ℕ => ((Nat.factorial (j + k) : ℝ)⁻¹) • d i ^ j) (phi k (d i)) := fun i => phi_hasSum k (d i)
    have h3 : HasSum (fun j : ℕ => (fun i => ((Nat.factorial (j + k) : ℝ)⁻¹) • d i ^ j)) (fun i => phi k (d i)) := Pi.hasSum.2 h2
    have h4 := h3.matrix_diagonal
    refine h4.congr_fun ?_
    intro j
    rw [← Matrix.diagonal_smul]
    rfl
  have h5 : HasSum (fun j : ℕ => V * (((Nat.factorial (j + k) : ℝ)⁻¹) • diagonal (fun i => d i ^ j)) * W)
      (V * diagonal (fun i => phi k (d i)) * W) := (h1.mul_left V).mul_right W
  refine (phiM_hasSum k _).unique (h5.congr_fun ?_)
  intro j
  rw [hpow, Matrix.mul_smul, Matrix.smul_mul]

/-- A bound on the scalars bounds the error in the eigenvector coordinates. -/
theorem fPhiKPfd_error (tab : Pfd) (hp : NonReal tab) (k : ℕ) (ε : ℝ) (hε : ∀ x ≤ 0, |pfdScalar tab k x - phi k x| ≤ ε)
    (V W : Mat N) (d : Fin N → ℝ) (hWV : W * V = 1) (hd : ∀ i, d i ≤ 0) (b : Vec N) :
    ∃ e : Fin N → ℝ, (∀ i, |e i| ≤ ε) ∧
      fPhiKPfd tab (V * diagonal d * W) b k = phiM k (V * diagonal d * W) *ᵥ b + V *ᵥ fun i => e i * (W *ᵥ b) i := by
  refine ⟨fun i => pfdScalar tab k (d i) - phi k (d i), fun i => hε _ (hd i), ?_⟩
  rw [fPhiKPfd_diag tab V W d hWV b k hp, phiM_diag V W d hWV, ← Matrix.mulVec_mulVec, ← Matrix.mulVec_mulVec, ← Matrix.mulVec_add]
  congr 1
  funext i
  rw [Pi.add_apply, Matrix.mulVec_diagonal]
  ring

/-- the three bounds from the certificates -/
theorem cram_scalar {tab : Pfd} {D C0 : ℤ} {t : List RTerm} (h : Matches tab D C0 t) (hs : sideTab D t = true) (hp : NonReal tab)
    {e0 e1 e2 : ℝ} (h0 : ∀ x ≤ 0, |rVal D C0 t x - Real.exp x| ≤ e0)
    (h1 : ∀ x ≤ 0, -1 ≤ x → |rVal D 0 (divTab D t 1) x - phi 1 x| ≤ e1)
    (h2 : ∀ x ≤ 0, -1 ≤ x → |rVal D 0 (divTab D t 2) x - phi 2 x| ≤ e2) (h01 : 2 * e0 ≤ e1) (h12 : 2 * e1 ≤ e2) :
    (∀ x ≤ 0, |pfdScalar tab 0 x - phi 0 x| ≤ e0) ∧ (∀ x ≤ 0, |pfdScalar tab 1 x - phi 1 x| ≤ e1) ∧
      ∀ x ≤ 0, |pfdScalar tab 2 x - phi 2 x| ≤ e2 := by
  have step : ∀ (k : ℕ) (a b : ℝ), 2 * a ≤ b → (∀ x ≤ 0, |pfdScalar tab k x - phi k x| ≤ a) →
      (∀ x ≤ 0, -1 ≤ x → |pfdScalar tab (k + 1) x - phi (k + 1) x| ≤ b) → ∀ x ≤ 0, |pfdScalar tab (k + 1) x - phi (k + 1) x| ≤ b := by
    intro k a b hab ha hb x hx
    by_cases hx1 : -1 ≤ x
    · exact hb x hx hx1
    · push Not at hx1
      have r1 := scalar_rec tab hp k x
      have r2 := phi_recurrence k x
      have r3 : phi k (0 : ℝ) = ((Nat.factorial k : ℝ)⁻¹) • 1 := phi_at_zero k
      rw [← r3] at r2
      have e : x * (pfdScalar tab (k + 1) x - phi (k + 1) x)
          = (pfdScalar tab k x - phi k x) - (pfdScalar tab k 0 - phi k (0 : ℝ)) := by
        rw [mul_sub, r1, r2]; ring
      have h3 := abs_sub (pfdScalar tab k x - phi k x) (pfdScalar tab k 0 - phi k (0 : ℝ))
      rw [← e, abs_mul] at h3
      have h4 := ha x hx
      have h5 := ha 0 le_rfl
      have h6 : 1 ≤ |x| := by rw [abs_of_neg (by linarith)]; linarith
      have h7 := mul_le_mul_of_nonneg_right h6 (abs_nonneg (pfdScalar tab (k + 1) x - phi (k + 1) x))
      linarith
  have k0 : ∀ x ≤ 0, |pfdScalar tab 0 x - phi 0 x| ≤ e0 := by
    intro x hx
    rw [scalar_zero h, phi_zero, ← Real.exp_eq_exp_ℝ]
    exact h0 x hx
  have k1 := step 0 e0 e1 h01 k0 (fun x hx hx1 => by rw [scalar_succ h hs]; exact h1 x hx hx1)
  exact ⟨k0, k1, step 1 e1 e2 h12 k1 (fun x hx hx1 => by rw [scalar_succ h hs]; exact h2 x hx hx1)⟩

theorem cram2_matches : Matches pfd_cram_2 cram2D cram2C0 cram2Tab := by
  refine ⟨by norm_num [pfd_cram_2, cram2D, cram2C0], ?_⟩
  simp only [pfd_cram_2, cram2Tab, List.zip_cons_cons, List.zip_nil_left, List.zip_nil_right, List.map_cons, List.map_nil, RTerm.pole, RTerm.coef, cram2D]
  norm_num

theorem cram2_nonReal : NonReal pfd_cram_2 := by
  intro p hp
  simp only [pfd_cram_2, List.mem_cons, List.not_mem_nil, or_false] at hp
  rcases hp with rfl <;> norm_num

theorem cram4_matches : Matches pfd_cram_4 cram4D cram4C0 cram4Tab := by
  refine ⟨by norm_num [pfd_cram_4, cram4D, cram4C0], ?_⟩
  simp only [pfd_cram_4, cram4Tab, List.zip_cons_cons, List.zip_nil_left, List.zip_nil_right, List.map_cons, List.map_nil, RTerm.pole, RTerm.coef, cram4D]
  norm_num

theorem cram4_nonReal : NonReal pfd_cram_4 := by
  intro p hp
  simp only [pfd_cram_4, List.mem_cons, List.not_mem_nil, or_false] at hp
  rcases hp with rfl | rfl <;> norm_num

theorem cram6_matches : Matches pfd_cram_6 cram6D cram6C0 cram6Tab := by
  refine ⟨by norm_num [pfd_cram_6, cram6D, cram6C0], ?_⟩
  simp only [pfd_cram_6, cram6Tab, List.zip_cons_cons, List.zip_nil_left, List.zip_nil_right, List.map_cons, List.map_nil, RTerm.pole, RTerm.coef, cram6D]
  norm_num

theorem cram6_nonReal : NonReal pfd_cram_6 := by
  intro p hp
  simp only [pfd_cram_6, List.mem_cons, List.not_mem_nil, or_false] at hp
  rcases hp with rfl | rfl | rfl <;> norm_num

theorem cram8_matches : Matches pfd_cram_8 cram8D cram8C0 cram8Tab := by
  refine ⟨by norm_num [pfd_cram_8, cram8D, cram8C0], ?_⟩
  simp only [pfd_cram_8, cram8Tab, List.zip_cons_cons, List.zip_nil_left, List.zip_nil_right, List.map_cons, List.map_nil, RTerm.pole, RTerm.coef, cram8D]
  norm_num

theorem cram8_nonReal : NonReal pfd_cram_8 := by
  intro p hp
  simp only [pfd_cram_8, List.mem_cons, List.not_mem_nil, or_false] at hp
  rcases hp with rfl | rfl | rfl | rfl <;> norm_num

theorem cram10_matches : Matches pfd_cram_10 cram10D cram10C0 cram10Tab := by
  refine ⟨by norm_num [pfd_cram_10, cram10D, cram10C0], ?_⟩
  simp only [pfd_cram_10, cram10Tab, List.zip_cons_cons, List.zip_nil_left, List.zip_nil_right, List.map_cons, List.map_nil, RTerm.pole, RTerm.coef, cram10D]
  norm_num

theorem cram10_nonReal : NonReal pfd_cram_10 := by
  intro p hp
  simp only [pfd_cram_10, List.mem_cons, List.not_mem_nil, or_false] at hp
  rcases hp with rfl | rfl | rfl | rfl | rfl <;> norm_num

theorem cram12_matches : Matches pfd_cram_12 cram12D cram12C0 cram12Tab := by
  refine ⟨by norm_num [pfd_cram_12, cram12D, cram12C0], ?_⟩
  simp only [pfd_cram_12, cram12Tab, List.zip_cons_cons, List.zip_nil_left, List.zip_nil_right, List.map_cons, List.map_nil, RTerm.pole, RTerm.coef, cram12D]
  norm_num

theorem cram12_nonReal : NonReal pfd_cram_12 := by
  intro p hp
  simp only [pfd_cram_12, List.mem_cons, List.not_mem_nil, or_false] at hp
  rcases hp with rfl | rfl | rfl | rfl | rfl | rfl <;> norm_num

theorem cram14_matches : Matches pfd_cram_14 cram14D cram14C0 cram14Tab := by
  refine ⟨by norm_num [pfd_cram_14, cram14D, cram14C0], ?_⟩
  simp only [pfd_cram_14, cram14Tab, List.zip_cons_cons, List.zip_nil_left, List.zip_nil_right, List.map_cons, List.map_nil, RTerm.pole, RTerm.coef, cram14D]
  norm_num

theorem cram14_nonReal : NonReal pfd_cram_14 := by
  intro p hp
  simp only [pfd_cram_14, List.mem_cons, List.not_mem_nil, or_false] at hp
  rcases hp with rfl | rfl | rfl | rfl | rfl | rfl | rfl <;> norm_num

theorem cram16_matches : Matches pfd_cram_16 cram16D cram16C0 cram16Tab := by
  refine ⟨by norm_num [pfd_cram_16, cram16D, cram16C0], ?_⟩
  simp only [pfd_cram_16, cram16Tab, List.zip_cons_cons, List.zip_nil_left, List.zip_nil_right, List.map_cons, List.map_nil, RTerm.pole, RTerm.coef, cram16D]
  norm_num

theorem cram16_nonReal : NonReal pfd_cram_16 := by
  intro p hp
  simp only [pfd_cram_16, List.mem_cons, List.not_mem_nil, or_false] at hp
  rcases hp with rfl | rfl | rfl | rfl | rfl | rfl | rfl | rfl <;> norm_num

end Ormatex.Props.Cert
