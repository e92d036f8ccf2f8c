import Verif.Model.Phi

/-!
Partial-fraction phi products (C24).
-/

namespace Ormatex.Props
open Matrix

section
variable {N : ℕ}

/-- the resolvent `(z - p)^{-1}` of a real matrix at a complex point -/
noncomputable abbrev cres (z : Mat N) (p : ℂ) : Matrix (Fin N) (Fin N) ℂ :=
  (z.map (algebraMap ℝ ℂ) - p • (1 : Matrix (Fin N) (Fin N) ℂ))⁻¹

theorem cres_conj (z : Mat N) (p : ℂ) : cres z (starRingEnd ℂ p) = (cres z p).map (starRingEnd ℂ) := by
  have h : ∀ A : Matrix (Fin N) (Fin N) ℂ, A.map (starRingEnd ℂ) = Aᴴᵀ := by
    intro A; ext i j; rfl
  rw [h]
  unfold cres
  rw [Matrix.conjTranspose_nonsing_inv, Matrix.transpose_nonsing_inv, ← h]
  congr 1
  ext i j
  simp only [Matrix.sub_apply, Matrix.map_apply, Matrix.smul_apply, Matrix.one_apply, map_sub, smul_eq_mul, map_mul]
  split_ifs <;> simp

theorem foldl_add_eq {α : Type*} (f : α → Vec N) (l : List α) (a : Vec N) :
    l.foldl (fun acc x => acc + f x) a = a + (l.map f).sum := by
  induction l generalizing a with
  | nil => simp
  | cons x t ih => rw [List.foldl_cons, ih, List.map_cons, List.sum_cons, add_assoc]

theorem list_sum_apply (l : List (Vec N)) (i : Fin N) : l.sum i = (l.map fun v => v i).sum := by
  induction l with
  | nil => rfl
  | cons x t ih => rw [List.sum_cons, Pi.add_apply, ih, List.map_cons, List.sum_cons]

/-- the value: initial part plus the sum of the terms -/
theorem pfd_eq (tab : Pfd) (z : Mat N) (b : Vec N) (k : ℕ) :
    fPhiKPfd tab z b k = (if k = 0 then tab.c0 • b else 0)
      + ((tab.poles.zip tab.coeffs).map fun pc => pfdTerm z b k pc.1 pc.2).sum := by
  unfold fPhiKPfd
  exact foldl_add_eq (fun pc : ℂ × ℂ => pfdTerm z b k pc.1 pc.2) _ _

/-- One tabulated pair contributes the pole and its complex conjugate. -/
theorem pfdTerm_pair (z : Mat N) (b : Vec N) (k : ℕ) (p c : ℂ) (i : Fin N) :
    ((pfdTerm z b k p c i : ℝ) : ℂ)
      = (c / p ^ k) * ((cres z p *ᵥ fun j => (b j : ℂ)) i)
        + (starRingEnd ℂ c / (starRingEnd ℂ p) ^ k) * ((cres z (starRingEnd ℂ p) *ᵥ fun j => (b j : ℂ)) i) := by
  have hc : (starRingEnd ℂ c / (starRingEnd ℂ p) ^ k) * ((cres z (starRingEnd ℂ p) *ᵥ fun j => (b j : ℂ)) i)
      = starRingEnd ℂ ((c / p ^ k) * ((cres z p *ᵥ fun j => (b j : ℂ)) i)) := by
    rw [cres_conj, map_mul, map_div₀, map_pow]
    congr 1
    simp only [Matrix.mulVec, dotProduct, map_sum, map_mul, Matrix.map_apply, Complex.conj_ofReal]
  rw [hc, Complex.add_conj, pfdTerm]
  have e : 2 * c / p ^ k * (cres z p *ᵥ fun j => (b j : ℂ)) i
      = ((2 : ℝ) : ℂ) * (c / p ^ k * (cres z p *ᵥ fun j => (b j : ℂ)) i) := by
    push_cast; ring
  rw [show (2 * c / p ^ k * ((z.map (algebraMap ℝ ℂ) - p • (1 : Matrix (Fin N) (Fin N) ℂ))⁻¹ *ᵥ
      fun j => (b j : ℂ)) i) = _ from e, Complex.re_ofReal_mul]

/-- **C24 (value).** `f_phi_k_pfd` is the rational function with the tabulated poles and their complex conjugates:
`[k=0] c0 b + ∑ (c/p^k (z-p)^{-1} b + c̄/p̄^k (z-p̄)^{-1} b)`. -/
theorem C24_value (tab : Pfd) (z : Mat N) (b : Vec N) (k : ℕ) (i : Fin N) :
    ((fPhiKPfd tab z b k i : ℝ) : ℂ) = (if k = 0 then (tab.c0 : ℂ) * b i else 0)
      + ((tab.poles.zip tab.coeffs).map fun pc =>
          (pc.2 / pc.1 ^ k) * (((z.map (algebraMap ℝ ℂ) - pc.1 • (1 : Matrix (Fin N) (Fin N) ℂ))⁻¹ *ᵥ
            fun j => (b j : ℂ)) i)
          + (starRingEnd ℂ pc.2 / (starRingEnd ℂ pc.1) ^ k) *
            (((z.map (algebraMap ℝ ℂ) - starRingEnd ℂ pc.1 • (1 : Matrix (Fin N) (Fin N) ℂ))⁻¹ *ᵥ
            fun j => (b j : ℂ)) i)).sum := by
  rw [pfd_eq, Pi.add_apply, list_sum_apply, List.map_map, Complex.ofReal_add]
  congr 1
  · split_ifs <;> simp
  · have hs : ∀ l : List ℝ, ((l.sum : ℝ) : ℂ) = (l.map fun x : ℝ => (x : ℂ)).sum := by
      intro l
      induction l with
      | nil => simp
      | cons x t ih => simp [ih]
    rw [hs, List.map_map]
    congr 1
    refine List.map_congr_left fun pc _ => ?_
    exact pfdTerm_pair z b k pc.1 pc.2 i

theorem cmulVec_re (z : Mat N) (v : Fin N → ℂ) (i : Fin N) :
    ((z.map (algebraMap ℝ ℂ) *ᵥ v) i).re = (z *ᵥ fun j => (v j).re) i := by
  simp [Matrix.mulVec, dotProduct]

/-- A pole is usable for `z` when it is not zero and not an eigenvalue. -/
def PoleOk (z : Mat N) (p : ℂ) : Prop :=
  p ≠ 0 ∧ IsUnit (z.map (algebraMap ℝ ℂ) - p • (1 : Matrix (Fin N) (Fin N) ℂ)).det

theorem cres_zero (p : ℂ) (hp : p ≠ 0) : cres (0 : Mat N) p = (-p)⁻¹ • (1 : Matrix (Fin N) (Fin N) ℂ) := by
  unfold cres
  apply Matrix.inv_eq_right_inv
  ext i j
  have : ((0 : Mat N).map (algebraMap ℝ ℂ)) = 0 := by ext; simp
  rw [this, zero_sub, Matrix.mul_smul, Matrix.mul_one, Matrix.smul_apply, Matrix.neg_apply, Matrix.smul_apply]
  simp only [smul_eq_mul]
  field_simp

theorem pfdTerm_rec (z : Mat N) (b : Vec N) (k : ℕ) (p c : ℂ) (hp : PoleOk z p) :
    z *ᵥ pfdTerm z b (k + 1) p c = pfdTerm z b k p c - pfdTerm 0 b k p c := by
  obtain ⟨hp0, hu⟩ := hp
  set bc : Fin N → ℂ := fun j => (b j : ℂ) with hbc
  have hres : z.map (algebraMap ℝ ℂ) *ᵥ (cres z p *ᵥ bc) = bc + p • (cres z p *ᵥ bc) := by
    have h := Matrix.mul_nonsing_inv _ hu
    have h2 : z.map (algebraMap ℝ ℂ) * cres z p = 1 + p • cres z p := by
      have : (z.map (algebraMap ℝ ℂ) - p • (1 : Matrix (Fin N) (Fin N) ℂ)) * cres z p = 1 := h
      rw [Matrix.sub_mul, Matrix.smul_mul, Matrix.one_mul] at this
      rw [← this]; abel
    rw [Matrix.mulVec_mulVec, h2, Matrix.add_mulVec, Matrix.one_mulVec, Matrix.smul_mulVec]
  funext i
  have e1 : (z *ᵥ pfdTerm z b (k + 1) p c) i
      = ((z.map (algebraMap ℝ ℂ) *ᵥ ((2 * c / p ^ (k + 1)) • (cres z p *ᵥ bc))) i).re := by
    rw [cmulVec_re]
    rfl
  rw [e1, Matrix.mulVec_smul, hres, Pi.sub_apply]
  unfold pfdTerm
  rw [show (((0 : Mat N).map (algebraMap ℝ ℂ) - p • (1 : Matrix (Fin N) (Fin N) ℂ))⁻¹) = (-p)⁻¹ • 1 from cres_zero p hp0,
    Matrix.smul_mulVec, Matrix.one_mulVec, ← Complex.sub_re]
  congr 1
  simp only [Pi.smul_apply, Pi.add_apply, smul_eq_mul]
  show _ = 2 * c / p ^ k * (cres z p *ᵥ bc) i - 2 * c / p ^ k * ((-p)⁻¹ * bc i)
  rw [pow_succ]
  field_simp
  ring

/-- **C24 (recurrence).** The approximants of consecutive orders satisfy `z r_{k+1}(z) b = r_k(z) b - r_k(0) b` whenever
no pole is zero or an eigenvalue of `z`. -/
theorem C24_recurrence (tab : Pfd) (z : Mat N) (b : Vec N) (k : ℕ) (hp : ∀ p ∈ tab.poles, PoleOk z p) :
    z *ᵥ fPhiKPfd tab z b (k + 1) = fPhiKPfd tab z b k - fPhiKPfd tab 0 b k := by
  rw [pfd_eq, pfd_eq, pfd_eq, if_neg (by omega), zero_add, add_sub_add_left_eq_sub]
  have hp' : ∀ pc ∈ tab.poles.zip tab.coeffs, PoleOk z pc.1 := fun pc h => hp _ (List.of_mem_zip h).1
  generalize tab.poles.zip tab.coeffs = l at hp'
  induction l with
  | nil => simp
  | cons pc t ih =>
    simp only [List.map_cons, List.sum_cons]
    rw [Matrix.mulVec_add, pfdTerm_rec z b k _ _ (hp' pc (by simp)), ih (fun q hq => hp' q (by simp [hq]))]
    abel

/-- table entry `'IE'`, matexp_phi_pfd_dict.py:27 -/
noncomputable def tabIE : Pfd := ⟨[1], [-1 / 2], 0⟩
/-- table entry `'CN'`, matexp_phi_pfd_dict.py:28 -/
noncomputable def tabCN : Pfd := ⟨[2], [-4 / 2], -1⟩

theorem real_pole (z : Mat N) (b : Vec N) (p c : ℝ) (hu : IsUnit (z - p • (1 : Mat N)).det) :
    pfdTerm z b 0 (p : ℂ) (c : ℂ) = (2 * c) • ((z - p • (1 : Mat N))⁻¹ *ᵥ b) := by
  have hm : z.map (algebraMap ℝ ℂ) - (p : ℂ) • (1 : Matrix (Fin N) (Fin N) ℂ)
      = (z - p • (1 : Mat N)).map (algebraMap ℝ ℂ) := by
    ext i j
    simp only [Matrix.sub_apply, Matrix.map_apply, Matrix.smul_apply, Matrix.one_apply, smul_eq_mul]
    split_ifs <;> simp
  have hinv : ((z - p • (1 : Mat N)).map (algebraMap ℝ ℂ))⁻¹ = ((z - p • (1 : Mat N))⁻¹).map (algebraMap ℝ ℂ) := by
    apply Matrix.inv_eq_right_inv
    rw [← Matrix.map_mul, Matrix.mul_nonsing_inv _ hu]
    ext i j
    simp only [Matrix.map_apply, Matrix.one_apply]
    split_ifs <;> simp
  funext i
  unfold pfdTerm
  rw [hm, hinv, pow_zero, div_one]
  have e : (((z - p • (1 : Mat N))⁻¹).map (algebraMap ℝ ℂ) *ᵥ fun j => (b j : ℂ)) i
      = ((((z - p • (1 : Mat N))⁻¹ *ᵥ b) i : ℝ) : ℂ) := by
    simp [Matrix.mulVec, dotProduct]
  rw [e]
  have e2 : (2 : ℂ) * (c : ℂ) = ((2 * c : ℝ) : ℂ) := by push_cast; rfl
  rw [e2, ← Complex.ofReal_mul, Complex.ofReal_re]
  rfl

/-- **C24 (IE).** Method `IE` with `k = 0` is implicit Euler: the result `y` solves `(I - z) y = b`. -/
theorem C24_implicit_euler (z : Mat N) (b : Vec N) (hz : IsUnit (1 - z).det) :
    (1 - z) *ᵥ fPhiKPfd tabIE z b 0 = b ∧ fPhiKPfd tabIE z b 0 = (1 - z)⁻¹ *ᵥ b := by
  have hneg : z - (1 : ℝ) • (1 : Mat N) = -(1 - z) := by rw [one_smul]; abel
  have hu : IsUnit (z - (1 : ℝ) • (1 : Mat N)).det := by
    rw [hneg, Matrix.det_neg]
    exact (IsUnit.pow _ (by simp)).mul hz
  have h1 : fPhiKPfd tabIE z b 0 = (1 - z)⁻¹ *ᵥ b := by
    rw [pfd_eq]
    simp only [tabIE, List.zip_cons_cons, List.zip_nil_left, List.map_cons, List.map_nil, List.sum_cons, List.sum_nil,
      if_true, zero_smul, zero_add, add_zero]
    have := real_pole z b 1 (-1 / 2) hu
    push_cast at this
    rw [this, hneg, show (2 * (-1 / 2) : ℝ) = -1 by norm_num]
    have hinv : (-(1 - z))⁻¹ = -(1 - z)⁻¹ := by
      apply Matrix.inv_eq_right_inv
      rw [neg_mul_neg, Matrix.mul_nonsing_inv _ hz]
    rw [hinv, Matrix.neg_mulVec, neg_smul, one_smul, neg_neg]
  refine ⟨?_, h1⟩
  rw [h1, Matrix.mulVec_mulVec, Matrix.mul_nonsing_inv _ hz, Matrix.one_mulVec]

/-- **C24 (CN).** Method `CN` with `k = 0` is Crank-Nicolson: the result `y` solves `(I - z/2) y = (I + z/2) b`. -/
theorem C24_crank_nicolson (z : Mat N) (b : Vec N) (hz : IsUnit (1 - (1 / 2 : ℝ) • z).det) :
    (1 - (1 / 2 : ℝ) • z) *ᵥ fPhiKPfd tabCN z b 0 = (1 + (1 / 2 : ℝ) • z) *ᵥ b := by
  have hneg : z - (2 : ℝ) • (1 : Mat N) = (-2 : ℝ) • (1 - (1 / 2 : ℝ) • z) := by
    rw [smul_sub, smul_smul]
    norm_num
    abel
  have hu : IsUnit (z - (2 : ℝ) • (1 : Mat N)).det := by
    rw [hneg, Matrix.det_smul]
    exact (IsUnit.pow _ (by simp)).mul hz
  rw [pfd_eq]
  simp only [tabCN, List.zip_cons_cons, List.zip_nil_left, List.map_cons, List.map_nil, List.sum_cons, List.sum_nil,
    if_true, add_zero]
  have := real_pole z b 2 (-4 / 2) hu
  push_cast at this
  rw [this, hneg]
  set W := 1 - (1 / 2 : ℝ) • z with hW
  have hinv : ((-2 : ℝ) • W)⁻¹ = (-1 / 2 : ℝ) • W⁻¹ := by
    apply Matrix.inv_eq_right_inv
    rw [smul_mul_smul_comm, Matrix.mul_nonsing_inv _ hz]
    norm_num
  rw [hinv, Matrix.smul_mulVec, smul_smul, Matrix.mulVec_add, Matrix.mulVec_smul, Matrix.mulVec_smul,
    Matrix.mulVec_mulVec, Matrix.mul_nonsing_inv _ hz, Matrix.one_mulVec, hW, Matrix.sub_mulVec, Matrix.add_mulVec,
    Matrix.one_mulVec]
  norm_num
  have : (2 : ℝ) • b = b + b := two_smul ℝ b
  rw [this]
  abel

/-- A concrete instance: implicit Euler on `y' = -y` with unit step halves the value. -/
example : fPhiKPfd tabIE (!![-1] : Mat 1) ![3] 0 = ![3 / 2] := by
  have hu : IsUnit (1 - (!![-1] : Mat 1)).det := by
    rw [isUnit_iff_ne_zero]; norm_num [Matrix.det_fin_one]
  have h := (C24_implicit_euler (!![-1] : Mat 1) ![3] hu).1
  have h0 := congrFun h 0
  simp [Matrix.mulVec, dotProduct] at h0
  funext i
  fin_cases i
  simp
  linarith

/-- The pole condition of the recurrence holds for the tabulated pole `1` and `z = -1`. -/
example : PoleOk (!![-1] : Mat 1) 1 := by
  refine ⟨one_ne_zero, ?_⟩
  rw [isUnit_iff_ne_zero]
  norm_num [Matrix.det_fin_one]

end

end Ormatex.Props
