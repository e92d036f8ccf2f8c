import Verif.Props.Metzler
import Verif.Props.BatemanAnalytic

/-!
C119: reaction-advection-diffusion systems on the assembled matrices.
-/

namespace Ormatex.Props
open Matrix Ormatex.Spec

noncomputable section
variable {N n ne : ℕ} {P : Type} [EmptyCollection P]
set_option linter.unusedSectionVars false

/-! ### which source terms keep concentrations nonnegative -/

/-- **Specification.** A source term that takes a species away only in proportion to what is there: at every point it is
`K un + s` with nonnegative couplings between different species and a nonnegative rest. -/
def QuasiPositive (src : Arr N n → Arr N n) : Prop :=
  ∃ (κ : Arr N n → Fin N → Fin n → Fin n → ℝ) (s : Arr N n → Arr N n),
    (∀ un i j, src un i j = ∑ c, κ un i j c * un i c + s un i j) ∧ (∀ un i j c, j ≠ c → 0 ≤ κ un i j c) ∧
    (∀ un i j, 0 ≤ s un i j) ∧ ∀ i j c, Continuous fun un => κ un i j c

theorem quasi_zero : QuasiPositive (fun _ : Arr N n => 0) :=
  ⟨fun _ _ _ _ => 0, fun _ => 0, fun _ _ _ => by simp, fun _ _ _ _ _ => le_rfl, fun _ _ _ => le_rfl, fun _ _ _ => continuous_const⟩

theorem quasi_add {f g : Arr N n → Arr N n} (hf : QuasiPositive f) (hg : QuasiPositive g) : QuasiPositive fun un => f un + g un := by
  obtain ⟨κ, s, a1, a2, a3, a4⟩ := hf
  obtain ⟨κ', s', b1, b2, b3, b4⟩ := hg
  refine ⟨fun un i j c => κ un i j c + κ' un i j c, fun un => s un + s' un, fun un i j => ?_, fun un i j c h => ?_, fun un i j => ?_,
    fun i j c => (a4 i j c).add (b4 i j c)⟩
  · show f un i j + g un i j = _
    rw [a1, b1]
    simp only [add_mul, Finset.sum_add_distrib, Matrix.add_apply]
    ring
  · exact add_nonneg (a2 un i j c h) (b2 un i j c h)
  · exact add_nonneg (a3 un i j) (b3 un i j)

/-- exchange between two species, driven by the difference, at a nonnegative rate -/
theorem quasi_transfer (a b : Fin n) (hab : a ≠ b) (ρ : Arr N n → Fin N → ℝ) (hρ : ∀ un i, 0 ≤ ρ un i)
    (hc : ∀ i, Continuous fun un => ρ un i) :
    QuasiPositive fun un => colAdd (colAdd 0 a fun i => ρ un i * (un i b - un i a)) b (-fun i => ρ un i * (un i b - un i a)) := by
  refine ⟨fun un i j c => ρ un i * (if j = a then (if c = b then 1 else if c = a then -1 else 0)
      else if j = b then (if c = a then 1 else if c = b then -1 else 0) else 0), fun _ => 0, fun un i j => ?_, fun un i j c h => ?_,
    fun _ _ _ => le_rfl, fun i j c => (hc i).mul continuous_const⟩
  · have hs : ∀ x y : Fin n, x ≠ y → (∑ c, ρ un i * (if c = x then 1 else if c = y then -1 else 0) * un i c) = ρ un i * (un i x - un i y) := by
      intro x y hxy
      have : ∀ c, ρ un i * (if c = x then 1 else if c = y then -1 else 0) * un i c
          = (if c = x then ρ un i * un i x else 0) - (if c = y then ρ un i * un i y else 0) := by
        intro c
        by_cases h1 : c = x
        · subst h1; simp [hxy]
        · by_cases h2 : c = y
          · subst h2; simp [h1]
          · simp [h1, h2]
      simp only [this, Finset.sum_sub_distrib]
      simp
      ring
    unfold colAdd
    by_cases h1 : j = a
    · subst h1
      simp only [if_true, if_neg hab]
      rw [hs b j hab.symm]
      simp
    · by_cases h2 : j = b
      · subst h2
        simp only [if_true, if_neg h1]
        rw [hs a j hab]
        simp only [Matrix.zero_apply, Pi.neg_apply]
        ring
      · simp [h1, h2]
  · refine mul_nonneg (hρ un i) ?_
    by_cases h1 : j = a
    · subst h1
      rw [if_pos rfl, if_neg (Ne.symm h)]
      split_ifs <;> norm_num
    · rw [if_neg h1]
      by_cases h2 : j = b
      · subst h2
        rw [if_pos rfl, if_neg (Ne.symm h)]
        split_ifs <;> norm_num
      · rw [if_neg h2]

theorem nonlin_rate (k : ℝ) (hk : 0 ≤ k) (b : Fin n) :
    (∀ (un : Arr N n) i, 0 ≤ k * ((max (un i b) (1 / 10 ^ 16)) ^ ((2 : ℝ) / 3) + 1 / 10 ^ 12)) ∧
    ∀ i : Fin N, Continuous fun un : Arr N n => k * ((max (un i b) (1 / 10 ^ 16)) ^ ((2 : ℝ) / 3) + 1 / 10 ^ 12) := by
  constructor
  · intro un i
    exact mul_nonneg hk (add_nonneg (Real.rpow_nonneg (le_max_of_le_right (by positivity)) _) (by positivity))
  · intro i
    refine continuous_const.mul (Continuous.add ?_ continuous_const)
    refine Continuous.rpow_const ?_ (fun _ => Or.inr (by norm_num))
    exact (show Continuous fun un : Arr N n => un i b by fun_prop).max continuous_const

/-- **C119, the source of the two-species system** is of this kind -/
theorem quasi_evap2 : QuasiPositive (sourceEvap2 (N := N)) := by
  obtain ⟨h1, h2⟩ := nonlin_rate (N := N) (n := 2) 2 (by norm_num) 1
  have := quasi_transfer (N := N) (0 : Fin 2) 1 (by decide) _ h1 h2
  refine (congrArg QuasiPositive ?_).mp this
  funext un
  unfold sourceEvap2 mxfNonlin
  simp only [one_mul]

/-- the polynomial source of the two-species system is of this kind as well -/
theorem quasi_poly : QuasiPositive (sourcePoly (N := N)) := by
  refine ⟨fun un i j c => if j = 0 ∧ c = 0 then -(1 / 2) * (|un i 0| * un i 0) else 0,
    fun un i j => if j = 1 then 1 / 2 * |un i 0 ^ 3| else 0, fun un i j => ?_, fun un i j c h => ?_, fun un i j => ?_, fun i j c => ?_⟩
  · have h3 : |un i 0 ^ 3| = |un i 0| * un i 0 * un i 0 := by
      rw [abs_pow, pow_succ, sq_abs]
      ring
    unfold sourcePoly colAdd
    fin_cases j
    · simp [h3]
      ring
    · simp
  · have hn : ¬ (j = 0 ∧ c = 0) := fun hh => h (hh.1.trans hh.2.symm)
    simp only [hn, if_false, le_refl]
  · dsimp only
    split_ifs <;> positivity
  · by_cases h : j = 0 ∧ c = 0
    · simp only [h, and_self, if_true]
      fun_prop
    · simp only [h, if_false]
      exact continuous_const

theorem quasi_evap9 : QuasiPositive (nonlinEvap9 (N := N)) := by
  obtain ⟨h1, h2⟩ := nonlin_rate (N := N) (n := 9) 10000 (by norm_num) 7
  obtain ⟨h3, h4⟩ := nonlin_rate (N := N) (n := 9) 900 (by norm_num) 8
  have := quasi_add (quasi_transfer (N := N) (5 : Fin 9) 7 (by decide) _ h1 h2) (quasi_transfer (N := N) (6 : Fin 9) 8 (by decide) _ h3 h4)
  refine (congrArg QuasiPositive ?_).mp this
  funext un
  funext i j
  show colAdd (colAdd 0 5 _) 7 _ i j + colAdd (colAdd 0 6 _) 8 _ i j = _
  unfold nonlinEvap9 mxfNonlin colAdd
  fin_cases j <;> simp

theorem quasi_diag (d : Fin N → Fin n → ℝ) : QuasiPositive fun (un : Arr N n) i j => d i j * un i j := by
  refine ⟨fun _ i j c => if j = c then d i j else 0, fun _ => 0, fun un i j => ?_, fun un i j c h => ?_, fun _ _ _ => le_rfl,
    fun _ _ _ => continuous_const⟩
  · simp
  · simp only [h, if_false, le_refl]

theorem quasi_purify (xs : Vec N) : QuasiPositive (gasPurify xs) := by
  have := quasi_diag (N := N) (n := 9) fun i j => if j = 7 ∨ j = 8 then -(4 / 10 * (4 / 10) * offgasProfile (xs i)) else 0
  refine (congrArg QuasiPositive ?_).mp this
  funext un i j
  unfold gasPurify colAdd
  fin_cases j <;> simp <;> ring

theorem flux_nonneg (x : ℝ) : 0 ≤ fluxProfile x := by
  unfold fluxProfile
  split_ifs with h
  · rw [div_one]
    refine Real.cos_nonneg_of_neg_pi_div_two_le_of_le ?_ ?_
    · nlinarith [Real.pi_pos, h.1]
    · nlinarith [Real.pi_pos, h.2]
  · exact le_rfl

theorem quasi_fission {fis : Mat 9} (hf : ∀ j, 0 ≤ ∑ c, fis j c) (xs : Vec N) : QuasiPositive fun _ : Arr N 9 => fissionSrc fis xs := by
  refine ⟨fun _ _ _ _ => 0, fun _ => fissionSrc fis xs, fun _ _ _ => by simp, fun _ _ _ _ _ => le_rfl, fun _ i j => ?_,
    fun _ _ _ => continuous_const⟩
  unfold fissionSrc
  refine mul_nonneg (flux_nonneg _) ?_
  rw [Matrix.mul_apply]
  simpa using hf j

theorem quasi_transmute {tr : Mat 9} (ht : ∀ j c, j ≠ c → 0 ≤ tr j c) (xs : Vec N) : QuasiPositive (transmuteSrc tr xs) := by
  refine ⟨fun _ i j c => fluxProfile (xs i) * tr j c, fun _ => 0, fun un i j => ?_, fun un i j c h => mul_nonneg (flux_nonneg _) (ht j c h),
    fun _ _ _ => le_rfl, fun _ _ _ => continuous_const⟩
  unfold transmuteSrc
  rw [Matrix.mul_apply, Finset.mul_sum]
  simp only [Matrix.transpose_apply, Matrix.zero_apply, add_zero]
  exact Finset.sum_congr rfl fun c _ => by ring

/-- **C119, the source of the nine-species system** is of this kind when fission produces and transmutation has nonnegative
gains -/
theorem quasi_src9 {fis tr : Mat 9} (hf : ∀ j, 0 ≤ ∑ c, fis j c) (ht : ∀ j c, j ≠ c → 0 ≤ tr j c) (xs : Vec N) :
    QuasiPositive (src9 fis tr xs) :=
  quasi_add (quasi_add (quasi_add (quasi_fission hf xs) (quasi_transmute ht xs)) quasi_evap9) (quasi_purify xs)

/-! ### positivity -/

theorem radRhs_apply (src : Arr N n → Arr N n) (bat : Mat n) (A : Mat N) (Ml : Vec N) (dir : List (Fin N)) (u : Vec (n * N))
    (i : Fin N) (j : Fin n) : radRhs src bat A Ml dir u (finProdFinEquiv (j, i))
      = if i ∈ dir then 0 else (unflat u * batᵀ) i j + src (unflat u) i j - (A * unflat u) i j / Ml i := by
  unfold radRhs
  rw [flattenU_apply]
  rfl

/-- **C119, concentrations stay nonnegative.** For every source term of the kind above, decay matrices with nonnegative
off-diagonal entries and discretisations with the right sign of the couplings (`C118_couplings`): a solution of the
semidiscrete reaction-advection-diffusion system that starts nonnegative is nonnegative as long as it exists. -/
theorem C119_positive {src : Arr N n → Arr N n} (hsrc : QuasiPositive src) {bat : Mat n} (hbat : ∀ j c, j ≠ c → 0 ≤ bat j c)
    {A : Mat N} (hA : ∀ i k, i ≠ k → A i k ≤ 0) {Ml : Vec N} (hMl : ∀ i, 0 < Ml i) (dir : List (Fin N)) {U : ℝ → Vec (n * N)}
    {t0 t1 : ℝ} (hU : ∀ t ∈ Set.Icc t0 t1, HasDerivAt U (radRhs src bat A Ml dir (U t)) t) (h0 : ∀ k, 0 ≤ U t0 k) :
    ∀ t ∈ Set.Icc t0 t1, ∀ k, 0 ≤ U t k := by
  obtain ⟨κ, s, e1, e2, e3, e4⟩ := hsrc
  set M : ℝ → Fin N × Fin n → Fin N × Fin n → ℝ := fun t p q => if p.1 ∈ dir then 0 else
    ((if q.1 = p.1 then bat p.2 q.2 + κ (unflat (U t)) p.1 p.2 q.2 else 0) - (if q.2 = p.2 then A p.1 q.1 / Ml p.1 else 0)) with hMdef
  set b : ℝ → Fin N × Fin n → ℝ := fun t p => if p.1 ∈ dir then 0 else s (unflat (U t)) p.1 p.2 with hbdef
  set Y : ℝ → Fin N × Fin n → ℝ := fun t p => unflat (U t) p.1 p.2 with hYdef
  have hUc : ContinuousOn U (Set.Icc t0 t1) := fun t ht => (hU t ht).continuousAt.continuousWithinAt
  have hunc : ContinuousOn (fun t => unflat (U t) : ℝ → Arr N n) (Set.Icc t0 t1) := by
    have : Continuous fun u : Vec (n * N) => (unflat u : Arr N n) := by
      unfold unflat
      fun_prop
    exact this.comp_continuousOn hUc
  have hbound : ∀ p q, ∃ C, ∀ t ∈ Set.Icc t0 t1, ‖M t p q‖ ≤ C := by
    intro p q
    refine isCompact_Icc.exists_bound_of_continuousOn ?_
    simp only [hMdef]
    by_cases hp : p.1 ∈ dir
    · simp only [hp, if_true]
      exact continuousOn_const
    · simp only [hp, if_false]
      refine ContinuousOn.sub ?_ continuousOn_const
      by_cases hq : q.1 = p.1
      · simp only [hq, if_true]
        exact continuousOn_const.add ((e4 _ _ _).comp_continuousOn hunc)
      · simp only [hq, if_false]
        exact continuousOn_const
  choose C hC using hbound
  have hcpos : ∀ p q, ∀ t ∈ Set.Icc t0 t1, |M t p q| ≤ ∑ p, ∑ q, |C p q| := by
    intro p q t ht
    refine (hC p q t ht).trans ((le_abs_self _).trans ?_)
    refine (Finset.single_le_sum (f := fun q => |C p q|) (fun q _ => abs_nonneg _) (Finset.mem_univ q)).trans ?_
    exact Finset.single_le_sum (f := fun p => ∑ q, |C p q|) (fun p _ => Finset.sum_nonneg fun q _ => abs_nonneg _) (Finset.mem_univ p)
  have hmain := metzler_nonneg (M := M) (b := b) (Y := Y) (t0 := t0) (t1 := t1) (c := ∑ p, ∑ q, |C p q|)
    (fun t ht p q => hcpos p q t ht) (fun t _ p q hpq => ?_) (fun t _ p => ?_) (fun t ht p => ?_) (fun p => h0 _)
  · intro t ht k
    have := hmain t ht ((finProdFinEquiv.symm k).2, (finProdFinEquiv.symm k).1)
    have h2 : (finProdFinEquiv ((finProdFinEquiv.symm k).1, (finProdFinEquiv.symm k).2)) = k := finProdFinEquiv.apply_symm_apply k
    simp only [hYdef, unflat, h2] at this
    exact this
  · simp only [hMdef]
    by_cases hp : p.1 ∈ dir
    · simp [hp]
    · simp only [hp, if_false]
      by_cases h1 : q.1 = p.1
      · have h2 : p.2 ≠ q.2 := fun h => hpq (Prod.ext h1.symm h)
        rw [if_pos h1, if_neg (Ne.symm h2), sub_zero]
        exact add_nonneg (hbat _ _ h2) (e2 _ _ _ _ h2)
      · rw [if_neg h1, zero_sub, neg_nonneg]
        split_ifs
        · exact div_nonpos_of_nonpos_of_nonneg (hA _ _ (Ne.symm h1)) (hMl _).le
        · exact le_rfl
  · simp only [hbdef]
    split_ifs
    · exact le_rfl
    · exact e3 _ _ _
  · have hd := hasDerivAt_pi.1 (hU t ht) (finProdFinEquiv (p.2, p.1))
    refine hd.congr_deriv ?_
    rw [radRhs_apply]
    simp only [hMdef, hbdef, hYdef]
    by_cases hp : p.1 ∈ dir
    · simp [hp]
    · simp only [hp, if_false]
      rw [e1, Matrix.mul_apply, Matrix.mul_apply, Fintype.sum_prod_type]
      simp only [sub_mul, Finset.sum_sub_distrib]
      have s1 : (∑ x : Fin N, ∑ y : Fin n, (if x = p.1 then bat p.2 y + κ (unflat (U t)) p.1 p.2 y else 0) * unflat (U t) x y)
          = ∑ y, (bat p.2 y + κ (unflat (U t)) p.1 p.2 y) * unflat (U t) p.1 y := by
        rw [Finset.sum_eq_single p.1]
        · simp
        · intro x _ hx
          simp [hx]
        · intro h; exact absurd (Finset.mem_univ _) h
      have s2 : (∑ x : Fin N, ∑ y : Fin n, (if y = p.2 then A p.1 x / Ml p.1 else 0) * unflat (U t) x y)
          = ∑ x, A p.1 x / Ml p.1 * unflat (U t) x p.2 := by
        refine Finset.sum_congr rfl fun x _ => ?_
        simp
      rw [s1, s2, Finset.sum_div]
      simp only [add_mul, Finset.sum_add_distrib, Matrix.transpose_apply]
      have s3 : (∑ x, unflat (U t) p.1 x * bat p.2 x) = ∑ x, bat p.2 x * unflat (U t) p.1 x := Finset.sum_congr rfl fun x _ => by ring
      have s4 : (∑ x, A p.1 x * unflat (U t) x p.2 / Ml p.1) = ∑ x, A p.1 x / Ml p.1 * unflat (U t) x p.2 :=
        Finset.sum_congr rfl fun x _ => by ring
      rw [s3, s4]
      ring

end
end Ormatex.Props
