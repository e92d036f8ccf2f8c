import Verif.Props.PosExist
import Verif.Props.RadShipped

/-!
C119: solutions of the reaction systems exist for all times, and when concentrations become negative.
-/

namespace Ormatex.Props
open Matrix Ormatex.Spec

noncomputable section
variable {N n ne r : ℕ} {P : Type} [EmptyCollection P]
set_option linter.unusedSectionVars false

/-! ### regularity and growth of the source terms -/

/-- **Specification.** Lipschitz on bounded sets of nonnegative concentrations, and producing at most in proportion to what is
there plus a constant. -/
def TameSource (src : Arr N n → Arr N n) : Prop :=
  (∀ i j, BoxLip fun u : Vec (n * N) => src (unflat u) i j) ∧
  ∃ a B, 0 ≤ a ∧ 0 ≤ B ∧ ∀ un : Arr N n, (∀ i j, 0 ≤ un i j) → ∀ i, ∑ j, src un i j ≤ a * ∑ j, un i j + B

theorem lip_entry (i : Fin N) (j : Fin n) : BoxLip fun u : Vec (n * N) => (unflat u : Arr N n) i j := boxLip_coord _

theorem tame_zero : TameSource (fun _ : Arr N n => 0) :=
  ⟨fun _ _ => boxLip_const 0, 0, 0, le_rfl, le_rfl, fun _ _ _ => by simp⟩

theorem tame_add {f g : Arr N n → Arr N n} (hf : TameSource f) (hg : TameSource g) : TameSource fun un => f un + g un := by
  obtain ⟨h1, a, B, ha, hB, h2⟩ := hf
  obtain ⟨h1', a', B', ha', hB', h2'⟩ := hg
  refine ⟨fun i j => (h1 i j).add (h1' i j), a + a', B + B', by positivity, by positivity, fun un hu i => ?_⟩
  simp only [Matrix.add_apply, Finset.sum_add_distrib]
  have := h2 un hu i
  have := h2' un hu i
  linarith

theorem lip_nonlin (a b : Fin n) (k : ℝ) (i : Fin N) :
    BoxLip fun u : Vec (n * N) => mxfNonlin ((unflat u : Arr N n) i a) ((unflat u : Arr N n) i b) k 1 1 := by
  unfold mxfNonlin
  refine BoxLip.mul (BoxLip.mul (boxLip_const _) (BoxLip.add (BoxLip.rpow (c := 1 / 10 ^ 16) ((lip_entry i b).max_const _) (by positivity)
    (fun u _ => le_max_right _ _) _) (boxLip_const _))) (BoxLip.sub ?_ ?_)
  · exact (boxLip_const 1).mul (lip_entry i b)
  · exact (boxLip_const 1).mul (lip_entry i a)

theorem lip_colAdd {s : Vec (n * N) → Arr N n} {x : Vec (n * N) → Vec N} (hs : ∀ i j, BoxLip fun u => s u i j) (hx : ∀ i, BoxLip fun u => x u i)
    (c : Fin n) (i : Fin N) (j : Fin n) : BoxLip fun u => colAdd (s u) c (x u) i j := by
  unfold colAdd
  by_cases h : j = c
  · simp only [h, if_true]
    exact (hs i c).add (hx i)
  · simp only [h, if_false]
    exact hs i j

theorem tame_evap2 : TameSource (sourceEvap2 (N := N)) := by
  refine ⟨fun i j => ?_, 0, 0, le_rfl, le_rfl, fun un _ i => ?_⟩
  · unfold sourceEvap2
    exact lip_colAdd (fun i j => lip_colAdd (fun i j => boxLip_const 0) (fun i => lip_nonlin 0 1 _ i) _ i j)
      (fun i => (lip_nonlin 0 1 _ i).neg) _ i j
  · unfold sourceEvap2 colAdd
    simp

theorem tame_evap9 : TameSource (nonlinEvap9 (N := N)) := by
  refine ⟨fun i j => ?_, 0, 0, le_rfl, le_rfl, fun un _ i => ?_⟩
  · unfold nonlinEvap9
    exact lip_colAdd (fun i j => lip_colAdd (fun i j => lip_colAdd (fun i j => lip_colAdd (fun i j => boxLip_const 0)
      (fun i => lip_nonlin 5 7 _ i) _ i j) (fun i => (lip_nonlin 5 7 _ i).neg) _ i j) (fun i => lip_nonlin 6 8 _ i) _ i j)
      (fun i => (lip_nonlin 6 8 _ i).neg) _ i j
  · have hs : ∀ (s : Arr N 9) (c : Fin 9) (x : Vec N), ∑ j, colAdd s c x i j = ∑ j, s i j + x i := by
      intro s c x
      unfold colAdd
      have : ∀ j, (if j = c then s i j + x i else s i j) = s i j + (if j = c then x i else 0) := fun j => by split_ifs <;> simp
      simp only [this, Finset.sum_add_distrib]
      simp
    unfold nonlinEvap9
    simp only [hs]
    simp

theorem tame_diag (d : Fin N → Fin n → ℝ) : TameSource fun (un : Arr N n) i j => d i j * un i j := by
  refine ⟨fun i j => (boxLip_const _).mul (lip_entry i j), ∑ i, ∑ j, |d i j|, 0, Finset.sum_nonneg fun i _ => Finset.sum_nonneg fun j _ => abs_nonneg _,
    le_rfl, fun un hu i => ?_⟩
  rw [add_zero, Finset.mul_sum]
  refine Finset.sum_le_sum fun j _ => mul_le_mul_of_nonneg_right ?_ (hu i j)
  refine (le_abs_self _).trans ((Finset.single_le_sum (f := fun j => |d i j|) (fun j _ => abs_nonneg _) (Finset.mem_univ j)).trans ?_)
  exact Finset.single_le_sum (f := fun i => ∑ j, |d i j|) (fun i _ => Finset.sum_nonneg fun j _ => abs_nonneg _) (Finset.mem_univ i)

theorem tame_purify (xs : Vec N) : TameSource (gasPurify xs) := by
  have := tame_diag (N := N) (n := 9) fun i j => if j = 7 ∨ j = 8 then -(4 / 10 * (4 / 10) * offgasProfile (xs i)) else 0
  refine (congrArg TameSource ?_).mp this
  funext un i j
  unfold gasPurify colAdd
  fin_cases j <;> simp <;> ring

theorem flux_le_one (x : ℝ) : fluxProfile x ≤ 1 := by
  unfold fluxProfile
  split_ifs
  · exact Real.cos_le_one _
  · exact zero_le_one

theorem tame_fission (fis : Mat 9) (xs : Vec N) : TameSource fun _ : Arr N 9 => fissionSrc fis xs := by
  refine ⟨fun _ _ => boxLip_const _, 0, ∑ j, |∑ c, fis j c|, le_rfl, Finset.sum_nonneg fun _ _ => abs_nonneg _, fun un _ i => ?_⟩
  rw [zero_mul, zero_add]
  refine Finset.sum_le_sum fun j _ => ?_
  show fluxProfile (xs i) * ((Matrix.of (fun _ _ => 1 : Fin N → Fin 9 → ℝ)) * fisᵀ) i j ≤ _
  rw [Matrix.mul_apply]
  simp only [Matrix.of_apply, one_mul, Matrix.transpose_apply]
  refine (le_abs_self _).trans ?_
  rw [abs_mul, abs_of_nonneg (flux_nonneg _)]
  exact mul_le_of_le_one_left (abs_nonneg _) (flux_le_one _)

theorem tame_transmute (tr : Mat 9) (xs : Vec N) : TameSource (transmuteSrc tr xs) := by
  refine ⟨fun i j => ?_, ∑ j, ∑ c, |tr j c|, 0, Finset.sum_nonneg fun i _ => Finset.sum_nonneg fun j _ => abs_nonneg _, le_rfl, fun un hu i => ?_⟩
  · unfold transmuteSrc
    simp only [Matrix.mul_apply]
    exact (boxLip_const _).mul (BoxLip.sum _ fun c => (lip_entry i c).mul (boxLip_const _))
  · rw [add_zero, Finset.sum_mul]
    refine Finset.sum_le_sum fun j _ => ?_
    unfold transmuteSrc
    rw [Matrix.mul_apply]
    have h1 : |∑ c, un i c * trᵀ c j| ≤ (∑ c, |tr j c|) * ∑ j, un i j := by
      refine (Finset.abs_sum_le_sum_abs _ _).trans ?_
      rw [Finset.sum_mul]
      refine Finset.sum_le_sum fun c _ => ?_
      rw [abs_mul, abs_of_nonneg (hu i c), Matrix.transpose_apply, mul_comm]
      exact mul_le_mul_of_nonneg_left (Finset.single_le_sum (fun c _ => hu i c) (Finset.mem_univ c)) (abs_nonneg _)
    refine (le_abs_self _).trans ?_
    rw [abs_mul, abs_of_nonneg (flux_nonneg _)]
    exact (mul_le_of_le_one_left (abs_nonneg _) (flux_le_one _)).trans h1

theorem tame_src9 (fis tr : Mat 9) (xs : Vec N) : TameSource (src9 fis tr xs) :=
  tame_add (tame_add (tame_add (tame_fission fis xs) (tame_transmute tr xs)) tame_evap9) (tame_purify xs)

/-! ### existence -/

theorem rad_lip {src : Arr N n → Arr N n} (hsrc : TameSource src) (bat : Mat n) (A : Mat N) (Ml : Vec N) (dir : List (Fin N)) (k : Fin (n * N)) :
    BoxLip fun u => radRhs src bat A Ml dir u k := by
  obtain ⟨⟨j, i⟩, rfl⟩ := finProdFinEquiv.surjective k
  simp only [radRhs_apply]
  by_cases h : i ∈ dir
  · simp only [h, if_true]
    exact boxLip_const 0
  · simp only [h, if_false, Matrix.mul_apply, div_eq_mul_inv]
    exact ((BoxLip.sum _ fun c => (lip_entry i c).mul (boxLip_const _)).add (hsrc.1 i j)).sub
      ((BoxLip.sum _ fun x => (boxLip_const _).mul (lip_entry x j)).mul (boxLip_const _))

theorem rad_inward {src : Arr N n → Arr N n} (hsrc : QuasiPositive src) {bat : Mat n} (hbat : ∀ j c, j ≠ c → 0 ≤ bat j c)
    {A : Mat N} (hA : ∀ i k, i ≠ k → A i k ≤ 0) {Ml : Vec N} (hMl : ∀ i, 0 < Ml i) (dir : List (Fin N)) (u : Vec (n * N)) (hu : ∀ k, 0 ≤ u k)
    (k : Fin (n * N)) (hk : u k = 0) : 0 ≤ radRhs src bat A Ml dir u k := by
  obtain ⟨κ, s, e1, e2, e3, e4⟩ := hsrc
  obtain ⟨⟨j, i⟩, rfl⟩ := finProdFinEquiv.surjective k
  have hz : (unflat u : Arr N n) i j = 0 := hk
  have hp : ∀ i j, 0 ≤ (unflat u : Arr N n) i j := fun i j => hu _
  rw [radRhs_apply]
  split_ifs
  · exact le_rfl
  rw [e1, Matrix.mul_apply, Matrix.mul_apply]
  refine sub_nonneg.2 (le_trans (b := 0) ?_ (add_nonneg ?_ (add_nonneg ?_ (e3 _ _ _))))
  · refine div_nonpos_of_nonpos_of_nonneg (Finset.sum_nonpos fun x _ => ?_) (hMl i).le
    by_cases hx : i = x
    · subst hx; rw [hz, mul_zero]
    · exact mul_nonpos_of_nonpos_of_nonneg (hA i x hx) (hp x j)
  · refine Finset.sum_nonneg fun c _ => ?_
    by_cases hc : j = c
    · subst hc; rw [hz, zero_mul]
    · exact mul_nonneg (hp i c) (hbat j c hc)
  · refine Finset.sum_nonneg fun c _ => ?_
    by_cases hc : j = c
    · subst hc; rw [hz, mul_zero]
    · exact mul_nonneg (e2 _ _ _ _ hc) (hp i c)

theorem rad_growth {src : Arr N n → Arr N n} (hsrc : TameSource src) (bat : Mat n) (A : Mat N) (Ml : Vec N) (dir : List (Fin N)) :
    ∃ a B, 0 ≤ a ∧ 0 ≤ B ∧ ∀ u : Vec (n * N), (∀ k, 0 ≤ u k) → ∑ k, radRhs src bat A Ml dir u k ≤ a * ∑ k, u k + B := by
  obtain ⟨_, a, B, ha, hB, hs⟩ := hsrc
  have hlin : 0 ≤ ∑ i : Fin N, ∑ j : Fin n, (∑ c, |bat j c| + ∑ x, |A i x / Ml i|) :=
    Finset.sum_nonneg fun i _ => Finset.sum_nonneg fun j _ => add_nonneg (Finset.sum_nonneg fun _ _ => abs_nonneg _)
      (Finset.sum_nonneg fun _ _ => abs_nonneg _)
  refine ⟨(∑ i : Fin N, ∑ j : Fin n, (∑ c, |bat j c| + ∑ x, |A i x / Ml i|)) + N * a, N * B, by positivity, by positivity, fun u hu => ?_⟩
  obtain ⟨S, hS⟩ : ∃ S, S = ∑ k, u k := ⟨_, rfl⟩
  have hS0 : 0 ≤ S := by rw [hS]; exact Finset.sum_nonneg fun k _ => hu k
  have hp : ∀ i j, 0 ≤ (unflat u : Arr N n) i j := fun i j => hu _
  have hle : ∀ i j, (unflat u : Arr N n) i j ≤ S := fun i j => by
    rw [hS]; exact Finset.single_le_sum (fun k _ => hu k) (Finset.mem_univ (finProdFinEquiv (j, i)))
  have hrow : ∀ i, ∑ j, (unflat u : Arr N n) i j ≤ S := by
    intro i
    rw [hS, ← finProdFinEquiv.sum_comp, Fintype.sum_prod_type, Finset.sum_comm]
    exact Finset.single_le_sum (f := fun i => ∑ j, u (finProdFinEquiv (j, i))) (fun i _ => Finset.sum_nonneg fun j _ => hu _) (Finset.mem_univ i)
  rw [← hS, ← finProdFinEquiv.sum_comp, Fintype.sum_prod_type, Finset.sum_comm]
  have hi : ∀ i, ∑ j, radRhs src bat A Ml dir u (finProdFinEquiv (j, i))
      ≤ (∑ j : Fin n, (∑ c, |bat j c| + ∑ x, |A i x / Ml i|)) * S + (a * S + B) := by
    intro i
    simp only [radRhs_apply]
    by_cases hd : i ∈ dir
    · simp only [hd, if_true, Finset.sum_const_zero]
      have : 0 ≤ ∑ j : Fin n, (∑ c, |bat j c| + ∑ x, |A i x / Ml i|) := Finset.sum_nonneg fun j _ =>
        add_nonneg (Finset.sum_nonneg fun _ _ => abs_nonneg _) (Finset.sum_nonneg fun _ _ => abs_nonneg _)
      positivity
    · simp only [hd, if_false]
      have h1 : ∀ j, (unflat u * batᵀ) i j ≤ (∑ c, |bat j c|) * S := by
        intro j
        rw [Matrix.mul_apply, Finset.sum_mul]
        refine Finset.sum_le_sum fun c _ => ?_
        rw [Matrix.transpose_apply, mul_comm]
        calc bat j c * unflat u i c ≤ |bat j c| * unflat u i c := mul_le_mul_of_nonneg_right (le_abs_self _) (hp i c)
          _ ≤ |bat j c| * S := mul_le_mul_of_nonneg_left (hle i c) (abs_nonneg _)
      have h2 : ∀ j, -((A * unflat u) i j / Ml i) ≤ (∑ x, |A i x / Ml i|) * S := by
        intro j
        rw [Matrix.mul_apply, Finset.sum_mul, Finset.sum_div, ← Finset.sum_neg_distrib]
        refine Finset.sum_le_sum fun x _ => ?_
        calc -(A i x * unflat u x j / Ml i) = (-(A i x / Ml i)) * unflat u x j := by ring
          _ ≤ |A i x / Ml i| * unflat u x j := mul_le_mul_of_nonneg_right (neg_le_abs _) (hp x j)
          _ ≤ |A i x / Ml i| * S := mul_le_mul_of_nonneg_left (hle x j) (abs_nonneg _)
      have h3 := hs (unflat u) hp i
      have h4 := mul_le_mul_of_nonneg_left (hrow i) ha
      calc ∑ j, ((unflat u * batᵀ) i j + src (unflat u) i j - (A * unflat u) i j / Ml i)
          = ∑ j, ((unflat u * batᵀ) i j + -((A * unflat u) i j / Ml i)) + ∑ j, src (unflat u) i j := by
            rw [← Finset.sum_add_distrib]
            exact Finset.sum_congr rfl fun j _ => by ring
        _ ≤ ∑ j, ((∑ c, |bat j c|) * S + (∑ x, |A i x / Ml i|) * S) + (a * S + B) :=
            add_le_add (Finset.sum_le_sum fun j _ => add_le_add (h1 j) (h2 j)) (h3.trans (by linarith))
        _ = _ := by
            simp only [← add_mul]
            rw [← Finset.sum_mul]
  refine (Finset.sum_le_sum fun i _ => hi i).trans (le_of_eq ?_)
  rw [Finset.sum_add_distrib, ← Finset.sum_mul, Finset.sum_const, Finset.card_univ, Fintype.card_fin, nsmul_eq_mul]
  ring

/-- **C119, existence and uniqueness.** From every nonnegative state the system has a solution on every time interval, and it is the
only one; it is nonnegative. -/
theorem C119_exists {src : Arr N n → Arr N n} (hq : QuasiPositive src) (ht : TameSource src) {bat : Mat n}
    (hbat : ∀ j c, j ≠ c → 0 ≤ bat j c) {A : Mat N} (hA : ∀ i k, i ≠ k → A i k ≤ 0) {Ml : Vec N} (hMl : ∀ i, 0 < Ml i) (dir : List (Fin N))
    {y0 : Vec (n * N)} (hy0 : ∀ k, 0 ≤ y0 k) {t0 t1 : ℝ} (h01 : t0 ≤ t1) :
    ∃ U : ℝ → Vec (n * N), U t0 = y0 ∧ (∀ t ∈ Set.Icc t0 t1, HasDerivAt U (radRhs src bat A Ml dir (U t)) t ∧ ∀ k, 0 ≤ U t k) ∧
      ∀ V : ℝ → Vec (n * N), V t0 = y0 → (∀ t ∈ Set.Icc t0 t1, HasDerivAt V (radRhs src bat A Ml dir (V t)) t) →
        ∀ t ∈ Set.Icc t0 t1, V t = U t := by
  obtain ⟨a, B, ha, hB, hg⟩ := rad_growth ht bat A Ml dir
  obtain ⟨U, hU0, hU⟩ := positive_global (rad_lip ht bat A Ml dir) (rad_inward hq hbat hA hMl dir) ha hB hg hy0 h01
  refine ⟨U, hU0, fun t h => ⟨(hU t h).1, (hU t h).2.1⟩, fun V hV0 hV t h => ?_⟩
  have hVp := C119_positive hq hbat hA hMl dir hV (by rw [hV0]; exact hy0)
  exact positive_unique (rad_lip ht bat A Ml dir) hV (fun t h => (hU t h).1) hVp (fun t h => (hU t h).2.1) (hV0.trans hU0.symm) h

/-- **C119, the shipped systems are well posed**: existence and uniqueness for the two-, three- and nine-species systems. -/
theorem C119_well_posed {m : LineMesh ne N 2} {Q : Quad 2} (hq : semQuad 1 = .ok Q) (hh : ∀ e, 0 < m.h e)
    {nu vel tau : Fin ne → ℝ} (hpe : ∀ e, |vel e| * m.h e ≤ 2 * nu e + tau e * m.h e * vel e)
    {bd : Option (Ends N)} {A : Mat N} {Ml b : Vec N}
    (h : semAssemble m Q (elemFields nu vel tau) bd = some (A, Ml, b)) (hMl : ∀ i, 0 < Ml i) (xs : Vec N)
    {bat2 : Mat 2} (h2 : genBatemanMatrix keymap2 decayLib2 = .ok bat2) {bat3 : Mat 3} (h3 : genBatemanMatrix keymap3 decayLib3 = .ok bat3)
    {bat9 tr fis : Mat 9} (h9 : genBatemanMatrix keymap9 decayLib9 = .ok bat9)
    (htr : genTransmuteMatrix keymap9 (transmuteLib (9 / 1000)) = .ok tr) (hfis : genTransmuteMatrix keymap9 fissionLib9 = .ok fis)
    {t0 t1 : ℝ} (h01 : t0 ≤ t1) :
    (∀ y0 : Vec (2 * N), (∀ k, 0 ≤ y0 k) → ∃ U : ℝ → Vec (2 * N), U t0 = y0 ∧
      (∀ t ∈ Set.Icc t0 t1, HasDerivAt U (radRhs sourceEvap2 bat2 A Ml (dirichletBd bd) (U t)) t ∧ ∀ k, 0 ≤ U t k) ∧
      ∀ V : ℝ → Vec (2 * N), V t0 = y0 → (∀ t ∈ Set.Icc t0 t1, HasDerivAt V (radRhs sourceEvap2 bat2 A Ml (dirichletBd bd) (V t)) t) →
        ∀ t ∈ Set.Icc t0 t1, V t = U t) ∧
    (∀ y0 : Vec (3 * N), (∀ k, 0 ≤ y0 k) → ∃ U : ℝ → Vec (3 * N), U t0 = y0 ∧
      (∀ t ∈ Set.Icc t0 t1, HasDerivAt U (radRhs (fun _ => 0) bat3 A Ml (dirichletBd bd) (U t)) t ∧ ∀ k, 0 ≤ U t k) ∧
      ∀ V : ℝ → Vec (3 * N), V t0 = y0 → (∀ t ∈ Set.Icc t0 t1, HasDerivAt V (radRhs (fun _ => 0) bat3 A Ml (dirichletBd bd) (V t)) t) →
        ∀ t ∈ Set.Icc t0 t1, V t = U t) ∧
    (∀ y0 : Vec (9 * N), (∀ k, 0 ≤ y0 k) → ∃ U : ℝ → Vec (9 * N), U t0 = y0 ∧
      (∀ t ∈ Set.Icc t0 t1, HasDerivAt U (radRhs (src9 fis tr xs) bat9 A Ml (dirichletBd bd) (U t)) t ∧ ∀ k, 0 ≤ U t k) ∧
      ∀ V : ℝ → Vec (9 * N), V t0 = y0 → (∀ t ∈ Set.Icc t0 t1, HasDerivAt V (radRhs (src9 fis tr xs) bat9 A Ml (dirichletBd bd) (V t)) t) →
        ∀ t ∈ Set.Icc t0 t1, V t = U t) := by
  have hA : ∀ i k, i ≠ k → A i k ≤ 0 := fun i k hik => C118_couplings hq hh hpe h hik
  obtain ⟨f1, f2⟩ := fissionLib_spec (sigma := 1 / 10000) (y0 := 1 / 100) (y1 := 3 / 100) (y2 := 2 / 100) (y3 := 18 / 100) (y4 := 15 / 100)
    (by norm_num) (by norm_num) (by norm_num) (by norm_num) (by norm_num) (by norm_num)
  obtain ⟨g1, g2⟩ := fission_matrix zero_le_one f1 f2 hfis
  have hq9 : QuasiPositive (src9 fis tr xs) := quasi_src9 (fun j => Finset.sum_nonneg fun c _ => by
    by_cases hc : j = c
    · subst hc; exact g2 j
    · exact (g1 j c hc).ge) (transmute_metzler zero_le_one (transmuteLib_sign (by norm_num)) htr) xs
  exact ⟨fun y0 hy => C119_exists quasi_evap2 tame_evap2 (bateman_metzler decay2_nonneg h2) hA hMl _ hy h01,
    fun y0 hy => C119_exists quasi_zero tame_zero (bateman_metzler decay3_nonneg h3) hA hMl _ hy h01,
    fun y0 hy => C119_exists hq9 (tame_src9 fis tr xs) (bateman_metzler decay9_nonneg h9) hA hMl _ hy h01⟩

/-! ### sharpness: when concentrations do become negative -/

/-- **C119, what happens beyond the Péclet bound.** If one coupling of the discretisation has the wrong sign, a solution that
starts nonnegative (one species at one point) becomes negative at once, for every source term that vanishes where nothing is
there. -/
theorem C119_negative {src : Arr N n → Arr N n} (hsrc : ∀ un i, (∀ c, un i c = 0) → ∀ j, src un i j = 0) (bat : Mat n) {A : Mat N} {Ml : Vec N}
    {dir : List (Fin N)} {i k : Fin N} (hik : i ≠ k) (hA : 0 < A i k) (hMl : 0 < Ml i) (hi : i ∉ dir) (j : Fin n) {c : ℝ} (hc : 0 < c)
    {U : ℝ → Vec (n * N)} {t0 : ℝ} (h0 : U t0 = flattenU fun x y => if x = k ∧ y = j then c else 0)
    (hU : HasDerivAt U (radRhs src bat A Ml dir (U t0)) t0) :
    ∃ δ > 0, ∀ t, t0 < t → t < t0 + δ → U t (finProdFinEquiv (j, i)) < 0 := by
  have hun : (unflat (U t0) : Fin N → Fin n → ℝ) = fun x y => if x = k ∧ y = j then c else 0 := by
    rw [h0]; exact unflat_flat _
  have hrow : ∀ y, (unflat (U t0) : Arr N n) i y = 0 := by
    intro y
    rw [congrFun (congrFun hun i) y, if_neg (fun h => hik h.1)]
  have hd := hasDerivAt_pi.1 hU (finProdFinEquiv (j, i))
  rw [radRhs_apply, if_neg hi, hsrc _ i hrow] at hd
  have e1 : (unflat (U t0) * batᵀ) i j = 0 := by
    rw [Matrix.mul_apply]
    exact Finset.sum_eq_zero fun y _ => by rw [hrow y, zero_mul]
  have e2 : (A * unflat (U t0)) i j = A i k * c := by
    rw [Matrix.mul_apply, Finset.sum_eq_single k]
    · rw [congrFun (congrFun hun k) j]; simp
    · intro x _ hx
      rw [congrFun (congrFun hun x) j, if_neg (fun h => hx h.1), mul_zero]
    · intro h; exact absurd (Finset.mem_univ _) h
  rw [e1, e2] at hd
  have hz : U t0 (finProdFinEquiv (j, i)) = 0 := hrow j
  have hneg : 0 + 0 - A i k * c / Ml i < 0 := by
    have : 0 < A i k * c / Ml i := by positivity
    linarith
  have hs := hd.tendsto_slope_zero_right
  have hev := hs.eventually (gt_mem_nhds hneg)
  rw [eventually_nhdsWithin_iff, Metric.eventually_nhds_iff] at hev
  obtain ⟨δ, hδ, hev⟩ := hev
  refine ⟨δ, hδ, fun t h1 h2 => ?_⟩
  have h3 : t - t0 > 0 := sub_pos.2 h1
  have := hev (y := t - t0) (by rw [Real.dist_eq, sub_zero, abs_of_pos h3]; linarith) h3
  rw [hz, sub_zero, smul_eq_mul, add_sub_cancel] at this
  by_contra hge
  exact absurd this (not_lt.2 (mul_nonneg (inv_nonneg.2 h3.le) (not_lt.1 hge)))

end
end Ormatex.Props
