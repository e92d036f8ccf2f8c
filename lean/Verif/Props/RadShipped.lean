import Verif.Props.RadRun
import Verif.Model.RadData
import Verif.Props.BatemanFlow

/-!
C119: the shipped reaction systems.
-/

namespace Ormatex.Props
open Matrix Ormatex.Spec

noncomputable section
variable {N n ne r : ℕ} {P : Type} [EmptyCollection P]
set_option linter.unusedSectionVars false

/-! ### the libraries -/

theorem libOf_branches (l : List (String × LibEntry)) (k : String) (b : String × ℝ) (h : b ∈ branchesOf (libOf l) k) :
    ∃ e ∈ l, e.1 = k ∧ b ∈ branchList e.2 := by
  unfold branchesOf libOf at h
  induction l with
  | nil => simp at h
  | cons a l ih =>
    rw [List.lookup_cons] at h
    by_cases hk : k == a.1
    · simp only [hk] at h
      exact ⟨a, by simp, (beq_iff_eq.1 hk).symm, h⟩
    · simp only [hk] at h
      obtain ⟨e, h1, h2⟩ := ih h
      exact ⟨e, List.mem_cons_of_mem _ h1, h2⟩

theorem nonneg_libOf {l : List (String × LibEntry)} (h : ∀ e ∈ l, ∀ b ∈ branchList e.2, 0 ≤ b.2) : NonnegLib (libOf l) := by
  intro k b hb
  obtain ⟨e, h1, _, h2⟩ := libOf_branches l k b hb
  exact h e h1 b h2

theorem log2_nonneg : 0 ≤ Real.log 2 := Real.log_nonneg (by norm_num)

theorem decay2_nonneg : NonnegLib decayLib2 := by
  refine nonneg_libOf ?_
  simp [branchList]
  norm_num

theorem decay3_nonneg : NonnegLib decayLib3 := by
  refine nonneg_libOf ?_
  simp [branchList]

theorem decay9_nonneg : NonnegLib decayLib9 := by
  have h : ∀ x : ℝ, 0 ≤ x → 0 ≤ Real.log 2 / x := fun x hx => div_nonneg log2_nonneg hx
  refine nonneg_libOf ?_
  simp only [branchList, List.forall_mem_cons, List.not_mem_nil, false_implies, implies_true, and_true]
  refine ⟨?_, ?_, ?_, h _ ?_, h _ ?_, h _ ?_, h _ ?_, h _ ?_, h _ ?_⟩ <;> norm_num

theorem decayTank_nonneg : NonnegLib decayLibTank := by
  have h : ∀ x : ℝ, 0 ≤ x → 0 ≤ Real.log 2 / x := fun x hx => div_nonneg log2_nonneg hx
  refine nonneg_libOf ?_
  simp only [branchList, List.forall_mem_cons, List.not_mem_nil, false_implies, implies_true, and_true]
  refine ⟨?_, ?_, ?_, h _ ?_, h _ ?_, h _ ?_, h _ ?_, ⟨h _ ?_, h _ ?_⟩, add_nonneg (h _ ?_) (h _ ?_)⟩ <;> norm_num

theorem keymap_gen_ok {keymap : List String} {lib : BatemanLib}
    (h : ∀ k ∈ keymap, branchesOf lib k ≠ [] ∧ ∀ b ∈ branchesOf lib k, b.1 = "none" ∨ b.1 ∈ keymap) :
    ∃ M, genBatemanMatrix keymap lib = .ok M := (C55_refusal keymap lib).1.2 h

/-- the transmutation matrix of a library with nonpositive values has nonnegative gains -/
theorem transmute_metzler {keymap : List String} {lib : BatemanLib} {phi : ℝ} (hphi : 0 ≤ phi)
    (hl : ∀ k, ∀ b ∈ branchesOf lib k, b.2 ≤ 0) {M : Mat keymap.length} (h : genTransmuteMatrix keymap lib phi = .ok M) :
    ∀ i j, i ≠ j → 0 ≤ M i j := by
  cases hg : genBatemanMatrix keymap lib with
  | error e => rw [(C55_transmute keymap lib phi).2 e hg] at h; cases h
  | ok G =>
    rw [(C55_transmute keymap lib phi).1 G hg] at h
    cases h
    intro i j hij
    rw [Matrix.smul_apply, smul_eq_mul, gen_entries hg, if_neg hij, sub_zero, neg_mul, ← mul_neg]
    refine mul_nonneg hphi (neg_nonneg.2 ?_)
    have : ∀ l : List ℝ, (∀ x ∈ l, x ≤ 0) → l.sum ≤ 0 := by
      intro l
      induction l with
      | nil => simp
      | cons a l ih =>
        intro h
        rw [List.sum_cons]
        exact add_nonpos (h a (by simp)) (ih fun x hx => h x (by simp [hx]))
    refine this _ fun x hx => ?_
    obtain ⟨b, hb, rfl⟩ := List.mem_map.1 hx
    exact hl _ b (List.mem_of_mem_filter hb)

/-- a library of pure sources (products leave the system) with nonnegative yields gives a nonnegative diagonal matrix -/
theorem fission_matrix {keymap : List String} {lib : BatemanLib} {phi : ℝ} (hphi : 0 ≤ phi)
    (hl : NonnegLib lib) (hn : ∀ k, ∀ b ∈ branchesOf lib k, b.1 = "none") {M : Mat keymap.length}
    (h : genTransmuteMatrix keymap lib phi = .ok M) :
    (∀ i j, i ≠ j → M i j = 0) ∧ ∀ i, 0 ≤ M i i := by
  cases hg : genBatemanMatrix keymap lib with
  | error e => rw [(C55_transmute keymap lib phi).2 e hg] at h; cases h
  | ok G =>
    rw [(C55_transmute keymap lib phi).1 G hg] at h
    cases h
    have hz : ∀ (k : String) (i : Fin keymap.length),
        (branchesOf lib k).filter (fun b => decide (b.1 ≠ "none" ∧ keydict keymap b.1 = some i)) = [] := by
      intro k i
      rw [List.filter_eq_nil_iff]
      intro b hb
      simp [hn k b hb]
    constructor
    · intro i j hij
      rw [Matrix.smul_apply, smul_eq_mul, gen_entries hg, if_neg hij, hz]
      simp
    · intro i
      rw [Matrix.smul_apply, smul_eq_mul, gen_entries hg, if_pos rfl, hz]
      simp only [List.map_nil, List.sum_nil, zero_sub, mul_neg, neg_mul, neg_neg]
      refine mul_nonneg hphi (List.sum_nonneg fun x hx => ?_)
      obtain ⟨b, hb, rfl⟩ := List.mem_map.1 hx
      exact hl _ b hb

theorem transmuteLib_sign {sigma : ℝ} (hs : 0 ≤ sigma) (k : String) (b : String × ℝ) (hb : b ∈ branchesOf (transmuteLib sigma) k) : b.2 ≤ 0 := by
  obtain ⟨e, h1, _, h2⟩ := libOf_branches _ k b hb
  have key : ∀ e ∈ [("c_0_a", LibEntry.single "none" 0), ("c_1_a", .single "none" 0), ("c_2_a", .single "none" 0),
      ("te_135_a", .single "none" 0), ("i_135_a", .single "none" 0), ("xe_135_a", .single "none" (-sigma)),
      ("cs_135_a", .single "none" 0), ("xe_135_v", .single "none" (-sigma)), ("cs_135_v", .single "none" 0)],
      ∀ b ∈ branchList e.2, b.2 ≤ 0 := by
    simp [branchList, hs]
  exact key e h1 b h2

theorem fissionLib_spec {sigma y0 y1 y2 y3 y4 : ℝ} (hs : 0 ≤ sigma) (h0 : 0 ≤ y0) (h1 : 0 ≤ y1) (h2 : 0 ≤ y2) (h3 : 0 ≤ y3) (h4 : 0 ≤ y4) :
    NonnegLib (fissionLib sigma y0 y1 y2 y3 y4) ∧
    ∀ k, ∀ b ∈ branchesOf (fissionLib sigma y0 y1 y2 y3 y4) k, b.1 = "none" := by
  constructor
  · refine nonneg_libOf ?_
    simp [branchList]
    refine ⟨?_, ?_, ?_, ?_, ?_⟩ <;> positivity
  · intro k b hb
    obtain ⟨e, h1, _, h2⟩ := libOf_branches _ k b hb
    clear hb
    revert b h2
    revert e
    simp [branchList]

/-- **C119, the shipped matrices exist**: the libraries of all four examples are accepted. -/
theorem C119_shipped :
    (∃ M, genBatemanMatrix keymap2 decayLib2 = .ok M) ∧ (∃ M, genBatemanMatrix keymap3 decayLib3 = .ok M) ∧
    (∃ M, genBatemanMatrix keymap9 decayLib9 = .ok M) ∧ (∃ M, genBatemanMatrix keymap9 decayLibTank = .ok M) ∧
    (∀ s, ∃ M, genTransmuteMatrix keymap9 (transmuteLib s) = .ok M) ∧
    (∃ M, genTransmuteMatrix keymap9 fissionLib9 = .ok M) ∧ (∃ M, genTransmuteMatrix keymap9 fissionLibTank = .ok M) := by
  have tr : ∀ lib : BatemanLib, (∃ M, genBatemanMatrix keymap9 lib = .ok M) → ∃ M, genTransmuteMatrix keymap9 lib = .ok M :=
    fun lib ⟨M, h⟩ => ⟨_, (C55_transmute keymap9 lib 1).1 M h⟩
  have hf : ∀ s a b c d e, ∃ M, genTransmuteMatrix keymap9 (fissionLib s a b c d e) = .ok M := fun s a b c d e =>
    tr _ (keymap_gen_ok (by simp [branchesOf, fissionLib, libOf, List.lookup, branchList]))
  refine ⟨keymap_gen_ok ?_, keymap_gen_ok ?_, keymap_gen_ok ?_, keymap_gen_ok ?_, fun s => tr _ (keymap_gen_ok ?_), hf _ _ _ _ _ _, hf _ _ _ _ _ _⟩
  · simp [branchesOf, decayLib2, libOf, List.lookup, branchList]
  · simp [branchesOf, decayLib3, libOf, List.lookup, branchList]
  · simp [branchesOf, decayLib9, libOf, List.lookup, branchList]
  · simp [branchesOf, decayLibTank, libOf, List.lookup, branchList]
    rintro a b (⟨rfl, _⟩ | ⟨rfl, _⟩) <;> simp
  · simp [branchesOf, transmuteLib, libOf, List.lookup, branchList]

/-! ### the systems on the mesh -/

/-- **C119, two species.** The system of `rad_1d_2s.py` on any assembled mesh with linear elements and Péclet numbers at most 2:
solutions that start nonnegative stay nonnegative, and on periodic meshes the total amount never increases. -/
theorem C119_two {m : LineMesh ne N 2} {Q : Quad 2} (hq : semQuad 1 = .ok Q) (hh : ∀ e, 0 < m.h e)
    {nu vel tau : Fin ne → ℝ} (hpe : ∀ e, |vel e| * m.h e ≤ 2 * nu e + tau e * m.h e * vel e)
    {bd : Option (Ends N)} {A : Mat N} {Ml b : Vec N}
    (h : semAssemble m Q (elemFields nu vel tau) bd = some (A, Ml, b)) (hMl : ∀ i, 0 < Ml i)
    {bat : Mat 2} (hbat : genBatemanMatrix keymap2 decayLib2 = .ok bat) {U : ℝ → Vec (2 * N)} {t0 t1 : ℝ}
    (hU : ∀ t ∈ Set.Icc t0 t1, HasDerivAt U (radRhs sourceEvap2 bat A Ml (dirichletBd bd) (U t)) t) (h0 : ∀ k, 0 ≤ U t0 k) :
    (∀ t ∈ Set.Icc t0 t1, ∀ k, 0 ≤ U t k) ∧
    (bd = none → ∀ s ∈ Set.Icc t0 t1, ∀ t ∈ Set.Icc t0 t1, s ≤ t →
      ∑ i, Ml i * ∑ j, unflat (U t) i j ≤ ∑ i, Ml i * ∑ j, unflat (U s) i j) := by
  have hpos := C119_positive quasi_evap2 (bateman_metzler decay2_nonneg hbat) (fun i k hik => C118_couplings hq hh hpe h hik) hMl
    (dirichletBd bd) hU h0
  refine ⟨hpos, ?_⟩
  rintro rfl s hs t ht hst
  have := C119_total (r := 0) (cw := fun _ => 1) hq h hMl (src := sourceEvap2) (bat := bat) (fun c => by
    simpa using bateman_columns decay2_nonneg hbat c) (fun un _ i => by
    simp only [one_mul, Fin.sum_univ_two]
    unfold sourceEvap2 colAdd
    simp) (U := U) hU hpos hs ht hst
  simpa [speciesTotal] using this

/-- **C119, three species.** The same for `rad_1d_3s.py`. -/
theorem C119_three {m : LineMesh ne N 2} {Q : Quad 2} (hq : semQuad 1 = .ok Q) (hh : ∀ e, 0 < m.h e)
    {nu vel tau : Fin ne → ℝ} (hpe : ∀ e, |vel e| * m.h e ≤ 2 * nu e + tau e * m.h e * vel e)
    {bd : Option (Ends N)} {A : Mat N} {Ml b : Vec N}
    (h : semAssemble m Q (elemFields nu vel tau) bd = some (A, Ml, b)) (hMl : ∀ i, 0 < Ml i)
    {bat : Mat 3} (hbat : genBatemanMatrix keymap3 decayLib3 = .ok bat) {U : ℝ → Vec (3 * N)} {t0 t1 : ℝ}
    (hU : ∀ t ∈ Set.Icc t0 t1, HasDerivAt U (radRhs (fun _ => 0) bat A Ml (dirichletBd bd) (U t)) t) (h0 : ∀ k, 0 ≤ U t0 k) :
    (∀ t ∈ Set.Icc t0 t1, ∀ k, 0 ≤ U t k) ∧
    (bd = none → ∀ s ∈ Set.Icc t0 t1, ∀ t ∈ Set.Icc t0 t1, s ≤ t →
      ∑ i, Ml i * ∑ j, unflat (U t) i j ≤ ∑ i, Ml i * ∑ j, unflat (U s) i j) := by
  have hpos := C119_positive quasi_zero (bateman_metzler decay3_nonneg hbat) (fun i k hik => C118_couplings hq hh hpe h hik) hMl
    (dirichletBd bd) hU h0
  refine ⟨hpos, ?_⟩
  rintro rfl s hs t ht hst
  have := C119_total (r := 0) (cw := fun _ => 1) hq h hMl (src := fun _ => 0) (bat := bat) (fun c => by
    simpa using bateman_columns decay3_nonneg hbat c) (fun un _ i => by simp) (U := U) hU hpos hs ht hst
  simpa [speciesTotal] using this

/-- **C119, nine species.** The system of `rad_1d_9s.py`, with its decay, transmutation and fission data, evaporation and gas
purification, for any collocation points: solutions that start nonnegative stay nonnegative. -/
theorem C119_nine {m : LineMesh ne N 2} {Q : Quad 2} (hq : semQuad 1 = .ok Q) (hh : ∀ e, 0 < m.h e)
    {nu vel tau : Fin ne → ℝ} (hpe : ∀ e, |vel e| * m.h e ≤ 2 * nu e + tau e * m.h e * vel e)
    {bd : Option (Ends N)} {A : Mat N} {Ml b : Vec N}
    (h : semAssemble m Q (elemFields nu vel tau) bd = some (A, Ml, b)) (hMl : ∀ i, 0 < Ml i) (xs : Vec N)
    {bat tr fis : Mat 9} (hbat : genBatemanMatrix keymap9 decayLib9 = .ok bat)
    (htr : genTransmuteMatrix keymap9 (transmuteLib (9 / 1000)) = .ok tr) (hfis : genTransmuteMatrix keymap9 fissionLib9 = .ok fis)
    {U : ℝ → Vec (9 * N)} {t0 t1 : ℝ}
    (hU : ∀ t ∈ Set.Icc t0 t1, HasDerivAt U (radRhs (src9 fis tr xs) bat A Ml (dirichletBd bd) (U t)) t) (h0 : ∀ k, 0 ≤ U t0 k) :
    ∀ t ∈ Set.Icc t0 t1, ∀ k, 0 ≤ U t k := by
  obtain ⟨f1, f2⟩ := fissionLib_spec (sigma := 1 / 10000) (y0 := 1 / 100) (y1 := 3 / 100) (y2 := 2 / 100) (y3 := 18 / 100) (y4 := 15 / 100)
    (by norm_num) (by norm_num) (by norm_num) (by norm_num) (by norm_num) (by norm_num)
  obtain ⟨g1, g2⟩ := fission_matrix zero_le_one f1 f2 hfis
  refine C119_positive (quasi_src9 (fun j => ?_) (transmute_metzler zero_le_one (transmuteLib_sign (by norm_num)) htr) xs)
    (bateman_metzler decay9_nonneg hbat) (fun i k hik => C118_couplings hq hh hpe h hik) hMl (dirichletBd bd) hU h0
  refine Finset.sum_nonneg fun c _ => ?_
  by_cases hc : j = c
  · subst hc; exact g2 j
  · exact (g1 j c hc).ge

/-! ### the tank -/

theorem two_term (a b : Fin n) (hab : a ≠ b) (x y : ℝ) (v : Vec n) :
    ∑ j, (if j = a then x else if j = b then y else 0) * v j = x * v a + y * v b := by
  have : ∀ j, (if j = a then x else if j = b then y else 0) * v j = (if j = a then x * v a else 0) + (if j = b then y * v b else 0) := by
    intro j
    by_cases h1 : j = a
    · subst h1; simp [hab]
    · by_cases h2 : j = b
      · subst h2; simp [h1]
      · simp [h1, h2]
  simp only [this, Finset.sum_add_distrib]
  simp

theorem bubbleArea_nonneg (uG cvol alphaG nb : ℝ) (hnb : 0 ≤ nb) : 0 ≤ bubbleArea uG cvol alphaG nb := by
  unfold bubbleArea
  exact mul_nonneg (mul_nonneg (by linarith) Real.pi_pos.le) (by
    rw [Real.rpow_two]; exact sq_nonneg _)

theorem bubbleArea_continuous (cvol alphaG nb : ℝ) : Continuous fun uG => bubbleArea uG cvol alphaG nb := by
  unfold bubbleArea
  refine continuous_const.mul (Continuous.rpow_const (Continuous.rpow_const ?_ fun _ => Or.inr (by norm_num)) fun _ => Or.inr (by norm_num))
  fun_prop

/-- **C119, the stirred tank.** For the decay, transmutation and fission data of `bateman_nonlin_sys.py` and every flux
`n_phi ≥ 0`, with the bubble transfer between the dissolved and the gaseous xenon, solutions that start nonnegative stay
nonnegative.  (Where the gas volume would be negative the program computes `nan`, so a solution of the program's system never
gets there; at all other arguments the model is the program's right-hand side.) -/
theorem C119_tank {bat tr fis : Mat 9} (hbat : genBatemanMatrix keymap9 decayLibTank = .ok bat)
    (htr : genTransmuteMatrix keymap9 (transmuteLib (1 / 1000000000)) = .ok tr)
    (hfis : genTransmuteMatrix keymap9 fissionLibTank = .ok fis) {nPhi : ℝ} (hphi : 0 ≤ nPhi) (tankVol : ℝ)
    {U : ℝ → Vec 9} {t0 t1 : ℝ}
    (hU : ∀ t ∈ Set.Icc t0 t1, HasDerivAt U (nonlinBatemanRhs bat tr fis.diag nPhi tankVol 5 7 (U t)) t) (h0 : ∀ k, 0 ≤ U t0 k) :
    ∀ t ∈ Set.Icc t0 t1, ∀ k, 0 ≤ U t k := by
  obtain ⟨f1, f2⟩ := fissionLib_spec (sigma := 1 / 1000000000) (y0 := 3 / 100) (y1 := 2 / 100) (y2 := 1 / 100) (y3 := 20 / 100) (y4 := 1 / 100)
    (by norm_num) (by norm_num) (by norm_num) (by norm_num) (by norm_num) (by norm_num)
  obtain ⟨g1, g2⟩ := fission_matrix zero_le_one f1 f2 hfis
  have hm1 := bateman_metzler decayTank_nonneg hbat
  have hm2 := transmute_metzler zero_le_one (transmuteLib_sign (by norm_num)) htr
  set ρ : ℝ → ℝ := fun t => 1 / 100 * bubbleArea (U t 7) 100 (5 / 100) 10 with hρ
  have hρ0 : ∀ t, 0 ≤ ρ t := fun t => mul_nonneg (by norm_num) (bubbleArea_nonneg _ _ _ _ (by norm_num))
  obtain ⟨c1, hc1⟩ : ∃ c1 : ℝ, c1 = (1 / 10 ^ 4) * rgas * 900 / (5 / 100) := ⟨_, rfl⟩
  have hc1p : 0 ≤ c1 := by rw [hc1]; unfold rgas; norm_num
  set M : ℝ → Fin 9 → Fin 9 → ℝ := fun t i j => bat i j + nPhi * tr i j
    + ρ t * (if i = 5 then (if j = 7 then c1 else if j = 5 then -(100 / 95) else 0)
      else if i = 7 then (if j = 5 then 100 / 95 else if j = 7 then -c1 else 0) else 0) with hMdef
  have hUc : ContinuousOn U (Set.Icc t0 t1) := fun t ht => (hU t ht).continuousAt.continuousWithinAt
  have hρc : ContinuousOn ρ (Set.Icc t0 t1) := by
    refine continuousOn_const.mul ((bubbleArea_continuous 100 (5 / 100) 10).comp_continuousOn ?_)
    exact (continuous_apply (7 : Fin 9)).comp_continuousOn hUc
  have hbound : ∀ p q, ∃ C, ∀ t ∈ Set.Icc t0 t1, ‖M t p q‖ ≤ C := fun p q =>
    isCompact_Icc.exists_bound_of_continuousOn (continuousOn_const.add (hρc.mul continuousOn_const))
  choose C hC using hbound
  have hcpos : ∀ p q, ∀ t ∈ Set.Icc t0 t1, |M t p q| ≤ ∑ p, ∑ q, |C p q| := by
    intro p q t ht
    refine (hC p q t ht).trans ((le_abs_self _).trans ?_)
    refine (Finset.single_le_sum (f := fun q => |C p q|) (fun q _ => abs_nonneg _) (Finset.mem_univ q)).trans ?_
    exact Finset.single_le_sum (f := fun p => ∑ q, |C p q|) (fun p _ => Finset.sum_nonneg fun q _ => abs_nonneg _) (Finset.mem_univ p)
  refine metzler_nonneg (M := M) (b := fun _ i => nPhi * fis i i) (Y := U) (c := ∑ p, ∑ q, |C p q|)
    (fun t ht p q => hcpos p q t ht) (fun t _ i j hij => ?_) (fun t _ i => mul_nonneg hphi (g2 i)) (fun t ht i => ?_) h0
  · simp only [hMdef]
    refine add_nonneg (add_nonneg (hm1 i j hij) (mul_nonneg hphi (hm2 i j hij))) (mul_nonneg (hρ0 t) ?_)
    by_cases h5 : i = 5
    · subst h5
      rw [if_pos rfl, if_neg (Ne.symm hij)]
      split_ifs
      · exact hc1p
      · exact le_rfl
    · rw [if_neg h5]
      by_cases h7 : i = 7
      · subst h7
        rw [if_pos rfl, if_neg (Ne.symm hij)]
        split_ifs <;> norm_num
      · rw [if_neg h7]
  · refine (hasDerivAt_pi.1 (hU t ht) i).congr_deriv ?_
    have e1 : ∑ j, M t i j * U t j = (bat *ᵥ U t) i + nPhi * (tr *ᵥ U t) i
        + ρ t * (if i = 5 then c1 * U t 7 - 100 / 95 * U t 5 else if i = 7 then 100 / 95 * U t 5 - c1 * U t 7 else 0) := by
      simp only [hMdef, add_mul, Finset.sum_add_distrib, Matrix.mulVec, dotProduct, Finset.mul_sum]
      congr 1
      · congr 1
        exact Finset.sum_congr rfl fun j _ => by ring
      · simp only [mul_assoc, ← Finset.mul_sum]
        congr 1
        by_cases h5 : i = 5
        · subst h5
          simp only [if_true]
          rw [two_term 7 5 (by decide)]
          ring
        · by_cases h7 : i = 7
          · subst h7
            simp only [h5, if_true, if_false]
            rw [two_term 5 7 (by decide)]
            ring
          · simp [h5, h7]
    rw [e1]
    unfold nonlinBatemanRhs srcfXeAv atSet mxfBubble
    simp only [Pi.add_apply, Pi.smul_apply, smul_eq_mul, Matrix.diag_apply]
    have e2 : ρ t = 1 / 100 * bubbleArea (U t 7) 100 (5 / 100) 10 := rfl
    rw [← e2]
    have e3 : ∀ x y : ℝ, x / (5 / 100) * (1 / 10 ^ 4) * rgas * 900 - y / (1 - 5 / 100) = c1 * x - 100 / 95 * y := by
      intro x y
      rw [hc1]
      ring
    rw [e3]
    by_cases h5 : i = 5
    · subst h5
      simp
      ring
    · by_cases h7 : i = 7
      · subst h7
        simp
        ring
      · simp [h5, h7]

end
end Ormatex.Props
