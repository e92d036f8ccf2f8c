import Verif.Props.Bateman
import Verif.Props.LinExact
import Verif.Props.Krylov
import Mathlib.Analysis.Calculus.Deriv.MeanValue
import Mathlib.Analysis.SpecialFunctions.ExpDeriv

/-!
C56: Bateman dynamics keep concentrations nonnegative and never create mass.
-/

namespace Ormatex.Props
open Matrix Ormatex.Spec

section
variable {n : ℕ}

theorem pow_mulVec_nonneg {N : Mat n} (hN : ∀ i j, 0 ≤ N i j) {v : Vec n} (hv : ∀ i, 0 ≤ v i) (k : ℕ) :
    ∀ i, 0 ≤ (N ^ k *ᵥ v) i := by
  induction k with
  | zero => simpa using hv
  | succ k ih =>
    intro i
    rw [pow_succ', ← Matrix.mulVec_mulVec]
    exact dotProduct_nonneg_of_nonneg (fun j => hN i j) ih

theorem phi0_nonneg {N : Mat n} (hN : ∀ i j, 0 ≤ N i j) {v : Vec n} (hv : ∀ i, 0 ≤ v i) (i : Fin n) :
    0 ≤ (phiM 0 N *ᵥ v) i :=
  (phi_mulVec_hasSum 0 N v i).nonneg fun k =>
    mul_nonneg (by positivity) (pow_mulVec_nonneg hN hv k i)

/-- **C56, positivity of linear kinetics.** If the off-diagonal entries of `M` are nonnegative, solutions of `y' = M y` that
start nonnegative stay nonnegative. -/
theorem C56_positive {M : Mat n} (hM : ∀ i j, i ≠ j → 0 ≤ M i j) {Y : ℝ → Vec n} (hY : Solves M 0 0 Y) {t0 t : ℝ}
    (ht : t0 ≤ t) (h0 : ∀ i, 0 ≤ Y t0 i) (i : Fin n) : 0 ≤ Y t i := by
  set c : ℝ := ∑ i, |M i i| with hc
  have hdiag : ∀ i, 0 ≤ M i i + c := fun i => by
    have h1 : |M i i| ≤ c := Finset.single_le_sum (f := fun i => |M i i|) (fun _ _ => abs_nonneg _) (Finset.mem_univ i)
    linarith [neg_abs_le (M i i)]
  set N : Mat n := M + c • 1 with hNdef
  have hN : ∀ i j, 0 ≤ N i j := by
    intro i j
    rw [hNdef, Matrix.add_apply, Matrix.smul_apply, Matrix.one_apply]
    by_cases h : i = j
    · subst h; simpa using hdiag i
    · simpa [h] using hM i j h
  have hZ : Solves N 0 0 (fun s => Real.exp (c * (s - t0)) • Y s) := by
    intro s
    have he : HasDerivAt (fun s : ℝ => Real.exp (c * (s - t0))) (Real.exp (c * (s - t0)) * (c * 1)) s :=
      (((hasDerivAt_id s).sub_const t0).const_mul c).exp
    refine (he.smul (hY s)).congr_deriv ?_
    rw [hNdef]
    simp only [smul_zero, add_zero, Matrix.add_mulVec, Matrix.smul_mulVec, Matrix.one_mulVec, Matrix.mulVec_smul, mul_one,
      smul_add, smul_smul]
  have hflow := homogeneous_flow hZ t0 (t - t0)
  simp only [sub_self, mul_zero, Real.exp_zero, one_smul, add_sub_cancel] at hflow
  have hpos := phi0_nonneg (N := (t - t0) • N)
    (fun i j => mul_nonneg (sub_nonneg.2 ht) (hN i j)) h0 i
  rw [hflow] at hpos
  simp only [Pi.smul_apply, smul_eq_mul] at hpos
  exact nonneg_of_mul_nonneg_right hpos (Real.exp_pos _)

/-- derivative of the total -/
theorem total_deriv {M : Mat n} {Y : ℝ → Vec n} (hY : Solves M 0 0 Y) (s : ℝ) :
    HasDerivAt (fun s => ∑ i, Y s i) (∑ j, (∑ i, M i j) * Y s j) s := by
  have h := HasDerivAt.fun_sum (u := Finset.univ) (A := fun i s => Y s i) (A' := fun i => (M *ᵥ Y s + s • (0 : Vec n) + 0) i)
    (fun i _ => (hasDerivAt_pi.1 (hY s)) i)
  refine h.congr_deriv ?_
  simp only [smul_zero, add_zero, Matrix.mulVec, dotProduct]
  rw [Finset.sum_comm]
  simp only [Finset.sum_mul]

/-- **C56, total.** If moreover every column sum is at most zero, the total does not increase; if they are all zero it is
conserved (whatever the signs of the state). -/
theorem C56_total {M : Mat n} {Y : ℝ → Vec n} (hY : Solves M 0 0 Y) :
    ((∀ i j, i ≠ j → 0 ≤ M i j) → (∀ j, ∑ i, M i j ≤ 0) → ∀ t0 t1 t2, (∀ i, 0 ≤ Y t0 i) → t0 ≤ t1 → t1 ≤ t2 →
      ∑ i, Y t2 i ≤ ∑ i, Y t1 i) ∧
    ((∀ j, ∑ i, M i j = 0) → ∀ t1 t2, ∑ i, Y t1 i = ∑ i, Y t2 i) := by
  constructor
  · intro hM hcol t0 t1 t2 h0 h01 h12
    have hanti : AntitoneOn (fun s => ∑ i, Y s i) (Set.Ici t0) := by
      refine antitoneOn_of_deriv_nonpos (convex_Ici t0)
        (fun s _ => (total_deriv hY s).continuousAt.continuousWithinAt)
        (fun s _ => (total_deriv hY s).differentiableAt.differentiableWithinAt) (fun s hs => ?_)
      rw [(total_deriv hY s).deriv]
      rw [interior_Ici] at hs
      exact Finset.sum_nonpos fun j _ => mul_nonpos_of_nonpos_of_nonneg (hcol j) (C56_positive hM hY (le_of_lt hs) h0 j)
    exact hanti h01 (h01.trans h12) h12
  · intro hcol t1 t2
    refine is_const_of_deriv_eq_zero (f := fun s => ∑ i, Y s i) (fun s => (total_deriv hY s).differentiableAt)
      (fun s => ?_) t1 t2
    rw [(total_deriv hY s).deriv]
    simp [hcol]

/-! ### the matrix of a decay library -/

/-- every decay constant of the library is nonnegative -/
def NonnegLib (lib : BatemanLib) : Prop := ∀ k, ∀ b ∈ branchesOf lib k, 0 ≤ b.2

theorem filter_sum_nonneg {lib : BatemanLib} (h : NonnegLib lib) (k : String) (p : String × ℝ → Bool) :
    0 ≤ (((branchesOf lib k).filter p).map Prod.snd).sum := by
  refine List.sum_nonneg fun x hx => ?_
  obtain ⟨b, hb, rfl⟩ := List.mem_map.1 hx
  exact h k b (List.mem_of_mem_filter hb)

theorem bateman_metzler {keymap : List String} {lib : BatemanLib} (hl : NonnegLib lib) {M : Mat keymap.length}
    (h : genBatemanMatrix keymap lib = .ok M) : ∀ i j, i ≠ j → 0 ≤ M i j := by
  intro i j hij
  rw [gen_entries h, if_neg hij, sub_zero]
  exact filter_sum_nonneg hl _ _

theorem bateman_columns {keymap : List String} {lib : BatemanLib} (hl : NonnegLib lib) {M : Mat keymap.length}
    (h : genBatemanMatrix keymap lib = .ok M) : ∀ j, ∑ i, M i j ≤ 0 := by
  intro j
  rw [C55_column_sum h]
  exact neg_nonpos.2 (filter_sum_nonneg hl _ _)

/-- **C56, decay systems.** For every library with nonnegative decay constants, every species list it supports and every
solution of the decay system that starts nonnegative: concentrations stay nonnegative and the total never increases;
when no branch leads to `"none"` the total is conserved. -/
theorem C56_bateman {keymap : List String} {lib : BatemanLib} (hl : NonnegLib lib) {M : Mat keymap.length}
    (h : genBatemanMatrix keymap lib = .ok M) {Y : ℝ → Vec keymap.length} (hY : Solves M 0 0 Y) (t0 : ℝ)
    (h0 : ∀ i, 0 ≤ Y t0 i) :
    (∀ t, t0 ≤ t → ∀ i, 0 ≤ Y t i) ∧ (∀ t1 t2, t0 ≤ t1 → t1 ≤ t2 → ∑ i, Y t2 i ≤ ∑ i, Y t1 i) ∧
    ((∀ k ∈ keymap, ∀ b ∈ branchesOf lib k, b.1 ≠ "none") → ∀ t, ∑ i, Y t i = ∑ i, Y t0 i) := by
  refine ⟨fun t ht => C56_positive (bateman_metzler hl h) hY ht h0,
    fun t1 t2 h1 h2 => (C56_total hY).1 (bateman_metzler hl h) (bateman_columns hl h) t0 t1 t2 h0 h1 h2, fun hno t => ?_⟩
  refine (C56_total hY).2 (fun j => ?_) t t0
  rw [C55_column_sum h, rateTo, List.filter_eq_nil_iff.2]
  · simp
  · intro b hb
    simpa using hno _ (List.get_mem keymap j) b hb

variable {P : Type} [EmptyCollection P]

omit [EmptyCollection P] in
/-- `TestBatemanSysJac` is the linear system `y' = M y` with its Jacobian. -/
theorem batemanSys_forced (M : Mat n) (eps : ℝ) : ForcedSys (batemanSys (P := P) M eps) M 0 0 where
  frhs _ _ _ := by simp [batemanSys]
  jacMat _ _ _ _ := rfl
  jacDense _ _ _ := rfl
  jacFdt _ _ _ := rfl
  jacRhs _ _ _ := by simp [batemanSys, customJac]

/-- **C56, computed runs.** A run of `integrate` on the library's `TestBatemanSysJac` with any Rosenbrock or EPI method and
exact phi kernels, from a nonnegative state with a nonnegative step size: every saved state is nonnegative and the
saved totals never increase; they are all equal when no branch leads to `"none"`. -/
theorem C56_run {Q W : Type} {keymap : List String} {lib : BatemanLib} (hl : NonnegLib lib) {M : Mat keymap.length}
    (h : genBatemanMatrix keymap lib = .ok M) {K : Kernels keymap.length} (hK : ExactKernels K) (hasRust : Bool)
    (eps t0 : ℝ) (y0 : Vec keymap.length) (h0 : ∀ i, 0 ≤ y0 i) (m : String) (tol : ℝ) (s : ExpRB keymap.length)
    (hnew : ExpRB.new hasRust t0 y0 m tol = .ok s) (hm : m ∈ rosMethods) (dt : ℝ) (hdt : 0 ≤ dt) (nsteps : ℕ)
    (before : Option (W → ℝ → Vec keymap.length → P × W)) (after : Option (W → ℝ → Vec keymap.length → Q × W)) (w : W) :
    ∃ l, integrateOrmatex (rbStepper hasRust K (batemanSys M eps)) s y0 t0 dt nsteps before after w = .ok l ∧
      l.yRes.length = nsteps + 1 ∧ (∀ y ∈ l.yRes, ∀ i, 0 ≤ y i) ∧
      l.yRes.Pairwise (fun y y' => ∑ i, y' i ≤ ∑ i, y i) ∧
      ((∀ k ∈ keymap, ∀ b ∈ branchesOf lib k, b.1 ≠ "none") → ∀ y ∈ l.yRes, ∑ i, y i = ∑ i, y0 i) := by
  obtain ⟨Y, hY, rfl⟩ := solves_exists M 0 0 y0 t0
  obtain ⟨l, e, -, hy⟩ := C36_run hK hasRust (batemanSys (P := P) M eps) (batemanSys_forced M eps) hY t0 m tol s hnew hm
    (Or.inl rfl) dt nsteps before after w
  obtain ⟨c1, c2, c3⟩ := C56_bateman hl h hY t0 h0
  have hge : ∀ i : ℕ, t0 ≤ t0 + i * dt := fun i => by
    have : 0 ≤ (i : ℝ) * dt := by positivity
    linarith
  refine ⟨l, e, by simp [hy], ?_, ?_, ?_⟩
  · rw [hy]
    intro y hmem
    obtain ⟨i, -, rfl⟩ := List.mem_map.1 hmem
    exact c1 _ (hge i)
  · rw [hy, List.pairwise_map]
    refine List.pairwise_lt_range.imp fun {a b} hab => c2 _ _ (hge a) ?_
    have : (a : ℝ) * dt ≤ b * dt := mul_le_mul_of_nonneg_right (by exact_mod_cast hab.le) hdt
    linarith
  · intro hno
    rw [hy]
    intro y hmem
    obtain ⟨i, -, rfl⟩ := List.mem_map.1 hmem
    exact c3 hno _

/-- Non-vacuity: the two-species library of C55 satisfies the hypotheses, for a nonzero initial state. -/
example : NonnegLib exLib ∧ (∃ M, genBatemanMatrix ["xe", "cs"] exLib = .ok M) ∧
    (∃ s, ExpRB.new false 0 (fun _ : Fin 2 => (1 : ℝ)) "epi3" 0 = .ok s) ∧ "epi3" ∈ rosMethods := by
  refine ⟨?_, (C55_refusal ["xe", "cs"] exLib).1.2 ?_, ⟨_, rfl⟩, by decide⟩
  · intro k b hb
    unfold branchesOf exLib at hb
    split_ifs at hb <;> simp only [branchList] at hb
    · simp only [List.mem_cons, List.not_mem_nil, or_false] at hb
      rcases hb with rfl | rfl <;> norm_num
    · simp only [List.mem_cons, List.not_mem_nil, or_false] at hb
      subst hb; norm_num
    · simp at hb
  · simp [branchesOf, exLib, branchList]
    rintro a b (⟨rfl, _⟩ | ⟨rfl, _⟩) <;> simp

end
end Ormatex.Props
