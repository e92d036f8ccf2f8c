import Verif.Props.InvariantRun
import Verif.Props.BatemanFlow

/-!
C56 for the kernels the package really uses: conservation of the total is exact even when the Krylov, Leja, squaring or
partial-fraction evaluations are inaccurate.
-/

namespace Ormatex.Props
open Matrix Ormatex.Spec

section
variable {n : ℕ} {P : Type} [EmptyCollection P]
set_option linter.unusedSectionVars false

/-- a linear system whose matrix has zero column sums is tangent to the plane of constant total -/
theorem batemanSys_tangent (M : Mat n) (hM : ∀ j, ∑ i, M i j = 0) (eps : ℝ) (y0 : Vec n) :
    TangentTo (batemanSys (P := P) M eps) (orth fun _ => 1) y0 := by
  have h : ∀ v, M *ᵥ v ∈ orth (n := n) fun _ => 1 := by
    intro v
    show (fun _ => (1 : ℝ)) ⬝ᵥ M *ᵥ v = 0
    rw [dotProduct_mulVec]
    have : (fun _ => (1 : ℝ)) ᵥ* M = 0 := by
      funext j
      simpa [vecMul, dotProduct] using hM j
    rw [this, zero_dotProduct]
  exact ⟨fun _ _ y _ => h y, fun _ _ y _ => h y, fun _ _ _ _ => (orth _).zero_mem, fun _ _ _ _ v _ => h v,
    fun _ _ _ _ => Rets.ok fun v _ => h v, fun _ _ _ v _ => h v, fun _ _ _ => Rets.ok fun v _ => h v⟩

/-- **C56, totals with the kernels of the package.** On the library's `TestBatemanSysJac`, when no branch leads to `"none"`,
every saved state of every run has exactly the initial total, for every Rosenbrock, EPI (other than `exp_pfd(_rs)`), splitting,
RK4 and Leja method: truncation of the Krylov space, the pole table, unconverged Leja sums and rejected substeps cannot create
or destroy mass. -/
theorem C56_total_real {Q W : Type} {keymap : List String} {lib : BatemanLib} {M : Mat keymap.length}
    (h : genBatemanMatrix keymap lib = .ok M) (hno : ∀ k ∈ keymap, ∀ b ∈ branchesOf lib k, b.1 ≠ "none") (hasRust : Bool)
    (expm : ∀ m, Mat m → Mat m) (tab : Pfd) (rs : Mat keymap.length → ℝ → Vec keymap.length → ℕ → Vec keymap.length)
    (hrs : ∀ J dt b k, Maps (orth fun _ => 1) J → b ∈ orth (fun _ => 1) → rs J dt b k ∈ orth (fun _ => 1))
    (maxDim iom : ℕ) (o : LejaOpts) (eps : ℝ) (y0 : Vec keymap.length) (t0 : ℝ) (m : String) (tol dt : ℝ) (nsteps : ℕ)
    (before : Option (W → ℝ → Vec keymap.length → P × W)) (after : Option (W → ℝ → Vec keymap.length → Q × W)) (w : W) :
    (∀ s, ExpRB.new hasRust t0 y0 m tol = .ok s → m ≠ "exp_pfd" → m ≠ "exp_pfd_rs" →
      ∀ l, integrateOrmatex (rbStepper hasRust (realKernels _ expm tab rs maxDim iom) (batemanSys M eps)) s y0 t0 dt nsteps
        before after w = .ok l → ∀ y ∈ l.yRes, ∑ i, y i = ∑ i, y0 i) ∧
    (∀ s, ExpSplit.new t0 y0 m = .ok s →
      ∀ l, integrateOrmatex (splitStepper (realKernels _ expm tab rs maxDim iom) (batemanSys M eps)) s y0 t0 dt nsteps
        before after w = .ok l → ∀ y ∈ l.yRes, ∑ i, y i = ∑ i, y0 i) ∧
    (∀ s, RK.new t0 y0 m = .ok s →
      ∀ l, integrateOrmatex (rkStepper (batemanSys M eps)) s y0 t0 dt nsteps before after w = .ok l →
        ∀ y ∈ l.yRes, ∑ i, y i = ∑ i, y0 i) ∧
    (∀ s, ExpLeja.new t0 y0 m = .ok s →
      ∀ l, integrateOrmatex (lejaStepper o (batemanSys M eps)) s y0 t0 dt nsteps before after w = .ok l →
        ∀ y ∈ l.yRes, ∑ i, y i = ∑ i, y0 i) := by
  have hcol : ∀ j, ∑ i, M i j = 0 := by
    intro j
    rw [C55_column_sum h, rateTo, List.filter_eq_nil_iff.2]
    · simp
    · intro b hb
      simpa using hno _ (List.get_mem keymap j) b hb
  have he := batemanSys_tangent (P := P) M hcol eps y0
  have hr := C67_run hasRust expm tab rs (orth fun _ => 1) hrs maxDim iom o _ he t0 m tol dt nsteps before after w
  have conv : ∀ y : Vec keymap.length, y - y0 ∈ orth (fun _ => (1 : ℝ)) → ∑ i, y i = ∑ i, y0 i := by
    intro y hy
    have : (fun _ => (1 : ℝ)) ⬝ᵥ (y - y0) = 0 := hy
    simp only [dotProduct, Pi.sub_apply, one_mul, Finset.sum_sub_distrib] at this
    linarith
  exact ⟨fun s hs h1 h2 l hl y hy => conv y (hr.1 s hs h1 h2 l hl y hy), fun s hs l hl y hy => conv y (hr.2.1 s hs l hl y hy),
    fun s hs l hl y hy => conv y (hr.2.2.1 s hs l hl y hy), fun s hs l hl y hy => conv y (hr.2.2.2 s hs l hl y hy)⟩

/-- Two species that decay into each other meet the hypotheses. -/
example : ∃ (lib : BatemanLib) (M : Mat ["a", "b"].length), genBatemanMatrix ["a", "b"] lib = .ok M ∧
    (∀ k ∈ ["a", "b"], ∀ b ∈ branchesOf lib k, b.1 ≠ "none") ∧ branchesOf lib "a" = [("b", 2)] := by
  have hlib : ∃ lib : BatemanLib, lib "a" = some (.single "b" 2) ∧ lib "b" = some (.single "a" 1) :=
    ⟨fun k => if k = "a" then some (.single "b" 2) else some (.single "a" 1), by simp, by simp⟩
  obtain ⟨lib, h1, h2⟩ := hlib
  have b1 : branchesOf lib "a" = [("b", 2)] := by simp [branchesOf, branchList, h1]
  have b2 : branchesOf lib "b" = [("a", 1)] := by simp [branchesOf, branchList, h2]
  have hM : ∃ M, genBatemanMatrix ["a", "b"] lib = .ok M := by
    refine (C55_refusal ["a", "b"] lib).1.2 fun k hk => ?_
    simp only [List.mem_cons, List.not_mem_nil, or_false] at hk
    rcases hk with rfl | rfl
    · rw [b1]; simp
    · rw [b2]; simp
  obtain ⟨M, hM⟩ := hM
  refine ⟨lib, M, hM, ?_, b1⟩
  intro k hk b hb
  simp only [List.mem_cons, List.not_mem_nil, or_false] at hk
  rcases hk with rfl | rfl
  · rw [b1, List.mem_singleton] at hb; rw [hb]; simp
  · rw [b2, List.mem_singleton] at hb; rw [hb]; simp

end
end Ormatex.Props
