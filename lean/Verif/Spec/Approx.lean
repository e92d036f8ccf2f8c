import Verif.Spec.Exact
import Mathlib.Analysis.Matrix.Normed

/-!
Specification of phi-function kernels that are only approximately right: what the kernels of a program that works with a finite
Krylov dimension, a truncated series or a rational approximation can promise.
-/

namespace Ormatex.Spec
open Matrix
open scoped Matrix.Norms.Operator
variable {n : ℕ}

/-- The weight of an error in `phi_k`: in every method the products with `phi_2`, `phi_3` are multiplied by one more power of the
step size than those with `phi_1`, so their errors may be larger by `1/dt`. -/
noncomputable def stepWeight (dt : ℝ) (k : ℕ) : ℝ := if k ≤ 1 then 1 else dt

/-- `phi_linop` returns, for every operator of norm (largest row sum) at most `R`, every fraction `c dt` of the step and every
order `1 ≤ k ≤ kmax`, a vector within `κ ‖v‖` (weighted) of `phi_k(c dt A) v`. -/
def ApproxLinop (K : Kernels n) (dt R κ : ℝ) (kmax : ℕ) : Prop :=
  ∀ (A : LinOp n) (M : Mat n), IsMatrix A M → ‖M‖ ≤ R → ∀ c, 0 < c → c ≤ 1 → ∀ (v : Vec n) (k : ℕ), 1 ≤ k → k ≤ kmax →
    ∃ w, K.phiLinop A (c * dt) v k = .ok w ∧ stepWeight dt k * ‖w - phiM k ((c * dt) • M) *ᵥ v‖ ≤ κ * ‖v‖

/-- `kiops_fixedsteps` returns `∑_j phi_j(dt A) b_j` up to `κ max ‖b_j‖`, for the lists the methods call it with: their last vector
is smaller than the others by a factor `dt`. -/
def ApproxKiops (K : Kernels n) (dt R κ : ℝ) : Prop :=
  ∀ (A : LinOp n) (M : Mat n), IsMatrix A M → ‖M‖ ≤ R → ∀ bs : List (Vec n), 2 ≤ bs.length → bs.length ≤ 5 →
    ∀ B, (∀ b ∈ bs, ‖b‖ ≤ B) → ‖bs.getD (bs.length - 1) 0‖ ≤ dt * B →
    ∃ w, K.kiops A dt bs = .ok w ∧ ‖w - ∑ j ∈ Finset.range bs.length, phiM j (dt • M) *ᵥ bs.getD j 0‖ ≤ κ * B

/-- `f_phi_k_sq_all` returns a list of matrices within `κ` (weighted) of `phi_j(c dt M)`, `1 ≤ j ≤ k ≤ 2`. -/
def ApproxSq (K : Kernels n) (dt R κ : ℝ) : Prop :=
  ∀ M : Mat n, ‖M‖ ≤ R → ∀ c, 0 < c → c ≤ 1 → ∀ k ≤ 2, ∃ L, K.phiSqAll ((c * dt) • M) k = .ok L ∧ L.length = k + 1 ∧
    ∀ j, 1 ≤ j → j ≤ k → stepWeight dt j * ‖L.getD j 0 - phiM j ((c * dt) • M)‖ ≤ κ

/-- `f_phi_k_pfd` returns a vector within `κ ‖v‖` (weighted) of `phi_k(dt M) v`, `k = 1, 2`. -/
def ApproxPfd (K : Kernels n) (dt R κ : ℝ) : Prop :=
  ∀ M : Mat n, ‖M‖ ≤ R → ∀ (v : Vec n) (k : ℕ), 1 ≤ k → k ≤ 2 →
    ∃ w, K.phiPfd (dt • M) v k = .ok w ∧ stepWeight dt k * ‖w - phiM k (dt • M) *ᵥ v‖ ≤ κ * ‖v‖

/-- the same for the kernel of the Rust bindings -/
def ApproxRs (K : Kernels n) (dt R κ : ℝ) : Prop :=
  ∀ M : Mat n, ‖M‖ ≤ R → ∀ (v : Vec n) (k : ℕ), 1 ≤ k → k ≤ 2 →
    stepWeight dt k * ‖K.phikvRs M dt v k - phiM k (dt • M) *ᵥ v‖ ≤ κ * ‖v‖

/-- The kernels a method calls (and no others) are accurate to `κ` for step size `dt` and operators of norm at most `R`. -/
structure ApproxFor (m : String) (K : Kernels n) (dt R κ : ℝ) : Prop where
  linop : m ∈ ["exprb2", "exprb3", "pexprb4", "epi3", "exp1", "exp2", "exp3"] →
    ApproxLinop K dt R κ (if m = "exprb3" ∨ m = "epi3" then 3 else 2)
  kiops : m ∈ ["epi2", "epi3", "pexprb4"] → ApproxKiops K dt R κ
  sq : m ∈ ["exprb2_dense", "exp1_dense", "exp2_dense", "exp3_dense"] → ApproxSq K dt R κ
  pfd : m = "exprb2_pfd" → ApproxPfd K dt R κ
  rs : m = "exprb2_pfd_rs" → ApproxRs K dt R κ

/-- Exact kernels are accurate to `κ` for every `κ ≥ 0`. -/
theorem approxFor_exact (m : String) {K : Kernels n} (hK : ExactKernels K) (dt R κ : ℝ) (hκ : 0 ≤ κ) : ApproxFor m K dt R κ where
  linop _ A M hA _ c _ _ v k _ _ := ⟨_, hK.phiLinop A M hA _ v k, by simpa using by positivity⟩
  kiops _ A M hA _ bs h1 _ B hB _ := ⟨_, hK.kiops A M hA _ bs h1, by
    rw [sub_self, norm_zero]
    obtain ⟨b, hb⟩ : ∃ b, b ∈ bs := List.exists_mem_of_length_pos (by omega)
    exact mul_nonneg hκ ((norm_nonneg b).trans (hB b hb))⟩
  sq _ M _ c _ _ k hk := ⟨_, hK.phiSqAll _ k (by omega), by simp, fun j _ hj => by
    rw [List.getD_eq_getElem?_getD, List.getElem?_map, List.getElem?_range (by omega)]
    simpa using hκ⟩
  pfd _ M _ v k _ _ := ⟨_, hK.phiPfd _ v k, by simpa using by positivity⟩
  rs _ M _ v k _ _ := by rw [hK.phikvRs]; simpa using by positivity

end Ormatex.Spec
