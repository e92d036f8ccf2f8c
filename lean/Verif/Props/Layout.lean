import Verif.Model.Progression
import Mathlib.Algebra.BigOperators.Field

/-!
C59: column-major stacking of species and Kronecker products.
-/

namespace Ormatex.Props
open Matrix

variable {N n : ℕ}

theorem flattenU_apply (u : Arr N n) (j : Fin n) (i : Fin N) : flattenU u (finProdFinEquiv (j, i)) = u i j := by
  unfold flattenU
  rw [Equiv.symm_apply_apply]

/-- **C59, positions.** Entry `j*N + i` of the flat vector is species `j` at grid point `i`: each species occupies a contiguous
block. -/
theorem C59_position (u : Arr N n) (i : Fin N) (j : Fin n) (h : j * N + i < n * N) : flattenU u ⟨j * N + i, h⟩ = u i j := by
  have : (⟨j * N + i, h⟩ : Fin (n * N)) = finProdFinEquiv (j, i) := by
    ext
    simp [finProdFinEquiv, mul_comm, add_comm]
  rw [this, flattenU_apply]

theorem unflat_flattenU (u : Arr N n) : unflat (flattenU u) = u := by
  funext i j
  exact flattenU_apply u j i

theorem flattenU_unflat (u : Vec (n * N)) : flattenU (unflat u) = u := by
  funext k
  unfold flattenU unflat
  rw [Prod.mk.eta, Equiv.apply_symm_apply]

/-- `stack_u` of a vector of length `n * N`, `n > 0`, is the `N × n` array `unflat u`. -/
theorem stackU_eq (hn : 0 < n) (u : Vec (n * N)) : stackU u n = .ok ⟨N, unflat u⟩ := by
  have h : 0 < n ∧ n ∣ n * N := ⟨hn, dvd_mul_right n N⟩
  unfold stackU
  rw [dif_pos h]
  congr 1
  have hq : n * N / n = N := Nat.mul_div_cancel_left _ hn
  have key : ∀ (q : ℕ) (hq : q = N) (p : ∀ (i : Fin q) (j : Fin n), j * q + i < n * N),
      (⟨q, fun i j => u ⟨j * q + i, p i j⟩⟩ : Σ N : ℕ, Arr N n) = ⟨N, unflat u⟩ := by
    rintro q rfl p
    congr 1
    funext i j
    unfold unflat
    congr 1
    ext
    simp [finProdFinEquiv, mul_comm, add_comm]
  exact key _ hq _

/-- **C59, round trips.** Flattening and stacking are mutually inverse: stacking a flattened array gives the array back, and
whenever stacking succeeds the length was `n * N` and flattening the result gives the vector back, entry by entry. -/
theorem C59_round_trip :
    (0 < n → ∀ u : Arr N n, stackU (flattenU u) n = .ok ⟨N, u⟩) ∧
    (∀ {L : ℕ} (u : Vec L) (M : ℕ) (a : Arr M n), stackU u n = .ok ⟨M, a⟩ →
      ∃ h : L = n * M, ∀ k : Fin L, flattenU a (Fin.cast h k) = u k) := by
  constructor
  · intro hn u
    rw [stackU_eq hn, unflat_flattenU]
  · intro L u M a h
    by_cases hc : 0 < n ∧ n ∣ L
    · obtain ⟨hn, q, rfl⟩ := hc
      rw [stackU_eq hn] at h
      cases h
      exact ⟨rfl, fun k => congrFun (flattenU_unflat u) k⟩
    · unfold stackU at h
      rw [dif_neg hc] at h
      cases h

/-- **C59, refusal.** Stacking succeeds exactly for a positive species count that divides the length. -/
theorem C59_refusal {L : ℕ} (u : Vec L) : (∃ r, stackU u n = .ok r) ↔ 0 < n ∧ n ∣ L := by
  unfold stackU
  by_cases h : 0 < n ∧ n ∣ L
  · rw [dif_pos h]; simp [h]
  · rw [dif_neg h]; simp [h]

theorem kron_mulVec (a : Mat n) (b : Mat N) (u : Arr N n) : kron a b *ᵥ flattenU u = flattenU (b * u * aᵀ) := by
  funext k
  obtain ⟨⟨j, i⟩, rfl⟩ := finProdFinEquiv.surjective k
  rw [flattenU_apply]
  unfold Matrix.mulVec dotProduct
  rw [← finProdFinEquiv.sum_comp]
  simp only [kron, Equiv.symm_apply_apply]
  rw [Fintype.sum_prod_type, Matrix.mul_apply]
  refine Finset.sum_congr rfl fun c _ => ?_
  rw [Matrix.mul_apply, Matrix.transpose_apply, Finset.sum_mul]
  exact Finset.sum_congr rfl fun r _ => by
    rw [show flattenU u (finProdFinEquiv (c, r)) = u r c from flattenU_apply u c r]; ring

/-- **C59, Kronecker products.** Applying a matrix to every species is `kron(I, M)` on the flat vector, mixing the species at
every grid point is `kron(B, I)`, and the two commute. -/
theorem C59_kron (B : Mat n) (M : Mat N) (u : Arr N n) :
    kron (1 : Mat n) M *ᵥ flattenU u = flattenU (M * u) ∧ kron B (1 : Mat N) *ᵥ flattenU u = flattenU (u * Bᵀ) ∧
    kron (1 : Mat n) M * kron B (1 : Mat N) = kron B M ∧ kron B (1 : Mat N) * kron (1 : Mat n) M = kron B M := by
  have hext : ∀ X Y : Mat (n * N), (∀ v : Arr N n, X *ᵥ flattenU v = Y *ᵥ flattenU v) → X = Y := by
    intro X Y h
    refine Matrix.ext_of_mulVec_single fun k => ?_
    have := h (unflat (Pi.single k 1))
    rwa [flattenU_unflat] at this
  refine ⟨by rw [kron_mulVec]; simp, by rw [kron_mulVec]; simp, ?_, ?_⟩
  · refine hext _ _ fun v => ?_
    rw [← Matrix.mulVec_mulVec, kron_mulVec, kron_mulVec, kron_mulVec]
    simp [Matrix.mul_assoc]
  · refine hext _ _ fun v => ?_
    rw [← Matrix.mulVec_mulVec, kron_mulVec, kron_mulVec, kron_mulVec]
    simp

/-- **C59, the splitting operator of the reaction systems** applies `-A/Ml` to every species separately. -/
theorem C59_radL (A : Mat N) (Ml : Vec N) (u : Vec (n * N)) :
    (radL n A Ml).matvec u = flattenU (fun i j => -((A * unflat u) i j) / Ml i) := by
  have h := (C59_kron (1 : Mat n) (negAOverM A Ml) (unflat u)).1
  rw [flattenU_unflat] at h
  show kron (1 : Mat n) (negAOverM A Ml) *ᵥ u = _
  rw [h]
  congr 1
  funext i j
  rw [Matrix.mul_apply, Matrix.mul_apply, ← Finset.sum_neg_distrib, Finset.sum_div]
  exact Finset.sum_congr rfl fun k _ => by unfold negAOverM; ring

/-- A vector of six entries stacks into two species on three points; five entries are refused. -/
example : stackU (![10, 11, 12, 20, 21, 22] : Vec 6) 2 = .ok ⟨3, !![10, 20; 11, 21; 12, 22]⟩ ∧
    ¬ ∃ r, stackU (![1, 2, 3, 4, 5] : Vec 5) 2 = .ok r := by
  constructor
  · have := stackU_eq (n := 2) (N := 3) (by norm_num) ![10, 11, 12, 20, 21, 22]
    rw [this]
    congr 2
    funext i j
    fin_cases i <;> fin_cases j <;> rfl
  · rw [C59_refusal]
    norm_num

end Ormatex.Props
