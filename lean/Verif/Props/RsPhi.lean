import Verif.Model.RsKernels
import Verif.Props.PhiExt

/-!
C81: dense phi functions of the Rust crate.
-/

namespace Ormatex.Props
open Matrix Ormatex.Spec Ormatex.Rs

/-- The extended matrix of the crate is the one of the Python package. -/
theorem phiExtMatRs_eq {N : ℕ} (z : Mat N) (k : ℕ) (hk : 0 < k) : phiExtMatRs z k = phiExtMat z k := by
  ext i j
  unfold phiExtMatRs phiExtMat
  rw [if_neg (by omega : ¬ k = 0)]
  simp only [Matrix.of_apply]
  by_cases hi : (i : ℕ) < k * N
  · by_cases hj : (j : ℕ) < N
    · rw [if_neg (by omega), if_pos hi, dif_pos hj]
      by_cases hin : (i : ℕ) < N
      · rw [dif_pos ⟨hin, hj⟩, dif_pos hin]
      · rw [dif_neg (by omega), dif_neg hin]
    · rw [if_pos ⟨hi, by omega⟩, if_pos hi, dif_neg hj]
      by_cases h : (i : ℕ) = j - N
      · rw [if_pos h, if_pos (by omega)]
      · rw [if_neg h, if_neg (by omega)]
  · have hN : N ≤ k * N := Nat.le_mul_of_pos_left N hk
    rw [if_neg (by omega), if_neg hi, dif_neg (by omega)]

/-- C81: `phi_ext(z, k)` (also `phi_k_rs`) is `phi_k(z)` for every matrix, singular or not, given an exact exponential. -/
theorem C81_phi_ext {N : ℕ} (z : Mat N) (k : ℕ) : phiExtRs (fun _ A => NormedSpace.exp A) z k = phiM k z := by
  cases k with
  | zero => rw [phiExtRs, phiM_zero]
  | succ k =>
    rw [← C19_ext z (k + 1)]
    ext i j
    show NormedSpace.exp (phiExtMatRs z (k + 1)) ⟨i, _⟩ ⟨(k + 1 + 1) * N - N + j, _⟩ =
      NormedSpace.exp (phiExtMat z (k + 1)) ⟨i, _⟩ ⟨(k + 1) * N + j, _⟩
    rw [phiExtMatRs_eq z (k + 1) (by omega)]
    refine congrArg (NormedSpace.exp (phiExtMat z (k + 1)) ⟨i, _⟩) (Fin.ext ?_)
    show (k + 1 + 1) * N - N + (j : ℕ) = (k + 1) * N + j
    have : (k + 1 + 1) * N = (k + 1) * N + N := by ring
    omega

/-- C81: `phi(z, k)` is `phi_k(z)` for every invertible matrix, given an exact exponential. -/
theorem C81_phi {N : ℕ} (z : Mat N) (hz : IsUnit z.det) (k : ℕ) : phiRs NormedSpace.exp z k = phiM k z := by
  induction k with
  | zero => rw [phiRs, phiM_zero]
  | succ k ih =>
    rw [phiRs, ih]
    have h2 := phiM_recurrence k z
    rw [← one_div] at h2
    rw [← h2, ← Matrix.mul_assoc, Matrix.nonsing_inv_mul _ hz, Matrix.one_mul]

/-- A singular matrix, on which only the first routine is usable. -/
example : phiExtRs (fun _ A => NormedSpace.exp A) (0 : Mat 3) 2 = ((2 : ℝ)⁻¹) • 1 := by
  rw [C81_phi_ext, phiM_at_zero]; norm_num

/-- An invertible one. -/
example : IsUnit (!![1, 2; 0, 3] : Mat 2).det := by simp [Matrix.det_fin_two]

/-- The dense kernel the crate uses by default (`PadeExpm`) is exact when its exponential is. -/
theorem padeApply_exact (m : ℕ) (a : Mat m) (dt : ℝ) (v : Vec m) (k : ℕ) :
    padeApply (fun _ A => NormedSpace.exp A) m a dt v k = .ok (phiM k (dt • a) *ᵥ v) := by
  unfold padeApply
  rw [C81_phi_ext]

end Ormatex.Props
