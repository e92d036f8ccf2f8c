import Verif.Model.RsKernels
import Verif.Spec.Exact
import Verif.Props.RsHistory
import Mathlib.Analysis.Normed.Group.Constructions
import Mathlib.Analysis.Normed.Module.Basic

/-!
C85, C86: matrix-free operators of the Rust crate.
-/

namespace Ormatex.Props
open Matrix Ormatex.Spec Ormatex.Rs
open scoped Classical

section
variable {n : ℕ}

/-! ### shifted operator -/

/-- **C86 (shift).**  `ShiftedLinOp` over a matrix is the matrix `scale J + gamma I` (without the shift if there is none). -/
theorem C86_shifted (inner : LinOp n) (J : Mat n) (hJ : IsMatrix inner J) (scale : ℝ) (gamma : Option ℝ) :
    IsMatrix (shiftedLinOp inner scale gamma) (scale • J + gamma.getD 0 • (1 : Mat n)) := by
  intro v
  have h : inner.call v = J *ᵥ v := hJ v
  rw [Matrix.add_mulVec, Matrix.smul_mulVec, Matrix.smul_mulVec, Matrix.one_mulVec]
  cases gamma with
  | none =>
    show scale • inner.call v = _
    rw [h]; simp
  | some g =>
    show scale • inner.call v + g • v = _
    rw [h]; rfl

/-! ### difference Jacobian -/

/-- what a client can do with a `FdJacLinOp` between products -/
inductive FdCall (n : ℕ) where
  | setOpX (t : ℝ) (x : Vec n)
  | setScale (scale : ℝ) (gamma : Option ℝ)

/-- the object after a call -/
def FdJac.after (j : FdJac n) : FdCall n → FdJac n
  | .setOpX t x => j.setOpX t x
  | .setScale s g => j.setScale s g

/-- Specification: time, point, scale and shift after a list of calls, by the last call of each kind. -/
structure FdView (n : ℕ) where
  t : ℝ
  x : Vec n
  scale : ℝ
  gamma : Option ℝ

def FdView.after (v : FdView n) : FdCall n → FdView n
  | .setOpX t x => ⟨t, x, v.scale, v.gamma⟩
  | .setScale s g => ⟨v.t, v.x, s, g⟩

/-- Specification: the difference quotient `scale (f(t, x + e v) - f(t, x)) / e + gamma v`, `e = 0.5e-8 max|x|`. -/
noncomputable def fdQuot (f : ℝ → Vec n → Vec n) (w : FdView n) (v : Vec n) : Vec n :=
  (w.scale / (0.5e-8 * ‖w.x‖)) • (f w.t (w.x + (0.5e-8 * ‖w.x‖) • v) - f w.t w.x) + w.gamma.getD 0 • v

/-- **C86 (difference quotient).**  After any sequence of `set_op_x` and `set_scale` a product with `FdJacLinOp` is the
difference quotient with the last time, point, scale and shift that were set; at the zero point it is not a number. -/
theorem C86_fd_history (f : ℝ → Vec n → Vec n) (t : ℝ) (x : Vec n) (scale : ℝ) (gamma : Option ℝ) (cs : List (FdCall n))
    (v : Vec n) :
    let w := cs.foldl FdView.after ⟨t, x, scale, gamma⟩
    (w.x ≠ 0 → (cs.foldl FdJac.after (FdJac.new t x f scale gamma)).apply v = .ok (fdQuot f w v)) ∧
      (w.x = 0 → (cs.foldl FdJac.after (FdJac.new t x f scale gamma)).apply v = .error .nan) := by
  intro w
  have key : ∀ (cs : List (FdCall n)) (j : FdJac n) (u : FdView n), j.t = u.t → j.x = u.x → j.scale = u.scale →
      j.gamma = u.gamma → j.frhs = f → j.frhsX = f j.t j.x →
      let j' := cs.foldl FdJac.after j
      let u' := cs.foldl FdView.after u
      j'.t = u'.t ∧ j'.x = u'.x ∧ j'.scale = u'.scale ∧ j'.gamma = u'.gamma ∧ j'.frhs = f ∧ j'.frhsX = f j'.t j'.x := by
    intro cs
    induction cs with
    | nil => intro j u h1 h2 h3 h4 h5 h6; exact ⟨h1, h2, h3, h4, h5, h6⟩
    | cons c cs ih =>
      intro j u h1 h2 h3 h4 h5 h6
      cases c with
      | setOpX t x => exact ih _ _ rfl rfl h3 h4 h5 (by show j.frhs t x = f t x; rw [h5])
      | setScale s g => exact ih _ _ h1 h2 rfl rfl h5 h6
  obtain ⟨h1, h2, h3, h4, h5, h6⟩ := key cs (FdJac.new t x f scale gamma) ⟨t, x, scale, gamma⟩ rfl rfl rfl rfl rfl rfl
  change _ = w.t at h1
  change _ = w.x at h2
  change _ = w.scale at h3
  change _ = w.gamma at h4
  generalize cs.foldl FdJac.after (FdJac.new t x f scale gamma) = j at *
  constructor
  · intro hx
    have he : (0.5e-8 * ‖w.x‖ : ℝ) ≠ 0 := mul_ne_zero (by norm_num) (norm_ne_zero_iff.2 hx)
    unfold FdJac.apply
    rw [h2]
    simp only
    rw [if_neg he, h6, h1, h2, h3, h4, h5, mul_one]
    congr 1
    unfold fdQuot
    cases w.gamma with
    | none => simp
    | some g => rfl
  · intro hx
    unfold FdJac.apply
    rw [h2]
    simp only
    rw [if_pos (by rw [hx, norm_zero, mul_zero])]

/-- **C86 (accuracy).**  If `f(t, ·)` differs from its linearization `J` at the point by at most `C ‖h‖²`, the quotient differs
from `scale J v + gamma v` by at most `|scale| C e ‖v‖²` with `e = 0.5e-8 max|x|`. -/
theorem C86_fd_error (f : ℝ → Vec n → Vec n) (w : FdView n) (hx : w.x ≠ 0) (J : Mat n) (C : ℝ)
    (hf : ∀ h, ‖f w.t (w.x + h) - f w.t w.x - J *ᵥ h‖ ≤ C * ‖h‖ ^ 2) (v : Vec n) :
    ‖fdQuot f w v - (w.scale • (J *ᵥ v) + w.gamma.getD 0 • v)‖ ≤ |w.scale| * C * (0.5e-8 * ‖w.x‖) * ‖v‖ ^ 2 := by
  have he : 0 < (0.5e-8 * ‖w.x‖ : ℝ) := mul_pos (by norm_num) (norm_pos_iff.2 hx)
  unfold fdQuot
  generalize (0.5e-8 * ‖w.x‖ : ℝ) = e at he ⊢
  have e1 : (w.scale / e) • (f w.t (w.x + e • v) - f w.t w.x) + w.gamma.getD 0 • v
      - (w.scale • (J *ᵥ v) + w.gamma.getD 0 • v)
      = (w.scale / e) • (f w.t (w.x + e • v) - f w.t w.x - J *ᵥ (e • v)) := by
    have e2 : w.scale • (J *ᵥ v) = (w.scale / e) • e • (J *ᵥ v) := by rw [smul_smul, div_mul_cancel₀ _ he.ne']
    rw [Matrix.mulVec_smul, e2, smul_sub (w.scale / e) _ (e • _)]
    abel
  rw [e1, norm_smul, Real.norm_eq_abs, abs_div, abs_of_pos he]
  have h := hf (e • v)
  rw [norm_smul, Real.norm_eq_abs, abs_of_pos he] at h
  calc |w.scale| / e * ‖f w.t (w.x + e • v) - f w.t w.x - J *ᵥ (e • v)‖
      ≤ |w.scale| / e * (C * (e * ‖v‖) ^ 2) := mul_le_mul_of_nonneg_left h (by positivity)
    _ = |w.scale| * C * e * ‖v‖ ^ 2 := by field_simp

/-- **C86 (affine right-hand sides).**  On an affine right-hand side the quotient is exact. -/
theorem C86_fd_affine (A : Mat n) (b : ℝ → Vec n) (w : FdView n) (hx : w.x ≠ 0) (v : Vec n) :
    fdQuot (fun t x => A *ᵥ x + b t) w v = w.scale • (A *ᵥ v) + w.gamma.getD 0 • v := by
  have h := C86_fd_error (fun t x => A *ᵥ x + b t) w hx A 0 (fun h => by
    rw [show A *ᵥ (w.x + h) + b w.t - (A *ᵥ w.x + b w.t) - A *ᵥ h = 0 by rw [Matrix.mulVec_add]; abel]
    simp) v
  rw [mul_zero, zero_mul, zero_mul] at h
  exact sub_eq_zero.1 (norm_le_zero_iff.1 h)

/-! ### extended operator -/

/-- **C86 (extended operator).**  `ExtendedLinOp` over a matrix `A` with vectors `b_0, …, b_p` (`p ≥ 1`) maps `(v, w)` to
`(t A v + ∑_j w_{p-1-j} b_{j+1}, w shifted up by one)`; fewer than two vectors make the constructor panic. -/
theorem C86_extended (t : ℝ) (inner : LinOp n) (A : Mat n) (hA : IsMatrix inner A) (b0 : Vec n) (p : ℕ)
    (b : Fin (p + 1) → Vec n) :
    ∃ L, extendedLinOp t inner (b0 :: List.ofFn b) = .ok L ∧
      ∀ z : Vec (n + ((b0 :: List.ofFn b).length - 1)),
        (∀ i : Fin n, L.matvec z (Fin.castAdd _ i)
          = t * (A *ᵥ fun k => z (Fin.castAdd _ k)) i
            + ∑ j : Fin (p + 1), b j i * z (Fin.natAdd n ⟨p - j, by simp⟩)) ∧
        (∀ j : Fin p, L.matvec z (Fin.natAdd n ⟨j, by simp⟩) = z (Fin.natAdd n ⟨j + 1, by simp⟩)) ∧
        L.matvec z (Fin.natAdd n ⟨p, by simp⟩) = 0 := by
  have hl : ¬ (b0 :: List.ofFn b).length ≤ 1 := by simp
  unfold extendedLinOp
  rw [if_neg hl]
  refine ⟨_, rfl, fun z => ⟨fun i => ?_, fun j => ?_, ?_⟩⟩
  · show concat _ _ (Fin.castAdd _ i) = _
    unfold concat
    rw [Fin.append_left, Pi.add_apply, Pi.smul_apply, smul_eq_mul]
    congr 1
    · rw [show inner.call (headN z) = A *ᵥ headN z from hA _]
      rfl
    · unfold extB
      rw [Matrix.mulVec, dotProduct]
      refine Fintype.sum_equiv ((finCongr (by simp)).trans Fin.revPerm) _ _ fun k => ?_
      have hk : (k : ℕ) < p + 1 := by simpa using k.2
      have hlen : (b0 :: List.ofFn b).length - 1 - (k : ℕ) = (p - k) + 1 := by simp; omega
      rw [Matrix.of_apply, hlen, List.getD_cons_succ]
      have h2 : (List.ofFn b).getD (p - k) 0 = b ⟨p - k, by omega⟩ := by
        simp only [List.getD, List.getElem?_ofFn, dif_pos (show p - (k : ℕ) < p + 1 by omega), Option.getD_some]
      rw [h2]
      congr 1
      · congr 1
        apply Fin.ext
        simp [Fin.val_rev]
      · unfold tailP
        congr 1
        apply Fin.ext
        simp [Fin.val_rev]
        omega
  · show concat _ _ (Fin.natAdd n _) = _
    unfold concat
    rw [Fin.append_right, extK, Matrix.mulVec, dotProduct, Finset.sum_eq_single ⟨j + 1, by simp⟩]
    · simp [tailP]
    · intro k _ hk
      rw [Matrix.of_apply, if_neg, zero_mul]
      intro h
      exact hk (Fin.ext h)
    · intro h
      exact absurd (Finset.mem_univ _) h
  · show concat _ _ (Fin.natAdd n _) = _
    unfold concat
    rw [Fin.append_right, extK, Matrix.mulVec, dotProduct, Finset.sum_eq_zero]
    intro k _
    rw [Matrix.of_apply, if_neg, zero_mul]
    intro h
    have := k.2
    simp only [List.length_cons, List.length_ofFn, Nat.add_sub_cancel] at this
    simp only at h
    omega

theorem C86_extended_refused (t : ℝ) (inner : LinOp n) (vb : List (Vec n)) :
    extendedLinOp t inner vb = .error .panic ↔ vb.length ≤ 1 := by
  unfold extendedLinOp
  split_ifs with h <;> simp [h]

/-! ### cached right-hand side -/

/-- one product: time, point, direction, scale -/
structure RhsCall (n : ℕ) where
  t : ℝ
  x : Vec n
  w : Vec n
  s : Option ℝ

/-- the results of a sequence of products with one object -/
noncomputable def rhsRun (f : ℝ → Vec n → Vec n) : RhsCache n → List (RhsCall n) → List (RsM (Vec n))
  | _, [] => []
  | c, q :: qs => (c.apply f q.t q.x q.w q.s).1 :: rhsRun f (c.apply f q.t q.x q.w q.s).2 qs

/-- Specification: the difference quotient at the point of the call. -/
noncomputable def rhsQuot (f : ℝ → Vec n → Vec n) (q : RhsCall n) : Vec n :=
  (q.s.getD 1 / (0.5e-8 * ∑ i, |q.x i|)) • (f q.t (q.x + (0.5e-8 * ∑ i, |q.x i|) • q.w) - f q.t q.x)

/-- **C85, the part that holds.**  If all products of the sequence are at one time and no two different points among them have
the same sum of absolute values (which is not zero), every result is the difference quotient at its point. -/
theorem C85_partial (f : ℝ → Vec n → Vec n) (t : ℝ) (qs : List (RhsCall n)) (ht : ∀ q ∈ qs, q.t = t)
    (h0 : ∀ q ∈ qs, q.x ≠ 0) (hinj : ∀ q ∈ qs, ∀ q' ∈ qs, ∑ i, |q.x i| = ∑ i, |q'.x i| → q.x = q'.x) :
    rhsRun f (RhsCache.new n) qs = qs.map fun q => .ok (rhsQuot f q) := by
  have hpos : ∀ x : Vec n, x ≠ 0 → vecL1 x ≠ 0 := by
    intro x hx h
    apply hx
    funext i
    exact abs_eq_zero.1 ((Finset.sum_eq_zero_iff_of_nonneg fun i _ => abs_nonneg (x i)).1 h i (Finset.mem_univ i))
  have key : ∀ (qs : List (RhsCall n)) (P : Set (Vec n)) (c : RhsCache n), (∀ q ∈ qs, q.t = t) → (∀ q ∈ qs, q.x ≠ 0) →
      (∀ q ∈ qs, q.x ∈ P) → (∀ x ∈ P, ∀ y ∈ P, vecL1 x = vecL1 y → x = y) →
      (c.xTmp = 0 ∨ (c.xTmp ∈ P ∧ c.fxTmp = f t c.xTmp)) →
      rhsRun f c qs = qs.map fun q => .ok (rhsQuot f q) := by
    intro qs
    induction qs with
    | nil => intros; rfl
    | cons q qs ih =>
      intro P c ht h0 hP hi hc
      have hq := List.mem_cons_self (a := q) (l := qs)
      have hL := hpos q.x (h0 q hq)
      have he : (0.5e-8 * vecL1 q.x : ℝ) ≠ 0 := mul_ne_zero (by norm_num) hL
      have hc' : (if vecL1 q.x = vecL1 c.xTmp then c else ⟨q.x, f q.t q.x⟩ : RhsCache n) = ⟨q.x, f t q.x⟩ := by
        split_ifs with h
        · rcases hc with h1 | ⟨h1, h2⟩
          · exfalso
            apply hL
            rw [h, h1]
            simp [vecL1]
          · have : c.xTmp = q.x := hi _ h1 _ (hP q hq) h.symm
            cases c
            simp only at this h2
            subst this
            rw [h2]
        · rw [ht q hq]
      rw [rhsRun, List.map_cons]
      have happ : c.apply f q.t q.x q.w q.s = (.ok (rhsQuot f q), ⟨q.x, f t q.x⟩) := by
        unfold RhsCache.apply
        simp only [hc']
        rw [if_neg he]
        congr 2
        unfold rhsQuot
        rw [ht q hq, mul_one_div]
        rfl
      rw [happ]
      simp only
      rw [ih P ⟨q.x, f t q.x⟩ (fun q' h => ht q' (List.mem_cons_of_mem _ h)) (fun q' h => h0 q' (List.mem_cons_of_mem _ h))
        (fun q' h => hP q' (List.mem_cons_of_mem _ h)) hi (Or.inr ⟨hP q hq, rfl⟩)]
  refine key qs {x | ∃ q ∈ qs, q.x = x} _ ht h0 (fun q hq => ⟨q, hq, rfl⟩) ?_ (Or.inl rfl)
  rintro x ⟨q, hq, rfl⟩ y ⟨q', hq', rfl⟩ h
  exact hinj q hq q' hq' h

/-- **C85 is false.**  A product at `1` followed by one at `-1`, or at the same point at a later time, uses the right-hand
side cached for the first call. -/
theorem C85_false : (∃ (f : ℝ → Vec 1 → Vec 1) (qs : List (RhsCall 1)), (∀ q ∈ qs, q.t = 0 ∧ q.x ≠ 0) ∧
      rhsRun f (RhsCache.new 1) qs ≠ qs.map fun q => .ok (rhsQuot f q)) ∧
    ∃ (f : ℝ → Vec 1 → Vec 1) (qs : List (RhsCall 1)), (∀ q ∈ qs, q.x = 1) ∧
      rhsRun f (RhsCache.new 1) qs ≠ qs.map fun q => .ok (rhsQuot f q) := by
  refine ⟨⟨fun _ x => x, [⟨0, 1, 0, none⟩, ⟨0, -1, 0, none⟩], by simp, ?_⟩,
    ⟨fun t _ => fun _ => t, [⟨0, 1, 0, none⟩, ⟨1, 1, 0, none⟩], by simp, ?_⟩⟩
  · intro h
    simp only [rhsRun, List.map_cons, List.map_nil, List.cons.injEq] at h
    have h2 := h.2.1
    have hz : ¬ ((5e-9 : ℝ) = 0) := by norm_num
    simp [RhsCache.apply, RhsCache.new, vecL1, rhsQuot, hz] at h2
    have h3 := congrFun h2 0
    simp at h3
    norm_num at h3
  · intro h
    simp only [rhsRun, List.map_cons, List.map_nil, List.cons.injEq] at h
    have h2 := h.2.1
    have hz : ¬ ((5e-9 : ℝ) = 0) := by norm_num
    simp [RhsCache.apply, RhsCache.new, vecL1, rhsQuot, hz] at h2
    have h3 := congrFun h2 0
    simp at h3

/-! ### non-vacuity -/

/-- Three products at two points with different sums. -/
example : let qs : List (RhsCall 2) := [⟨0, ![1, 0], ![1, 1], none⟩, ⟨0, ![1, -3], ![0, 1], some 2⟩, ⟨0, ![1, 0], ![0, 1], none⟩]
    (∀ q ∈ qs, q.t = 0) ∧ (∀ q ∈ qs, q.x ≠ 0) ∧
      ∀ q ∈ qs, ∀ q' ∈ qs, ∑ i, |q.x i| = ∑ i, |q'.x i| → q.x = q'.x := by
  refine ⟨by simp, by simp, ?_⟩
  simp [Fin.sum_univ_two]

/-- A quadratic right-hand side satisfies the bound of `C86_fd_error`. -/
example (x : Vec 1) : ∀ h : Vec 1, ‖(fun _ => (x 0 + h 0) ^ 2 : Vec 1) - (fun _ => (x 0) ^ 2)
    - (Matrix.of fun _ _ => 2 * x 0 : Mat 1) *ᵥ h‖ ≤ 1 * ‖h‖ ^ 2 := by
  intro h
  rw [show ((fun _ => (x 0 + h 0) ^ 2 : Vec 1) - (fun _ => (x 0) ^ 2)
    - (Matrix.of fun _ _ => 2 * x 0 : Mat 1) *ᵥ h) = fun _ => h 0 ^ 2 by
      funext i; simp [Matrix.mulVec, dotProduct]; ring]
  rw [pi_norm_const, one_mul, norm_pow]
  exact pow_le_pow_left₀ (norm_nonneg _) (norm_le_pi_norm h 0) 2

end
end Ormatex.Props
