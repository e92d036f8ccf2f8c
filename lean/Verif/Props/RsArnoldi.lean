import Verif.Props.RsPhi
import Verif.Props.RsHistory
import Verif.Props.Krylov
import Verif.Spec.RsExact

/-!
C78, C79, C84: Arnoldi iteration and Krylov products of the Rust crate.
-/

namespace Ormatex.Props
open Matrix Ormatex.Spec Ormatex.Rs
open scoped Classical
variable {n : ℕ}

/-! ### C78 -/

theorem rs_orth_eq (qs : ℕ → Vec n) (k : ℕ) (l : List ℕ) : ∀ (hs : ℕ → ℕ → ℝ) (qv : Vec n),
    orthLoop qs k l hs qv =
      ((l.foldl (orthoBody qs k) ⟨hs, qv⟩).hs, (l.foldl (orthoBody qs k) ⟨hs, qv⟩).qv) := by
  induction l with
  | nil => intro hs qv; rfl
  | cons i l ih =>
    intro hs qv
    rw [orthLoop, List.foldl_cons, ih]
    have : setH hs i k (qv ⬝ᵥ qs i) = Function.update hs i (Function.update (hs i) k (qv ⬝ᵥ qs i)) := by
      funext a b
      unfold setH
      by_cases ha : a = i
      · subst ha
        by_cases hb : b = k
        · subst hb; simp
        · simp [hb]
      · simp [ha]
    rw [this]
    rfl

/-- residual norm of the pass that starts from `s` -/
private noncomputable def passNorm (A : LinOp n) (scale : ℝ) (iom : ℕ) (s : ArnState n) : ℝ :=
  norm2 ((List.range' (s.k - iom) (s.k + 1 - (s.k - iom))).foldl (orthoBody s.qs s.k) ⟨s.hs, scale • A.call (s.qs s.k)⟩).qv

private theorem pass_eq (A : LinOp n) (scale : ℝ) (m iom : ℕ) (s : ArnState n)
    (hne : s.k + 1 < m → passNorm A scale iom s ≠ rsBreakdownTol) :
    arnoldiInner A scale s.k m iom ⟨s.hs, s.qs⟩ =
      (⟨(arnoldiMgs A scale m iom s).hs, (arnoldiMgs A scale m iom s).qs⟩,
        decide (passNorm A scale iom s < rsBreakdownTol)) := by
  have hd : (max ((s.k : ℤ) - iom) 0).toNat = s.k - iom := by omega
  unfold arnoldiInner
  simp only [hd, rs_orth_eq]
  unfold arnoldiMgs
  simp only
  set o := (List.range' (s.k - iom) (s.k + 1 - (s.k - iom))).foldl (orthoBody s.qs s.k)
    ⟨s.hs, scale • A.call (s.qs s.k)⟩ with ho
  have hpn : passNorm A scale iom s = norm2 o.qv := rfl
  rw [hpn] at hne ⊢
  congr 2
  · split_ifs with hk
    · funext a b
      unfold setH
      by_cases ha : a = s.k + 1
      · subst ha
        by_cases hb : b = s.k
        · subst hb; simp
        · simp [hb]
      · simp [ha]
    · rfl
  · by_cases hk : s.k + 1 < m
    · have hne := hne hk
      by_cases hlt : norm2 o.qv < rsBreakdownTol
      · rw [if_neg (by simp [hlt]), if_neg]
        rintro ⟨_, h⟩
        exact absurd h (not_lt.mpr hlt.le)
      · rw [if_pos (by simp [hlt, hk]), if_pos]
        · funext c
          by_cases hc : c = s.k + 1
          · subst hc
            simp only [if_true, Function.update_self]
            funext i
            simp [div_eq_inv_mul]
          · simp [hc]
        · exact ⟨hk, lt_of_le_of_ne (not_lt.mp hlt) hne.symm⟩
    · rw [if_neg (by simp [hk]), if_neg (by tauto)]

private theorem ortho_other (qs : ℕ → Vec n) (k : ℕ) (l : List ℕ) : ∀ (s : OrthoState n) (a b : ℕ), b ≠ k →
    (l.foldl (orthoBody qs k) s).hs a b = s.hs a b := by
  induction l with
  | nil => intro s a b _; rfl
  | cons i l ih =>
    intro s a b hb
    rw [List.foldl_cons, ih _ a b hb]
    unfold orthoBody
    simp only
    by_cases ha : a = i
    · subst ha
      simp [hb]
    · simp [ha]

/-- later passes leave the earlier columns of `H` alone -/
private theorem loop_keeps (A : LinOp n) (scale : ℝ) (m iom : ℕ) (f : ℕ) : ∀ (s : ArnState n) (a b : ℕ), b < s.k →
    (arnoldiLoop A scale m iom f s).hs a b = s.hs a b := by
  induction f with
  | zero => intro s a b _; rfl
  | succ f ih =>
    intro s a b hb
    rw [arnoldiLoop]
    split_ifs with h
    · rw [ih _ a b (by show b < s.k + 1; omega)]
      unfold arnoldiMgs
      simp only
      have h1 := ortho_other s.qs s.k (List.range' (s.k - iom) (s.k + 1 - (s.k - iom)))
        ⟨s.hs, scale • A.call (s.qs s.k)⟩ a b (by omega)
      split_ifs
      · by_cases ha : a = s.k + 1
        · subst ha
          rw [Function.update_self, Function.update_of_ne (by omega)]
          exact h1
        · rw [Function.update_of_ne ha]
          exact h1
      · exact h1
    · rfl

/-- the subdiagonal entry written by a pass is its residual norm -/
private theorem pass_sub (A : LinOp n) (scale : ℝ) (m iom : ℕ) (s : ArnState n) (h : s.k + 1 < m) :
    (arnoldiMgs A scale m iom s).hs (s.k + 1) s.k = passNorm A scale iom s := by
  unfold arnoldiMgs
  simp only [h, if_true, Function.update_self]
  rfl

private theorem sim (A : LinOp n) (scale : ℝ) (m iom : ℕ) (r : ℕ) : ∀ (s : ArnState n), s.k + r = m → 0 < r →
    s.notBreakdown → (∀ j, j + 1 < m → (arnoldiLoop A scale m iom r s).hs (j + 1) j ≠ rsBreakdownTol) →
    arnoldiLoopRs A scale m iom r s.k ⟨s.hs, s.qs⟩ s.k =
      (⟨(arnoldiLoop A scale m iom r s).hs, (arnoldiLoop A scale m iom r s).qs⟩, (arnoldiLoop A scale m iom r s).k) := by
  induction r with
  | zero => intro s _ h0; omega
  | succ r ih =>
    intro s hk _ hnb hne
    have hloop : arnoldiLoop A scale m iom (r + 1) s = arnoldiLoop A scale m iom r (arnoldiMgs A scale m iom s) := by
      rw [arnoldiLoop, if_pos ⟨by omega, hnb⟩]
    have hne' : s.k + 1 < m → passNorm A scale iom s ≠ rsBreakdownTol := by
      intro h
      have h1 := hne s.k h
      rw [hloop, loop_keeps A scale m iom r _ (s.k + 1) s.k (by show s.k < s.k + 1; omega), pass_sub A scale m iom s h] at h1
      exact h1
    rw [hloop] at hne ⊢
    set s' := arnoldiMgs A scale m iom s with hs'
    have hk' : s'.k = s.k + 1 := rfl
    have hnb' : s'.notBreakdown = (passNorm A scale iom s > breakdownTol) := rfl
    have stop : ∀ f, ¬ (s'.k < m ∧ s'.notBreakdown) → arnoldiLoop A scale m iom f s' = s' := by
      intro f hf
      cases f with
      | zero => rfl
      | succ f => rw [arnoldiLoop, if_neg hf]
    rw [arnoldiLoopRs, pass_eq A scale m iom s hne']
    simp only
    by_cases hlt : passNorm A scale iom s < rsBreakdownTol
    · rw [if_pos (by simpa using hlt), stop r ?_, hk']
      rintro ⟨_, h⟩
      rw [hnb'] at h
      exact absurd h (not_lt.mpr hlt.le)
    · rw [if_neg (by simpa using hlt)]
      rcases Nat.eq_zero_or_pos r with rfl | hr
      · rw [arnoldiLoopRs, arnoldiLoop, hk']
      · have := ih s' (by omega) hr (by
          rw [hnb']
          exact lt_of_le_of_ne (not_lt.mp hlt) (hne' (by omega)).symm) hne
        rw [hk'] at this
        exact this

/-- C78: for `b ≠ 0` and at least one column requested, `arnoldi_rs` returns exactly what `arnoldi_lop` of the Python
package returns (basis, Hessenberg matrix, number of columns), provided no residual norm equals the breakdown tolerance
(where the one stops and the other goes on). -/
theorem C78_agree (A : LinOp n) (scale : ℝ) (b : Vec n) (hb : b ≠ 0) (m iom : ℕ) (hm : 0 < m)
    (hne : ∀ j, j + 1 < min n m → (arnoldiJit A scale b m iom).hs (j + 1) j ≠ 1e-12) :
    arnoldiRs A scale b m iom = .ok (arnoldiLop A scale b m iom) := by
  have hn : 0 < n := by
    rcases Nat.eq_zero_or_pos n with rfl | h
    · exact absurd (Subsingleton.elim b 0) hb
    · exact h
  have hpos := norm2_pos hb
  have hmin : 0 < min n m := by omega
  have hinit : (⟨fun _ _ => 0, fun c => if c = 0 then (1 / norm2 b) • b else 0⟩ : Arn n) =
      ⟨(arnoldiInit b).hs, (arnoldiInit b).qs⟩ := by
    unfold arnoldiInit
    simp only [gt_iff_lt, hpos, if_true]
    congr 1
    funext c
    by_cases hc : c = 0
    · subst hc
      simp only [if_true, Function.update_self]
      funext i
      simp [div_eq_inv_mul]
    · simp [hc]
  have hs := sim A scale (min n m) iom (min n m) (arnoldiInit b) (by show 0 + _ = _; omega) hmin hpos hne
  unfold arnoldiRs
  rw [Nat.min_comm m n]
  simp only
  rw [if_neg (by omega), if_neg hpos.ne', hinit]
  change Except.ok (ArnResult.mk (arnoldiLoopRs A scale (min n m) iom (min n m) (arnoldiInit b).k
    ⟨(arnoldiInit b).hs, (arnoldiInit b).qs⟩ (arnoldiInit b).k).2 _ _) = _
  have key : ∀ (x : Arn n × ℕ) (y : ArnState n), x = (⟨y.hs, y.qs⟩, y.k) →
      ArnResult.mk x.2 (Matrix.of fun i (j : Fin x.2) => x.1.qs j i) (Matrix.of fun (i j : Fin x.2) => x.1.hs i j) =
        ArnResult.mk y.k (Matrix.of fun i (j : Fin y.k) => y.qs j i) (Matrix.of fun (i j : Fin y.k) => y.hs i j) := by
    rintro x y rfl; rfl
  exact congrArg Except.ok (key _ _ hs)

/-- C78: the zero vector. Python returns no columns; the compiled routine divides by zero. -/
theorem C78_zero (A : LinOp n) (scale : ℝ) (m iom : ℕ) :
    (arnoldiLop A scale (0 : Vec n) m iom).k = 0 ∧
      (0 < n → 0 < m → arnoldiRs A scale 0 m iom = .error .nan) := by
  refine ⟨?_, fun hn hm => ?_⟩
  · rcases Nat.eq_zero_or_pos m with rfl | hm
    · exact arnJit_zero A scale 0 0 iom (by simp)
    · exact (C28_termination A scale 0 m iom hm).1 rfl
  · unfold arnoldiRs
    simp only
    rw [if_neg (by omega), if_pos (norm2_zero)]

/-! ### Start vector -/

private theorem inner_keeps (A : LinOp n) (scale : ℝ) (k m iom : ℕ) (s : Arn n) :
    (arnoldiInner A scale k m iom s).1.qs 0 = s.qs 0 := by
  unfold arnoldiInner
  simp only
  split_ifs <;> simp

private theorem loop_start (A : LinOp n) (scale : ℝ) (m iom : ℕ) (r : ℕ) : ∀ (k : ℕ) (s : Arn n) (bn : ℕ),
    (arnoldiLoopRs A scale m iom r k s bn).1.qs 0 = s.qs 0 ∧ bn ≤ (arnoldiLoopRs A scale m iom r k s bn).2 := by
  induction r with
  | zero => intro k s bn; exact ⟨rfl, le_rfl⟩
  | succ r ih =>
    intro k s bn
    rw [arnoldiLoopRs]
    simp only
    split_ifs
    · exact ⟨inner_keeps A scale k m iom s, by omega⟩
    · have := ih (k + 1) (arnoldiInner A scale k m iom s).1 (bn + 1)
      exact ⟨this.1.trans (inner_keeps A scale k m iom s), by omega⟩

/-- A nonzero start vector is `‖v‖ Q e_1`. -/
theorem arnRs_start (A : LinOp n) (scale : ℝ) (v : Vec n) (hv : v ≠ 0) (m iom : ℕ) (hm : 0 < m) :
    ∃ R, arnoldiRs A scale v m iom = .ok R ∧ 0 < R.k ∧ norm2 v • (R.Q *ᵥ unitVec R.k) = v := by
  have hn : 0 < n := by
    rcases Nat.eq_zero_or_pos n with rfl | h
    · exact absurd (Subsingleton.elim v 0) hv
    · exact h
  have hpos := norm2_pos hv
  unfold arnoldiRs
  simp only
  rw [if_neg (by omega), if_neg hpos.ne']
  obtain ⟨r, hr⟩ : ∃ r, min m n = r + 1 := ⟨min m n - 1, by omega⟩
  refine ⟨_, rfl, ?_, ?_⟩
  · show 0 < (arnoldiLoopRs _ _ _ _ (min m n) _ _ _).2
    rw [show ∀ s, arnoldiLoopRs A scale (min m n) iom (min m n) 0 s 0 = arnoldiLoopRs A scale (min m n) iom (r + 1) 0 s 0
      from fun s => by rw [hr]]
    rw [arnoldiLoopRs]
    simp only
    split_ifs
    · simp
    · exact (loop_start A scale (min m n) iom r 1 _ 1).2
  · set L := arnoldiLoopRs A scale (min m n) iom (min m n) 0
      ⟨fun _ _ => 0, fun c => if c = 0 then (1 / norm2 v) • v else 0⟩ 0 with hL
    have h0 : L.1.qs 0 = (1 / norm2 v) • v := by
      rw [hL, (loop_start A scale (min m n) iom (min m n) 0 _ 0).1]
      simp
    have hk : 0 < L.2 := by
      rw [hL]
      rw [show ∀ s, arnoldiLoopRs A scale (min m n) iom (min m n) 0 s 0 =
        arnoldiLoopRs A scale (min m n) iom (r + 1) 0 s 0 from fun s => by rw [hr]]
      rw [arnoldiLoopRs]
      simp only
      split_ifs
      · simp
      · exact (loop_start A scale (min m n) iom r 1 _ 1).2
    have := mulVec_firstUnit hk (Matrix.of fun i (j : Fin L.2) => L.1.qs j i)
    change norm2 v • ((Matrix.of fun i (j : Fin L.2) => L.1.qs j i) *ᵥ firstUnit L.2) = v
    rw [this]
    funext i
    show norm2 v * L.1.qs 0 i = v i
    rw [h0]
    simp only [Pi.smul_apply, smul_eq_mul]
    field_simp

/-! ### C79 -/

/-- C79, happy breakdown: if the Krylov space of `v` is exhausted (`A Q = Q H` for the computed basis), `apply_phi_linop`
returns `phi_k(dt A) v`, for every order `k` and every `dt`, given an exact dense kernel. -/
theorem C79_phi (K : KrylovExpm) (hK : ExactDense K.expmv) (A : LinOp n) (M : Mat n) (dt : ℝ) (v : Vec n) (hv : v ≠ 0)
    (hd : 0 < K.krylovDim) (k : ℕ) (R : ArnResult n) (hR : arnoldiRs A 1 v K.krylovDim K.iom = .ok R)
    (hex : M * R.Q = R.Q * R.H) : K.applyPhiLinop A dt v k = .ok (phiM k (dt • M) *ᵥ v) := by
  obtain ⟨R', hR', _, hst⟩ := arnRs_start A 1 v hv K.krylovDim K.iom hd
  obtain rfl : R = R' := Except.ok.inj (hR.symm.trans hR')
  unfold KrylovExpm.applyPhiLinop
  rw [hR]
  show (do let e ← K.expmv R.k R.H dt (unitVec R.k) k; pure (norm2 v • (R.Q *ᵥ e))) = _
  rw [hK]
  show Except.ok _ = Except.ok _
  congr 1
  rw [← phi_intertwine (dt • M) (dt • R.H) R.Q (by rw [Matrix.smul_mul, hex, Matrix.mul_smul]) k, ← Matrix.mulVec_smul, hst]

/-- C79 for `apply_linop`: the basis is built with the scaled operator. -/
theorem C79_exp (K : KrylovExpm) (hK : ExactDense K.expmv) (A : LinOp n) (M : Mat n) (dt : ℝ) (v : Vec n) (hv : v ≠ 0)
    (hd : 0 < K.krylovDim) (R : ArnResult n) (hR : arnoldiRs A dt v K.krylovDim K.iom = .ok R)
    (hex : (dt • M) * R.Q = R.Q * R.H) : K.applyLinop A dt v = .ok (NormedSpace.exp (dt • M) *ᵥ v) := by
  obtain ⟨R', hR', _, hst⟩ := arnRs_start A dt v hv K.krylovDim K.iom hd
  obtain rfl : R = R' := Except.ok.inj (hR.symm.trans hR')
  unfold KrylovExpm.applyLinop
  rw [hR]
  show (do let e ← K.expmv R.k R.H 1 (unitVec R.k) 0; pure (norm2 v • (R.Q *ᵥ e))) = _
  rw [hK]
  show Except.ok _ = Except.ok _
  congr 1
  rw [one_smul, ← phi_intertwine (dt • M) R.H R.Q hex 0, ← Matrix.mulVec_smul, hst, phiM_zero]

theorem rs_extV_eq (vb : List (Vec n)) (h : 2 ≤ vb.length) :
    extV vb = concat (fun i => (vb.getD 0 0) i / 1) (lastUnit (vb.length - 1)) := by
  funext i
  unfold extV concat lastUnit
  refine Fin.addCases (fun i => ?_) (fun j => ?_) i
  · rw [Fin.append_left, dif_pos (by simp)]
    simp
  · rw [Fin.append_right, dif_neg (by simp)]
    simp only [Fin.val_natAdd]
    by_cases hj : (j : ℕ) + 1 = vb.length - 1
    · rw [if_pos (by omega), if_pos hj]
    · rw [if_neg (by omega), if_neg hj]

/-- the start vector of `kiops_fixedsteps` is never zero -/
theorem extV_ne (vb : List (Vec n)) (h : 2 ≤ vb.length) : extV vb ≠ 0 := by
  intro h0
  have := congrFun h0 (Fin.natAdd n (⟨vb.length - 2, by omega⟩ : Fin (vb.length - 1)))
  unfold extV at this
  rw [dif_neg (by simp), if_pos (by simp; omega)] at this
  exact one_ne_zero this

/-- C79: `kiops_fixedsteps` on the extended operator returns `sum_j phi_j(t A) v_j` when the Krylov space is exhausted, for
every number of vectors, zero ones included. -/
theorem C79_kiops (K : KrylovExpm) (hK : ExactDense K.expmv) (A : LinOp n) (M : Mat n) (hA : IsMatrix A M) (t : ℝ)
    (vb : List (Vec n)) (h2 : 2 ≤ vb.length) (hd : 0 < K.krylovDim) (ext : LinOp (n + (vb.length - 1)))
    (hext : extendedLinOp t A vb = .ok ext) (Z : Mat (n + (vb.length - 1))) (hZ : IsMatrix ext Z)
    (R : ArnResult (n + (vb.length - 1))) (hR : arnoldiRs ext 1 (extV vb) K.krylovDim K.iom = .ok R)
    (hex : Z * R.Q = R.Q * R.H) :
    K.kiops t A vb 1 = .ok (∑ j ∈ Finset.range vb.length, phiM j (t • M) *ᵥ vb.getD j 0) := by
  obtain ⟨Z', hZ', hval⟩ := kiops_aug A M hA t 1 vb
  have hZZ : Z = Z' := by
    have e : ext = augMatvec A t (Matrix.of fun i j => augB vb i j / 1) (augK (vb.length - 1)) := by
      unfold extendedLinOp at hext
      rw [if_neg (by omega)] at hext
      have := Except.ok.inj hext
      rw [← this]
      unfold augMatvec
      congr 1
      funext rhs
      have : (Matrix.of fun i j => augB vb i j / 1) = extB vb := by
        ext i j; simp [augB, extB]
      rw [this]
      rfl
    rw [← opMatrix_eq hZ, ← opMatrix_eq hZ', e]
  subst hZZ
  unfold KrylovExpm.kiops
  rw [hext]
  have := C79_exp K hK ext Z 1 (extV vb) (extV_ne vb h2) hd R hR (by rw [one_smul]; exact hex)
  change (do let w ← K.applyLinop ext 1 (extV vb); pure (headN w)) = _
  rw [this]
  show Except.ok _ = Except.ok _
  congr 1
  rw [one_smul, rs_extV_eq vb h2, ← phiM_zero, hval, inv_one, one_smul, show vb.length - 1 + 1 = vb.length by omega]

/-- When the Arnoldi process of the Python routine fills the space, `scale A Q = Q H`. -/
theorem full_relation (A : LinOp n) (M : Mat n) (hA : IsMatrix A M) (scale : ℝ) (b : Vec n) (m iom : ℕ)
    (hiom : min n m ≤ iom + 1) (hk : (arnoldiLop A scale b m iom).k = n) :
    (scale • M) * (arnoldiLop A scale b m iom).Q = (arnoldiLop A scale b m iom).Q * (arnoldiLop A scale b m iom).H := by
  set R := arnoldiLop A scale b m iom with hRdef
  obtain ⟨hQ, _, hH⟩ := C27_full A scale b m iom hiom
  obtain ⟨_, _, _, _, r, hr⟩ := C26_arnoldi_relation A scale b m iom
  have hcol : ∀ j : Fin R.k, ((scale • M) * R.Q) *ᵥ (Pi.single j 1) = scale • A.call (fun i => R.Q i j) := by
    intro j
    rw [← Matrix.mulVec_mulVec, Matrix.mulVec_single_one, Matrix.smul_mulVec]
    show _ = scale • A.matvec _
    rw [hA]
    rfl
  have hrest : ∀ j : Fin R.k, (if (j : ℕ) + 1 = R.k then r else 0) = 0 := by
    intro j
    have hj := hr j
    refine fullspace_res R.Q hk hQ _ fun i => ?_
    have h1 := hH i j
    rw [hj, dotProduct_add] at h1
    have h2 : (fun x => R.Q x i) ⬝ᵥ (fun x => (R.Q * R.H) x j) = R.H i j := by
      have : (R.Qᵀ * (R.Q * R.H)) i j = R.H i j := by rw [← Matrix.mul_assoc, hQ, Matrix.one_mul]
      rw [← this]
      rfl
    rw [dotProduct_comm]
    linarith
  ext i j
  have h1 := hcol j
  have h2 := hr j
  rw [hrest j, add_zero] at h2
  have h3 := congrFun (h1.trans h2) i
  rw [Matrix.mulVec_single_one] at h3
  exact h3

/-- C79, full space: with full orthogonalisation, no tie at the breakdown tolerance and `n` columns found, `apply_phi_linop`
is exact; this is the case for every operator and vector of dimension one. -/
theorem C79_full (K : KrylovExpm) (hK : ExactDense K.expmv) (A : LinOp n) (M : Mat n) (hA : IsMatrix A M) (dt : ℝ)
    (v : Vec n) (hv : v ≠ 0) (hd : 0 < K.krylovDim) (k : ℕ) (hiom : min n K.krylovDim ≤ K.iom + 1)
    (hne : ∀ j, j + 1 < min n K.krylovDim → (arnoldiJit A 1 v K.krylovDim K.iom).hs (j + 1) j ≠ 1e-12)
    (hfull : (arnoldiLop A 1 v K.krylovDim K.iom).k = n) :
    K.applyPhiLinop A dt v k = .ok (phiM k (dt • M) *ᵥ v) := by
  refine C79_phi K hK A M dt v hv hd k _ (C78_agree A 1 v hv _ _ hd hne) ?_
  have := full_relation A M hA 1 v K.krylovDim K.iom hiom hfull
  rwa [one_smul] at this

theorem C79_scalar (K : KrylovExpm) (hK : ExactDense K.expmv) (A : LinOp 1) (M : Mat 1) (hA : IsMatrix A M) (dt : ℝ)
    (v : Vec 1) (hv : v ≠ 0) (hd : 0 < K.krylovDim) (k : ℕ) :
    K.applyPhiLinop A dt v k = .ok (phiM k (dt • M) *ᵥ v) := by
  have h1 : min 1 K.krylovDim = 1 := by omega
  refine C79_full K hK A M hA dt v hv hd k (by omega) (fun j hj => by omega) ?_
  have := (C28_termination A 1 v K.krylovDim K.iom hd).2 hv
  omega

/-- Non-vacuity: a constructed kernel with the crate's dense routine over an exact exponential. -/
example : ∃ K : KrylovExpm, KrylovExpm.new (padeApply fun _ A => NormedSpace.exp A) 100 (some 2) = .ok K ∧
    ExactDense K.expmv ∧ 0 < K.krylovDim :=
  ⟨_, rfl, fun m a dt v k => padeApply_exact m a dt v k, by norm_num⟩

end Ormatex.Props
