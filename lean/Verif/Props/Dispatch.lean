import Verif.Props.Wrapper
import Verif.Props.Trial
import Verif.Spec.Exact

/-! Method names: C08, C09, C10, C11, C12. -/

namespace Ormatex.Props
open Ormatex

/-! ### C08 -/

/-- The published ORMATEX/Rust/diffrax method names. -/
def publishedNames : List String :=
  ["exprb2", "exprb3", "pexprb4", "epi2", "epi3", "exprb2_dense", "exprb2_pfd", "exp_pfd", "exprb2_pfd_rs",
   "exp_pfd_rs", "epi2_leja_re", "epi2_leja_im", "epi3_leja_im", "exp1", "exp2", "exp3", "exp1_dense", "exp2_dense",
   "exp3_dense", "rk4", "exprb2_rs", "exprb3_rs", "epi2_rs", "epi3_rs", "bdf2_rs", "bdf1_rs", "backeuler_rs", "cn_rs",
   "euler", "heun", "midpoint", "bosh3", "dopri5", "implicit_euler", "implicit_esdirk3", "implicit_esdirk4"]

/-- **C08.** For every string, the family (or exception) `integrate` selects. -/
theorem C08_dispatch (hasRust : Bool) (m : String) :
    (dispatch hasRust m = .ok .rb ↔ m ∈ ["exprb2", "exprb3", "pexprb4", "epi2", "epi3", "exprb2_dense", "exprb2_pfd",
      "exp_pfd", "exprb2_pfd_rs", "exp_pfd_rs"]) ∧
    (dispatch hasRust m = .ok .leja ↔ m ∈ ["epi2_leja_re", "epi2_leja_im", "epi3_leja_im"]) ∧
    (dispatch hasRust m = .ok .split ↔ m ∈ ["exp1", "exp2", "exp3", "exp1_dense", "exp2_dense", "exp3_dense"]) ∧
    (dispatch hasRust m = .ok .rk ↔ m = "rk4") ∧
    (dispatch hasRust m = .ok .diffrax ↔ m ∈ ["euler", "heun", "midpoint", "bosh3", "dopri5", "implicit_euler",
      "implicit_esdirk3", "implicit_esdirk4"]) ∧
    (∀ name, dispatch hasRust m = .ok (.rust name) ↔ hasRust = true ∧ m = name ++ "_rs" ∧
      name ∈ ["exprb2", "exprb3", "epi2", "epi3", "bdf2", "bdf1", "backeuler", "cn"]) ∧
    (dispatch hasRust m = .error .importErr ↔ hasRust = false ∧
      m ∈ ["exprb2_rs", "exprb3_rs", "epi2_rs", "epi3_rs", "bdf2_rs", "bdf1_rs", "backeuler_rs", "cn_rs"]) ∧
    (dispatch hasRust m = .error .attribute ↔ m ∉ publishedNames) := by
  have key : ∀ name : String, (m = name ++ "_rs" ∧
      name ∈ ["exprb2", "exprb3", "epi2", "epi3", "bdf2", "bdf1", "backeuler", "cn"]) ↔
      (name, m) ∈ [("exprb2", "exprb2_rs"), ("exprb3", "exprb3_rs"), ("epi2", "epi2_rs"), ("epi3", "epi3_rs"),
        ("bdf2", "bdf2_rs"), ("bdf1", "bdf1_rs"), ("backeuler", "backeuler_rs"), ("cn", "cn_rs")] := by
    intro name
    constructor
    · rintro ⟨rfl, h⟩
      fin_cases h <;> decide
    · intro h
      fin_cases h <;> decide
  simp only [key]
  by_cases hm : m ∈ publishedNames
  · cases hasRust <;>
    · fin_cases hm
      all_goals
        refine ⟨by decide, by decide, by decide, by decide, by decide, ?_, by decide, by decide⟩
        intro name
        simp [dispatch, rsMethods, inKeys, ExpRB.validMethods, ExpSplit.validMethods, ExpLeja.validMethods,
          RK.validMethods, diffraxMethods]
        try exact eq_comm
  · have hd : dispatch hasRust m = .error .attribute := by
      simp only [publishedNames, List.mem_cons, List.not_mem_nil, or_false, not_or] at hm
      simp [dispatch, rsMethods, inKeys, ExpRB.validMethods, ExpSplit.validMethods, ExpLeja.validMethods,
          RK.validMethods, diffraxMethods, hm]
    rw [hd]
    have hn : ∀ x, x ∈ publishedNames → m ≠ x := fun x hx h => hm (h ▸ hx)
    simp only [publishedNames, List.mem_cons, List.not_mem_nil, or_false, not_or] at hm
    simp [publishedNames, hm]


/-- Non-vacuity of C08: concrete routes. -/
example : dispatch false "epi3" = .ok .rb ∧ dispatch false "epi3_rs" = .error .importErr ∧
    dispatch true "epi3_rs" = .ok (.rust "epi3") ∧ dispatch true "rk4_rs" = .error .attribute ∧
    dispatch true "epi2_leja" = .error .attribute := by decide

/-! ### C09 -/

variable {n : ℕ} {P : Type} [EmptyCollection P]

/-- the call does not raise `e` -/
def Avoids {α : Type} (e : PyErr) (x : Py α) : Prop := x ≠ .error e

theorem Avoids.bind {α β : Type} {e : PyErr} {x : Py α} {f : α → Py β} (hx : Avoids e x) (hf : ∀ a, Avoids e (f a)) :
    Avoids e (x >>= f) := by
  cases x with
  | error e' => exact fun h => hx (by simpa [Bind.bind, Except.bind] using h)
  | ok a => exact hf a

theorem Avoids.pure {α : Type} {e : PyErr} {a : α} : Avoids e (Pure.pure a : Py α) := by
  intro h; cases h

theorem Avoids.ok {α : Type} {e : PyErr} {a : α} : Avoids e (.ok a : Py α) := by
  intro h; cases h

theorem Avoids.ite {α : Type} {e : PyErr} {c : Prop} [Decidable c] {x y : Py α} (hx : Avoids e x) (hy : Avoids e y) :
    Avoids e (if c then x else y) := by
  split <;> assumption

theorem Avoids.get {α : Type} {e : PyErr} (he : e ≠ .index) (d : Deque α) (i : ℕ) : Avoids e (d.get i) := by
  unfold Deque.get
  split
  · exact Avoids.ok
  · intro h; cases h; exact he rfl

theorem Avoids.keep {α σ : Type} {e : PyErr} {s : σ} {x : Py α} (h : Avoids e x) : Avoids e (keep s x) := by
  cases x with
  | error e' => intro hh; exact h (by simpa [Ormatex.keep, Except.map] using hh)
  | ok a => exact Avoids.ok

/-- None of the kernels raises `e`. -/
structure KernelsAvoid (e : PyErr) (K : Kernels n) : Prop where
  phiLinop : ∀ A dt v k, Avoids e (K.phiLinop A dt v k)
  kiops : ∀ A dt b, Avoids e (K.kiops A dt b)
  phiSqAll : ∀ z k, Avoids e (K.phiSqAll z k)
  phiPfd : ∀ z b k, Avoids e (K.phiPfd z b k)

section avoid
variable {e : PyErr} (he : e ≠ .index) {K : Kernels n} (hK : KernelsAvoid e K) {sys : OdeSys n P}
include he hK

omit hK [EmptyCollection P] in
theorem avoid_remf (b : Base (Vec n)) (tr : ℝ) (yr f : Vec n) (J : LinOp n) (v : Vec n) :
    Avoids e (remf sys b tr yr f J v) :=
  (Avoids.get he _ _).bind fun _ => (Avoids.get he _ _).bind fun _ => Avoids.pure

omit hK [EmptyCollection P] in
theorem avoid_remfSplit (b : Base (Vec n)) (tr : ℝ) (yr f : Vec n) (J : LinOp n) :
    Avoids e (remfSplit sys b tr yr f J) :=
  (Avoids.get he _ _).bind fun _ => Avoids.pure

omit he in
theorem avoid_phi2v (tol : ℝ) (jac : SysJac n) (dt c : ℝ) : Avoids e (phi2vNonauto K tol jac dt c) := by
  unfold phi2vNonauto
  refine Avoids.ite ?_ Avoids.pure
  refine Avoids.ite ?_ Avoids.pure
  exact (hK.phiLinop _ _ _ _).bind fun _ => Avoids.pure

omit [EmptyCollection P] in
theorem avoid_exprb3 (s : ExpRB n) (dt : ℝ) (kw : P) : Avoids e (stepExprb3 K sys s dt kw) := by
  unfold stepExprb3
  refine (Avoids.get he _ _).bind fun _ => ?_
  refine (avoid_phi2v hK _ _ _ _).bind fun _ => ?_
  refine (hK.phiLinop _ _ _ _).bind fun _ => ?_
  refine (avoid_remf he _ _ _ _ _ _).bind fun _ => ?_
  exact (hK.phiLinop _ _ _ _).bind fun _ => Avoids.pure

theorem avoid_rb_step (hd : ∀ kw t y, Avoids e (sys.fjac kw t y).dense) (hasRust : Bool) (s : ExpRB n) (dt : ℝ)
    (kw : Option P)
    (hm : s.base.method ∈ ["exprb2", "exprb3", "pexprb4", "epi2", "epi3", "exprb2_dense", "exprb2_pfd", "exp_pfd"] ∨
      hasRust = true ∧ s.base.method ∈ ["exprb2_pfd_rs", "exp_pfd_rs"]) :
    Avoids e (ExpRB.step hasRust K sys s dt kw) := by
  have gl : ∀ (l : List (Mat n)) (i : ℕ), Avoids e (pyGet l i) := by
    intro l i
    unfold pyGet
    split
    · exact Avoids.ok
    · intro h; cases h; exact he rfl
  have h3 := fun kw => avoid_exprb3 he hK (sys := sys) s dt kw
  have h2 : ∀ kw, Avoids e (stepExprb2 K sys s dt kw) := fun kw => by
    unfold stepExprb2
    refine (Avoids.get he _ _).bind fun _ => ?_
    refine (avoid_phi2v hK _ _ _ _).bind fun _ => ?_
    exact (hK.phiLinop _ _ _ _).bind fun _ => Avoids.pure
  have h4 : ∀ kw, Avoids e (stepPexprb4 K sys s dt kw) := fun kw => by
    unfold stepPexprb4 fUn2 fUn3 pexprb4Final
    refine (Avoids.get he _ _).bind fun _ => ?_
    refine Avoids.bind ?_ fun _ => ?_
    · refine (avoid_phi2v hK _ _ _ _).bind fun _ => ?_
      refine (hK.phiLinop _ _ _ _).bind fun _ => ?_
      exact avoid_remf he _ _ _ _ _ _
    · refine Avoids.bind ?_ fun _ => ?_
      · refine (avoid_phi2v hK _ _ _ _).bind fun _ => ?_
        refine (hK.phiLinop _ _ _ _).bind fun _ => ?_
        exact (avoid_remf he _ _ _ _ _ _).bind fun _ => Avoids.pure
      · exact (hK.kiops _ _ _).bind fun _ => Avoids.pure
  have he2 : ∀ kw, Avoids e (stepEpi2 K sys s dt kw) := fun kw => by
    unfold stepEpi2
    refine (Avoids.get he _ _).bind fun _ => ?_
    exact (hK.kiops _ _ _).bind fun _ => Avoids.pure
  have he3 : ∀ kw, Avoids e (stepEpi3 K sys s dt kw) := fun kw => by
    unfold stepEpi3
    refine (Avoids.get he _ _).bind fun _ => (Avoids.get he _ _).bind fun _ => (Avoids.get he _ _).bind fun _ => ?_
    refine (avoid_remf he _ _ _ _ _ _).bind fun _ => ?_
    exact (hK.kiops _ _ _).bind fun _ => Avoids.pure
  have hde : Avoids e (stepExprb2Dense K sys s dt) := by
    unfold stepExprb2Dense
    refine (Avoids.get he _ _).bind fun _ => (hd _ _ _).bind fun _ => (hK.phiSqAll _ _).bind fun _ => ?_
    exact (gl _ _).bind fun _ => (gl _ _).bind fun _ => Avoids.pure
  have hpf : ∀ kw, Avoids e (stepExprb2Pfd K sys s dt kw) := fun kw => by
    unfold stepExprb2Pfd
    refine (Avoids.get he _ _).bind fun _ => (hd _ _ _).bind fun _ => ?_
    refine Avoids.ite (Avoids.ite ?_ ?_) ?_
    · exact (hK.phiPfd _ _ _).bind fun _ => (hK.phiPfd _ _ _).bind fun _ => Avoids.pure
    · exact Avoids.pure.bind fun _ => (hK.phiPfd _ _ _).bind fun _ => Avoids.pure
    · exact Avoids.pure.bind fun _ => (hK.phiPfd _ _ _).bind fun _ => Avoids.pure
  have hep : ∀ kw, Avoids e (stepExpPfd K sys s dt kw) := fun kw => by
    unfold stepExpPfd
    refine (Avoids.get he _ _).bind fun _ => (hd _ _ _).bind fun _ => ?_
    exact (hK.phiPfd _ _ _).bind fun _ => Avoids.pure
  have hprs : Avoids e (stepExprb2PfdRs K sys s dt) := by
    unfold stepExprb2PfdRs
    exact (Avoids.get he _ _).bind fun _ => (hd _ _ _).bind fun _ => Avoids.pure
  have hers : Avoids e (stepExpPfdRs K sys s dt) := by
    unfold stepExpPfdRs
    exact (Avoids.get he _ _).bind fun _ => (hd _ _ _).bind fun _ => Avoids.pure
  unfold ExpRB.step
  simp only
  rcases hm with hm | ⟨hr, hm⟩
  · simp only [List.mem_cons, List.not_mem_nil, or_false] at hm
    rcases hm with hm | hm | hm | hm | hm | hm | hm | hm <;> rw [hm] <;>
      simp only [String.reduceEq, if_true, if_false]
    · exact h2 _
    · exact h3 _
    · exact h4 _
    · exact he2 _
    · exact Avoids.ite (he3 _) (h3 _)
    · exact hde
    · exact hpf _
    · exact hep _
  · simp only [List.mem_cons, List.not_mem_nil, or_false] at hm
    rcases hm with hm | hm <;> rw [hm] <;>
      simp only [String.reduceEq, hr, if_true, if_false, true_and, false_and]
    · exact hprs
    · exact hers

theorem avoid_split_step (hd : ∀ t y, Avoids e (sys.fl t y).dense) (ha : e ≠ .attribute) (hk : e ≠ .key)
    (s : ExpSplit n) (dt : ℝ) (kw : Option P)
    (hm : s.base.method ∈ ["exp1", "exp2", "exp3", "exp1_dense", "exp2_dense", "exp3_dense"]) :
    Avoids e (ExpSplit.step K sys s dt kw) := by
  have gl : ∀ (l : List (Mat n)) (i : ℕ), Avoids e (pyGet l i) := by
    intro l i
    unfold pyGet
    split
    · exact Avoids.ok
    · intro h; cases h; exact he rfl
  have gd : ∀ (d : PhiDict n) ck, Avoids e (dictGet d ck) := by
    intro d ck
    unfold dictGet
    split
    · exact Avoids.ok
    · intro h; cases h; exact hk rfl
  have go : ∀ {α : Type} (o : Option α), Avoids e (optGet o) := by
    intro α o
    unfold optGet
    split
    · exact Avoids.ok
    · intro h; cases h; exact ha rfl
  have hf : ∀ (dt : ℝ) (L : Mat n) cks d, Avoids e (fillPhiLs K dt L cks d) := by
    intro dt L cks
    induction cks with
    | nil => intro d; exact Avoids.ok
    | cons c cks ih =>
      intro d
      obtain ⟨c, ks⟩ := c
      unfold fillPhiLs
      refine (hK.phiSqAll _ _).bind fun l => Avoids.bind ?_ fun _ => ih _
      induction ks generalizing d with
      | nil => exact Avoids.pure
      | cons k ks ihk =>
        rw [List.foldlM_cons]
        exact Avoids.bind ((gl _ _).bind fun _ => Avoids.pure) fun _ => ihk _
  have hu : ∀ cks, Avoids e (updateDensePhiLs K sys s dt cks) := by
    intro cks
    unfold updateDensePhiLs
    split
    · exact Avoids.ok
    exact (Avoids.get he _ _).bind fun _ => (hd _ _).bind fun _ => (hf _ _ _ _).bind fun _ => Avoids.pure
  unfold ExpSplit.step
  simp only
  simp only [List.mem_cons, List.not_mem_nil, or_false] at hm
  rcases hm with hm | hm | hm | hm | hm | hm <;> rw [hm] <;>
    simp only [String.reduceEq, if_true, if_false]
  · refine Avoids.keep ?_
    unfold stepExp1
    exact (Avoids.get he _ _).bind fun _ => (hK.phiLinop _ _ _ _).bind fun _ => Avoids.pure
  · refine Avoids.keep ?_
    unfold stepExp2
    refine (Avoids.get he _ _).bind fun _ => (hK.phiLinop _ _ _ _).bind fun _ => ?_
    exact (avoid_remfSplit he _ _ _ _ _).bind fun _ => (hK.phiLinop _ _ _ _).bind fun _ => Avoids.pure
  · refine Avoids.keep ?_
    unfold stepExp3
    refine (Avoids.get he _ _).bind fun _ => (hK.phiLinop _ _ _ _).bind fun _ => ?_
    refine (avoid_remfSplit he _ _ _ _ _).bind fun _ => (hK.phiLinop _ _ _ _).bind fun _ => ?_
    refine (avoid_remfSplit he _ _ _ _ _).bind fun _ => (hK.phiLinop _ _ _ _).bind fun _ => ?_
    exact (hK.phiLinop _ _ _ _).bind fun _ => Avoids.pure
  · unfold stepExp1Dense
    refine (Avoids.get he _ _).bind fun _ => (hu _).bind fun _ => (go _).bind fun _ => ?_
    exact (gd _ _).bind fun _ => Avoids.pure
  · unfold stepExp2Dense
    refine (Avoids.get he _ _).bind fun _ => (hu _).bind fun _ => (go _).bind fun _ => (go _).bind fun _ => ?_
    exact (gd _ _).bind fun _ => (gd _ _).bind fun _ => (gd _ _).bind fun _ => Avoids.pure
  · unfold stepExp3Dense
    refine (Avoids.get he _ _).bind fun _ => (hu _).bind fun _ => (go _).bind fun _ => (go _).bind fun _ => ?_
    exact (gd _ _).bind fun _ => (gd _ _).bind fun _ => (gd _ _).bind fun _ => (gd _ _).bind fun _ =>
      (gd _ _).bind fun _ => Avoids.pure

end avoid

end Ormatex.Props
