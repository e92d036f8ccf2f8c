import Verif.Spec.RsUnits
import Verif.Props.RsTurn

/-!
C141: runs of the binding in other units.
-/

namespace Ormatex.Props
open Matrix Ormatex.Spec Ormatex.Rs
open scoped Classical

section
variable {n : ℕ}

theorem norm2_scale {a : ℝ} (ha : 0 < a) (v : Vec n) : norm2 (a • v) = a * norm2 v := by
  unfold norm2
  rw [smul_dotProduct, dotProduct_smul, smul_eq_mul, smul_eq_mul, ← mul_assoc, Real.sqrt_mul (by positivity), Real.sqrt_mul_self ha.le]

/-- the Arnoldi process only depends on the direction of the start vector -/
theorem arnoldi_scale (A : LinOp n) (scale : ℝ) {a : ℝ} (ha : 0 < a) (b : Vec n) (m iom : ℕ) : arnoldiRs A scale (a • b) m iom = arnoldiRs A scale b m iom := by
  have e : (1 / norm2 (a • b)) • (a • b) = (1 / norm2 b) • b := by
    rw [norm2_scale ha, smul_smul]
    congr 1
    by_cases h : norm2 b = 0
    · rw [h]; simp
    · field_simp
  have z : norm2 (a • b) = 0 ↔ norm2 b = 0 := by
    rw [norm2_scale ha, mul_eq_zero]
    exact ⟨fun h => h.resolve_left ha.ne', Or.inr⟩
  unfold arnoldiRs
  dsimp only
  rw [e]
  simp only [z]

theorem phi_scale (K : KrylovExpm) (A : LinOp n) {a : ℝ} (ha : 0 < a) (dt : ℝ) (v : Vec n) (k : ℕ) :
    K.applyPhiLinop A dt (a • v) k = (K.applyPhiLinop A dt v k).map (a • ·) := by
  unfold KrylovExpm.applyPhiLinop
  rw [arnoldi_scale A 1 ha, norm2_scale ha]
  cases arnoldiRs A 1 v K.krylovDim K.iom with
  | error e => rfl
  | ok r =>
    simp only [Except.map, bind, Except.bind]
    cases K.expmv r.k r.H dt (unitVec r.k) k with
    | error e => rfl
    | ok e => simp only [pure, Except.pure, mul_smul]

/-- **C141.**  A change of the unit of all components (by a positive factor), in orthogonal coordinates and with a shifted time axis: `epi2`, `exprb2` and
`exprb3` return exactly the result in the new units, for every dimension of the Krylov spaces, failures included, as long as the tolerance for small time
derivatives is disabled or the system is autonomous. -/
theorem C141_units {S : Mat n} {a c : ℝ} {sys sys' : Sys n} (hS : ScaledSys S a c sys sys') (gmres gmres' : Gmres n) (split : ℕ → Option (Split ℕ))
    (y0 : Vec n) (t0 dt : ℝ) (N : ℕ) (kd : Kwds)
    (hm : ∀ o, parseOpts kd = .ok o → o.method ∈ ["epi2", "exprb2", "exprb3"])
    (htol : ∀ o, parseOpts kd = .ok o → o.tolFdt < 0 ∨ (∀ t t' y, sys.frhs t y = sys.frhs t' y)) :
    integrateWrapperRs gmres' split sys' ((a • S) *ᵥ y0) (t0 + c) dt N kd = turnRun (a • S) c (integrateWrapperRs gmres split sys y0 t0 dt N kd) := by
  have h := turn_orth hS.orth
  have ha := hS.pos
  have hl : Lin fun v => (a • S) *ᵥ v := Lin.mk (fun x y => mulVec_add _ x y) (fun b x => mulVec_smul _ b x)
  have hJ : ∀ t y, OpTurn (fun v => (a • S) *ᵥ v) (sys.fjac t y) (sys'.fjac (t + c) ((a • S) *ᵥ y)) := by
    intro t y v
    obtain ⟨A, A', h1, h2, h3⟩ := hS.jac t y
    rw [h1 v, h2]
    dsimp only
    rw [mulVec_mulVec, mulVec_mulVec, Matrix.mul_smul, Matrix.smul_mul, h3]
  have hphi : ∀ (K : KrylovExpm) (t : ℝ) (y : Vec n) (dt : ℝ) (v : Vec n) (k : ℕ),
      K.applyPhiLinop (sys'.fjac (t + c) ((a • S) *ᵥ y)) dt ((a • S) *ᵥ v) k = (K.applyPhiLinop (sys.fjac t y) dt v k).map fun v => (a • S) *ᵥ v := by
    intro K t y dt v k
    obtain ⟨A, A', h1, h2, h3⟩ := hS.jac t y
    have ho : OpTurn (fun v => S *ᵥ v) (sys.fjac t y) (sys'.fjac (t + c) ((a • S) *ᵥ y)) := by
      intro v
      rw [h1 v, h2]
      dsimp only
      rw [mulVec_mulVec, mulVec_mulVec, h3]
    rw [smul_mulVec a S v, phi_scale K _ ha, h.phi_turn K ho]
    cases K.applyPhiLinop (sys.fjac t y) dt v k with
    | error e => rfl
    | ok w => simp only [Except.map, smul_mulVec]
  have tr : ∀ z : RsM (List (Vec n) × List ℝ), turnRun (a • S) c z = z.map fun p => (p.1.map fun v => (a • S) *ᵥ v, p.2.map (· + c)) := fun z => by
    cases z <;> rfl
  rw [tr]
  unfold integrateWrapperRs
  cases hp : parseOpts kd with
  | error e => rfl
  | ok o =>
    have hmo := hm o hp
    have h3 : o.method ≠ "epi3" := fun q => by rw [q] at hmo; simp at hmo
    have m1 : ¬(o.method = "bdf1" ∨ o.method = "backeuler") := by rintro (q | q) <;> · rw [q] at hmo; simp at hmo
    have m2 : o.method ≠ "bdf2" := fun q => by rw [q] at hmo; simp at hmo
    have m3 : o.method ≠ "cn" := fun q => by rw [q] at hmo; simp at hmo
    simp only [bind, Except.bind]
    let tS : Solver n → Solver n := fun s => match s with
      | .bdf b => .bdf (turnBdf (fun v => (a • S) *ᵥ v) c b)
      | .epirk K e => .epirk K (turnEpirk (fun v => (a • S) *ᵥ v) c e)
    let P : Solver n → Prop := fun s => match s with
      | .bdf _ => False
      | .epirk _ e => TolTurn (fun v => (a • S) *ᵥ v) sys.frhs e.tolFdt ∧ e.method ≠ "epi3"
    have loop := fun (s : Solver n) (hs : P s) => outLoop_turn (solverIntegrator gmres sys) (solverIntegrator gmres' sys') (fun v => (a • S) *ᵥ v) c dt tS P
      (by rintro (b | ⟨K, e⟩) <;> exact rsGet_map _ _ _)
      (by rintro (b | ⟨K, e⟩) <;> rfl)
      (by
        rintro (b | ⟨K, e⟩) hs
        · exact hs.elim
        · exact epirk_turn hl hS.rhs hJ K e (hphi K) (fun q => absurd q hs.2) hs.1 dt)
      (by
        rintro (b | ⟨K, e⟩) r r' hr
        · simp only [stripRes, turnStep, Prod.mk.injEq] at hr
          obtain ⟨a1, a2, a3⟩ := hr
          simp only [solverIntegrator, Bdf.integrator, tS, turnBdf, a1, a3, List.map_cons]
        · simp only [stripRes, turnStep, Prod.mk.injEq] at hr
          obtain ⟨a1, a2, a3⟩ := hr
          simp only [solverIntegrator, Epirk.integrator, tS, turnEpirk, a1, a3, List.map_cons])
      (by rintro (b | ⟨K, e⟩) r hs <;> exact hs)
      o.osteps N 0 s [] [] hs
    unfold selectSolver
    simp only [if_neg m1, if_neg m2, if_neg m3, bind, Except.bind]
    have ht : TolTurn (fun v => (a • S) *ᵥ v) sys.frhs o.tolFdt := by
      rcases htol o hp with q | q
      · exact Or.inl q
      · exact Or.inr (Or.inl q)
    cases selectExpmv split o.expmvMethod with
    | error e => rfl
    | ok ev =>
      cases hK : KrylovExpm.new ev o.krylovDim (some o.iom) with
      | error e => simp only [hK]; rfl
      | ok K =>
        have l := fun ord => loop (.epirk K (Epirk.mk ord o.method t0 o.tolFdt [y0] [t0])) ⟨ht, h3⟩
        simp only [hK, Epirk.new, bind, Except.bind, pure, Except.pure]
        by_cases p1 : o.method = "epi2" ∨ o.method = "exprb2"
        · simp only [if_pos p1]
          exact l 2
        simp only [if_neg p1]
        by_cases p2 : o.method = "epi3" ∨ o.method = "exprb3"
        · simp only [if_pos p2]
          exact l 3
        simp only [if_neg p2]
        rfl

/-- a reaction of second order in a unit `u`: `y0' = -k y0 y1`, `y1' = -k y0 y1 - y1`, whose rate constant depends on the unit -/
noncomputable def unitsSys (k : ℝ) : Sys 2 where
  frhs _ y := ![-k * (y 0 * y 1), -k * (y 0 * y 1) - y 1]
  fjac _ y := LinOp.mk (fun v => !![-k * y 1, -k * y 0; -k * y 1, -k * y 0 - 1] *ᵥ v) (.error .notImplemented)

/-- the hypotheses are met: concentrations in a unit that is smaller by the factor 1000 (with the rate constant divided by it), default options -/
example (split : ℕ → Option (Split ℕ)) (y0 : Vec 2) (gmres : Gmres 2) (m : String) (hm : m = "exprb2" ∨ m = "exprb3" ∨ m = "epi2") :
    integrateWrapperRs gmres split (unitsSys (2 / 1000)) (((1000 : ℝ) • (1 : Mat 2)) *ᵥ y0) (0 + 0) (1 / 10) 20
      (fun k => if k = "method" then some (.str m) else none) =
    turnRun ((1000 : ℝ) • 1) 0 (integrateWrapperRs gmres split (unitsSys 2) y0 0 (1 / 10) 20
      (fun k => if k = "method" then some (.str m) else none)) := by
  have ho : ∀ o, parseOpts (fun k => if k = "method" then some (.str m) else none) = .ok o → o = RunOpts.mk m "pade" 100 2 1e-8 1e-8 1 := fun o h => by
    simp [parseOpts, getValOrDefault, PyVal.asString, bind, Except.bind, pure, Except.pure] at h
    rw [← h]
  refine C141_units (ScaledSys.mk (by simp) (by norm_num) ?_ ?_) gmres gmres split y0 0 (1 / 10) 20 _ ?_ ?_
  · intro t y
    simp only [smul_mulVec, one_mulVec]
    funext i
    fin_cases i <;> simp [unitsSys] <;> ring
  · intro t y
    refine ⟨_, _, fun v => rfl, fun v => rfl, ?_⟩
    rw [Matrix.mul_one, Matrix.one_mul]
    simp only [smul_mulVec, one_mulVec]
    ext i j
    fin_cases i <;> fin_cases j <;> simp <;> ring
  · intro o h1
    rw [ho o h1]
    rcases hm with q | q | q <;> subst q <;> simp
  · intro o h1
    exact Or.inr fun t t' y => rfl

end
end Ormatex.Props
