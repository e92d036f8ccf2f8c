import Verif.Props.RsTurn
import Verif.Spec.RsAffine

/-!
C143: the explicit integrator of the Rust crate on affinely related systems.
-/

namespace Ormatex.Props
open Matrix Ormatex.Rs

section
variable {n m : ℕ} {S : Matrix (Fin m) (Fin n) ℝ} {b : Vec m} {c : ℝ}

theorem aff_add (y v : Vec n) (a : ℝ) : S *ᵥ y + b + a • (S *ᵥ v) = S *ᵥ (y + a • v) + b := by
  rw [mulVec_add, mulVec_smul]
  abel

theorem stageArg_aff (bt : BT) (dt : ℝ) (k : List (Vec n)) (i : ℕ) (js : List ℕ) (y : Vec n) :
    Rk.stageArg bt dt (k.map (S *ᵥ ·)) i js (S *ᵥ y + b) = (Rk.stageArg bt dt k i js y).map fun y => S *ᵥ y + b := by
  induction js generalizing y with
  | nil => rfl
  | cons j js ih =>
    simp only [Rk.stageArg, rsGet_map]
    cases rsGet bt.a i with
    | error e => rfl
    | ok row =>
      simp only [bind, Except.bind]
      cases rsGet row j with
      | error e => rfl
      | ok aij =>
        dsimp only
        cases rsGet k j with
        | error e => rfl
        | ok kj =>
          simp only [Except.map, aff_add]
          exact ih _

theorem stages_aff {sys : Sys n} {sys' : Sys m} (h : AffinelyRelated S b c sys sys') (bt : BT) (t dt : ℝ) (y : Vec n) (is : List ℕ) (k : List (Vec n)) :
    Rk.stages sys' bt (t + c) dt (S *ᵥ y + b) is (k.map (S *ᵥ ·)) = (Rk.stages sys bt t dt y is k).map fun k => k.map (S *ᵥ ·) := by
  induction is generalizing k with
  | nil => rfl
  | cons i is ih =>
    simp only [Rk.stages, stageArg_aff]
    cases Rk.stageArg bt dt k i (List.range (i + 1)) y with
    | error e => rfl
    | ok yd =>
      simp only [Except.map, bind, Except.bind]
      cases rsGet bt.c i with
      | error e => rfl
      | ok ci =>
        dsimp only
        rw [show t + c + dt * ci = t + dt * ci + c by ring, h]
        have e := ih (k ++ [sys.frhs (t + dt * ci) yd])
        rw [List.map_append] at e
        exact e

theorem combine_aff (bt : BT) (dt : ℝ) (k : List (Vec n)) (is : List ℕ) (y : Vec n) :
    Rk.combine bt dt (k.map (S *ᵥ ·)) is (S *ᵥ y + b) = (Rk.combine bt dt k is y).map fun y => S *ᵥ y + b := by
  induction is generalizing y with
  | nil => rfl
  | cons i is ih =>
    simp only [Rk.combine, rsGet_map]
    cases rsGet bt.b i with
    | error e => rfl
    | ok bi =>
      simp only [bind, Except.bind]
      cases rsGet k i with
      | error e => rfl
      | ok ki =>
        simp only [Except.map, aff_add]
        exact ih _

theorem rkStep_aff {sys : Sys n} {sys' : Sys m} (h : AffinelyRelated S b c sys sys') (s : Rk n) (dt : ℝ) :
    Rk.step sys' (affRk S b c s) dt = (Rk.step sys s dt).map fun r => StepRes.mk (r.t + c) r.dt (S *ᵥ r.y + b) r.err := by
  unfold Rk.step affRk
  simp only [rsGet_map]
  cases rsGet s.yHist 0 with
  | error e => rfl
  | ok y =>
    simp only [Except.map, bind, Except.bind, h s.t y]
    have hs := stages_aff h s.bt s.t dt y (List.range (s.order - 1)) [sys.frhs s.t y]
    simp only [List.map_cons, List.map_nil] at hs
    rw [hs]
    cases Rk.stages sys s.bt s.t dt y (List.range (s.order - 1)) [sys.frhs s.t y] with
    | error e => rfl
    | ok k =>
      simp only [Except.map, combine_aff]
      cases Rk.combine s.bt dt k (List.range s.order) y with
      | error e => rfl
      | ok acc =>
        simp only [Except.map, pure, Except.pure]
        rw [show s.t + c + dt = s.t + dt + c by ring]

theorem rkRun_aff {sys : Sys n} {sys' : Sys m} (h : AffinelyRelated S b c sys sys') (dt : ℝ) : ∀ (N : ℕ) (s : Rk n),
    rkRun sys' dt N (affRk S b c s) = (rkRun sys dt N s).map (affRk S b c)
  | 0, _ => rfl
  | N + 1, s => by
    have hst : (Rk.integrator sys').step (affRk S b c s) dt =
        ((Rk.integrator sys).step s dt).map fun r => StepRes.mk (r.t + c) r.dt (S *ᵥ r.y + b) r.err := rkStep_aff h s dt
    simp only [rkRun, hst]
    cases (Rk.integrator sys).step s dt with
    | error e => rfl
    | ok r => exact rkRun_aff h dt N ((Rk.integrator sys).accept s r)

/-- **C143.**  If `y ↦ S y + b` maps the vector field of one system to that of another whose clock is ahead by `c` (`S` of any shape), then a new explicit
Runge-Kutta integrator of any order and `N` accepted steps give, for the second system, exactly the converted clock and history of the first, or the same panic. -/
theorem C143_affine {sys : Sys n} {sys' : Sys m} (h : AffinelyRelated S b c sys sys') (t0 dt : ℝ) (y0 : Vec n) (order N : ℕ) :
    (Rk.new (t0 + c) (S *ᵥ y0 + b) order >>= rkRun sys' dt N) = (Rk.new t0 y0 order >>= rkRun sys dt N).map (affRk S b c) := by
  have hn : (Rk.new (t0 + c) (S *ᵥ y0 + b) order : RsM (Rk m)) = (Rk.new t0 y0 order).map (affRk S b c) := by
    unfold Rk.new
    split <;> rfl
  rw [hn]
  cases Rk.new t0 y0 order with
  | error e => rfl
  | ok s => exact rkRun_aff h dt N s

/-- temperatures in degrees Fahrenheit instead of Celsius: Newton's law of cooling with a time-dependent surrounding -/
example (t0 dt : ℝ) (y0 : Vec 1) (order N : ℕ) :
    let sys : Sys 1 := Sys.mk (fun t y => ![-3 * (y 0 - 20 * t)]) fun _ _ => LinOp.mk (fun v => (-3 : ℝ) • v) (.error .notImplemented)
    let sys' : Sys 1 := Sys.mk (fun t y => ![-3 * (y 0 - (36 * (t - 5) + 32))]) fun _ _ => LinOp.mk (fun v => (-3 : ℝ) • v) (.error .notImplemented)
    (Rk.new (t0 + 5) (!![9 / 5] *ᵥ y0 + ![32]) order >>= rkRun sys' dt N) = (Rk.new t0 y0 order >>= rkRun sys dt N).map (affRk !![9 / 5] ![32] 5) := by
  intro sys sys'
  refine C143_affine ?_ t0 dt y0 order N
  intro t y
  funext i
  fin_cases i
  simp [sys, sys', mulVec, dotProduct]
  ring

/-- a lumping with a source: the total of two species that exchange mass -/
example : AffinelyRelated (n := 2) (m := 1) !![1, 1] ![7] 0
    (Sys.mk (fun t y => ![-y 0 * y 1 + t, y 0 * y 1]) fun _ _ => LinOp.mk id (.error .notImplemented))
    (Sys.mk (fun t _ => ![t]) fun _ _ => LinOp.mk id (.error .notImplemented)) := by
  intro t y
  funext i
  fin_cases i
  simp [mulVec, dotProduct, Fin.sum_univ_two]

end
end Ormatex.Props
