import Verif.Model.Threads
import Verif.Props.Reset

/-! C42: `pexprb4` is independent of the schedule of its two stage tasks. -/

namespace Ormatex.Props
open Ormatex

variable {n : ℕ} {P : Type}

section
variable (workers : ℕ) (K : Kernels n) (sys : OdeSys n P) (s : ExpRB n) (dt : ℝ) (yt : Vec n) (jac : SysJac n) (fyt : Vec n)

/-- the locals of task 2 are those of the sequential evaluation -/
def Good2 : Task2 n → Prop
  | .absent | .queued | .started => True
  | .havePhi2 p v => phi2vNonauto K s.tolFdt jac dt (1 / 2) = .ok (p, v)
  | .havePhi1 p v p1 => phi2vNonauto K s.tolFdt jac dt (1 / 2) = .ok (p, v) ∧
      K.phiLinop jac.toLinOp (1 / 2 * dt) fyt 1 = .ok p1
  | .haveY v y2 => ∃ p p1, phi2vNonauto K s.tolFdt jac dt (1 / 2) = .ok (p, v) ∧
      K.phiLinop jac.toLinOp (1 / 2 * dt) fyt 1 = .ok p1 ∧ y2 = yt + ((1 / 2 : ℝ) * dt) • p1 + p
  | .done r => r = fUn2 K sys s dt yt jac fyt

/-- the locals of task 3 are those of the sequential evaluation -/
def Good3 : Task3 n → Prop
  | .absent | .queued | .started => True
  | .havePhi2 p v => phi2vNonauto K s.tolFdt jac dt 1 = .ok (p, v)
  | .havePhi1 p v p1 => phi2vNonauto K s.tolFdt jac dt 1 = .ok (p, v) ∧
      K.phiLinop jac.toLinOp (1 * dt) fyt 1 = .ok p1
  | .haveY v y3 => ∃ p p1, phi2vNonauto K s.tolFdt jac dt 1 = .ok (p, v) ∧
      K.phiLinop jac.toLinOp (1 * dt) fyt 1 = .ok p1 ∧ y3 = yt + ((1 : ℝ) * dt) • p1 + p
  | .haveR y3 r3 => fUn3 K sys s dt yt jac fyt = .ok (y3, r3)
  | .done r => r = fUn3 K sys s dt yt jac fyt

/-- what the sequential program does after the preparation -/
noncomputable def seqResult : Py (StepResult (Vec n)) := do
  let r2 ← fUn2 K sys s dt yt jac fyt
  let yr ← fUn3 K sys s dt yt jac fyt
  pexprb4Final K s.base.t dt jac r2 yr.1 yr.2

/-- the main thread -/
def GoodMain : Main n → Prop
  | .begin | .submitted2 | .waiting2 => True
  | .waiting3 r2 => fUn2 K sys s dt yt jac fyt = .ok r2
  | .combine r2 y3 r3 => fUn2 K sys s dt yt jac fyt = .ok r2 ∧ fUn3 K sys s dt yt jac fyt = .ok (y3, r3)
  | .returned r => r = seqResult K sys s dt yt jac fyt

/-- the invariant of all schedules -/
def Good (c : Config n) : Prop :=
  Good2 K sys s dt yt jac fyt c.t2 ∧ Good3 K sys s dt yt jac fyt c.t3 ∧ GoodMain K sys s dt yt jac fyt c.main

theorem good2_next (x : Task2 n) (h : Good2 K sys s dt yt jac fyt x) :
    Good2 K sys s dt yt jac fyt (x.next K sys s dt yt jac fyt) := by
  cases x with
  | absent => exact h
  | queued => exact h
  | done r => exact h
  | started =>
    simp only [Task2.next]
    cases hp : phi2vNonauto K s.tolFdt jac dt (1 / 2) with
    | ok p => exact hp
    | error e =>
      show _ = fUn2 _ _ _ _ _ _ _
      unfold fUn2
      simp only [hp]
      rfl
  | havePhi2 p v =>
    have h : phi2vNonauto K s.tolFdt jac dt (1 / 2) = .ok (p, v) := h
    simp only [Task2.next]
    cases hp : K.phiLinop jac.toLinOp (1 / 2 * dt) fyt 1 with
    | ok p1 => exact ⟨h, hp⟩
    | error e =>
      show _ = fUn2 _ _ _ _ _ _ _
      unfold fUn2
      simp only [h]
      show _ = (K.phiLinop jac.toLinOp (1 / 2 * dt) fyt 1 >>= _)
      rw [hp]; rfl
  | havePhi1 p v p1 => exact ⟨p, p1, h.1, h.2, rfl⟩
  | haveY v y2 =>
    obtain ⟨p, p1, h1, h2, rfl⟩ := h
    show _ = fUn2 _ _ _ _ _ _ _
    unfold fUn2
    simp only [h1]
    show _ = (K.phiLinop jac.toLinOp (1 / 2 * dt) fyt 1 >>= _)
    rw [h2]; rfl

theorem good3_next (x : Task3 n) (h : Good3 K sys s dt yt jac fyt x) :
    Good3 K sys s dt yt jac fyt (x.next K sys s dt yt jac fyt) := by
  cases x with
  | absent => exact h
  | queued => exact h
  | done r => exact h
  | started =>
    simp only [Task3.next]
    cases hp : phi2vNonauto K s.tolFdt jac dt 1 with
    | ok p => exact hp
    | error e =>
      show _ = fUn3 _ _ _ _ _ _ _
      unfold fUn3
      simp only [hp]
      rfl
  | havePhi2 p v =>
    have h : phi2vNonauto K s.tolFdt jac dt 1 = .ok (p, v) := h
    simp only [Task3.next]
    cases hp : K.phiLinop jac.toLinOp (1 * dt) fyt 1 with
    | ok p1 => exact ⟨h, hp⟩
    | error e =>
      show _ = fUn3 _ _ _ _ _ _ _
      unfold fUn3
      simp only [h]
      show _ = (K.phiLinop jac.toLinOp (1 * dt) fyt 1 >>= _)
      rw [hp]; rfl
  | havePhi1 p v p1 => exact ⟨p, p1, h.1, h.2, rfl⟩
  | haveY v y3 =>
    obtain ⟨p, p1, h1, h2, rfl⟩ := h
    have key : fUn3 K sys s dt yt jac fyt =
        (remf sys s.base (s.base.t + 1 * dt) (yt + ((1 : ℝ) * dt) • p1 + p) fyt jac.toLinOp v >>= fun r3 =>
          pure (yt + ((1 : ℝ) * dt) • p1 + p, r3)) := by
      unfold fUn3
      simp only [h1]
      show (K.phiLinop jac.toLinOp (1 * dt) fyt 1 >>= _) = _
      rw [h2]; rfl
    simp only [Task3.next]
    cases hr : remf sys s.base (s.base.t + 1 * dt) (yt + ((1 : ℝ) * dt) • p1 + p) fyt jac.toLinOp v with
    | ok r3 =>
      show fUn3 K sys s dt yt jac fyt = _
      rw [key, hr]; rfl
    | error e =>
      show _ = fUn3 _ _ _ _ _ _ _
      rw [key, hr]; rfl
  | haveR y3 r3 =>
    have h : fUn3 K sys s dt yt jac fyt = .ok (y3, r3) := h
    exact h.symm

theorem good_act (c : Config n) (h : Good K sys s dt yt jac fyt c) (a : Actor) :
    Good K sys s dt yt jac fyt (c.act workers K sys s dt yt jac fyt a) := by
  obtain ⟨m, t2, t3⟩ := c
  obtain ⟨h2, h3, hm⟩ := h
  cases a with
  | run2 => exact ⟨good2_next K sys s dt yt jac fyt _ h2, h3, hm⟩
  | run3 => exact ⟨h2, good3_next K sys s dt yt jac fyt _ h3, hm⟩
  | pool =>
    simp only [Config.act]
    split
    · split
      · exact ⟨trivial, h3, hm⟩
      · exact ⟨h2, trivial, hm⟩
      · exact ⟨h2, h3, hm⟩
    · exact ⟨h2, h3, hm⟩
  | main =>
    cases m with
    | begin => exact ⟨trivial, h3, trivial⟩
    | submitted2 => exact ⟨h2, trivial, trivial⟩
    | waiting2 =>
      cases t2 with
      | done r =>
        have hr : r = fUn2 K sys s dt yt jac fyt := h2
        cases r with
        | ok r2 => exact ⟨h2, h3, hr.symm⟩
        | error e =>
          refine ⟨h2, h3, ?_⟩
          show _ = seqResult _ _ _ _ _ _ _
          unfold seqResult
          rw [← hr]; rfl
      | _ => exact ⟨h2, h3, hm⟩
    | waiting3 r2 =>
      have hm' : fUn2 K sys s dt yt jac fyt = .ok r2 := hm
      cases t3 with
      | done r =>
        have hr : r = fUn3 K sys s dt yt jac fyt := h3
        cases r with
        | ok yr => exact ⟨h2, h3, hm', hr.symm⟩
        | error e =>
          refine ⟨h2, h3, ?_⟩
          show _ = seqResult _ _ _ _ _ _ _
          unfold seqResult
          rw [hm', ← hr]; rfl
      | _ => exact ⟨h2, h3, hm⟩
    | combine r2 y3 r3 =>
      obtain ⟨e1, e2⟩ := hm
      refine ⟨h2, h3, ?_⟩
      show _ = seqResult _ _ _ _ _ _ _
      unfold seqResult
      rw [e1, e2]; rfl
    | returned r => exact ⟨h2, h3, hm⟩

theorem good_schedule (l : List Actor) (c : Config n) (h : Good K sys s dt yt jac fyt c) :
    Good K sys s dt yt jac fyt (c.schedule workers K sys s dt yt jac fyt l) := by
  induction l generalizing c with
  | nil => exact h
  | cons a l ih => exact ih _ (good_act workers K sys s dt yt jac fyt c h a)

end

/-- **C42.** Run `pexprb4`'s two stage closures on a pool of any number of workers, with any interleaving of the main
thread and the two closures: whenever the main thread has returned, what it returned (value or exception) is what the
sequential evaluation of the step returns. -/
theorem C42_schedule_independent (workers : ℕ) (K : Kernels n) (sys : OdeSys n P) (s : ExpRB n) (dt : ℝ) (kw : P)
    (yt : Vec n) (hy : s.base.yHist.get 0 = .ok yt) (l : List Actor) (r : Py (StepResult (Vec n))) :
    let jac := sys.fjac (some kw) s.base.t yt
    ((Config.start n).schedule workers K sys s dt yt jac jac.frhsCached l).main = .returned r →
      r = stepPexprb4 K sys s dt kw := by
  intro jac hr
  have := (good_schedule workers K sys s dt yt jac jac.frhsCached l (Config.start n) ⟨trivial, trivial, trivial⟩).2.2
  rw [hr] at this
  have this : r = seqResult K sys s dt yt jac jac.frhsCached := this
  rw [this]
  unfold stepPexprb4 seqResult
  rw [hy]
  rfl

/-! ### Termination -/

/-- statements left -/
def Task2.left : Task2 n → ℕ
  | .absent => 6 | .queued => 5 | .started => 4 | .havePhi2 .. => 3 | .havePhi1 .. => 2 | .haveY .. => 1 | .done _ => 0

/-- statements left -/
def Task3.left : Task3 n → ℕ
  | .absent => 7 | .queued => 6 | .started => 5 | .havePhi2 .. => 4 | .havePhi1 .. => 3 | .haveY .. => 2 | .haveR .. => 1
  | .done _ => 0

/-- statements left -/
def Main.left : Main n → ℕ
  | .begin => 5 | .submitted2 => 4 | .waiting2 => 3 | .waiting3 _ => 2 | .combine .. => 1 | .returned _ => 0

/-- actions left -/
def Config.left (c : Config n) : ℕ := Main.left c.main + Task2.left c.t2 + Task3.left c.t3

section
variable (workers : ℕ) (K : Kernels n) (sys : OdeSys n P) (s : ExpRB n) (dt : ℝ) (yt : Vec n) (jac : SysJac n) (fyt : Vec n)

theorem next2_left (x : Task2 n) : x.next K sys s dt yt jac fyt = x ∨ Task2.left (x.next K sys s dt yt jac fyt) < Task2.left x := by
  cases x <;> simp only [Task2.next, Task2.left, reduceCtorEq, false_or, true_or]
  · cases phi2vNonauto K s.tolFdt jac dt (1 / 2) <;> simp
  · cases K.phiLinop jac.toLinOp (1 / 2 * dt) fyt 1 <;> simp
  · simp
  · simp

theorem next3_left (x : Task3 n) : x.next K sys s dt yt jac fyt = x ∨ Task3.left (x.next K sys s dt yt jac fyt) < Task3.left x := by
  cases x <;> simp only [Task3.next, Task3.left, reduceCtorEq, false_or, true_or]
  · cases phi2vNonauto K s.tolFdt jac dt 1 <;> simp
  · cases K.phiLinop jac.toLinOp (1 * dt) fyt 1 <;> simp
  · simp
  · rename_i v y3
    cases remf sys s.base (s.base.t + 1 * dt) y3 fyt jac.toLinOp v <;> simp
  · simp

/-- submissions and program counters agree in every reachable configuration -/
def Ordered (c : Config n) : Prop :=
  (c.main = .begin ∧ c.t2 = .absent ∧ c.t3 = .absent) ∨ (c.main = .submitted2 ∧ c.t2 ≠ .absent ∧ c.t3 = .absent) ∨
  (c.main ≠ .begin ∧ c.main ≠ .submitted2 ∧ c.t2 ≠ .absent ∧ c.t3 ≠ .absent ∧ (∀ r2, c.main = .waiting3 r2 → ∃ r, c.t2 = .done r))

theorem ordered_act (c : Config n) (h : Ordered c) (a : Actor) : Ordered (c.act workers K sys s dt yt jac fyt a) := by
  obtain ⟨m, t2, t3⟩ := c
  have n2 : t2 ≠ .absent → t2.next K sys s dt yt jac fyt ≠ .absent := by
    intro h
    cases t2 <;> simp only [Task2.next] at * <;> first | exact h | skip
    · cases phi2vNonauto K s.tolFdt jac dt (1 / 2) <;> simp
    · cases K.phiLinop jac.toLinOp (1 / 2 * dt) fyt 1 <;> simp
    · simp
    · simp
  have n3 : t3 ≠ .absent → t3.next K sys s dt yt jac fyt ≠ .absent := by
    intro h
    cases t3 <;> simp only [Task3.next] at * <;> first | exact h | skip
    · cases phi2vNonauto K s.tolFdt jac dt 1 <;> simp
    · cases K.phiLinop jac.toLinOp (1 * dt) fyt 1 <;> simp
    · simp
    · split <;> simp
    · simp
  cases a with
  | run2 =>
    rcases h with ⟨h1, h2, h3⟩ | ⟨h1, h2, h3⟩ | ⟨h1, h2, h3, h4, h5⟩
    · simp only at h2; subst h2; exact Or.inl ⟨h1, rfl, h3⟩
    · exact Or.inr (Or.inl ⟨h1, n2 h2, h3⟩)
    · refine Or.inr (Or.inr ⟨h1, h2, n2 h3, h4, ?_⟩)
      intro r2 hr
      obtain ⟨r, hr⟩ := h5 r2 hr
      simp only at hr
      subst hr
      exact ⟨r, rfl⟩
  | run3 =>
    rcases h with ⟨h1, h2, h3⟩ | ⟨h1, h2, h3⟩ | ⟨h1, h2, h3, h4, h5⟩
    · simp only at h3; subst h3; exact Or.inl ⟨h1, h2, rfl⟩
    · simp only at h3; subst h3; exact Or.inr (Or.inl ⟨h1, h2, rfl⟩)
    · exact Or.inr (Or.inr ⟨h1, h2, h3, n3 h4, h5⟩)
  | pool =>
    simp only [Config.act]
    split
    · split
      · rcases h with ⟨h1, h2, h3⟩ | ⟨h1, h2, h3⟩ | ⟨h1, h2, h3, h4, h5⟩
        · cases h2
        · exact Or.inr (Or.inl ⟨h1, by simp, h3⟩)
        · refine Or.inr (Or.inr ⟨h1, h2, by simp, h4, ?_⟩)
          intro r2 hr
          obtain ⟨r, hr⟩ := h5 r2 hr
          cases hr
      · rcases h with ⟨h1, h2, h3⟩ | ⟨h1, h2, h3⟩ | ⟨h1, h2, h3, h4, h5⟩
        · cases h3
        · cases h3
        · exact Or.inr (Or.inr ⟨h1, h2, h3, by simp, h5⟩)
      · exact h
    · exact h
  | main =>
    cases m with
    | begin =>
      rcases h with ⟨h1, h2, h3⟩ | ⟨h1, h2, h3⟩ | ⟨h1, h2, h3, h4, h5⟩
      · exact Or.inr (Or.inl ⟨rfl, by simp [Config.act], h3⟩)
      · cases h1
      · exact (h1 rfl).elim
    | submitted2 =>
      rcases h with ⟨h1, h2, h3⟩ | ⟨h1, h2, h3⟩ | ⟨h1, h2, h3, h4, h5⟩
      · cases h1
      · exact Or.inr (Or.inr ⟨by simp [Config.act], by simp [Config.act], h2, by simp [Config.act], by simp [Config.act]⟩)
      · exact (h2 rfl).elim
    | waiting2 =>
      rcases h with ⟨h1, h2, h3⟩ | ⟨h1, h2, h3⟩ | ⟨h1, h2, h3, h4, h5⟩
      · cases h1
      · cases h1
      · cases t2 with
        | done r => cases r <;> exact Or.inr (Or.inr ⟨by simp [Config.act], by simp [Config.act], h3, h4, by simp [Config.act]⟩)
        | _ => exact Or.inr (Or.inr ⟨h1, h2, h3, h4, h5⟩)
    | waiting3 r2 =>
      rcases h with ⟨h1, h2, h3⟩ | ⟨h1, h2, h3⟩ | ⟨h1, h2, h3, h4, h5⟩
      · cases h1
      · cases h1
      · cases t3 with
        | done r => cases r <;> exact Or.inr (Or.inr ⟨by simp [Config.act], by simp [Config.act], h3, h4, by simp [Config.act]⟩)
        | _ => exact Or.inr (Or.inr ⟨h1, h2, h3, h4, h5⟩)
    | combine r2 y3 r3 =>
      rcases h with ⟨h1, h2, h3⟩ | ⟨h1, h2, h3⟩ | ⟨h1, h2, h3, h4, h5⟩
      · cases h1
      · cases h1
      · exact Or.inr (Or.inr ⟨by simp [Config.act], by simp [Config.act], h3, h4, by simp [Config.act]⟩)
    | returned r => exact h

theorem act_left (c : Config n) (h : Ordered c) (a : Actor) :
    c.act workers K sys s dt yt jac fyt a = c ∨ Config.left (c.act workers K sys s dt yt jac fyt a) < Config.left c := by
  obtain ⟨m, t2, t3⟩ := c
  cases a with
  | run2 =>
    rcases next2_left K sys s dt yt jac fyt t2 with h | h
    · left; simp only [Config.act, h]
    · right; simp only [Config.act, Config.left]; omega
  | run3 =>
    rcases next3_left K sys s dt yt jac fyt t3 with h | h
    · left; simp only [Config.act, h]
    · right; simp only [Config.act, Config.left]; omega
  | pool =>
    simp only [Config.act]
    split
    · split
      · right; simp only [Config.left, Task2.left]; omega
      · right; simp only [Config.left, Task3.left]; omega
      · left; rfl
    · left; rfl
  | main =>
    cases m with
    | begin =>
      rcases h with ⟨h1, h2, h3⟩ | ⟨h1, h2, h3⟩ | ⟨h1, h2, h3, h4, h5⟩
      · simp only at h2; subst h2; right; simp only [Config.act, Config.left, Task2.left, Main.left]; omega
      · cases h1
      · exact (h1 rfl).elim
    | submitted2 =>
      rcases h with ⟨h1, h2, h3⟩ | ⟨h1, h2, h3⟩ | ⟨h1, h2, h3, h4, h5⟩
      · cases h1
      · simp only at h3; subst h3; right; simp only [Config.act, Config.left, Task3.left, Main.left]; omega
      · exact (h2 rfl).elim
    | waiting2 =>
      cases t2 with
      | done r => cases r <;> (right; simp only [Config.act, Config.left, Main.left]; omega)
      | _ => left; rfl
    | waiting3 r2 =>
      cases t3 with
      | done r => cases r <;> (right; simp only [Config.act, Config.left, Main.left]; omega)
      | _ => left; rfl
    | combine r2 y3 r3 => right; simp only [Config.act, Config.left, Main.left]; omega
    | returned r => left; rfl

end

/-- A schedule every action of which changes the configuration (i.e. only threads that can move are chosen). -/
def Effective (workers : ℕ) (K : Kernels n) (sys : OdeSys n P) (s : ExpRB n) (dt : ℝ) (yt : Vec n) (jac : SysJac n)
    (fyt : Vec n) : Config n → List Actor → Prop
  | _, [] => True
  | c, a :: l => c.act workers K sys s dt yt jac fyt a ≠ c ∧
      Effective workers K sys s dt yt jac fyt (c.act workers K sys s dt yt jac fyt a) l

theorem next2_ne (K : Kernels n) (sys : OdeSys n P) (s : ExpRB n) (dt : ℝ) (yt : Vec n) (jac : SysJac n)
    (fyt : Vec n) (x : Task2 n) (h : x.busy = 1) : x.next K sys s dt yt jac fyt ≠ x := by
  cases x <;> simp only [Task2.busy, zero_ne_one] at h <;> simp only [Task2.next] <;> first | (split <;> simp) | simp

theorem next3_ne (K : Kernels n) (sys : OdeSys n P) (s : ExpRB n) (dt : ℝ) (yt : Vec n) (jac : SysJac n)
    (fyt : Vec n) (x : Task3 n) (h : x.busy = 1) : x.next K sys s dt yt jac fyt ≠ x := by
  cases x <;> simp only [Task3.busy, zero_ne_one] at h <;> simp only [Task3.next] <;> first | (split <;> simp) | simp

theorem not_stuck (workers : ℕ) (hw : 1 ≤ workers) (K : Kernels n) (sys : OdeSys n P) (s : ExpRB n) (dt : ℝ)
    (yt : Vec n) (jac : SysJac n) (fyt : Vec n) (c : Config n) (ho : Ordered c) (hr : ∀ r, c.main ≠ .returned r) :
    ∃ a, c.act workers K sys s dt yt jac fyt a ≠ c := by
  obtain ⟨m, t2, t3⟩ := c
  by_cases b2 : t2.busy = 1
  · exact ⟨.run2, fun h => next2_ne K sys s dt yt jac fyt t2 b2 (congrArg Config.t2 h)⟩
  by_cases b3 : t3.busy = 1
  · exact ⟨.run3, fun h => next3_ne K sys s dt yt jac fyt t3 b3 (congrArg Config.t3 h)⟩
  have z2 : t2.busy = 0 := by cases t2 <;> simp_all [Task2.busy]
  have z3 : t3.busy = 0 := by cases t3 <;> simp_all [Task3.busy]
  have hlt : t2.busy + t3.busy < workers := by omega
  by_cases q2 : t2 = .queued
  · refine ⟨.pool, ?_⟩
    subst q2
    simp only [Config.act]
    rw [if_pos hlt]
    simp
  by_cases q3 : t3 = .queued
  · refine ⟨.pool, ?_⟩
    subst q3
    simp only [Config.act]
    rw [if_pos hlt]
    cases t2 <;> simp_all
  refine ⟨.main, ?_⟩
  cases m with
  | begin => simp [Config.act]
  | submitted2 => simp [Config.act]
  | waiting2 =>
    rcases ho with ⟨h1, _⟩ | ⟨h1, _⟩ | ⟨_, _, h3, h4, _⟩
    · cases h1
    · cases h1
    · cases t2 <;> simp_all [Task2.busy]
      rename_i r
      cases r <;> simp [Config.act]
  | waiting3 r2 =>
    rcases ho with ⟨h1, _⟩ | ⟨h1, _⟩ | ⟨_, _, h3, h4, _⟩
    · cases h1
    · cases h1
    · cases t3 with
      | done r => cases r <;> simp [Config.act]
      | absent => exact (h4 rfl).elim
      | queued => exact (q3 rfl).elim
      | _ => exact (b3 rfl).elim
  | combine r2 y3 r3 => simp [Config.act]
  | returned r => exact (hr r rfl).elim

/-- **C42, no deadlock.** With at least one worker (the code has two), a schedule that only chooses threads that can move
has at most 18 actions, and it can be prolonged as long as the main thread has not returned.  So every such schedule,
whatever the choices, ends with the main thread returned. -/
theorem C42_terminates (workers : ℕ) (hw : 1 ≤ workers) (K : Kernels n) (sys : OdeSys n P) (s : ExpRB n) (dt : ℝ)
    (yt : Vec n) (jac : SysJac n) (fyt : Vec n) (l : List Actor)
    (hl : Effective workers K sys s dt yt jac fyt (Config.start n) l) :
    l.length ≤ 18 ∧
    ((∃ r, ((Config.start n).schedule workers K sys s dt yt jac fyt l).main = .returned r) ∨
      ∃ a, Effective workers K sys s dt yt jac fyt (Config.start n) (l ++ [a])) := by
  have key : ∀ (l : List Actor) (c : Config n), Ordered c → Effective workers K sys s dt yt jac fyt c l →
      l.length + Config.left (c.schedule workers K sys s dt yt jac fyt l) ≤ Config.left c ∧
        Ordered (c.schedule workers K sys s dt yt jac fyt l) ∧
        ∀ a, (c.schedule workers K sys s dt yt jac fyt l).act workers K sys s dt yt jac fyt a ≠
            c.schedule workers K sys s dt yt jac fyt l → Effective workers K sys s dt yt jac fyt c (l ++ [a]) := by
    intro l
    induction l with
    | nil => intro c hc _; exact ⟨by simp [Config.schedule], hc, fun a ha => ⟨ha, trivial⟩⟩
    | cons a l ih =>
      intro c hc hl
      obtain ⟨h1, h2⟩ := hl
      have hlt := (act_left workers K sys s dt yt jac fyt c hc a).resolve_left h1
      obtain ⟨g1, g2, g3⟩ := ih _ (ordered_act workers K sys s dt yt jac fyt c hc a) h2
      refine ⟨?_, g2, fun b hb => ⟨h1, g3 b hb⟩⟩
      have : Config.schedule workers K sys s dt yt jac fyt c (a :: l) =
        (c.act workers K sys s dt yt jac fyt a).schedule workers K sys s dt yt jac fyt l := rfl
      rw [this, List.length_cons]
      omega
  obtain ⟨g1, g2, g3⟩ := key l (Config.start n) (Or.inl ⟨rfl, rfl, rfl⟩) hl
  have hs : Config.left (Config.start n) = 18 := rfl
  refine ⟨by omega, ?_⟩
  by_cases hr : ∃ r, ((Config.start n).schedule workers K sys s dt yt jac fyt l).main = .returned r
  · exact Or.inl hr
  · push Not at hr
    obtain ⟨a, ha⟩ := not_stuck workers hw K sys s dt yt jac fyt _ g2 hr
    exact Or.inr ⟨a, g3 a ha⟩

/-- Non-vacuity: some schedule returns. -/
example (workers : ℕ) (hw : 1 ≤ workers) (K : Kernels n) (sys : OdeSys n P) (s : ExpRB n) (dt : ℝ)
    (yt : Vec n) (jac : SysJac n) (fyt : Vec n) :
    ∃ l r, ((Config.start n).schedule workers K sys s dt yt jac fyt l).main = .returned r := by
  have : ∀ k ≤ 19, (∃ l r, ((Config.start n).schedule workers K sys s dt yt jac fyt l).main = .returned r) ∨
      ∃ l, l.length = k ∧ Effective workers K sys s dt yt jac fyt (Config.start n) l := by
    intro k
    induction k with
    | zero => intro _; exact Or.inr ⟨[], rfl, trivial⟩
    | succ k ih =>
      intro hk
      rcases ih (by omega) with h | ⟨l, hl, he⟩
      · exact Or.inl h
      · rcases (C42_terminates workers hw K sys s dt yt jac fyt l he).2 with ⟨r, h⟩ | ⟨a, ha⟩
        · exact Or.inl ⟨l, r, h⟩
        · exact Or.inr ⟨l ++ [a], by simp [hl], ha⟩
  rcases this 19 (by omega) with h | ⟨l, hl, he⟩
  · exact h
  · have := (C42_terminates workers hw K sys s dt yt jac fyt l he).1
    omega

end Ormatex.Props
