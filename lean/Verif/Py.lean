import Mathlib.Data.Real.Basic
import Mathlib.Data.Matrix.Mul

/-!
Python runtime notions used by the model: exceptions as values, `collections.deque`, vectors.
-/

namespace Ormatex

/-- The Python exceptions raised (explicitly or by an `assert`, a missing key, a wrong index or a wrong call
signature) by the modelled code. -/
inductive PyErr where
  | assertion | attribute | notImplemented | importErr | runtime | value | key | index | type
  deriving DecidableEq, Repr

/-- Result of a Python call: a value or a raised exception. -/
abbrev Py := Except PyErr

/-- `assert c` -/
def pyAssert (c : Prop) [Decidable c] : Py Unit := if c then .ok () else .error .assertion

/-- `collections.deque(maxlen=...)`, newest element first. -/
structure Deque (α : Type*) where
  maxlen : ℕ
  items : List α

namespace Deque
variable {α : Type*}
/-- `deque(maxlen=m)` -/
def empty (m : ℕ) : Deque α := ⟨m, []⟩
/-- `d.appendleft(x)`: when full, elements fall off the right end. -/
def appendleft (d : Deque α) (x : α) : Deque α := ⟨d.maxlen, (x :: d.items).take d.maxlen⟩
/-- `d.clear()` keeps `maxlen`. -/
def clear (d : Deque α) : Deque α := ⟨d.maxlen, []⟩
/-- `d[i]`, `IndexError` when out of range. -/
def get (d : Deque α) (i : ℕ) : Py α :=
  match d.items[i]? with
  | some x => .ok x
  | none => .error .index
/-- `len(d)` -/
def len (d : Deque α) : ℕ := d.items.length
end Deque

/-- one-dimensional float array of length `n` (exact reals in place of floats) -/
abbrev Vec (n : ℕ) := Fin n → ℝ
/-- two-dimensional square float array -/
abbrev Mat (n : ℕ) := Matrix (Fin n) (Fin n) ℝ

end Ormatex
