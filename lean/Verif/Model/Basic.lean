import Mathlib.Analysis.Real.Sqrt
import Mathlib.Analysis.SpecialFunctions.Complex.Arg
import Mathlib.Analysis.SpecialFunctions.Trigonometric.Basic
import Mathlib.Tactic.Linarith
import Mathlib.Tactic.Ring
import Mathlib.Tactic.NormNum
import Mathlib.Tactic.NormNum.RealSqrt
import Mathlib.Tactic.FieldSimp
import Mathlib.Tactic.Positivity

/-!
# Outcomes and scalar operations shared by all models

These definitions model the C++ language rather than a particular line of geolib2.
-/

namespace Geo

/-- The three ways in which a C++ function may fail to return normally.
Models the language (no line in /repo): `ub` is undefined behaviour (out-of-range access,
out-of-range float-to-int conversion, ...), `exception` a thrown C++ exception,
`hang` non-termination. -/
inductive Fault where
  | ub
  | exception
  | hang
  deriving DecidableEq, Repr

/-- Result of running C++ code: a value or a fault. Models the language (no line in /repo). -/
abbrev Exec (α : Type _) := Except Fault α

/-- Reduction of an arithmetic result to `unsigned int` (32 bit).
Models the language (no line in /repo). -/
def u32 (n : ℕ) : ℕ := n % 2 ^ 32

/-- The signed `int` with the bits of an unsigned 32-bit number. Models the platform (no line in /repo). -/
def toInt32 (n : ℕ) : ℤ := if n < 2 ^ 31 then n else n - 2 ^ 32

/-- The result of an `int` operation: signed overflow is undefined behaviour. Models the language (no line in /repo). -/
def intOp (n : ℤ) : Exec ℤ := if -2 ^ 31 ≤ n ∧ n < 2 ^ 31 then .ok n else .error .ub

/-- `std::atan2(y, x)` in exact arithmetic: the argument of `x + y i`, in `(-π, π]`,
with `atan2(0,0) = 0`. Models libm, used in include/geolib/math_types.h:771,855,859,864,865.
Simplification: no signed zeros. -/
noncomputable def atan2 (y x : ℝ) : ℝ := Complex.arg ⟨x, y⟩

/-- Truncation toward zero of a real number: what `static_cast<int>(double)` computes when the
result is in range. Models the language (no line in /repo). -/
noncomputable def trunc (x : ℝ) : ℤ := if 0 ≤ x then ⌊x⌋ else ⌈x⌉

/-- `static_cast<int>(x)` for a double `x`: truncation toward zero, undefined behaviour if the
truncated value is not a 32-bit `int`. Models the language (no line in /repo). -/
noncomputable def castInt (x : ℝ) : Exec ℤ :=
  if -2 ^ 31 ≤ trunc x ∧ trunc x < 2 ^ 31 then .ok (trunc x) else .error .ub

/-- `static_cast<unsigned int>(x)` for a double `x`: truncation toward zero, undefined behaviour if the truncated
value is not a 32-bit `unsigned int`. Models the language (no line in /repo). -/
noncomputable def castUInt (x : ℝ) : Exec ℕ :=
  if 0 ≤ trunc x ∧ trunc x < 2 ^ 32 then .ok (trunc x).toNat else .error .ub

open Classical in
/-- The outcome of an unbounded loop or recursion given by its runs with limited fuel (`hang` when the fuel
does not suffice): the outcome of the first run that does not run out of fuel, `hang` if there is none.
Models the language (no line in /repo). -/
noncomputable def unbounded {α : Type _} (f : ℕ → Exec α) : Exec α :=
  if h : ∃ n, f n ≠ .error .hang then f (Nat.find h) else .error .hang

/-- Vector indexing `v[i]`: undefined behaviour when out of range.
Models `std::vector::operator[]` (no line in /repo). -/
def vget {α : Type _} (l : List α) (i : ℕ) : Exec α :=
  match l[i]? with
  | some a => .ok a
  | none => .error .ub

end Geo
