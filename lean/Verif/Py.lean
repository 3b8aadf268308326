import Mathlib.Analysis.Complex.Basic
import Mathlib.Analysis.SpecialFunctions.Pow.Complex
import Mathlib.Analysis.SpecialFunctions.Sqrt

/-!
# Python run-time basics

Exceptions as values and the few partial arithmetic operations the modelled code uses.
Python `float` is modelled by `ℝ`, Python `complex` by `ℂ` (exact arithmetic; see DESIGN.md).
-/

namespace UA

/-- The exception classes raised by the modelled code.  Messages are not modelled. -/
inductive PyErr
  | zeroDivisionError
  | valueError
  | keyError
  | typeError
  | attributeError
  | indexError
  | assertionError
  | runtimeError
  | exception
  deriving DecidableEq, Repr

/-- Python `a / b` on complex numbers: `ZeroDivisionError` when `b` is zero. -/
noncomputable def pyDiv (a b : ℂ) : Except PyErr ℂ :=
  open Classical in if b = 0 then .error .zeroDivisionError else .ok (a / b)

/-- Python `a / b` on floats: `ZeroDivisionError` when `b` is zero. -/
noncomputable def pyDivR (a b : ℝ) : Except PyErr ℝ :=
  open Classical in if b = 0 then .error .zeroDivisionError else .ok (a / b)

/-- Python `math.sqrt`: `ValueError` ("math domain error") on a negative argument. -/
noncomputable def pySqrt (x : ℝ) : Except PyErr ℝ :=
  open Classical in if x < 0 then .error .valueError else .ok (Real.sqrt x)

theorem pyDiv_ok {a b : ℂ} (h : b ≠ 0) : pyDiv a b = .ok (a / b) := by simp [pyDiv, h]
theorem pyDiv_zero (a : ℂ) : pyDiv a 0 = .error .zeroDivisionError := by simp [pyDiv]
theorem pyDivR_ok {a b : ℝ} (h : b ≠ 0) : pyDivR a b = .ok (a / b) := by simp [pyDivR, h]
theorem pyDivR_zero (a : ℝ) : pyDivR a 0 = .error .zeroDivisionError := by simp [pyDivR]
theorem pySqrt_ok {x : ℝ} (h : 0 ≤ x) : pySqrt x = .ok (Real.sqrt x) := by
  simp [pySqrt, not_lt.mpr h]
theorem pySqrt_neg {x : ℝ} (h : x < 0) : pySqrt x = .error .valueError := by simp [pySqrt, h]

theorem pyDiv_eq_ok_iff {a b c : ℂ} : pyDiv a b = .ok c ↔ b ≠ 0 ∧ c = a / b := by
  unfold pyDiv; split_ifs with h <;> simp [h, eq_comm]
theorem pyDivR_eq_ok_iff {a b c : ℝ} : pyDivR a b = .ok c ↔ b ≠ 0 ∧ c = a / b := by
  unfold pyDivR; split_ifs with h <;> simp [h, eq_comm]

/-- `Except` bind on a success (used to run the `do` blocks of the model). -/
@[simp] theorem except_ok_bind {ε α β : Type} (a : α) (f : α → Except ε β) :
    ((Except.ok a : Except ε α) >>= f) = f a := rfl
@[simp] theorem except_error_bind {ε α β : Type} (e : ε) (f : α → Except ε β) :
    ((Except.error e : Except ε α) >>= f) = .error e := rfl
@[simp] theorem except_pure {ε α : Type} (a : α) : (pure a : Except ε α) = .ok a := rfl

/-- A bind succeeds exactly when both steps do. -/
theorem except_bind_eq_ok {ε α β : Type} {x : Except ε α} {f : α → Except ε β} {b : β} :
    (x >>= f) = .ok b ↔ ∃ a, x = .ok a ∧ f a = .ok b := by
  cases x <;> simp

end UA
