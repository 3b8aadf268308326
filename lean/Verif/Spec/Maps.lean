import Mathlib.Analysis.SpecialFunctions.Complex.Arg
import Mathlib.Analysis.Complex.Basic

/-!
# Specification vocabulary for the coordinate maps (no reference to the model)
-/

namespace UA.Spec

open Complex

/-- `u` is the square root of `z` with argument in `[0, π)`, the branch documented at `ua_model/functions.py:31-38`. -/
def IsBranchRoot (z u : ℂ) : Prop := u ^ 2 = z ∧ 0 ≤ u.arg ∧ u.arg < Real.pi

/-- The half line `[x, ∞)` in the complex plane. -/
def HalfLine (x : ℝ) : Set ℂ := {t | t.im = 0 ∧ x ≤ t.re}

/-- The open left half of the unit disk. -/
def LeftHalfDisk : Set ℂ := {w | ‖w‖ < 1 ∧ w.re < 0}

/-- The relation between `t` and `W` the documentation describes (`ua_model/MapFromWtoT.py:1-31`), cleared of
denominators: `(t - t_0)(w - 1/w)² = -4 (t_in - t_0)`. -/
def Uniformises (t_0 t_in : ℝ) (t w : ℂ) : Prop :=
  w ≠ 0 ∧ (t - t_0) * (w - w⁻¹) ^ 2 = -4 * ((t_in : ℂ) - t_0)

end UA.Spec
