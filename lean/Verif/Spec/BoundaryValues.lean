import Verif.Py
import Mathlib.Analysis.Complex.Basic

/-!
# Vocabulary for limits at the real axis
-/

namespace UA

/-- `f` returns numbers near the real point `s` on the upper side (the axis itself included, the point itself not, real parts not
negative), and these tend to `y`. -/
def LimitFromAbove (f : ℂ → Except PyErr ℂ) (s : ℝ) (y : ℂ) : Prop :=
  ∀ ε > 0, ∃ δ > 0, ∀ t : ℂ, 0 ≤ t.re → 0 ≤ t.im → t ≠ s → ‖t - s‖ < δ → ∃ u, f t = .ok u ∧ ‖u - y‖ < ε

/-- `f` returns numbers near the real point `s` strictly below the axis (real parts not negative), and these tend to `y`. -/
def LimitFromBelow (f : ℂ → Except PyErr ℂ) (s : ℝ) (y : ℂ) : Prop :=
  ∀ ε > 0, ∃ δ > 0, ∀ t : ℂ, 0 ≤ t.re → t.im < 0 → ‖t - s‖ < δ → ∃ u, f t = .ok u ∧ ‖u - y‖ < ε

end UA
