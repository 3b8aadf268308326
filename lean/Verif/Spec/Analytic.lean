import Verif.Py
import Mathlib.Analysis.Complex.Basic

/-!
# Vocabulary for the behaviour next to a resonance position
-/

namespace UA

/-- `f` returns numbers at all points close to `p` (other than `p`), and `(t - p) * f(t)` tends to `R`.  With `R ≠ 0` this is a pole of
the first order with residue `R`. -/
def HasResidue (f : ℂ → Except PyErr ℂ) (p R : ℂ) : Prop :=
  ∀ ε > 0, ∃ δ > 0, ∀ t : ℂ, t ≠ p → ‖t - p‖ < δ → ∃ u, f t = .ok u ∧ ‖(t - p) * u - R‖ < ε

end UA
