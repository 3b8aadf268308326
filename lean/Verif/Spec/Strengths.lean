import Verif.Spec.Content

/-!
# Vocabulary for property C108: objects that differ in couplings and magnetic moments only
-/

namespace UA

/-- Couplings are called `a_…`, magnetic moments `magnetic_moment_…`. -/
def IsStrengthName (n : String) : Prop := "a_".toList <+: n.toList ∨ "magnetic_moment_".toList <+: n.toList

instance (n : String) : Decidable (IsStrengthName n) := inferInstanceAs (Decidable (_ ∨ _))

/-- Two objects of the same class that agree in everything but couplings and magnetic moments. -/
def ModelParameters.SamePositions (p p' : ModelParameters ℝ) : Prop :=
  p'.cls = p.cls ∧ ∀ n ∈ p.names, ¬ IsStrengthName n → p'.entry n = p.entry n

/-- The object at `s` on the line through `p₀` (at 0) and `p₁` (at 1). -/
def ModelParameters.OnLine (p₀ p₁ : ModelParameters ℝ) (s : ℝ) (p : ModelParameters ℝ) : Prop :=
  p₀.SamePositions p ∧ ∀ n ∈ p₀.names, IsStrengthName n → p.entry n = (1 - s) * p₀.entry n + s * p₁.entry n

end UA
