import Verif.Spec.BestCouplings

/-!
# Vocabulary for property C111: least squares between finite bounds
-/

namespace UA

/-- All free parameters of the object are masses and widths. -/
def ModelParameters.OnlyResonancesFree (p : ModelParameters ℝ) : Prop :=
  ∀ q ∈ p.toList, q.is_fixed = false → "mass_".toList <+: q.name.toList ∨ "decay_rate_".toList <+: q.name.toList

/-- The arguments lie between the bounds or at them. -/
def Between (bounds : List (WithBot ℝ) × List (WithTop ℝ)) (args : List ℝ) : Prop :=
  List.Forall₂ (fun b (a : ℝ) => b.1 ≤ (a : WithBot ℝ) ∧ (a : WithTop ℝ) ≤ b.2) (bounds.1.zip bounds.2) args

end UA
