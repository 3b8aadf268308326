import Verif.Spec.Continuity
import Verif.Spec.Nucleon

/-!
# Vocabulary for continuity of the nucleon functions in the parameters
-/

namespace UA

/-- Real part of the pole of a resonance of the given mass and width; the nucleon model compares it with the thresholds. -/
noncomputable def poleRealPart (r : ℝ × ℝ) : ℝ := r.1 ^ 2 - r.2 ^ 2 / 4

/-- No resonance has its pole exactly above a threshold of its channel: the real part of the pole is neither a `t_0` (where the
model stops being buildable) nor a `t_in` (where the component changes its variant). The first six resonances are isoscalar, the last
three isovector. -/
def NucleonArgs.OffThresholds (x : NucleonArgs) : Prop :=
  (∀ r ∈ x.resonances.take 6, ∀ T ∈ [x.t_0_dirac_isoscalar, x.t_in_dirac_isoscalar, x.t_0_pauli_isoscalar, x.t_in_pauli_isoscalar],
    poleRealPart r ≠ T) ∧
  (∀ r ∈ x.resonances.drop 6, ∀ T ∈ [x.t_0_dirac_isovector, x.t_in_dirac_isovector, x.t_0_pauli_isovector, x.t_in_pauli_isovector],
    poleRealPart r ≠ T)

end UA
