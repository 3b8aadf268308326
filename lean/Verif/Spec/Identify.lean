import Verif.Spec.Content

/-!
# Reading the resonances off a form factor
-/

namespace UA

open Classical in
/-- The sum of the couplings of the resonances with that mass and that width (signs of mass and width disregarded). -/
noncomputable def couplingAt (rs : List Res) (mass width : ℝ) : ℝ :=
  (rs.map fun r => if |r.mass| = mass ∧ |r.decay| = width then r.a else 0).sum

/-- The resonances with a coupling other than zero. -/
noncomputable def ModelParameters.active (p : ModelParameters ℝ) (isoscalar : Bool) : List Res := (p.content isoscalar).filter fun r => r.a ≠ 0

end UA
