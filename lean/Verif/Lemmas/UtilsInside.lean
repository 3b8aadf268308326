import Verif.Lemmas.UtilsBounds
import Verif.Spec.Utils

/-!
Objects inside the maximal bounds.
-/

namespace UA

open Complex

/-- The hypotheses hold for objects of every class with resonances, and both cases of the nucleon occur: masses 2, all thresholds
1, widths 1 (accepted) or 4 (refused). -/
theorem typical_insideMaximal (c : ParamClass) (hc : IsResonanceClass c) {width : ℝ} (h : 0 < width) : (typical c width).InsideMaximal :=
  insideMaximal_of_values (typical_reachable c width) hc (typical_values c width) (typical_inside c h)

end UA
