import Verif.Spec.Strengths

/-!
# Vocabulary for property C110: least squares over the free parameters
-/

namespace UA

/-- All free parameters of the object are couplings (`a_…`). -/
def ModelParameters.OnlyCouplingsFree (p : ModelParameters ℝ) : Prop := ∀ q ∈ p.toList, q.is_fixed = false → "a_".toList <+: q.name.toList

/-- The weighted sum of squared deviations of fitted values `fs` from data `ys` with errors `es`, which a fit is to make small. -/
noncomputable def weightedSquares (ys es fs : List ℝ) : ℝ := ∑ i ∈ Finset.range fs.length, ((ys.getD i 0 - fs.getD i 0) / es.getD i 1) ^ 2

end UA
