import Verif.Spec.Rounds
import Verif.Spec.BestCouplings

/-!
# Vocabulary for property C112: fits that do not get worse
-/

namespace UA

/-- The fitting library never returns values with a larger weighted sum of squares than its starting values, whatever the function `g`. -/
def Env.NeverWorse (env : Env) : Prop :=
  ∀ (k : ℕ) (problem : FitProblem) (g : List ℝ → Except PyErr (List ℝ)) (opt : List ℝ) (cov : Cov) (start fs : List ℝ),
    (env.curve_fit k problem).outcome g = .ok (opt, cov) → g problem.p0 = .ok start → g opt = .ok fs →
    weightedSquares problem.ydata problem.sigma fs ≤ weightedSquares problem.ydata problem.sigma start

/-- If the fitted function can be evaluated with `p` at the points, then also with `p'`, and `p'` is no worse. -/
def FitData.NoWorse (fit : FitData) (p p' : ModelParameters ℝ) : Prop :=
  ∀ fs, fit.f.eval fit.ts p = .ok fs → ∃ fs', fit.f.eval fit.ts p' = .ok fs' ∧
    weightedSquares fit.ys fit.errors fs' ≤ weightedSquares fit.ys fit.errors fs

end UA
