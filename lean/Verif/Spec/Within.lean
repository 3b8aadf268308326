import Verif.Spec.RunsNucleon

/-!
# Vocabulary for fits that stay in a region
-/

namespace UA

/-- The names and values of an object, without the flags. -/
def ModelParameters.assignment (p : ModelParameters ℝ) : List (String × ℝ) := p.toList.map fun q => (q.name, q.value)

/-- A fitting procedure that only asks for and only returns arguments in `A`. -/
def FitProc.Within (A : List ℝ → Prop) : FitProc → Prop
  | .done (.ok (opt, _)) => A opt
  | .done (.error _) => True
  | .ask args next => A args ∧ ∀ ys, (next ys).Within A

/-- The fitting library does not leave the region `V` (a set of assignments of values to all parameters): whenever it is given, for an
object in `V`, the free values as starting values and the bounds of these parameters, with the values strictly inside, then the object with
every list of free values it asks for or returns is in `V`. -/
def Env.FitsWithin (env : Env) (V : Set (List (String × ℝ))) : Prop :=
  ∀ (k : ℕ) (problem : FitProblem) (p : ModelParameters ℝ) (handpicked : Bool), Reachable p → p.assignment ∈ V → problem.p0 = p.getFreeValues →
    problem.p0 ≠ [] → problem.xdata ≠ [] → p.getBoundsForFreeParameters handpicked = .ok problem.bounds → StrictlyInside problem.bounds problem.p0 →
    (env.curve_fit k problem).Within fun args => ∀ p', p.updateFreeValues args = (.ok (), p') → p'.assignment ∈ V

/-- What a nucleon pipeline fits to its data: form factors or cross sections at its points. -/
noncomputable def Pipeline.fittedValues (self : Pipeline) (p : ModelParameters ℝ) : Except PyErr (List ℝ) :=
  if self.kind = .nucleonFF then functionFormFactor self.ts p
  else functionCrossSection self.ts self.constants.mass self.constants.alpha self.constants.hc_squared p

/-- All objects inside the bounds whose values are in `V` can be evaluated at the points of the pipeline. -/
def Pipeline.EvaluatesOn (self : Pipeline) (V : Set (List (String × ℝ))) : Prop :=
  ∀ p, Reachable p → p.cls = .nucleon → p.InsideFor true → p.assignment ∈ V → ∃ rs, self.fittedValues p = .ok rs

end UA
