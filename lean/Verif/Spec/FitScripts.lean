import Verif.Model.FitScripts
import Verif.Spec.Runs

/-!
# Vocabulary for the properties of the fit scripts
-/

namespace UA

/-- The scripts that run the iterative kaon pipelines. -/
def kaonIterativeScripts : List FitScript := [fitFFIterative, fitCSIterativeFixed, fitCSIterativeSimplified]

/-- All fit scripts with resonances. -/
def fitScripts : List FitScript := kaonIterativeScripts ++ [fitCSPipelineSimplified, fitNucleonCSIterative]

/-- Arguments for the constants a class needs, with all thresholds `t_0` between 0 and 0.54 (with the physical pion mass they are 0.175
and 0.078). -/
def ScriptConstants (c : ParamClass) (constants : List (String × ℝ)) : Prop :=
  constants.map (·.1) = constantNames c ∧ ∀ q ∈ constants, "t_0_".toList <+: q.1.toList → 0 ≤ q.2 ∧ q.2 ≤ 0.54

end UA
