import Verif.Model.SingleFit

/-!
# The script that shows one result

`/repo/kaon_production/plot_fit.py`.
-/

namespace UA

/-- The literal list of parameters, `kaon_production/plot_fit.py:45-70`: name, value (decimal literals as rational numbers), whether fixed. -/
def plotFitLiterals : List (String × ℚ × Bool) := [
  ("t_0_isoscalar", 0.17531904388276887, true),
  ("t_0_isovector", 0.07791957505900839, true),
  ("t_in_isoscalar", 3.2291595069331067, false),
  ("t_in_isovector", 0.5835126419012053, false),
  ("a_omega", 0.32729801061391034, false),
  ("mass_omega", 0.78266, true),
  ("decay_rate_omega", 0.00868, true),
  ("a_omega_double_prime", -0.1322560747876571, false),
  ("mass_omega_double_prime", 1.67, true),
  ("decay_rate_omega_double_prime", 0.315, true),
  ("a_phi", 0.33178701236457975, false),
  ("mass_phi", 1.0190536833008472, false),
  ("decay_rate_phi", 0.004229702507790191, false),
  ("a_phi_prime", 0.08303027600714324, false),
  ("mass_phi_prime", 3.0321618703565654, false),
  ("decay_rate_phi_prime", 1.7409626508527738, false),
  ("mass_phi_double_prime", 1.984329537423646, false),
  ("decay_rate_phi_double_prime", 0.6816716770166859, false),
  ("a_rho", 0.5456549089807899, false),
  ("mass_rho", 0.76388, true),
  ("decay_rate_rho", 0.14428, true),
  ("a_rho_prime", -0.03127769956987407, false),
  ("mass_rho_prime", 1.32635, true),
  ("decay_rate_rho_prime", 0.32413, true),
  ("mass_rho_double_prime", 1.77054, true),
  ("decay_rate_rho_double_prime", 0.26898, true)]

/-- `parameters`, `kaon_production/plot_fit.py:44-71`. -/
noncomputable def makePlotFitParameters : Except PyErr (ModelParameters ℝ) :=
  ParamClass.kaonB.fromList (plotFitLiterals.map fun q => ⟨q.1, (q.2.1 : ℝ), q.2.2⟩)

/-- The script `kaon_production/plot_fit.py:27-88`. The arguments are the constants read from the configuration file (`:74-76`) and the
columns of the data file (`:34`); the thresholds computed at `:30-32` are not used. The result is what the script makes of them: the two
lists printed at `:79-80`, the figure of `:81` and the task after its run (`:83-88`). -/
noncomputable def runPlotFit (env : Env) (constants : Constants) (charged_ts charged_cross_sections_values charged_errors : List ℝ) :
    PyM World (List ℝ × List ℝ × List Panel × Task) := do
  let (ts, ffs, errs) ← PyM.lift (prepareKaonData charged_ts charged_cross_sections_values charged_errors [] [] [])
  let p ← PyM.lift makePlotFitParameters
  let parameters ← newParams p
  mutateParams parameters fun p => (.ok (), p.fixAllParameters)
  let f ← makePartialIn .formFactor parameters
  let g ← makePartialIn (.crossSection constants.mass constants.alpha constants.hc_squared) parameters
  let printed_f ← callPartialIn f [.kaon 8 true] []
  let printed_g ← callPartialIn g [.kaon 8 true] []
  let panels ← plotFFNeutralPlusCharged ts ffs errs (fun ts => callPartialIn f ts []) "plot_fit"
  let task ← Task.init .residual "ResidualOscillationsTask" parameters ts ffs errs constants (some "/home/lukas/reports/ff") true true
  let task ← task.run env
  return (printed_f, printed_g, panels, task)

end UA
