import Verif.Model.FitScripts
import Verif.Model.Scripts

/-!
# The scripts that do one fit

`/repo/kaon_production/run_single_fit.py` and `/repo/nucleon_production/run_single_fit.py`.
-/

namespace UA

/-- The literal list of values, `kaon_production/run_single_fit.py:46` (decimal literals as rational numbers). -/
def kaonSingleFitValues : List ℚ :=
  [4.104732671275326, 6.945876504806479, 0.77526, 1.465, 1.72, 2.15, 0.1474, 0.4, 0.5220413015662677, 0.9262000511188161,
   0.5579553419980545, -0.06608398477649186, 0.19847722499260162, 0.78266, 1.0190415494118024, 1.41, 1.67, 1.68, 2.159, 0.00868, 0.004249,
   0.9228912480513007, 0.315, 0.15, 0.137, 0.20006026821487782, 0.3317378089249629, 0.14633274655460118, -0.17367426366140964,
   -0.010680398179201966]

/-- The names released at `kaon_production/run_single_fit.py:57-62`. -/
def kaonSingleFitReleased : List String :=
  ["t_in_isoscalar", "t_in_isovector",
   "decay_rate_omega_prime",
   "mass_phi", "decay_rate_phi", "mass_phi_prime", "decay_rate_phi_prime", "mass_phi_double_prime", "decay_rate_phi_double_prime",
   "decay_rate_rho_double_prime", "decay_rate_rho_triple_prime"]

/-- `make_parameters`, `kaon_production/run_single_fit.py:8-9` with the arguments at `:44-47` and the thresholds at `:32-33`. -/
noncomputable def makeKaonSingleFitParameters (pion_mass : ℝ) : Except PyErr (ModelParameters ℝ) :=
  let t_0_isoscalar := (3 * pion_mass) ^ 2
  let t_0_isovector := (2 * pion_mass) ^ 2
  ParamClass.kaon.fromOrderedValues (kaonSingleFitValues.map fun q : ℚ => (q : ℝ)) [("t_0_isoscalar", t_0_isoscalar), ("t_0_isovector", t_0_isovector)]

/-- What the script does to the parameters before the fit, `kaon_production/run_single_fit.py:54-62`. -/
noncomputable def prepareKaonSingleFit (parameters : ℕ) : PyM World Unit := do
  mutateParams parameters fun p => p.setValue "decay_rate_phi_prime" ((0.150 : ℚ) : ℝ)
  mutateParams parameters fun p => (.ok (), p.releaseAllParameters)
  mutateParams parameters fun p => p.fixResonances
  mutateParams parameters fun p => p.releaseParameters kaonSingleFitReleased

/-- The script `kaon_production/run_single_fit.py:28-70`. The arguments are the numbers read from the configuration file and the columns of
the two data files. The result is what is printed: the ordered values of the parameters after the fit, and the report (its text is not
modelled here). -/
noncomputable def runKaonSingleFit (env : Env) (pion_mass : ℝ) (constants : Constants)
    (charged_ts charged_cross_sections_values charged_errors neutral_ts neutral_cross_sections_values neutral_errors : List ℝ) :
    PyM World (List ℝ × Report) := do
  let p ← PyM.lift (makeKaonSingleFitParameters pion_mass)
  let parameters ← newParams p
  let (ts, cross_sections, errors) ← PyM.lift (prepareKaonData charged_ts charged_cross_sections_values charged_errors
    neutral_ts neutral_cross_sections_values neutral_errors)
  prepareKaonSingleFit parameters
  let task ← Task.init .kaonCSFixAccording "Fit" parameters ts cross_sections errors constants none true false
  let task ← task.run env
  let p ← readParams task.parameters
  let values ← PyM.lift p.getOrderedValues
  return (values, task.report)

/-- The literal list of values, `nucleon_production/run_single_fit.py:51`. -/
def nucleonSingleFitValues : List ℚ :=
  [1.921505175780696, 1.5790639230453043, 1.9520233934653979, 1.4222095291234824, 0.5392755402487763, 0.008486878507497419,
   0.19466200713482615, -0.00875921846784497, 0.15592815589971398, 0.19825369592717146, -0.006864173123697644, -0.09856559678755873, 0.78266,
   1.019461, 1.41, 1.67, 1.68, 2.159, 0.00868, 0.004249, 0.29, 0.315, 0.15, 0.137, 0.77526, 1.465, 1.72, 0.1474, 0.4, 0.25]

/-- `make_parameters`, `nucleon_production/run_single_fit.py:8-17` with the arguments at `:53-57` and the thresholds at `:39-40` (the
constants are those of the iterative script). -/
noncomputable def makeNucleonSingleFitParameters (pion_mass proton_mass magnetic_moment_proton magnetic_moment_neutron : ℝ) :
    Except PyErr (ModelParameters ℝ) :=
  ParamClass.nucleon.fromOrderedValues (nucleonSingleFitValues.map fun q : ℚ => (q : ℝ))
    (nucleonScriptConstants pion_mass proton_mass magnetic_moment_proton magnetic_moment_neutron)

/-- The script `nucleon_production/run_single_fit.py:35-71`, with the column of the data file. The result is what is printed. -/
noncomputable def runNucleonSingleFit (env : Env) (pion_mass proton_mass magnetic_moment_proton magnetic_moment_neutron alpha hc_squared : ℝ)
    (ts css errors : List ℝ) : PyM World (List ℝ × Report) := do
  let p ← PyM.lift (makeNucleonSingleFitParameters pion_mass proton_mass magnetic_moment_proton magnetic_moment_neutron)
  let parameters ← newParams p
  let (ts, css, errors) ← PyM.lift (prepareNucleonSingleFit ts css errors [] [] [])
  mutateParams parameters fun p => p.fixResonances
  let task ← Task.init .nucleonCSFixAccording "Full Fit" parameters ts css errors ⟨proton_mass, alpha, hc_squared⟩ none true false
  let task ← task.run env
  let p ← readParams task.parameters
  let values ← PyM.lift p.getOrderedValues
  return (values, task.report)

end UA
