import Verif.Model.Files
import Verif.Model.DataFiles
import Verif.Model.FitScripts
import Verif.Model.SingleFit
import Verif.Model.OtherFit
import Verif.Model.PlotFit
import Verif.Model.PlotSingle

/-!
# The scripts from the files they read

Every definition takes the lines of the files the script opens, in the order in which it opens them; the files as shipped are in
`Verif.Model.DataFiles`.
-/

namespace UA

/-! ### Several runs -/

/-- `n` calls of `f` from number `i` on, each with its number and its name; every result is printed. E.g.
`kaon_production/fit_ff_iterative_pipeline.py:73-75`. -/
noncomputable def runsFrom (env : Env) (f : ℕ → String → PyM World BestFit) (stem : String) : ℕ → ℕ → PyM World (List BestFit)
  | _, 0 => pure []
  | i, n + 1 => do
    let result ← f i (stem ++ toString i)
    pyPrint (env.strBestFit result)
    let results ← runsFrom env f stem (i + 1) n
    return result :: results

/-- `for final_result in ...: print(final_result)`, e.g. `kaon_production/fit_ff_iterative_pipeline.py:82-83`. -/
def printResults (env : Env) : List BestFit → PyM World Unit
  | [] => pure ()
  | result :: rest => do
    pyPrint (env.strBestFit result)
    printResults env rest

/-- The end of the scripts, e.g. `kaon_production/fit_ff_iterative_pipeline.py:80-83`: the best fit and the few best ones are printed. The
first dictionary is `{'chi_squared': None, 'name': None, 'parameters': None}` (`:72`), unlike the one the pipelines start with. The
collecting (`:76-79`), which happens between the calls, prints nothing and is done here. -/
def printBest (env : Env) (few : ℕ) (results : List BestFit) : PyM World (BestFit × List BestFit) := do
  let (final_results, best_fit) := bestOf results
  pyPrint ("Best fit:  " ++ match best_fit.chi_squared with
    | none => "{'chi_squared': None, 'name': None, 'parameters': None}"
    | some _ => env.strBestFit best_fit)
  let printed := bestFew few final_results
  printResults env printed
  return (best_fit, printed)

/-- The runs, the best of them and the few best ones, `kaon_production/fit_ff_iterative_pipeline.py:71-83`,
`nucleon_production/fit_cs_iterative_pipeline.py:103-116` and `kaon_production/fit_ff_other_models.py:71-83`. -/
noncomputable def bestOfRuns (env : Env) (f : ℕ → String → PyM World BestFit) (stem : String) (n few : ℕ) : PyM World (BestFit × List BestFit) := do
  let results ← runsFrom env f stem 0 n
  printBest env few results

/-- The calls of the two cross section scripts for kaons, which are made in other processes
(`kaon_production/fit_cs_iterative_pipeline_withneutralkaons_fixed.py:89-92`, `..._simplified.py:80-83`): an exception is kept with the
other results. Simplified: here the calls are made one after the other. The processes only have the file system in common, where each has
its own directory, and the standard output, where their lines may come in another order. -/
noncomputable def applyAsync (f : ℕ → String → PyM World BestFit) (stem : String) : ℕ → ℕ → PyM World (List (Except PyErr BestFit))
  | _, 0 => pure []
  | i, n + 1 => fun w =>
    let (result, w) := f i (stem ++ toString i) w
    (do
      let results ← applyAsync f stem (i + 1) n
      return result :: results) w

/-- `result.get()` raises a kept exception; `kaon_production/fit_cs_iterative_pipeline_withneutralkaons_fixed.py:94-96`,
`..._simplified.py:85-87`. -/
def getResults (env : Env) : List (Except PyErr BestFit) → PyM World (List BestFit)
  | [] => pure []
  | result :: rest => do
    let r ← PyM.lift result
    pyPrint (env.strBestFit r)
    let results ← getResults env rest
    return r :: results

/-- `kaon_production/fit_cs_iterative_pipeline_withneutralkaons_fixed.py:88-106`, `..._simplified.py:79-97`. -/
noncomputable def bestOfPool (env : Env) (f : ℕ → String → PyM World BestFit) (stem : String) (n few : ℕ) : PyM World (BestFit × List BestFit) := do
  let results ← applyAsync f stem 0 n
  let results ← getResults env results
  printBest env few results

/-! ### The configuration -/

/-- The four numbers the kaon scripts read, e.g. `kaon_production/fit_cs_iterative_pipeline_withneutralkaons_fixed.py:49-57`. -/
noncomputable def kaonConfiguration (config : List String) : Except PyErr (ℝ × Constants) := do
  let pion_mass ← configFloat config "charged_pion_mass"
  let kaon_mass ← configFloat config "charged_kaon_mass"
  let alpha ← configFloat config "alpha"
  let hc_squared ← configFloat config "hc_squared"
  return (pion_mass, ⟨kaon_mass, alpha, hc_squared⟩)

/-- The six numbers the nucleon scripts read, `nucleon_production/fit_cs_iterative_pipeline.py:56-66` and
`nucleon_production/run_single_fit.py:36-45`: masses of the pion and the proton, the magnetic moments, `alpha` and `hc_squared`. -/
noncomputable def nucleonConfiguration (config : List String) : Except PyErr (ℝ × ℝ × ℝ × ℝ × ℝ × ℝ) := do
  let pion_mass ← configFloat config "charged_pion_mass"
  let proton_mass ← configFloat config "proton_mass"
  let proton_magnetic_moment ← configFloat config "proton_magnetic_moment"
  let neutron_magnetic_moment ← configFloat config "neutron_magnetic_moment"
  let alpha ← configFloat config "alpha"
  let hc_squared ← configFloat config "hc_squared"
  return (pion_mass, proton_mass, proton_magnetic_moment, neutron_magnetic_moment, alpha, hc_squared)

/-! ### The scripts that run pipelines -/

/-- `kaon_production/fit_ff_iterative_pipeline.py:40-83`. `random i` are the values `random.random()` returns during run `i`. The form
factor pipeline has no constants (0 here). -/
noncomputable def fitFFMain (env : Env) (random : ℕ → ℕ → ℝ) (config charged : List String) : PyM World (BestFit × List BestFit) := do
  let pion_mass ← PyM.lift (configFloat config "charged_pion_mass")
  let (ts, ys, errors) ← PyM.lift (readDataFile charged)
  bestOfRuns env (fun i name => fitFFIterative.f env (random i) pion_mass ⟨0, 0, 0⟩ ts ys errors [] [] [] "/home/lukas/reports/ff" name) "iterative7_" 15 3

/-- `kaon_production/fit_cs_iterative_pipeline_withneutralkaons_fixed.py:48-106`. -/
noncomputable def fitCSFixedMain (env : Env) (random : ℕ → ℕ → ℝ) (config charged neutral : List String) : PyM World (BestFit × List BestFit) := do
  let (pion_mass, constants) ← PyM.lift (kaonConfiguration config)
  let (charged_ts, charged_values, charged_errors) ← PyM.lift (readDataFile charged)
  let (neutral_ts, neutral_values, neutral_errors) ← PyM.lift (readDataFile neutral)
  let neutral_errors := neutral_errors.map fun err => err * 4
  bestOfPool env (fun i name => fitCSIterativeFixed.f env (random i) pion_mass constants charged_ts charged_values charged_errors
    neutral_ts neutral_values neutral_errors "/home/lukas/reports" name) "newdata12_" 10 3

/-- `kaon_production/fit_cs_iterative_pipeline_withneutralkaons_simplified.py:42-97`. -/
noncomputable def fitCSSimplifiedMain (env : Env) (random : ℕ → ℕ → ℝ) (config charged neutral : List String) :
    PyM World (BestFit × List BestFit) := do
  let (pion_mass, constants) ← PyM.lift (kaonConfiguration config)
  let (charged_ts, charged_values, charged_errors) ← PyM.lift (readDataFile charged)
  let (neutral_ts, neutral_values, neutral_errors) ← PyM.lift (readDataFile neutral)
  bestOfPool env (fun i name => fitCSIterativeSimplified.f env (random i) pion_mass constants charged_ts charged_values charged_errors
    neutral_ts neutral_values neutral_errors "/home/lukas/reports" name) "iterative10_" 7 3

/-- `nucleon_production/fit_cs_iterative_pipeline.py:55-116`. -/
noncomputable def fitNucleonMain (env : Env) (random : ℕ → ℕ → ℝ) (config data : List String) : PyM World (BestFit × List BestFit) := do
  let (pion_mass, proton_mass, proton_magnetic_moment, neutron_magnetic_moment, alpha, hc_squared) ← PyM.lift (nucleonConfiguration config)
  let (ts, css, errors) ← PyM.lift (readDataFile data)
  bestOfRuns env (fun i name => fitNucleonF env (random i) pion_mass proton_mass proton_magnetic_moment neutron_magnetic_moment alpha hc_squared
    ts css errors "/home/lukas/reports/oscillations" name) "run7_" 10 3

/-- `kaon_production/fit_ff_other_models.py:29-83`. -/
noncomputable def fitOtherModelsMain (env : Env) (random : ℕ → ℕ → ℝ) (charged : List String) : PyM World (BestFit × List BestFit) := do
  let (ts, ys, errors) ← PyM.lift (readDataFile charged)
  bestOfRuns env (fun i name => fitOtherModels env (random i) ts ys errors "/home/lukas/reports/ff" name "etgmr") "_1_" 1 3

/-! ### The other scripts -/

/-- `kaon_production/run_single_fit.py:28-70`. -/
noncomputable def kaonSingleFitMain (env : Env) (config charged neutral : List String) : PyM World (List ℝ × Report) := do
  let (pion_mass, constants) ← PyM.lift (kaonConfiguration config)
  let (charged_ts, charged_values, charged_errors) ← PyM.lift (readDataFile charged)
  let (neutral_ts, neutral_values, neutral_errors) ← PyM.lift (readDataFile neutral)
  runKaonSingleFit env pion_mass constants charged_ts charged_values charged_errors neutral_ts neutral_values neutral_errors

/-- `nucleon_production/run_single_fit.py:35-71`. -/
noncomputable def nucleonSingleFitMain (env : Env) (config data : List String) : PyM World (List ℝ × Report) := do
  let (pion_mass, proton_mass, magnetic_moment_proton, magnetic_moment_neutron, alpha, hc_squared) ← PyM.lift (nucleonConfiguration config)
  let (ts, css, errors) ← PyM.lift (readDataFile data)
  runNucleonSingleFit env pion_mass proton_mass magnetic_moment_proton magnetic_moment_neutron alpha hc_squared ts css errors

/-- `kaon_production/plot_fit.py:27-88`. Simplified: all four numbers are read before the data file, as in the other scripts (the script
reads three of them at `:74-76`). -/
noncomputable def plotFitMain (env : Env) (config charged : List String) : PyM World (List ℝ × List ℝ × List Panel × Task) := do
  let (_, constants) ← PyM.lift (kaonConfiguration config)
  let (ts, ys, errors) ← PyM.lift (readDataFile charged)
  runPlotFit env constants ts ys errors

/-- `kaon_production/plot_single_component.py:56-78`. -/
noncomputable def plotSingleMain (config charged neutral : List String) : PyM World (List Panel) := do
  let (_, constants) ← PyM.lift (kaonConfiguration config)
  let (charged_ts, charged_values, charged_errors) ← PyM.lift (readDataFile charged)
  let (neutral_ts, neutral_values, neutral_errors) ← PyM.lift (readDataFile neutral)
  plotSingleComponent constants.mass constants.alpha constants.hc_squared charged_ts charged_values charged_errors
    neutral_ts neutral_values neutral_errors

/-- `kaon_production/convert_cs_data_to_ff_data.py:24-38`: the rows the script writes into `charged_ff_2.csv`. -/
noncomputable def convertMain (config charged : List String) : Except PyErr (List (ℝ × ℝ × ℝ)) := do
  let alpha ← configFloat config "alpha"
  let hc_squared ← configFloat config "hc_squared"
  let kaon_mass ← configFloat config "charged_kaon_mass"
  let (ts, css, errors) ← readDataFile charged
  convertAll alpha hc_squared kaon_mass ts css errors

/-- The parameters, `kaon_production/calculate_deviations.py:79`: name, value, whether fixed. -/
def deviationsLiterals : List (String × ℚ × Bool) := [
  ("t_0_isoscalar", 0.17531904388276887, true),
  ("t_0_isovector", 0.07791957505900839, true),
  ("t_in_isoscalar", 1.0365569328792128, true),
  ("t_in_isovector", 1.6795999919783429, true),
  ("a_omega", 0.3640295777639465, true),
  ("mass_omega", 0.78266, true),
  ("decay_rate_omega", 0.00868, true),
  ("a_omega_prime", -0.04420232725126961, true),
  ("mass_omega_prime", 1.4499999999999997, true),
  ("decay_rate_omega_prime", 0.3299999999995, true),
  ("a_omega_double_prime", -0.004446306776718244, true),
  ("mass_omega_double_prime", 1.6650000000008336, true),
  ("decay_rate_omega_double_prime", 0.3000000001, true),
  ("a_phi", 0.21515490214604754, false),
  ("mass_phi", 1.0174220440395478, false),
  ("decay_rate_phi", 0.004499999999997257, true),
  ("a_phi_prime", -0.04457599206853455, true),
  ("mass_phi_prime", 1.6750000000000003, false),
  ("decay_rate_phi_prime", 0.1512945056878342, true),
  ("mass_phi_double_prime", 2.1941336183231037, true),
  ("decay_rate_phi_double_prime", 0.19999999999949045, true),
  ("a_rho", 0.5858562425364882, false),
  ("mass_rho", 0.77526, true),
  ("decay_rate_rho", 0.1474, true),
  ("a_rho_prime", -0.14577364351226266, true),
  ("mass_rho_prime", 1.4799999999999998, true),
  ("decay_rate_rho_prime", 0.39522683844974404, true),
  ("a_rho_double_prime", 0.02049285609676272, true),
  ("mass_rho_double_prime", 1.7399999999999973, false),
  ("decay_rate_rho_double_prime", 0.5999999999999913, true),
  ("mass_rho_triple_prime", 2.0000000002, true),
  ("decay_rate_rho_triple_prime", 0.2138095751275945, true)]

/-- `parameters`, `kaon_production/calculate_deviations.py:79`. -/
noncomputable def makeDeviationsParameters : Except PyErr (ModelParameters ℝ) :=
  ParamClass.kaonFixedRhoOmega.fromList (deviationsLiterals.map fun q => ⟨q.1, (q.2.1 : ℝ), q.2.2⟩)

/-- `kaon_production/calculate_deviations.py:29-85`: the rows of the table that is printed and written. The charged data are read but
not used. -/
noncomputable def deviationsMain (config charged neutral : List String) : PyM World (List (ℝ × ℝ × ℝ × ℝ × ℝ)) := do
  let (_, constants) ← PyM.lift (kaonConfiguration config)
  let _ ← PyM.lift (readDataFile charged)
  let (neutral_ts, neutral_values, neutral_errors) ← PyM.lift (readDataFile neutral)
  let p ← PyM.lift makeDeviationsParameters
  let parameters ← newParams p
  calculateDeviationsFromFit parameters neutral_ts neutral_values neutral_errors false constants.mass constants.alpha constants.hc_squared

end UA
