import Verif.Model.Pipelines

/-!
# The fit scripts: starting values, perturbation, schedule

`/repo/kaon_production/fit_*_iterative_pipeline*.py`, `/repo/kaon_production/fit_cs_pipeline_withneutralkaons_simplified.py` and
`/repo/nucleon_production/fit_cs_iterative_pipeline.py`.
-/

namespace UA

/-- What distinguishes the scripts: the class and the literal keyword arguments of `make_initial_parameters` (decimal literals as
rational numbers), the arguments of `perturb_model_parameters`, the pipeline, and its schedule. The same value of
`use_handpicked_bounds` is given to the perturbation and to the pipeline. -/
structure FitScript where
  cls : ParamClass
  literals : List (String × ℚ)
  perturbation_size : ℚ
  perturbation_size_resonances : ℚ
  use_handpicked_bounds : Bool
  kind : PipelineKind
  nr_free_params : List ℤ
  nr_iterations : List ℤ
  nr_initial_rounds_with_fixed_resonances : ℤ

/-- `make_initial_parameters(...)`; `constants` are the arguments passed on. -/
def FitScript.makeInitialParameters (script : FitScript) (constants : List (String × ℝ)) : Except PyErr (ModelParameters ℝ) :=
  script.cls.init (constants ++ script.literals.map fun q => (q.1, (q.2 : ℝ)))

/-! ### The kaon scripts -/

/-- `kaon_production/fit_ff_iterative_pipeline.py:9-37` and `:54-68`. -/
def fitFFIterative : FitScript where
  cls := .kaonB
  literals := [
    ("t_in_isoscalar", 1.0), ("t_in_isovector", 1.0), ("a_omega", 0.0), ("mass_omega", 0.78266), ("decay_rate_omega", 0.00868),
    ("a_omega_double_prime", 0.025), ("mass_omega_double_prime", 1.670), ("decay_rate_omega_double_prime", 0.315),
    ("a_phi", 0.4), ("mass_phi", 1.019461), ("decay_rate_phi", 0.004249),
    ("a_phi_prime", 0.025), ("mass_phi_prime", 1.680), ("decay_rate_phi_prime", 0.150),
    ("mass_phi_double_prime", 2.159), ("decay_rate_phi_double_prime", 0.137),
    ("a_rho", 0.0), ("mass_rho", 0.76388), ("decay_rate_rho", 0.14428),
    ("a_rho_prime", 1.0 / 6), ("mass_rho_prime", 1.32635), ("decay_rate_rho_prime", 0.32413),
    ("mass_rho_double_prime", 1.77054), ("decay_rate_rho_double_prime", 0.26898)]
  perturbation_size := 1.0
  perturbation_size_resonances := 0.1
  use_handpicked_bounds := false
  kind := .kaonFF
  nr_free_params := [3, 3, 5, 2, 7, 5, 8, 12]
  nr_iterations := [10, 40, 30, 20, 30, 40, 30, 30]
  nr_initial_rounds_with_fixed_resonances := 10

/-- `kaon_production/fit_cs_iterative_pipeline_withneutralkaons_fixed.py:11-45` and `:70-85`. Simplified: line 7 imports a class
`CrossSectionIterativePipeline` that no longer exists under this name; it is taken to be `KaonCrossSectionIterativePipeline`. -/
def fitCSIterativeFixed : FitScript where
  cls := .kaonFixedSelected
  literals := [
    ("t_in_isoscalar", 1.0), ("t_in_isovector", 1.0), ("a_omega", 0.0), ("mass_omega", 0.78266), ("decay_rate_omega", 0.00868),
    ("a_omega_prime", 0.025), ("mass_omega_prime", 1.420), ("decay_rate_omega_prime", 0.29),
    ("a_omega_double_prime", 0.025), ("mass_omega_double_prime", 1.670), ("decay_rate_omega_double_prime", 0.315),
    ("a_phi", 0.4), ("mass_phi", 1.019461), ("decay_rate_phi", 0.004249),
    ("a_phi_prime", 0.025), ("mass_phi_prime", 1.680), ("decay_rate_phi_prime", 0.150),
    ("mass_phi_double_prime", 2.159), ("decay_rate_phi_double_prime", 0.137),
    ("a_rho", 0.0), ("mass_rho", 0.75823), ("decay_rate_rho", 0.14456),
    ("a_rho_prime", 1.0 / 6), ("mass_rho_prime", 1.342), ("decay_rate_rho_prime", 0.492),
    ("a_rho_double_prime", 1.0 / 6), ("mass_rho_double_prime", 1.719), ("decay_rate_rho_double_prime", 0.490),
    ("mass_rho_triple_prime", 2.15), ("decay_rate_rho_triple_prime", 0.3)]
  perturbation_size := 1.0
  perturbation_size_resonances := 0.1
  use_handpicked_bounds := false
  kind := .kaonCS
  nr_free_params := [5, 3, 5, 2, 7, 5, 10, 15]
  nr_iterations := [10, 40, 20, 5, 25, 20, 30, 20]
  nr_initial_rounds_with_fixed_resonances := 10

/-- `kaon_production/fit_cs_iterative_pipeline_withneutralkaons_simplified.py:11-39` and `:61-76`. The same simplification as for the
script before. -/
def fitCSIterativeSimplified : FitScript where
  cls := .kaonSimplified
  literals := [
    ("t_in_isoscalar", 1.0), ("t_in_isovector", 1.0),
    ("a_omega_prime", 0.025), ("mass_omega_prime", 1.410), ("decay_rate_omega_prime", 0.29),
    ("a_omega_double_prime", 0.025), ("mass_omega_double_prime", 1.670), ("decay_rate_omega_double_prime", 0.315),
    ("a_phi", 0.4), ("mass_phi", 1.019461), ("decay_rate_phi", 0.004249),
    ("a_phi_prime", 0.025), ("mass_phi_prime", 1.680), ("decay_rate_phi_prime", 0.150),
    ("mass_phi_double_prime", 2.159), ("decay_rate_phi_double_prime", 0.137),
    ("a_rho_prime", 1.0 / 6), ("mass_rho_prime", 1.34231), ("decay_rate_rho_prime", 0.49217),
    ("a_rho_double_prime", 1.0 / 6), ("mass_rho_double_prime", 1.7185), ("decay_rate_rho_double_prime", 0.48958),
    ("mass_rho_triple_prime", 2.15), ("decay_rate_rho_triple_prime", 0.3)]
  perturbation_size := 0.5
  perturbation_size_resonances := 0.2
  use_handpicked_bounds := true
  kind := .kaonCS
  nr_free_params := [5, 4, 6, 2, 8, 4, 10, 17, 5]
  nr_iterations := [5, 20, 20, 10, 40, 10, 20, 20, 10]
  nr_initial_rounds_with_fixed_resonances := 5

/-- The function `f` of these three scripts (e.g. `kaon_production/fit_ff_iterative_pipeline.py:51-69`), with the thresholds computed
at `:44-45`. The arguments are the lists of data as they are when `f` is called (the first script gives empty ones for the neutral
points, the second has multiplied the neutral errors by 4). `random` are the values `random.random()` returns. The result is the
`_best_fit` that `run` returns. -/
noncomputable def FitScript.f (script : FitScript) (env : Env) (random : ℕ → ℝ) (pion_mass : ℝ) (constants : Constants)
    (ts_charged ys_charged errors_charged ts_neutral ys_neutral errors_neutral : List ℝ) (path_to_reports name : String) :
    PyM World BestFit := do
  let t_0_isoscalar := (3 * pion_mass) ^ 2
  let t_0_isovector := (2 * pion_mass) ^ 2
  let p ← PyM.lift (script.makeInitialParameters [("t_0_isoscalar", t_0_isoscalar), ("t_0_isovector", t_0_isovector)])
  let initial_parameters ← newParams p
  mutateParams initial_parameters fun p =>
    perturbModelParameters p script.perturbation_size (some script.perturbation_size_resonances) script.use_handpicked_bounds random
  let (ts, ys, errors) ← PyM.lift (prepareKaonData ts_charged ys_charged errors_charged ts_neutral ys_neutral errors_neutral)
  let pipeline ← Pipeline.init env script.kind name initial_parameters [] ts ys errors path_to_reports false script.use_handpicked_bounds constants
  let pipeline ← pipeline.runIterative env
    ⟨freeParamsNumbers script.nr_free_params script.nr_iterations, script.nr_initial_rounds_with_fixed_resonances⟩
  return pipeline.best_fit

/-- The starting values of `kaon_production/fit_cs_pipeline_withneutralkaons_simplified.py:12-40` and the arguments at `:83-87`. The
script has no schedule; its only task class, `TaskFixedResonancesFit`, does not exist (`:7`), so only the preparation of the starting
values is modelled. -/
def fitCSPipelineSimplified : FitScript where
  cls := .kaonSimplified
  literals := [
    ("t_in_isoscalar", 1.0), ("t_in_isovector", 1.0),
    ("a_omega_prime", 1.0 / 10), ("mass_omega_prime", 1.410), ("decay_rate_omega_prime", 0.29),
    ("a_omega_double_prime", 1.0 / 10), ("mass_omega_double_prime", 1.670), ("decay_rate_omega_double_prime", 0.315),
    ("a_phi", 1.0 / 10), ("mass_phi", 1.019461), ("decay_rate_phi", 0.004249),
    ("a_phi_prime", 1.0 / 10), ("mass_phi_prime", 1.680), ("decay_rate_phi_prime", 0.150),
    ("mass_phi_double_prime", 2.159), ("decay_rate_phi_double_prime", 0.137),
    ("a_rho_prime", 1.0 / 6), ("mass_rho_prime", 1.34231), ("decay_rate_rho_prime", 0.49217),
    ("a_rho_double_prime", 1.0 / 6), ("mass_rho_double_prime", 1.7185), ("decay_rate_rho_double_prime", 0.48958),
    ("mass_rho_triple_prime", 2.15), ("decay_rate_rho_triple_prime", 0.3)]
  perturbation_size := 0.8
  perturbation_size_resonances := 0.5
  use_handpicked_bounds := true
  kind := .kaonCS
  nr_free_params := []
  nr_iterations := []
  nr_initial_rounds_with_fixed_resonances := 0

/-- The names fixed at `kaon_production/fit_cs_pipeline_withneutralkaons_simplified.py:77-81`. -/
def fitCSPipelineFixedNames : List String :=
  ["mass_omega_prime", "decay_rate_omega_prime", "mass_phi", "decay_rate_phi", "mass_phi_prime", "decay_rate_phi_prime",
   "mass_rho_prime", "decay_rate_rho_prime"]

/-- `kaon_production/fit_cs_pipeline_withneutralkaons_simplified.py:76-87` on the new object. -/
noncomputable def fitCSPipelineStart (random : ℕ → ℝ) (pion_mass : ℝ) : PyM World ℕ := do
  let p ← PyM.lift (fitCSPipelineSimplified.makeInitialParameters [("t_0_isoscalar", (3 * pion_mass) ^ 2), ("t_0_isovector", (2 * pion_mass) ^ 2)])
  let initial_parameters ← newParams p
  mutateParams initial_parameters fun p => p.fixParameters fitCSPipelineFixedNames
  mutateParams initial_parameters fun p => perturbModelParameters p fitCSPipelineSimplified.perturbation_size
    (some fitCSPipelineSimplified.perturbation_size_resonances) fitCSPipelineSimplified.use_handpicked_bounds random
  return initial_parameters

/-! ### The nucleon script -/

/-- `nucleon_production/fit_cs_iterative_pipeline.py:9-52` and `:83-99`. -/
def fitNucleonCSIterative : FitScript where
  cls := .nucleon
  literals := [
    ("t_in_dirac_isoscalar", 1.0), ("t_in_dirac_isovector", 2.0), ("t_in_pauli_isoscalar", 1.0), ("t_in_pauli_isovector", 2.0),
    ("a_dirac_omega", 1.0), ("a_pauli_omega", -0.2), ("mass_omega", 0.78266), ("decay_rate_omega", 0.00868),
    ("a_dirac_omega_prime", 0.2), ("mass_omega_prime", 1.410), ("decay_rate_omega_prime", 0.29),
    ("mass_omega_double_prime", 1.670), ("decay_rate_omega_double_prime", 0.315),
    ("a_dirac_phi", -1.0), ("a_pauli_phi", 0.2), ("mass_phi", 1.019461), ("decay_rate_phi", 0.004249),
    ("a_dirac_phi_prime", 0.2), ("a_pauli_phi_prime", 0.2), ("mass_phi_prime", 1.680), ("decay_rate_phi_prime", 0.150),
    ("mass_phi_double_prime", 2.159), ("decay_rate_phi_double_prime", 0.137),
    ("a_dirac_rho", 0.4), ("mass_rho", 0.77526), ("decay_rate_rho", 0.1474),
    ("mass_rho_prime", 1.465), ("decay_rate_rho_prime", 0.4), ("mass_rho_double_prime", 1.72), ("decay_rate_rho_double_prime", 0.25)]
  perturbation_size := 0.8
  perturbation_size_resonances := 0.1
  use_handpicked_bounds := true
  kind := .nucleonCS
  nr_free_params := [4, 3, 5, 2, 7, 3, 8, 10, 5]
  nr_iterations := [5, 20, 30, 20, 40, 10, 20, 20, 10]
  nr_initial_rounds_with_fixed_resonances := 200

/-- The constants the nucleon script passes on, `nucleon_production/fit_cs_iterative_pipeline.py:73-81`, with the thresholds computed at
`:59-60`. -/
noncomputable def nucleonScriptConstants (pion_mass proton_mass proton_magnetic_moment neutron_magnetic_moment : ℝ) : List (String × ℝ) :=
  let t_0_isoscalar := (3 * pion_mass) ^ 2
  let t_0_isovector := (2 * pion_mass) ^ 2
  [("nucleon_mass", proton_mass), ("magnetic_moment_proton", proton_magnetic_moment), ("magnetic_moment_neutron", neutron_magnetic_moment),
   ("t_0_dirac_isoscalar", t_0_isoscalar), ("t_0_dirac_isovector", t_0_isovector), ("t_0_pauli_isoscalar", t_0_isoscalar),
   ("t_0_pauli_isovector", t_0_isovector)]

/-- `nucleon_production/fit_cs_iterative_pipeline.py:73-87` on the new object. -/
noncomputable def fitNucleonStart (random : ℕ → ℝ) (pion_mass proton_mass proton_magnetic_moment neutron_magnetic_moment : ℝ) : PyM World ℕ := do
  let p ← PyM.lift (fitNucleonCSIterative.makeInitialParameters
    (nucleonScriptConstants pion_mass proton_mass proton_magnetic_moment neutron_magnetic_moment))
  let initial_parameters ← newParams p
  mutateParams initial_parameters fun p => p.fixResonances
  mutateParams initial_parameters fun p => perturbModelParameters p fitNucleonCSIterative.perturbation_size
    (some fitNucleonCSIterative.perturbation_size_resonances) fitNucleonCSIterative.use_handpicked_bounds random
  return initial_parameters

/-- The function `f` of the script, `nucleon_production/fit_cs_iterative_pipeline.py:72-101`; the lists are those of the proton. -/
noncomputable def fitNucleonF (env : Env) (random : ℕ → ℝ) (pion_mass proton_mass proton_magnetic_moment neutron_magnetic_moment alpha hc_squared : ℝ)
    (ts_proton_electric css_proton_electric errors_proton_electric : List ℝ) (path_to_reports name : String) : PyM World BestFit := do
  let initial_parameters ← fitNucleonStart random pion_mass proton_mass proton_magnetic_moment neutron_magnetic_moment
  let (ts, ys, errors) ← PyM.lift (prepareNucleonData ts_proton_electric css_proton_electric errors_proton_electric [] [] [] [] [] [] [] [] [])
  let pipeline ← Pipeline.init env fitNucleonCSIterative.kind name initial_parameters [] ts ys errors path_to_reports false
    fitNucleonCSIterative.use_handpicked_bounds ⟨proton_mass, alpha, hc_squared⟩
  let pipeline ← pipeline.runNucleonCSIterative env
    ⟨freeParamsNumbers fitNucleonCSIterative.nr_free_params fitNucleonCSIterative.nr_iterations,
      fitNucleonCSIterative.nr_initial_rounds_with_fixed_resonances⟩
  return pipeline.best_fit

end UA
