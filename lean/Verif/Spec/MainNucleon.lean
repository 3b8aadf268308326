import Verif.Spec.MainRuns

/-!
# What the nucleon script leaves behind
-/

namespace UA

/-- One run of the iterative pipeline for nucleon cross sections: the parameters it starts with, what is printed about the free parameters of
the rounds, the reports of the rounds, of the full fit and of the residual fit, the chi squared behind the reports, and the result. -/
structure NucleonRecord where
  initial : List (Parameter ℝ)
  starts : List String
  reports : List Report
  full : Report
  residual : Report
  chis : List (Option PyFloat)
  residualChi : Option PyFloat
  result : BestFit

/-- The messages of the run up to the best fit. -/
def NucleonRecord.messages (run : NucleonRecord) (env : Env) (its : Iterations) : List String :=
  ("Starting. Initial parameters: " ++ env.strParameters run.initial) ::
    (taskMessages env ". Free parameters: " 0 (run.starts.zip run.reports) ++
      ["Initializing Task#" ++ toString run.reports.length ++ ". " ++ fullFitName its ++ ".", "Running " ++ run.full.name,
        run.full.name ++ " report: " ++ env.strReport run.full, "Best fit: " ++ env.strBestFit run.result])

/-- The messages about the residual fit. -/
def NucleonRecord.residualMessages (run : NucleonRecord) (env : Env) : List String :=
  ["Initializing Task#" ++ toString (run.reports.length + 1) ++ ". Residuals.", "Running " ++ run.residual.name,
    run.residual.name ++ " report: " ++ env.strReport run.residual]

/-- The run is documented in the directory `dir`: a file for each report, the one of the residual fit included, and one that holds what was there
before, the messages up to the best fit in order, and, beside their texts and line ends, only a line break per round: so not the messages about
the residual fit. The result is the best of the reports without that of the residual fit. -/
structure NucleonRecord.Left (run : NucleonRecord) (env : Env) (name dir before : String) (its : Iterations) (fs : FS) : Prop where
  made : fs.dirs dir = true
  starts : run.starts.length = its.free_params_numbers.length
  names : (run.reports ++ [run.full, run.residual]).map (·.name) = nucleonTaskNames its
  outcomes : List.Forall₂ (fun (r : Report) x => r.Says env x) (run.reports ++ [run.full]) run.chis
  residual : run.residual.Says env run.residualChi
  best : BestByText env name (run.reports ++ [run.full]) run.chis run.result
  files : ∀ (k : ℕ) r, (run.reports ++ [run.full, run.residual])[k]? = some r → fs.files (dir ++ "/report_" ++ toString k ++ ".txt") = some (env.strReport r)
  log : ∃ rest, fs.files (dir ++ "/report.txt") = some (before ++ "Report " ++ name ++ ":\n" ++ rest) ∧ ContainsInOrder (run.messages env its) rest ∧
    rest.length = ((run.messages env its).map fun m => m.length + 1).sum + its.free_params_numbers.length

/-- After the runs number 0, 1, ... in the directories `base/stem0`, `base/stem1`, ...: every run is documented in its own directory, no other
file has changed and no other directory has been made; `best` is the best and `printed` are the `few` best results. -/
structure NucleonRunsLeft (env : Env) (base stem : String) (its : Iterations) (few : ℕ) (runs : List NucleonRecord) (best : BestFit)
    (printed : List BestFit) (fs fs' : FS) : Prop where
  left : ∀ (i : ℕ) run, runs[i]? = some run → run.Left env (stem ++ toString i) (base ++ "/" ++ stem ++ toString i)
    ((fs.files (base ++ "/" ++ stem ++ toString i ++ "/report.txt")).getD "") its fs'
  best : FirstBest (runs.map (·.result)) best
  few : FewBest (runs.map (·.result)) few printed
  files : ∀ q, ¬ InsideRuns base stem runs.length q → fs'.files q = fs.files q
  dirs : ∀ q, fs'.dirs q = true ↔ (∃ i < runs.length, q = base ++ "/" ++ stem ++ toString i) ∨ fs.dirs q = true

/-- `p` is what a run of the nucleon script can start with: the literals of the script, the resonances fixed, the rest perturbed by these draws. -/
def NucleonStartsWith (random : ℕ → ℝ) (pion_mass proton_mass proton_magnetic_moment neutron_magnetic_moment : ℝ) (p : ModelParameters ℝ) : Prop :=
  ∃ p₀ p₁, fitNucleonCSIterative.makeInitialParameters
      (nucleonScriptConstants pion_mass proton_mass proton_magnetic_moment neutron_magnetic_moment) = .ok p₀ ∧
    p₀.fixResonances = (.ok (), p₁) ∧
    perturbModelParameters p₁ fitNucleonCSIterative.perturbation_size (some fitNucleonCSIterative.perturbation_size_resonances)
      fitNucleonCSIterative.use_handpicked_bounds random = (.ok (), p)

/-- The rounds of the nucleon script. -/
def nucleonRounds : Iterations :=
  ⟨freeParamsNumbers fitNucleonCSIterative.nr_free_params fitNucleonCSIterative.nr_iterations,
    fitNucleonCSIterative.nr_initial_rounds_with_fixed_resonances⟩

/-- All that is printed by the runs and after each of them. -/
def nucleonRunsPrinted (env : Env) (stem : String) (its : Iterations) (runs : List NucleonRecord) : List String :=
  runs.zipIdx.flatMap fun q => (q.1.messages env its ++ q.1.residualMessages env).map (printedLine (stem ++ toString q.2)) ++ [env.strBestFit q.1.result]

end UA
