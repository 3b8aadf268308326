import Verif.Model.Tasks

/-!
# Pipelines

`/repo/pipeline`: sequences of tasks with reports on disk.
-/

namespace UA

open Complex

/-! ### Data preparation -/

/-- `tup[0].t` as a sort key. The lists given to the pipelines contain floats, so the points made from them have real `t`. -/
noncomputable def sortKey (q : Datapoint × ℝ × ℝ) : ℝ :=
  match q.1 with
  | .kaon t _ => t.re
  | .nucleon t _ _ => t.re
  | .row _ => 0

/-- `sorted(l, key=lambda tup: tup[0].t)`: Python's sort is stable, so is `List.mergeSort`. -/
noncomputable def sortByT (l : List (Datapoint × ℝ × ℝ)) : List (Datapoint × ℝ × ℝ) :=
  l.mergeSort fun a b => decide (sortKey a ≤ sortKey b)

/-- `_prepare_data` of the kaon pipelines, `pipeline/KaonCrossSectionPipeline.py:39-56` and
`pipeline/KaonFormFactorPipeline.py:35-52`; also `prepare_data`, `kaon_production/run_single_fit.py:12-25`,
`kaon_production/plot_fit.py:10-24` and `kaon_production/plot_single_component.py:39-53`. -/
noncomputable def prepareKaonData (ts_charged css_charged errors_charged ts_neutral css_neutral errors_neutral : List ℝ) :
    Except PyErr (List Datapoint × List ℝ × List ℝ) :=
  let ts := ts_charged.map fun t : ℝ => Datapoint.kaon (t : ℂ) true
  let ys := css_charged
  let errors := errors_charged
  let ts := ts ++ ts_neutral.map fun t : ℝ => Datapoint.kaon (t : ℂ) false
  let ys := ys ++ css_neutral
  let errors := errors ++ errors_neutral
  unzip3 (sortByT (zip3 ts ys errors))

/-- `_prepare_data` of the nucleon pipelines, `pipeline/NucleonCrossSectionPipeline.py:47-72` and
`pipeline/NucleonFormFactorPipeline.py:42-67`. -/
noncomputable def prepareNucleonData (ts_proton_electric ys_proton_electric errors_proton_electric ts_proton_magnetic ys_proton_magnetic
    errors_proton_magnetic ts_neutron_electric ys_neutron_electric errors_neutron_electric ts_neutron_magnetic ys_neutron_magnetic
    errors_neutron_magnetic : List ℝ) : Except PyErr (List Datapoint × List ℝ × List ℝ) :=
  let ts := ts_proton_electric.map fun t : ℝ => Datapoint.nucleon (t : ℂ) true true
  let ys := ys_proton_electric
  let errors := errors_proton_electric
  let ts := ts ++ ts_proton_magnetic.map fun t : ℝ => Datapoint.nucleon (t : ℂ) true false
  let ys := ys ++ ys_proton_magnetic
  let errors := errors ++ errors_proton_magnetic
  let ts := ts ++ ts_neutron_electric.map fun t : ℝ => Datapoint.nucleon (t : ℂ) false true
  let ys := ys ++ ys_neutron_electric
  let errors := errors ++ errors_neutron_electric
  let ts := ts ++ ts_neutron_magnetic.map fun t : ℝ => Datapoint.nucleon (t : ℂ) false false
  let ys := ys ++ ys_neutron_magnetic
  let errors := errors ++ errors_neutron_magnetic
  unzip3 (sortByT (zip3 ts ys errors))

/-! ### The pipeline object -/

/-- Which pipeline. -/
inductive PipelineKind
  | kaonCS
  | kaonFF
  | nucleonCS
  | nucleonFF
  deriving DecidableEq

/-- The attributes of a pipeline, `pipeline/Pipeline.py:19-31`; `constants` are those of the cross section pipelines
(`pipeline/KaonCrossSectionPipeline.py:26-28`). -/
structure Pipeline where
  kind : PipelineKind
  name : String
  parameters : ℕ
  tasks : List TaskClass
  ts : List Datapoint
  ys : List ℝ
  errors : List ℝ
  reports_dir : String
  plot : Bool
  use_handpicked_bounds : Bool
  constants : Constants
  report : String
  best_fit : BestFit

/-- `_set_up_reports_directory`, `pipeline/Pipeline.py:57-60`. -/
def setUpReportsDirectory (env : Env) (reports_dir : String) : PyM World Unit := do
  let there ← PyM.get fun w : World => w.fs.exists reports_dir
  if there then PyM.raise .valueError else env.mkdir reports_dir

/-- The constructor, `pipeline/Pipeline.py:13-31`, on prepared data. -/
def Pipeline.init (env : Env) (kind : PipelineKind) (name : String) (parameters : ℕ) (tasks : List TaskClass) (ts : List Datapoint)
    (ys errors : List ℝ) (reports_dir : String) (plot use_handpicked_bounds : Bool) (constants : Constants) : PyM World Pipeline := do
  let reports_dir := pathJoin reports_dir name
  setUpReportsDirectory env reports_dir
  return {
    kind := kind
    name := name
    parameters := parameters
    tasks := tasks
    ts := ts
    ys := ys
    errors := errors
    reports_dir := reports_dir
    plot := plot
    use_handpicked_bounds := use_handpicked_bounds
    constants := constants
    report := "Report " ++ name ++ ":\n"
    best_fit := ⟨none, none, none, none, none, none⟩ }

/-- `_log`, `pipeline/Pipeline.py:53-55`. -/
def Pipeline.log (self : Pipeline) (msg : String) : PyM World Pipeline := do
  pyPrint ("Pipeline " ++ self.name ++ ": " ++ msg ++ "\n")
  return { self with report := self.report ++ (msg ++ "\n") }

/-- `_flush_report`, `pipeline/Pipeline.py:62-66`. -/
def Pipeline.flushReport (self : Pipeline) : PyM World Pipeline := do
  appendFile (pathJoin self.reports_dir "report.txt") self.report
  return { self with report := "\n" }

/-- `_save_report`, `pipeline/Pipeline.py:68-72`. -/
def Pipeline.saveReport (self : Pipeline) (env : Env) (name : String) (report : Report) : PyM World Unit :=
  writeFile (pathJoin self.reports_dir ("report_" ++ name ++ ".txt")) (env.strReport report)

/-- `not best_so_far or current < best_so_far`, `pipeline/Pipeline.py:79`. Strings are compared character by character. -/
def improves (current : String) (best_so_far : Option String) : Bool :=
  match best_so_far with
  | none => true
  | some best => best == "" || decide (current < best)

/-- `_update_best_fit`, `pipeline/Pipeline.py:74-87`. -/
def Pipeline.updateBestFit (self : Pipeline) (task : Task) : PyM World Pipeline := do
  match task.report.chi_squared with
  | none => return self
  | some current =>
    if current = "" then return self
    else if improves current self.best_fit.chi_squared then
      let p ← readParams task.parameters
      let parameters_list ← PyM.lift p.getOrderedValues
      return { self with best_fit := {
        chi_squared := some current
        name := some (self.name ++ ":" ++ task.name)
        parameters := some p.toList
        parameters_list := some parameters_list
        covariance_matrix := task.report.covariance_matrix
        parameter_errors := task.report.parameter_errors } }
    else return self

/-- The task classes whose constructor takes the constants. -/
def TaskClass.takesConstants : TaskClass → Bool
  | .kaonCSFull | .kaonCSFixedCouplings | .kaonCSFixAccording => true
  | .nucleonCSFull | .nucleonCSFixedCouplings | .nucleonCSFixAccording => true
  | .etgmr | .residual => true
  | _ => false

/-- The pipelines that pass them. -/
def PipelineKind.passesConstants : PipelineKind → Bool
  | .kaonCS | .nucleonCS => true
  | _ => false

/-- `task_class(task_name, self.parameters, ...)` as written in the pipelines. -/
def Pipeline.newTask (self : Pipeline) (task_name : String) (task_class : TaskClass) : PyM World Task :=
  Task.init task_class task_name self.parameters self.ts self.ys self.errors self.constants (some self.reports_dir) self.plot
    self.use_handpicked_bounds

/-- `_create_task`, `pipeline/KaonCrossSectionPipeline.py:30-36`, `pipeline/KaonFormFactorPipeline.py:27-32`,
`pipeline/NucleonCrossSectionPipeline.py:38-44`, `pipeline/NucleonFormFactorPipeline.py:34-39`. A task class for the other kind of
data takes other arguments: `TypeError` in a cross section pipeline. A form factor pipeline gives the reports directory and the two
flags by position, so that they land in `product_particle_mass`, `alpha` and `hc_squared`, and the last three arguments keep their
defaults. For `ETGMRModelTask` and `ResidualOscillationsTask` on the parameters of `ETGMRModel` and `TwoPolesModel` nothing is ever
computed with the constants (the evaluation fails before), so they are 0 here. (Any other cross section task would fail when run;
here it fails at once.) -/
noncomputable def Pipeline.createTask (self : Pipeline) (task_name : String) (task_class : TaskClass) : PyM World Task :=
  if task_class.takesConstants = self.kind.passesConstants then self.newTask task_name task_class
  else if task_class = .etgmr ∨ task_class = .residual then do
    let p ← readParams self.parameters
    if p.cls = .etgmr ∨ p.cls = .twoPoles then
      Task.init task_class task_name self.parameters self.ts self.ys self.errors ⟨0, 0, 0⟩ none true true
    else PyM.raise .typeError
  else PyM.raise .typeError

/-! ### `Pipeline.run` -/

/-- The loop at `pipeline/Pipeline.py:35-48`, from task number `i` on. -/
noncomputable def Pipeline.runTasks (env : Env) : ℕ → List TaskClass → Pipeline → PyM World Pipeline
  | _, [], self => pure self
  | i, task_class :: rest, self => do
    let p ← readParams self.parameters
    let self ← self.log ("Initializing Task#" ++ toString i ++ ". Parameters: " ++ env.strParameters p.toList)
    let task_name := "Task#" ++ toString i ++ ":" ++ task_class.pyName
    let task ← self.createTask task_name task_class
    let self ← self.log ("Running " ++ task_name)
    let task ← task.run env
    let self ← self.log (task_name ++ " report: " ++ env.strReport task.report)
    let self ← self.updateBestFit task
    let self := { self with parameters := task.parameters }
    mutateParams self.parameters fun p => (.ok (), p.releaseAllParameters)
    let self ← self.flushReport
    self.saveReport env (toString i) task.report
    Pipeline.runTasks env (i + 1) rest self

/-- `run`, `pipeline/Pipeline.py:33-51`. The result is the pipeline itself; Python returns its `_best_fit`. -/
noncomputable def Pipeline.run (self : Pipeline) (env : Env) : PyM World Pipeline := do
  let p ← readParams self.parameters
  let self ← self.log ("Starting. Initial parameters: " ++ env.strParameters p.toList)
  let self ← Pipeline.runTasks env 0 self.tasks self
  let self ← self.log ("Best fit: " ++ env.strBestFit self.best_fit)
  self.flushReport

/-! ### Iterative pipelines -/

/-- `free_params_numbers`, `pipeline/KaonCrossSectionIterativePipeline.py:26-28` and the same in the others. -/
def freeParamsNumbers (nr_free_params nr_iterations : List ℤ) : List ℤ :=
  (nr_free_params.zip nr_iterations).flatMap fun q => List.replicate q.2.toNat q.1

/-- `_randomly_freeze_parameters`, `pipeline/KaonCrossSectionIterativePipeline.py:74-82`,
`pipeline/KaonFormFactorIterativePipeline.py:71-79`, `pipeline/NucleonFormFactorIterativePipeline.py:78-86` and, with `capped` true
(line 110), `pipeline/NucleonCrossSectionIterativePipeline.py:105-114`. -/
def randomlyFreezeParameters (env : Env) (capped : Bool) (ref : ℕ) (number_of_free_parameters : ℤ) (fix_resonances : Bool) :
    PyM World (List String) := do
  mutateParams ref fun p => (.ok (), p.releaseAllParameters)
  if fix_resonances then mutateParams ref fun p => p.fixResonances
  let p ← readParams ref
  let names := (p.toList.filter (!·.is_fixed)).map (·.name)
  let number_of_free_parameters := if capped then min (names.length : ℤ) number_of_free_parameters else number_of_free_parameters
  let chosen_names ← env.randomSample names number_of_free_parameters
  mutateParams ref fun p => (.ok (), p.fixAllParameters)
  mutateParams ref fun p => p.releaseParameters chosen_names
  return chosen_names

/-- What the iterative pipelines add to the pipeline object, `pipeline/KaonCrossSectionIterativePipeline.py:26-29`. -/
structure Iterations where
  free_params_numbers : List ℤ
  nr_initial_rounds_with_fixed_resonances : ℤ

/-- Is the number of free parameters limited to the available ones (`pipeline/NucleonCrossSectionIterativePipeline.py:110`)? -/
def PipelineKind.capped : PipelineKind → Bool
  | .nucleonCS => true
  | _ => false

/-- `TaskFixAccordingToParametersFit` of the pipeline. -/
def PipelineKind.fixAccording : PipelineKind → TaskClass
  | .kaonCS => .kaonCSFixAccording
  | .kaonFF => .kaonFFFixAccording
  | .nucleonCS => .nucleonCSFixAccording
  | .nucleonFF => .nucleonFFFixAccording

/-- The final full fit: `TaskFullFit`, or `TaskFullFitOnlyCharged` (`pipeline/KaonFormFactorIterativePipeline.py:54`). -/
def PipelineKind.fullFit : PipelineKind → TaskClass
  | .kaonCS => .kaonCSFull
  | .kaonFF => .kaonFFFullOnlyCharged
  | .nucleonCS => .nucleonCSFixAccording
  | .nucleonFF => .nucleonFFFull

/-- Making and running one task, lines 45-50 of `pipeline/KaonCrossSectionIterativePipeline.py` and the same elsewhere: the log
entries, the run, the update of the best fit and of the parameters. -/
noncomputable def Pipeline.iterativeTask (self : Pipeline) (env : Env) (task_name : String) (task_class : TaskClass) :
    PyM World (Task × Pipeline) := do
  let task ← self.newTask task_name task_class
  let self ← self.log ("Running " ++ task_name)
  let task ← task.run env
  let self ← self.log (task_name ++ " report: " ++ env.strReport task.report)
  let self ← self.updateBestFit task
  let self := { self with parameters := task.parameters }
  return (task, self)

/-- The loop of the iterative pipelines, e.g. `pipeline/KaonCrossSectionIterativePipeline.py:33-52`, from round `i` on. -/
noncomputable def Pipeline.runRounds (env : Env) (nr_initial : ℤ) : ℕ → List ℤ → Pipeline → PyM World Pipeline
  | _, [], self => pure self
  | i, fp_num :: rest, self => do
    let fix_resonances := decide ((i : ℤ) < nr_initial)
    let free_params ← randomlyFreezeParameters env self.kind.capped self.parameters fp_num fix_resonances
    let self ← self.log ("Initializing Task#" ++ toString i ++ ". Free parameters: " ++ env.strNames free_params)
    let task_name := "Task#" ++ toString i ++ ":" ++ self.kind.fixAccording.pyName
    let (task, self) ← self.iterativeTask env task_name self.kind.fixAccording
    let self ← self.flushReport
    self.saveReport env (toString i) task.report
    Pipeline.runRounds env nr_initial (i + 1) rest self

/-- `run` of `pipeline/KaonCrossSectionIterativePipeline.py:31-72`, `pipeline/KaonFormFactorIterativePipeline.py:30-69` and
`pipeline/NucleonFormFactorIterativePipeline.py:37-76`. -/
noncomputable def Pipeline.runIterative (self : Pipeline) (env : Env) (its : Iterations) : PyM World Pipeline := do
  let p ← readParams self.parameters
  let self ← self.log ("Starting. Initial parameters: " ++ env.strParameters p.toList)
  let self ← Pipeline.runRounds env its.nr_initial_rounds_with_fixed_resonances 0 its.free_params_numbers self
  let number := toString its.free_params_numbers.length
  let self ← self.log ("Initializing Task#" ++ number ++ ". Full fit.")
  let task_name := "Task#" ++ number ++ ":" ++ self.kind.fullFit.pyName
  let (task, self) ← self.iterativeTask env task_name self.kind.fullFit
  let self ← self.log ("Best fit: " ++ env.strBestFit self.best_fit)
  let self ← self.flushReport
  self.saveReport env number task.report
  return self

/-- `run` of `pipeline/NucleonCrossSectionIterativePipeline.py:40-103`. -/
noncomputable def Pipeline.runNucleonCSIterative (self : Pipeline) (env : Env) (its : Iterations) : PyM World Pipeline := do
  let p ← readParams self.parameters
  let self ← self.log ("Starting. Initial parameters: " ++ env.strParameters p.toList)
  let self ← Pipeline.runRounds env its.nr_initial_rounds_with_fixed_resonances 0 its.free_params_numbers self
  let number := toString its.free_params_numbers.length
  mutateParams self.parameters fun p => (.ok (), p.releaseAllParameters)
  let fixed := decide ((its.free_params_numbers.length : ℤ) < its.nr_initial_rounds_with_fixed_resonances)
  let name := if fixed then "Full fit (Fixed resonances)" else "Full fit"
  if fixed then mutateParams self.parameters fun p => p.fixResonances
  let self ← self.log ("Initializing Task#" ++ number ++ ". " ++ name ++ ".")
  let task_name := "Task#" ++ number ++ ":" ++ name
  let (task, self) ← self.iterativeTask env task_name .nucleonCSFixAccording
  let self ← self.log ("Best fit: " ++ env.strBestFit self.best_fit)
  let self ← self.flushReport
  self.saveReport env number task.report
  let number := toString (its.free_params_numbers.length + 1)
  let self ← self.log ("Initializing Task#" ++ number ++ ". Residuals.")
  let task_name := "Task#" ++ number ++ ":" ++ TaskClass.residual.pyName
  let task ← self.newTask task_name .residual
  let self ← self.log ("Running " ++ task_name)
  let task ← task.run env
  let self ← self.log (task_name ++ " report: " ++ env.strReport task.report)
  self.saveReport env number task.report
  return self

end UA
