import Verif.Model.Pipelines
import Verif.Spec.Tasks
import Mathlib.Data.String.Basic

/-!
# Vocabulary for the pipeline properties
-/

namespace UA

/-- `random.sample` returns `k` distinct positions of its list, in some order. -/
def Env.Samples (env : Env) : Prop :=
  ∀ i names k, k ≤ names.length → ∃ s : List String, s.Sublist names ∧ s.length = k ∧ (env.sample i names k).Perm s

/-- The names among which the iterative pipelines choose: not always fixed, and no mass or width when resonances are to be fixed. -/
def ModelParameters.freezable (p : ModelParameters ℝ) (fix_resonances : Bool) : List String :=
  p.names.filter fun n => decide (¬ DeclaredFixed p.cls n ∧ ¬ (fix_resonances = true ∧ IsResonanceName n))

/-- The lines `ms` occur in the text in this order, without overlap. -/
def ContainsInOrder : List String → String → Prop
  | [], _ => True
  | m :: ms, text => ∃ before after, text = before ++ (m ++ "\n") ++ after ∧ ContainsInOrder ms after

/-- What is printed for a message of the pipeline with this name. -/
def printedLine (pipeline msg : String) : String := "Pipeline " ++ pipeline ++ ": " ++ msg ++ "\n"

/-- The file with all messages. -/
def Pipeline.reportFile (self : Pipeline) : String := pathJoin self.reports_dir "report.txt"

/-- The file with the report of task number `i`. -/
def Pipeline.taskFile (self : Pipeline) (i : ℕ) : String := pathJoin self.reports_dir ("report_" ++ toString i ++ ".txt")

/-- What a report says about the fit: nothing but its failure, or the chi squared `x`. -/
def Report.Says (r : Report) (env : Env) : Option PyFloat → Prop
  | none => r.status = "failed" ∧ r.chi_squared = none
  | some x => r.status = "finished" ∧ r.chi_squared = some (env.strFloat x)

/-- The dictionary of a best fit made from a report. -/
def Report.asBestFit (r : Report) (pipeline : String) : BestFit where
  chi_squared := r.chi_squared
  name := some (pipeline ++ ":" ++ r.name)
  parameters := r.final_parameters
  parameters_list := some r.parameter_list
  covariance_matrix := r.covariance_matrix
  parameter_errors := r.parameter_errors

/-- The dictionary when nothing has been fitted. -/
def BestFit.nothing : BestFit := ⟨none, none, none, none, none, none⟩

/-- The number with the decimal digits `ip` before and `fp` after the point. -/
noncomputable def decimalValue : List ℕ → List ℕ → ℝ
  | [], [] => 0
  | [], d :: fp => (d + decimalValue [] fp) / 10
  | d :: ip, fp => d * 10 ^ ip.length + decimalValue ip fp

/-- The text of this number. -/
def decimalText (ip fp : List ℕ) : String := String.ofList (ip.map Nat.digitChar ++ '.' :: fp.map Nat.digitChar)

/-- The three messages of each task, numbered from `i`, given what is logged about its start and its report. -/
def taskMessages (env : Env) (what : String) : ℕ → List (String × Report) → List String
  | _, [] => []
  | i, (init, r) :: rest => ("Initializing Task#" ++ toString i ++ what ++ init) :: ("Running " ++ r.name) ::
      (r.name ++ " report: " ++ env.strReport r) :: taskMessages env what (i + 1) rest

/-- The names of the tasks of a pipeline: `Task#0:...`, `Task#1:...` and so on. -/
def numberedNames (classes : List String) : List String := classes.zipIdx.map fun q => "Task#" ++ toString q.2 ++ ":" ++ q.1

/-- The names of the task classes, as declared in the modules of `task`. -/
def TaskClass.className : TaskClass → String
  | .kaonCSFull => "TaskFullFit"
  | .kaonCSFixedCouplings => "TaskFixedCouplingConstants"
  | .kaonCSFixAccording => "TaskFixAccordingToParametersFit"
  | .kaonFFFull => "TaskFullFit"
  | .kaonFFFullOnlyCharged => "TaskFullFitOnlyCharged"
  | .kaonFFFixAccording => "TaskFixAccordingToParametersFit"
  | .kaonFFFixAccordingOnlyCharged => "TaskFixAccordingToParametersFitOnlyCharged"
  | .nucleonCSFull => "TaskFullFit"
  | .nucleonCSFixedCouplings => "TaskFixedCouplingConstants"
  | .nucleonCSFixAccording => "TaskFixAccordingToParametersFit"
  | .nucleonFFFull => "TaskFullFit"
  | .nucleonFFFixAccording => "TaskFixAccordingToParametersFit"
  | .etgmr => "ETGMRModelTask"
  | .twoPoles => "TwoPolesModelTask"
  | .residual => "ResidualOscillationsTask"

/-- The class of the last task of the iterative pipelines other than the one for nucleon cross sections. -/
def lastClassName (kind : PipelineKind) : String := if kind = .kaonFF then "TaskFullFitOnlyCharged" else "TaskFullFit"

/-- The classes of the tasks of such a pipeline: one fit of the chosen parameters for each round, and the last one. -/
def iterativeClassNames (kind : PipelineKind) (rounds : List ℤ) : List String :=
  rounds.map (fun _ => "TaskFixAccordingToParametersFit") ++ [lastClassName kind]

/-- What the full fit of the iterative nucleon cross section pipeline is called: the resonances stay fixed when there are fewer rounds
than the number of rounds with fixed resonances. -/
def fullFitName (its : Iterations) : String :=
  if decide ((its.free_params_numbers.length : ℤ) < its.nr_initial_rounds_with_fixed_resonances) then "Full fit (Fixed resonances)" else "Full fit"

/-- The names of the tasks of the iterative nucleon cross section pipeline. -/
def nucleonTaskNames (its : Iterations) : List String :=
  numberedNames (its.free_params_numbers.map (fun _ => "TaskFixAccordingToParametersFit") ++ [fullFitName its, "ResidualOscillationsTask"])

/-- The reports of the tasks with these names: each is in its file, and says that the fit failed or what its chi squared is. -/
structure Pipeline.Reported (pipeline : Pipeline) (env : Env) (w : World) (names : List String) (reports : List Report) (chis : List (Option PyFloat)) :
    Prop where
  names : reports.map (·.name) = names
  files : ∀ k r, reports[k]? = some r → w.fs.files (pipeline.taskFile k) = some (env.strReport r)
  outcomes : List.Forall₂ (fun (r : Report) x => r.Says env x) reports chis

/-- No task has a chi squared and there is no best fit, or the best fit is the one of a task whose chi squared is the smallest. -/
def BestByValue (pipeline : String) (reports : List Report) (chis : List (Option PyFloat)) (best : BestFit) : Prop :=
  ((∀ x ∈ chis, x = none) ∧ best = .nothing) ∨
    ∃ (k : ℕ) (r : Report) (x : PyFloat), reports[k]? = some r ∧ chis[k]? = some (some x) ∧ best = r.asBestFit pipeline ∧ ∀ y, some y ∈ chis → ¬ y < x

/-- The same with the order of the texts, character by character, in place of the order of the values. -/
def BestByText (env : Env) (pipeline : String) (reports : List Report) (chis : List (Option PyFloat)) (best : BestFit) : Prop :=
  ((∀ x ∈ chis, x = none) ∧ best = .nothing) ∨
    ∃ (k : ℕ) (r : Report) (x : PyFloat), reports[k]? = some r ∧ chis[k]? = some (some x) ∧ best = r.asBestFit pipeline ∧
      ∀ y, some y ∈ chis → env.strFloat x ≤ env.strFloat y

end UA
