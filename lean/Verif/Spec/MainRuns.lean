import Verif.Model.Shipped
import Verif.Spec.Pipelines
import Verif.Spec.Rounds

/-!
# What the scripts with several runs leave behind
-/

namespace UA

/-- The first of the results with the smallest chi squared (as a text), or nothing when no result has one. -/
def FirstBest (results : List BestFit) (best : BestFit) : Prop :=
  ((∀ r ∈ results, r.chi_squared = none) ∧ best = .nothing) ∨
    ∃ before after c, results = before ++ best :: after ∧ best.chi_squared = some c ∧
      (∀ r ∈ before, ∀ c', r.chi_squared = some c' → c < c') ∧ (∀ r ∈ after, ∀ c', r.chi_squared = some c' → c ≤ c')

/-- The first `n` (or all, if fewer) of the results with a chi squared, in the order of its text, equal texts in the given order. -/
def FewBest (results : List BestFit) (n : ℕ) (printed : List BestFit) : Prop :=
  printed.length = min n (results.filter (·.chi_squared.isSome)).length ∧
  ∃ rest, (printed ++ rest).Perm (results.filter (·.chi_squared.isSome)) ∧
    (printed ++ rest).Pairwise (fun a b => ∃ x y, a.chi_squared = some x ∧ b.chi_squared = some y ∧ x ≤ y) ∧
    ∀ c, (printed ++ rest).filter (fun r => r.chi_squared = some c) = results.filter (fun r => r.chi_squared = some c)

/-- One run of an iterative pipeline: the parameters it starts with, what is printed about the free parameters of the rounds, the reports, the
chi squared behind each report, and the result. -/
structure IterativeRun where
  initial : List (Parameter ℝ)
  starts : List String
  reports : List Report
  last : Report
  chis : List (Option PyFloat)
  result : BestFit

/-- The messages of the run. -/
def IterativeRun.messages (run : IterativeRun) (env : Env) : List String :=
  ("Starting. Initial parameters: " ++ env.strParameters run.initial) ::
    (taskMessages env ". Free parameters: " 0 (run.starts.zip run.reports) ++
      ["Initializing Task#" ++ toString run.reports.length ++ ". Full fit.", "Running " ++ run.last.name,
        run.last.name ++ " report: " ++ env.strReport run.last, "Best fit: " ++ env.strBestFit run.result])

/-- The run is documented in the directory `dir`: a file for each report and one with all messages, which begins with `before`. The result is
the best of the reports. -/
structure IterativeRun.Left (run : IterativeRun) (env : Env) (name dir before : String) (kind : PipelineKind) (rounds : List ℤ) (fs : FS) : Prop where
  made : fs.dirs dir = true
  starts : run.starts.length = rounds.length
  names : (run.reports ++ [run.last]).map (·.name) = numberedNames (iterativeClassNames kind rounds)
  outcomes : List.Forall₂ (fun (r : Report) x => r.Says env x) (run.reports ++ [run.last]) run.chis
  best : BestByText env name (run.reports ++ [run.last]) run.chis run.result
  files : ∀ (k : ℕ) r, (run.reports ++ [run.last])[k]? = some r → fs.files (dir ++ "/report_" ++ toString k ++ ".txt") = some (env.strReport r)
  log : ∃ rest, fs.files (dir ++ "/report.txt") = some (before ++ "Report " ++ name ++ ":\n" ++ rest) ∧ ContainsInOrder (run.messages env) rest

/-- The text after `Best fit:`. -/
def bestText (env : Env) (best : BestFit) : String :=
  if best.chi_squared = none then "{'chi_squared': None, 'name': None, 'parameters': None}" else env.strBestFit best

/-- The path `q` is inside one of the directories `base/stem0`, ..., `base/stem(n-1)`. -/
def InsideRuns (base stem : String) (n : ℕ) (q : String) : Prop := ∃ i < n, (base ++ "/" ++ stem ++ toString i ++ "/").toList <+: q.toList

/-- After the runs number 0, 1, ... in the directories `base/stem0`, `base/stem1`, ...: every run is documented in its own directory, no other
file has changed and no other directory has been made; `best` is the best and `printed` are the `few` best results. -/
structure RunsLeft (env : Env) (base stem : String) (kind : PipelineKind) (rounds : List ℤ) (few : ℕ) (runs : List IterativeRun) (best : BestFit)
    (printed : List BestFit) (fs fs' : FS) : Prop where
  left : ∀ (i : ℕ) run, runs[i]? = some run → run.Left env (stem ++ toString i) (base ++ "/" ++ stem ++ toString i)
    ((fs.files (base ++ "/" ++ stem ++ toString i ++ "/report.txt")).getD "") kind rounds fs'
  best : FirstBest (runs.map (·.result)) best
  few : FewBest (runs.map (·.result)) few printed
  files : ∀ q, ¬ InsideRuns base stem runs.length q → fs'.files q = fs.files q
  dirs : ∀ q, fs'.dirs q = true ↔ (∃ i < runs.length, q = base ++ "/" ++ stem ++ toString i) ∨ fs.dirs q = true

/-- `p` is what a run of the script can start with: the literals of the script, perturbed by these draws. -/
def FitScript.StartsWith (script : FitScript) (random : ℕ → ℝ) (pion_mass : ℝ) (p : ModelParameters ℝ) : Prop :=
  ∃ p₀, script.makeInitialParameters [("t_0_isoscalar", (3 * pion_mass) ^ 2), ("t_0_isovector", (2 * pion_mass) ^ 2)] = .ok p₀ ∧
    perturbModelParameters p₀ script.perturbation_size (some script.perturbation_size_resonances) script.use_handpicked_bounds random = (.ok (), p)

/-- What the script fits. -/
def FitScript.fitted (script : FitScript) (constants : Constants) : PartialKind :=
  if script.kind = .kaonCS then .crossSection constants.mass constants.alpha constants.hc_squared else .formFactor

/-- The points of the charged and of the neutral kaon. -/
def kaonPoints (charged neutral : List (ℝ × ℝ × ℝ)) : List (Datapoint × ℝ × ℝ) :=
  charged.map (fun q => (.kaon (q.1 : ℝ) true, q.2)) ++ neutral.map (fun q => (.kaon (q.1 : ℝ) false, q.2))

/-- All that is printed by the runs; `echo` is printed after each of them. -/
def runsPrinted (env : Env) (stem : String) (echo : BestFit → List String) (runs : List IterativeRun) : List String :=
  runs.zipIdx.flatMap fun q => (q.1.messages env).map (printedLine (stem ++ toString q.2)) ++ echo q.1.result

/-- What is printed at the end. -/
def endPrinted (env : Env) (best : BestFit) (printed : List BestFit) : List String :=
  ("Best fit:  " ++ bestText env best) :: printed.map env.strBestFit

end UA
