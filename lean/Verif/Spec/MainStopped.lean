import Verif.Spec.MainNucleon
import Verif.Spec.Interrupted

/-!
# What the scripts with several runs leave behind when calls raise
-/

namespace UA

/-- A run that did not end: the parameters it starts with, what is printed about the free parameters of the rounds, the reports so far, the chi
squared behind them, the messages in the file (in blocks), and those after them. -/
structure StoppedRun where
  start : ModelParameters ℝ
  starts : List String
  reports : List Report
  chis : List (Option PyFloat)
  blocks : List (List String)
  more : List String

/-- How far the run has been documented in the directory `dir`: a file for each of the reports so far, and, if there are any, one with exactly
the blocks of messages. The directory is new, and the other files there are as before. -/
structure StoppedRun.Left (run : StoppedRun) (env : Env) (name dir : String) (names : List String) (fs fs' : FS) : Prop where
  new : fs.exists dir = false
  made : fs'.dirs dir = true
  fewer : run.reports.length < names.length
  names : run.reports.map (·.name) = names.take run.reports.length
  outcomes : List.Forall₂ (fun (r : Report) x => r.Says env x) run.reports run.chis
  files : ∀ (k : ℕ) r, run.reports[k]? = some r → fs'.files (dir ++ "/report_" ++ toString k ++ ".txt") = some (env.strReport r)
  log : fs'.files (dir ++ "/report.txt") = if run.blocks = [] then fs.files (dir ++ "/report.txt")
    else some ((fs.files (dir ++ "/report.txt")).getD "" ++ "Report " ++ name ++ ":\n" ++ blocksText run.blocks)
  others : ∀ q : String, (dir ++ "/").toList <+: q.toList → q ≠ dir ++ "/report.txt" →
    (∀ k < run.reports.length, q ≠ dir ++ "/report_" ++ toString k ++ ".txt") → fs'.files q = fs.files q

/-- The messages of an iterative run that did not end. In the file are those of the tasks that ended; at most two messages of the next task have
been printed. -/
def StoppedRun.Iterative (run : StoppedRun) (env : Env) (kind : PipelineKind) (rounds : List ℤ) : Prop :=
  run.starts.length = run.reports.length ∧
  run.blocks = headed (startMessage env run.start) (taskBlocks env ". Free parameters: " 0 (run.starts.zip run.reports)) ∧
  ∃ init begun, run.blocks.flatten ++ run.more =
      startMessage env run.start :: (taskMessages env ". Free parameters: " 0 (run.starts.zip run.reports) ++ begun) ∧
    Began (numberedNames (iterativeClassNames kind rounds)) run.reports.length
      ("Initializing Task#" ++ toString run.reports.length ++
        if run.reports.length < rounds.length then ". Free parameters: " ++ init else ". Full fit.") begun

/-- The same for the nucleon cross sections. When the residual fit did not end, the best fit is in the file. -/
def StoppedRun.Nucleon (run : StoppedRun) (env : Env) (name : String) (its : Iterations) : Prop :=
  run.starts.length = min run.reports.length its.free_params_numbers.length ∧
  ∃ init begun best,
    run.blocks = headed (startMessage env run.start) (taskBlocks env ". Free parameters: " 0 (run.starts.zip run.reports) ++
      (run.reports.drop its.free_params_numbers.length).map fun r =>
        ["Initializing Task#" ++ toString its.free_params_numbers.length ++ ". " ++ fullFitName its ++ ".", "Running " ++ r.name,
          r.name ++ " report: " ++ env.strReport r, "Best fit: " ++ env.strBestFit best]) ∧
    (if run.blocks = [] then run.more = startMessage env run.start :: begun else run.more = begun) ∧
    BestByText env name run.reports run.chis best ∧
    Began (nucleonTaskNames its) run.reports.length
      ("Initializing Task#" ++ toString run.reports.length ++
        if run.reports.length < its.free_params_numbers.length then ". Free parameters: " ++ init
        else if run.reports.length = its.free_params_numbers.length then ". " ++ fullFitName its ++ "." else ". Residuals.") begun

/-- How a call ends: with a complete run; with an exception during the run; with an exception before it. -/
inductive Outcome (R : Type) where
  | complete (run : R)
  | stopped (e : PyErr) (run : StoppedRun)
  | refused (e : PyErr)

/-- The exception. -/
def Outcome.error {R : Type} : Outcome R → Option PyErr
  | .complete _ => none
  | .stopped e _ => some e
  | .refused e => some e

/-- The run began. -/
def Outcome.Made {R : Type} : Outcome R → Prop
  | .complete _ => True
  | .stopped _ _ => True
  | .refused _ => False

/-- What the call prints, given the messages of a complete run. -/
def Outcome.messages {R : Type} (messages : R → List String) : Outcome R → List String
  | .complete run => messages run
  | .stopped _ run => run.blocks.flatten ++ run.more
  | .refused _ => []

/-- The lines printed after a complete run. -/
def Outcome.echo {R : Type} (echo : R → List String) : Outcome R → List String
  | .complete run => echo run
  | _ => []

/-- What call number `i` leaves in its directory `base/stem`i: `complete` says how a complete run is documented and `names` are the names of its tasks.
A call that is refused changes nothing there; then the directory existed, or the exception is one of `otherwise`. -/
def Outcome.Left {R : Type} (complete : (name dir before : String) → R → FS → Prop) (names : List String) (otherwise : ℕ → PyErr → Prop) (env : Env)
    (base stem : String) (fs fs' : FS) (i : ℕ) : Outcome R → Prop
  | .complete run => complete (stem ++ toString i) (base ++ "/" ++ stem ++ toString i)
      ((fs.files (base ++ "/" ++ stem ++ toString i ++ "/report.txt")).getD "") run fs'
  | .stopped _ run => run.Left env (stem ++ toString i) (base ++ "/" ++ stem ++ toString i) names fs fs'
  | .refused e => (∀ q : String, (base ++ "/" ++ stem ++ toString i ++ "/").toList <+: q.toList → fs'.files q = fs.files q) ∧
      (fs.exists (base ++ "/" ++ stem ++ toString i) = true ∧ e = .valueError ∨ otherwise i e)

/-- After calls number 0, 1, ...: each has left what its outcome says, no other file has changed and no other directory has been made. -/
structure OutcomesLeft {R : Type} (complete : (name dir before : String) → R → FS → Prop) (names : List String) (otherwise : ℕ → PyErr → Prop)
    (env : Env) (base stem : String) (outcomes : List (Outcome R)) (fs fs' : FS) : Prop where
  left : ∀ (i : ℕ) outcome, outcomes[i]? = some outcome → outcome.Left complete names otherwise env base stem fs fs' i
  files : ∀ q, ¬ InsideRuns base stem outcomes.length q → fs'.files q = fs.files q
  dirs : ∀ q, fs'.dirs q = true ↔
    (∃ (i : ℕ) (o : Outcome R), outcomes[i]? = some o ∧ o.Made ∧ q = base ++ "/" ++ stem ++ toString i) ∨ fs.dirs q = true

/-- All that is printed by the calls; `echo` is printed after a complete run. -/
def outcomesPrinted {R : Type} (messages echo : R → List String) (stem : String) (outcomes : List (Outcome R)) : List String :=
  outcomes.zipIdx.flatMap fun q => (q.1.messages messages).map (printedLine (stem ++ toString q.2)) ++ q.1.echo echo

/-- Why a call of a kaon script can be refused though the directory is not there: the start or the data raise, or the directory cannot be made. -/
def FitScript.Refuses (script : FitScript) (env : Env) (random : ℕ → ℕ → ℝ) (pion_mass : ℝ) (charged neutral : List (ℝ × ℝ × ℝ)) (base stem : String)
    (i : ℕ) (e : PyErr) : Prop :=
  (¬ ∃ p, script.StartsWith (random i) pion_mass p) ∨ charged ++ neutral = [] ∨
    env.mkdirFails (base ++ "/" ++ stem ++ toString i) = true ∧ e = .exception

/-- The same for the nucleon script. -/
def NucleonRefuses (env : Env) (random : ℕ → ℕ → ℝ) (pion_mass proton_mass proton_magnetic_moment neutron_magnetic_moment : ℝ) (data : List (ℝ × ℝ × ℝ))
    (base stem : String) (i : ℕ) (e : PyErr) : Prop :=
  (¬ ∃ p, NucleonStartsWith (random i) pion_mass proton_mass proton_magnetic_moment neutron_magnetic_moment p) ∨ data = [] ∨
    env.mkdirFails (base ++ "/" ++ stem ++ toString i) = true ∧ e = .exception

end UA
