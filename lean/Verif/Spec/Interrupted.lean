import Verif.Spec.Pipelines

/-!
# Vocabulary for runs that end with an exception
-/

namespace UA

/-- These messages, one in a line. -/
def linesText : List String → String
  | [] => ""
  | m :: ms => m ++ "\n" ++ linesText ms

/-- These blocks of lines with an empty line between them. -/
def blocksText : List (List String) → String
  | [] => ""
  | [b] => linesText b
  | b :: b' :: bs => linesText b ++ "\n" ++ blocksText (b' :: bs)

/-- A heading for the first block. -/
def headed (m : String) : List (List String) → List (List String)
  | [] => []
  | b :: bs => (m :: b) :: bs

/-- The messages of the tasks numbered from `i`, three in a block. -/
def taskBlocks (env : Env) (what : String) : ℕ → List (String × Report) → List (List String)
  | _, [] => []
  | i, (init, r) :: rest => ["Initializing Task#" ++ toString i ++ what ++ init, "Running " ++ r.name, r.name ++ " report: " ++ env.strReport r] ::
      taskBlocks env what (i + 1) rest

/-- The first message of a run. -/
def startMessage (env : Env) (p : ModelParameters ℝ) : String := "Starting. Initial parameters: " ++ env.strParameters p.toList

/-- No parameter object has changed but possibly that of the pipeline. -/
def Pipeline.OthersKept (self : Pipeline) (w w' : World) : Prop :=
  ∀ ref q, ref ≠ self.parameters → w.heap[ref]? = some q → w'.heap[ref]? = some q

/-- What a run of tasks with these names has left that ended with an exception. The tasks before had the reports `reports`; task number
`reports.length` did not end. Each report is in its own file and says what came out. `report.txt` got exactly the blocks of messages
`blocks`, and nothing when there are none. These messages and the messages `more` after them have been printed, and nothing else. No other
file, no directory and no other parameter object has changed. -/
structure Pipeline.Stopped (pipeline : Pipeline) (env : Env) (names : List String) (w w' : World) (reports : List Report) (chis : List (Option PyFloat))
    (blocks : List (List String)) (more : List String) : Prop where
  fewer : reports.length < names.length
  reported : pipeline.Reported env w' (names.take reports.length) reports chis
  printed : w'.stdout = w.stdout ++ (blocks.flatten ++ more).map (printedLine pipeline.name)
  report : w'.fs.files pipeline.reportFile =
    if blocks = [] then w.fs.files pipeline.reportFile else some ((w.fs.files pipeline.reportFile).getD "" ++ pipeline.report ++ blocksText blocks)
  files : ∀ q, q ≠ pipeline.reportFile → (∀ k, k < reports.length → q ≠ pipeline.taskFile k) → w'.fs.files q = w.fs.files q
  dirs : w'.fs.dirs = w.fs.dirs
  objects : pipeline.OthersKept w w'

/-- How task number `k` of those with these names began: at most with the message `init` and the one that it runs. -/
def Began (names : List String) (k : ℕ) (init : String) (begun : List String) : Prop :=
  ∃ name, names[k]? = some name ∧ begun <+: [init, "Running " ++ name]

end UA
