import Verif.Lemmas.InterruptedWitness

/-!
# C101: the exact text of `report.txt`
-/

namespace UA

/-- **C101** a completed `run` has appended to `report.txt` exactly what the pipeline object had not yet written, the first message, three
messages for each task and an empty line between the tasks, and the best fit; `starts` are the texts of the parameters at the beginning
of the tasks. -/
theorem C101_run {self self' : Pipeline} {env : Env} {w w' : World} (hreach : ∀ p ∈ w.heap, Reachable p) (h : self.run env w = (.ok self', w')) :
    ∃ p, ∃ starts : List String, ∃ reports chis, w.heap[self.parameters]? = some p ∧
      self.Reported env w' (numberedNames (self.tasks.map TaskClass.className)) reports chis ∧ starts.length = reports.length ∧
      w'.fs.files self.reportFile = some ((w.fs.files self.reportFile).getD "" ++ self.report ++
        blocksText (headed (startMessage env p) (taskBlocks env ". Parameters: " 0 (starts.zip reports) ++ [["Best fit: " ++ env.strBestFit self'.best_fit]]))) :=
  run_exact hreach h

/-- A run of two full fits. -/
example : (∀ p ∈ (startWorld [poles 1]).heap, Reachable p) ∧
    ∃ self' w', (polesPipeline (List.replicate 2 .nucleonFFFull)).run (polesEnv (fun a => a + 1) wholeText) (startWorld [poles 1]) = (.ok self', w') := by
  obtain ⟨self', w', -, h, -⟩ := poles_run (fun a => a + 1) wholeText 2 1
  exact ⟨startWorld_good 1, self', w', h⟩

/-- **C101** for the iterative pipelines: the best fit is in the block of the last task; `starts` are the names of the parameters that were
free in the rounds. -/
theorem C101_iterative {self self' : Pipeline} {env : Env} {its : Iterations} {w w' : World} (hreach : ∀ p ∈ w.heap, Reachable p)
    (hkind : self.kind ≠ .nucleonCS) (h : self.runIterative env its w = (.ok self', w')) :
    ∃ p, ∃ starts : List String, ∃ reports full chis, w.heap[self.parameters]? = some p ∧
      self.Reported env w' (numberedNames (iterativeClassNames self.kind its.free_params_numbers)) (reports ++ [full]) chis ∧
      starts.length = reports.length ∧
      w'.fs.files self.reportFile = some ((w.fs.files self.reportFile).getD "" ++ self.report ++
        blocksText (headed (startMessage env p) (taskBlocks env ". Free parameters: " 0 (starts.zip reports) ++
          [["Initializing Task#" ++ toString its.free_params_numbers.length ++ ". Full fit.", "Running " ++ full.name,
            full.name ++ " report: " ++ env.strReport full, "Best fit: " ++ env.strBestFit self'.best_fit]]))) :=
  runIterative_exact hkind hreach h

/-- An iterative run of three rounds. -/
example : (polesPipeline []).kind ≠ .nucleonCS ∧ (∀ p ∈ (startWorld [poles 1]).heap, Reachable p) ∧
    ∃ self' w', (polesPipeline []).runIterative (polesEnv (fun a => a + 1) wholeText) ⟨List.replicate 3 3, 0⟩ (startWorld [poles 1]) = (.ok self', w') :=
  ⟨by decide, startWorld_good 1, poles_runIterative _ _ 3 1⟩

/-- **C101** for the iterative nucleon cross section pipeline: nothing about the residual task is in `report.txt`. -/
theorem C101_nucleonCS {self self' : Pipeline} {env : Env} {its : Iterations} {w w' : World} (hreach : ∀ p ∈ w.heap, Reachable p)
    (h : self.runNucleonCSIterative env its w = (.ok self', w')) :
    ∃ p, ∃ starts : List String, ∃ reports full residual chis, w.heap[self.parameters]? = some p ∧
      self.Reported env w' (nucleonTaskNames its) (reports ++ [full, residual]) chis ∧
      starts.length = reports.length ∧
      w'.fs.files self.reportFile = some ((w.fs.files self.reportFile).getD "" ++ self.report ++
        blocksText (headed (startMessage env p) (taskBlocks env ". Free parameters: " 0 (starts.zip reports) ++
          [["Initializing Task#" ++ toString its.free_params_numbers.length ++ ". " ++ fullFitName its ++ ".", "Running " ++ full.name,
            full.name ++ " report: " ++ env.strReport full, "Best fit: " ++ env.strBestFit self'.best_fit]]))) :=
  runNucleonCSIterative_exact hreach h

/-- A run without rounds. -/
example : (∀ p ∈ (startWorld [quiet]).heap, Reachable p) ∧
    ∃ self' w', quietPipeline.runNucleonCSIterative failEnv ⟨[], 0⟩ (startWorld [quiet]) = (.ok self', w') := ⟨quietWorld_good, quiet_run 0⟩

end UA
