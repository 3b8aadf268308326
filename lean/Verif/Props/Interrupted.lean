import Verif.Lemmas.InterruptedWitness

/-!
# C100: what a run that ends with an exception leaves behind
-/

namespace UA

/-- **C100** for a `run` of a pipeline on any tasks that ends with any exception: some task did not end, and for the tasks before it and
only for them everything has been reported and written as after a complete run. Printed are the messages of these tasks, and of the task
that did not end at most those that it is initialized and running. `report.txt` has been extended by exactly the messages of the tasks
that ended. -/
theorem C100_run {self : Pipeline} {env : Env} {p : ModelParameters ℝ} {w w' : World} {e : PyErr} (hreach : ∀ p ∈ w.heap, Reachable p)
    (hp : w.heap[self.parameters]? = some p) (h : self.run env w = (.error e, w')) :
    ∃ starts : List String, ∃ reports chis blocks more init begun,
      self.Stopped env (numberedNames (self.tasks.map TaskClass.className)) w w' reports chis blocks more ∧
      starts.length = reports.length ∧ blocks = headed (startMessage env p) (taskBlocks env ". Parameters: " 0 (starts.zip reports)) ∧
      blocks.flatten ++ more = startMessage env p :: (taskMessages env ". Parameters: " 0 (starts.zip reports) ++ begun) ∧ begun ≠ [] ∧
      Began (numberedNames (self.tasks.map TaskClass.className)) reports.length
        ("Initializing Task#" ++ toString reports.length ++ ". Parameters: " ++ init) begun :=
  run_error hreach hp h

/-- Three full fits and then a task that this pipeline cannot make. -/
example : (∀ p ∈ (startWorld [poles 1]).heap, Reachable p) ∧
    (startWorld [poles 1]).heap[(polesPipeline (List.replicate 3 .nucleonFFFull ++ [.nucleonCSFull])).parameters]? = some (poles 1) ∧
    ∃ w', (polesPipeline (List.replicate 3 .nucleonFFFull ++ [.nucleonCSFull])).run (polesEnv (fun a => a + 1) wholeText) (startWorld [poles 1]) =
      (.error .typeError, w') := ⟨startWorld_good 1, rfl, poles_run_error _ _ 3 1⟩

/-- **C100** for the iterative pipelines. The exception can also come before the first message of a task, when the parameters are chosen. -/
theorem C100_iterative {self : Pipeline} {env : Env} {its : Iterations} {p : ModelParameters ℝ} {w w' : World} {e : PyErr}
    (hreach : ∀ p ∈ w.heap, Reachable p) (hkind : self.kind ≠ .nucleonCS) (hp : w.heap[self.parameters]? = some p)
    (h : self.runIterative env its w = (.error e, w')) :
    ∃ starts : List String, ∃ reports chis blocks more init begun,
      self.Stopped env (numberedNames (iterativeClassNames self.kind its.free_params_numbers)) w w' reports chis blocks more ∧
      starts.length = reports.length ∧ blocks = headed (startMessage env p) (taskBlocks env ". Free parameters: " 0 (starts.zip reports)) ∧
      blocks.flatten ++ more = startMessage env p :: (taskMessages env ". Free parameters: " 0 (starts.zip reports) ++ begun) ∧
      Began (numberedNames (iterativeClassNames self.kind its.free_params_numbers)) reports.length
        ("Initializing Task#" ++ toString reports.length ++
          if reports.length < its.free_params_numbers.length then ". Free parameters: " ++ init else ". Full fit.") begun :=
  runIterative_error hkind hreach hp h

/-- Three rounds and then one with more free parameters than there are. -/
example : (polesPipeline []).kind ≠ .nucleonCS ∧ (∀ p ∈ (startWorld [poles 1]).heap, Reachable p) ∧
    (startWorld [poles 1]).heap[(polesPipeline []).parameters]? = some (poles 1) ∧
    ∃ w', (polesPipeline []).runIterative (polesEnv (fun a => a + 1) wholeText) ⟨List.replicate 3 3 ++ [4], 0⟩ (startWorld [poles 1]) =
      (.error .valueError, w') := ⟨by decide, startWorld_good 1, rfl, poles_runIterative_error _ _ 3 1⟩

/-- **C100** for the iterative nucleon cross section pipeline. When the residual task raises, the best fit has been written before. -/
theorem C100_nucleonCS {self : Pipeline} {env : Env} {its : Iterations} {p : ModelParameters ℝ} {w w' : World} {e : PyErr}
    (hreach : ∀ p ∈ w.heap, Reachable p) (hp : w.heap[self.parameters]? = some p) (h : self.runNucleonCSIterative env its w = (.error e, w')) :
    ∃ starts : List String, ∃ reports chis blocks more init begun best,
      self.Stopped env (nucleonTaskNames its) w w' reports chis blocks more ∧
      starts.length = min reports.length its.free_params_numbers.length ∧
      blocks = headed (startMessage env p) (taskBlocks env ". Free parameters: " 0 (starts.zip reports) ++
        (reports.drop its.free_params_numbers.length).map fun r =>
          ["Initializing Task#" ++ toString its.free_params_numbers.length ++ ". " ++ fullFitName its ++ ".", "Running " ++ r.name,
            r.name ++ " report: " ++ env.strReport r, "Best fit: " ++ env.strBestFit best]) ∧
      (if blocks = [] then more = startMessage env p :: begun else more = begun) ∧
      (self.best_fit = .nothing → (∀ x, env.strFloat x ≠ "") → BestByText env self.name reports chis best) ∧
      Began (nucleonTaskNames its) reports.length
        ("Initializing Task#" ++ toString reports.length ++
          if reports.length < its.free_params_numbers.length then ". Free parameters: " ++ init
          else if reports.length = its.free_params_numbers.length then ". " ++ fullFitName its ++ "." else ". Residuals.") begun := by
  obtain ⟨starts, reports, chis, blocks, more, init, begun, best, h1, h2, h3, h4, h5, h6⟩ := runNucleonCSIterative_error hreach hp h
  refine ⟨starts, reports, chis, blocks, more, init, begun, best, h1, h2, h3, h4, fun hnew hstr => ?_, h6⟩
  have hl : reports.length ≤ its.free_params_numbers.length + 1 := by
    have := h1.fewer
    unfold nucleonTaskNames numberedNames at this
    simp only [List.length_map, List.length_zipIdx, List.length_append, List.length_cons, List.length_nil] at this
    omega
  rw [List.take_of_length_le hl, hnew] at h5
  rw [h5]
  exact best_of_texts h1.reported.outcomes (foldl_best self.name _ (says_nonempty hstr h1.reported.outcomes))

/-- The full fit does not converge, and the residual task raises for a model without cross section. -/
example : (∀ p ∈ (startWorld [poles 1]).heap, Reachable p) ∧ (startWorld [poles 1]).heap[quietPipeline.parameters]? = some (poles 1) ∧
    quietPipeline.best_fit = .nothing ∧
    ∃ e w', quietPipeline.runNucleonCSIterative failEnv ⟨[], 0⟩ (startWorld [poles 1]) = (.error e, w') :=
  ⟨startWorld_good 1, rfl, rfl, poles_nucleon_error 1⟩

end UA
