import Verif.Lemmas.PipelinesWitness
import Verif.Lemmas.ResidualWitness

/-!
# Properties C57, C60 and C66: runs of pipelines
-/

namespace UA

/-! ### C60 -/

/-- **C60** creating a pipeline whose report directory exists raises `ValueError` and changes nothing: no file, no directory, no
output, no parameter. -/
theorem C60_existing (env : Env) (kind : PipelineKind) (name : String) (parameters : ℕ) (tasks : List TaskClass) (ts : List Datapoint)
    (ys errors : List ℝ) (reports_dir : String) (plot handpicked : Bool) (constants : Constants) (w : World)
    (h : w.fs.exists (pathJoin reports_dir name) = true) :
    Pipeline.init env kind name parameters tasks ts ys errors reports_dir plot handpicked constants w = (.error .valueError, w) := by
  unfold Pipeline.init setUpReportsDirectory
  refine PyM.bind_error ?_
  rw [PyM.bind_ok (PyM.get_run _ _), if_pos h]
  rfl

/-- A directory that exists, as in `C60_existing`. -/
example : ({ startWorld [] with fs := ⟨fun q => q == "reports/P", fun _ => none⟩ } : World).fs.exists (pathJoin "reports" "P") = true := by
  decide

/-- **C60** otherwise, when the directory can be made, nothing but this directory is created, and the pipeline starts with an empty
best fit. -/
theorem C60_new (env : Env) (kind : PipelineKind) (name : String) (parameters : ℕ) (tasks : List TaskClass) (ts : List Datapoint)
    (ys errors : List ℝ) (reports_dir : String) (plot handpicked : Bool) (constants : Constants) (w : World)
    (h : w.fs.exists (pathJoin reports_dir name) = false) (hm : env.mkdirFails (pathJoin reports_dir name) = false) :
    ∃ self w', Pipeline.init env kind name parameters tasks ts ys errors reports_dir plot handpicked constants w = (.ok self, w') ∧
      w'.fs.dirs (pathJoin reports_dir name) = true ∧ (∀ q, q ≠ pathJoin reports_dir name → w'.fs.dirs q = w.fs.dirs q) ∧
      w'.fs.files = w.fs.files ∧ w'.stdout = w.stdout ∧ w'.heap = w.heap ∧
      self.name = name ∧ self.tasks = tasks ∧ self.parameters = parameters ∧ self.reports_dir = pathJoin reports_dir name ∧ self.best_fit = .nothing := by
  have h1 : setUpReportsDirectory env (pathJoin reports_dir name) w =
      (.ok (), { w with fs := { w.fs with dirs := fun q => q == pathJoin reports_dir name || w.fs.dirs q } }) := by
    unfold setUpReportsDirectory
    rw [PyM.bind_ok (PyM.get_run _ _), h, if_neg (by decide)]
    exact if_neg (by rw [hm]; decide)
  refine ⟨_, _, PyM.bind_ok h1, ?_, ?_, rfl, rfl, rfl, rfl, rfl, rfl, rfl, rfl⟩
  · simp
  · intro q hq; simp [hq]

/-- A directory that does not exist and can be made, as in `C60_new`. -/
example : (startWorld []).fs.exists (pathJoin "reports" "P") = false ∧ (polesEnv id wholeText).mkdirFails (pathJoin "reports" "P") = false := by
  exact ⟨rfl, rfl⟩

/-- **C60** where this is: the directory of a pipeline is named after it inside the directory for reports, and the files are
`report.txt` and `report_0.txt`, `report_1.txt`, ... in it (for a directory given without a slash at the end). -/
theorem C60_paths {reports_dir name : String} (hd : reports_dir ≠ "") (hd' : ¬ ['/'] <:+ reports_dir.toList) (hn : ¬ ['/'] <+: name.toList) :
    pathJoin reports_dir name = reports_dir ++ "/" ++ name ∧
    (∀ self : Pipeline, self.reports_dir = reports_dir →
      self.reportFile = reports_dir ++ "/report.txt" ∧ ∀ k, self.taskFile k = reports_dir ++ "/report_" ++ toString k ++ ".txt") := by
  have key : ∀ b : String, ¬ ['/'] <+: b.toList → pathJoin reports_dir b = reports_dir ++ "/" ++ b := by
    intro b hb
    have hs : "/".toList = ['/'] := rfl
    unfold pathJoin
    rw [hs, if_neg hb, if_neg (not_or.mpr ⟨hd, hd'⟩)]
  refine ⟨key name hn, fun self hs => ⟨?_, fun k => ?_⟩⟩
  · unfold Pipeline.reportFile
    rw [hs, key _ (by decide), String.append_assoc]
    rfl
  · unfold Pipeline.taskFile
    rw [hs, key _ (taskName_start _)]
    simp only [String.append_assoc]
    rw [← String.append_assoc (s₁ := "/")]
    rfl

/-- The directories of `scripts`, as in `C60_paths`. -/
example : "/home/lukas/reports/ff" ≠ "" ∧ ¬ ['/'] <:+ "/home/lukas/reports/ff".toList ∧ ¬ ['/'] <+: "_1_0".toList := by decide +kernel

/-- **C60** a completed `run`, from any state of a pipeline: every task's report is in its own file, `report.txt` ends with a text that
contains in order all the messages that were printed, which are the announcement, three for each task, and the best fit; other files
and all directories are as before. -/
theorem C60_run {self self' : Pipeline} {env : Env} {w w' : World} (hreach : ∀ p ∈ w.heap, Reachable p) (h : self.run env w = (.ok self', w')) :
    ∃ p, ∃ starts : List String, ∃ reports chis rest, w.heap[self.parameters]? = some p ∧ self.Reported env w' (numberedNames (self.tasks.map TaskClass.className)) reports chis ∧
      starts.length = reports.length ∧
      ∃ messages, messages = ("Starting. Initial parameters: " ++ env.strParameters p.toList) ::
          (taskMessages env ". Parameters: " 0 (starts.zip reports) ++ ["Best fit: " ++ env.strBestFit self'.best_fit]) ∧
        w'.stdout = w.stdout ++ messages.map (printedLine self.name) ∧
        w'.fs.files self.reportFile = some ((w.fs.files self.reportFile).getD "" ++ self.report ++ rest) ∧ ContainsInOrder messages rest ∧
        (∀ q, q ≠ self.reportFile → (∀ k, k < reports.length → q ≠ self.taskFile k) → w'.fs.files q = w.fs.files q) ∧ w'.fs.dirs = w.fs.dirs := by
  obtain ⟨p, rs, rest, h1, h2, h3, h4, h5, h6⟩ := run_ok hreach h
  obtain ⟨⟨chis, r1⟩, r2⟩ := reported_of_traced h4 (forall₂_snd h2)
  rw [taskNames_eq] at r1
  refine ⟨p, rs.map Prod.fst, rs.map Prod.snd, chis, rest, h1, r1, by simp, _, rfl, ?_⟩
  rw [← List.zip_of_prod (xs := rs) rfl rfl]
  exact ⟨h4.printed, h5, h6, r2, h4.dirs⟩

/-- A completed run as in `C60_run`: any number of full fits of two poles to four points. -/
example (g : ℝ → ℝ) (str : PyFloat → String) (n : ℕ) (a : ℝ) : (∀ p ∈ (startWorld [poles a]).heap, Reachable p) ∧
    ∃ self' w', (polesPipeline (List.replicate n .nucleonFFFull)).run (polesEnv g str) (startWorld [poles a]) = (.ok self', w') := by
  obtain ⟨self', w', -, h, -⟩ := poles_run g str n a
  exact ⟨startWorld_good a, self', w', h⟩

/-! ### C66: iterative pipelines -/

/-- **C66** the same for the iterative pipelines (all but the one for nucleon cross sections): one task for each entry of the list of
numbers of free parameters and one full fit. -/
theorem C66_iterative {self self' : Pipeline} {env : Env} {its : Iterations} {w w' : World} (hreach : ∀ p ∈ w.heap, Reachable p)
    (hkind : self.kind ≠ .nucleonCS) (h : self.runIterative env its w = (.ok self', w')) :
    ∃ p, ∃ starts : List String, ∃ reports last chis rest, w.heap[self.parameters]? = some p ∧
      self.Reported env w' (numberedNames (iterativeClassNames self.kind its.free_params_numbers)) (reports ++ [last]) chis ∧
      starts.length = reports.length ∧
      ∃ messages, messages = ("Starting. Initial parameters: " ++ env.strParameters p.toList) ::
          (taskMessages env ". Free parameters: " 0 (starts.zip reports) ++
            ["Initializing Task#" ++ toString its.free_params_numbers.length ++ ". Full fit.", "Running " ++ last.name,
              last.name ++ " report: " ++ env.strReport last, "Best fit: " ++ env.strBestFit self'.best_fit]) ∧
        w'.stdout = w.stdout ++ messages.map (printedLine self.name) ∧
        w'.fs.files self.reportFile = some ((w.fs.files self.reportFile).getD "" ++ self.report ++ rest) ∧ ContainsInOrder messages rest ∧
        (∀ q, q ≠ self.reportFile → (∀ k, k ≤ reports.length → q ≠ self.taskFile k) → w'.fs.files q = w.fs.files q) ∧ w'.fs.dirs = w.fs.dirs := by
  obtain ⟨p, rs, r, rest, h1, h2, h2', h3, h4, h5, h6⟩ := runIterative_ok hreach h
  have hm : List.Forall₂ (fun r n => r.Made env n) (rs.map Prod.snd ++ [r])
      (taskNames 0 (its.free_params_numbers.map fun _ => self.kind.fixAccording) ++
        ["Task#" ++ toString its.free_params_numbers.length ++ ":" ++ self.kind.fullFit.pyName]) :=
    List.rel_append (forall₂_snd h2) (.cons h2' .nil)
  obtain ⟨⟨chis, r1⟩, r2⟩ := reported_of_traced h4 hm
  refine ⟨p, rs.map Prod.fst, rs.map Prod.snd, r, chis, rest, h1, ?_, by simp, _, rfl, ?_⟩
  · rw [taskNames_iterative hkind] at r1
    exact r1
  · rw [← List.zip_of_prod (xs := rs) rfl rfl]
    refine ⟨h4.printed, h5, h6, fun q q1 q2 => r2 q q1 fun k hk => q2 k ?_, h4.dirs⟩
    rw [List.length_append] at hk
    exact Nat.le_of_lt_succ hk

/-- A completed run as in `C66_iterative`: any number of rounds. -/
example (g : ℝ → ℝ) (str : PyFloat → String) (n : ℕ) (a : ℝ) : (polesPipeline []).kind ≠ .nucleonCS ∧ (∀ p ∈ (startWorld [poles a]).heap, Reachable p) ∧
    ∃ self' w', (polesPipeline []).runIterative (polesEnv g str) ⟨List.replicate n 3, 0⟩ (startWorld [poles a]) = (.ok self', w') :=
  ⟨by decide, startWorld_good a, poles_runIterative g str n a⟩

/-- **C66** the iterative nucleon cross section pipeline writes one report per task, the last one being that of the residual fit.
Missing from the stated property, which is false here: the three messages about the residual fit are printed but do not get into
`report.txt`, which only grows by the text of the messages before and one line break per round. -/
theorem C66_nucleonCS_partial {self self' : Pipeline} {env : Env} {its : Iterations} {w w' : World} (hreach : ∀ p ∈ w.heap, Reachable p)
    (h : self.runNucleonCSIterative env its w = (.ok self', w')) :
    ∃ p, ∃ starts : List String, ∃ reports full residual chis rest, w.heap[self.parameters]? = some p ∧
      self.Reported env w' (nucleonTaskNames its) (reports ++ [full, residual]) chis ∧
      starts.length = reports.length ∧
      ∃ messages lost, messages = ("Starting. Initial parameters: " ++ env.strParameters p.toList) ::
          (taskMessages env ". Free parameters: " 0 (starts.zip reports) ++
            ["Initializing Task#" ++ toString its.free_params_numbers.length ++ ". " ++ fullFitName its ++ ".", "Running " ++ full.name,
            full.name ++ " report: " ++ env.strReport full, "Best fit: " ++ env.strBestFit self'.best_fit]) ∧
        lost = ["Initializing Task#" ++ toString (its.free_params_numbers.length + 1) ++ ". Residuals.", "Running " ++ residual.name,
          residual.name ++ " report: " ++ env.strReport residual] ∧
        w'.stdout = w.stdout ++ (messages ++ lost).map (printedLine self.name) ∧
        w'.fs.files self.reportFile = some ((w.fs.files self.reportFile).getD "" ++ self.report ++ rest) ∧ ContainsInOrder messages rest ∧
        rest.length = (messages.map fun m => m.length + 1).sum + reports.length ∧
        (∀ q, q ≠ self.reportFile → (∀ k, k ≤ reports.length + 1 → q ≠ self.taskFile k) → w'.fs.files q = w.fs.files q) ∧ w'.fs.dirs = w.fs.dirs := by
  obtain ⟨p, rs, r, res, rest, h1, h2, h2', h2'', h3, h4, h5, h6, h7⟩ := runNucleonCSIterative_ok hreach h
  have hm : List.Forall₂ (fun r n => r.Made env n) (rs.map Prod.snd ++ [r, res])
      (taskNames 0 (its.free_params_numbers.map fun _ => self.kind.fixAccording) ++
        ["Task#" ++ toString its.free_params_numbers.length ++ ":" ++ fullFitName its,
          "Task#" ++ toString (its.free_params_numbers.length + 1) ++ ":" ++ TaskClass.residual.pyName]) :=
    List.rel_append (forall₂_snd h2) (.cons h2' (.cons h2'' .nil))
  obtain ⟨⟨chis, r1⟩, r2⟩ := reported_of_traced h4 hm
  rw [taskNames_nucleon] at r1
  refine ⟨p, rs.map Prod.fst, rs.map Prod.snd, r, res, chis, rest, h1, r1, by simp, _, _, rfl, rfl, ?_⟩
  rw [← List.zip_of_prod (xs := rs) rfl rfl]
  refine ⟨h4.printed, h5, h6, ?_, fun q q1 q2 => r2 q q1 fun k hk => q2 k ?_, h4.dirs⟩
  · rw [h7, List.length_map]; rfl
  · rw [List.length_append] at hk
    exact Nat.le_of_lt_succ hk

/-- A completed run as in `C66_nucleonCS_partial`: narrow resonances, one point, no fit converging. -/
example : (∀ p ∈ (startWorld [quiet]).heap, Reachable p) ∧
    ∃ self' w', quietPipeline.runNucleonCSIterative failEnv ⟨[], 0⟩ (startWorld [quiet]) = (.ok self', w') := ⟨quietWorld_good, quiet_run 0⟩

/-- **C66** as stated is false for the iterative nucleon cross section pipeline: `report.txt` need not contain all that was printed. -/
theorem C66_false : ¬ ∀ (self self' : Pipeline) (env : Env) (its : Iterations) (w w' : World), (∀ p ∈ w.heap, Reachable p) →
    self.runNucleonCSIterative env its w = (.ok self', w') →
    ∃ messages rest, w'.stdout = w.stdout ++ messages.map (printedLine self.name) ∧
      w'.fs.files self.reportFile = some ((w.fs.files self.reportFile).getD "" ++ self.report ++ rest) ∧ ContainsInOrder messages rest := by
  intro hall
  obtain ⟨self', w', h⟩ := quiet_run 0
  obtain ⟨messages, rest, h1, h2, h3⟩ := hall _ self' _ _ _ w' quietWorld_good h
  obtain ⟨p, starts, reports, full, residual, chis, rest', -, hr, -, ms, lost, -, hl, k1, k2, -, k4, -⟩ :=
    C66_nucleonCS_partial quietWorld_good h
  -- no rounds: only the two last reports
  have hn : reports.length = 0 := by
    have := congrArg List.length hr.names
    simp [nucleonTaskNames, numberedNames] at this
    rw [this]; rfl
  have hinj : Function.Injective (printedLine quietPipeline.name) := by
    intro a b hab
    unfold printedLine at hab
    exact (String.append_right_inj _).mp ((String.append_left_inj _).mp hab)
  have hm : messages = ms ++ lost := List.map_injective_iff.mpr hinj (List.append_cancel_left (h1.symm.trans k1))
  have hrest : rest = rest' := (String.append_right_inj _).mp (Option.some.inj (h2.symm.trans k2))
  have := containsInOrder_length h3
  rw [hrest, k4, hn, hm, hl, linesLength_append] at this
  simp only [linesLength, List.map_cons, List.sum_cons] at this
  omega

/-! ### C57 -/

/-- **C57** after a completed `run` of a new pipeline the best fit is the one of a task whose chi squared has the smallest *text*, and there
is none only if no task finished. It has the smallest chi squared if the texts of the reported values are ordered like the values.
Missing from the stated property: the texts are not ordered like the values (`C57_false`); they are for values with the same number
of digits before the point (`C57_decimals`). -/
theorem C57_run_partial {self self' : Pipeline} {env : Env} {w w' : World} (hreach : ∀ p ∈ w.heap, Reachable p)
    (hnew : self.best_fit = .nothing) (hstr : ∀ x, env.strFloat x ≠ "") (h : self.run env w = (.ok self', w')) :
    ∃ reports chis, self.Reported env w' (numberedNames (self.tasks.map TaskClass.className)) reports chis ∧ BestByText env self.name reports chis self'.best_fit ∧
      ((∀ y z, some y ∈ chis → some z ∈ chis → y < z → env.strFloat y < env.strFloat z) →
        BestByValue self.name reports chis self'.best_fit) := by
  obtain ⟨p, rs, rest, h1, h2, h3, h4, h5, h6⟩ := run_ok hreach h
  obtain ⟨⟨chis, r1⟩, r2⟩ := reported_of_traced h4 (forall₂_snd h2)
  rw [taskNames_eq] at r1
  rw [hnew] at h3
  have hb := best_of_texts r1.outcomes (foldl_best self.name _ (says_nonempty hstr r1.outcomes))
  rw [← h3] at hb
  exact ⟨_, chis, r1, hb, best_by_value hb⟩

/-- A run of two full fits as in `C57_run_partial`. -/
example : (polesPipeline (List.replicate 2 .nucleonFFFull)).best_fit = .nothing ∧ (∀ x, (polesEnv (fun a => a + 1) wholeText).strFloat x ≠ "") ∧
    ∃ self' w', (polesPipeline (List.replicate 2 .nucleonFFFull)).run (polesEnv (fun a => a + 1) wholeText) (startWorld [poles 1]) = (.ok self', w') := by
  obtain ⟨self', w', -, h, -⟩ := poles_run (fun a => a + 1) wholeText 2 1
  exact ⟨rfl, wholeText_ne, self', w', h⟩

/-- **C57** for the iterative pipelines. -/
theorem C57_iterative_partial {self self' : Pipeline} {env : Env} {its : Iterations} {w w' : World} (hreach : ∀ p ∈ w.heap, Reachable p)
    (hkind : self.kind ≠ .nucleonCS) (hnew : self.best_fit = .nothing) (hstr : ∀ x, env.strFloat x ≠ "") (h : self.runIterative env its w = (.ok self', w')) :
    ∃ reports chis, self.Reported env w' (numberedNames (iterativeClassNames self.kind its.free_params_numbers)) reports chis ∧
      BestByText env self.name reports chis self'.best_fit ∧
      ((∀ y z, some y ∈ chis → some z ∈ chis → y < z → env.strFloat y < env.strFloat z) →
        BestByValue self.name reports chis self'.best_fit) := by
  obtain ⟨p, rs, r, rest, h1, h2, h2', h3, h4, h5, h6⟩ := runIterative_ok hreach h
  have hm : List.Forall₂ (fun r n => r.Made env n) (rs.map Prod.snd ++ [r])
      (taskNames 0 (its.free_params_numbers.map fun _ => self.kind.fixAccording) ++
        ["Task#" ++ toString its.free_params_numbers.length ++ ":" ++ self.kind.fullFit.pyName]) :=
    List.rel_append (forall₂_snd h2) (.cons h2' .nil)
  obtain ⟨⟨chis, r1⟩, r2⟩ := reported_of_traced h4 hm
  rw [hnew] at h3
  have hb := best_of_texts r1.outcomes (foldl_best self.name _ (says_nonempty hstr r1.outcomes))
  rw [← h3] at hb
  refine ⟨_, chis, ?_, hb, best_by_value hb⟩
  rw [taskNames_iterative hkind] at r1
  exact r1

/-- An iterative run of three rounds as in `C57_iterative_partial`. -/
example : (polesPipeline []).kind ≠ .nucleonCS ∧ (polesPipeline []).best_fit = .nothing ∧ (∀ x, (polesEnv (fun a => a + 1) wholeText).strFloat x ≠ "") ∧
    ∃ self' w', (polesPipeline []).runIterative (polesEnv (fun a => a + 1) wholeText) ⟨List.replicate 3 3, 0⟩ (startWorld [poles 1]) = (.ok self', w') :=
  ⟨by decide, rfl, wholeText_ne, poles_runIterative _ _ 3 1⟩

/-- **C57** for the iterative nucleon cross section pipeline: the best fit is chosen among all tasks but the last, the residual fit,
which is made to other data. -/
theorem C57_nucleonCS_partial {self self' : Pipeline} {env : Env} {its : Iterations} {w w' : World} (hreach : ∀ p ∈ w.heap, Reachable p)
    (hnew : self.best_fit = .nothing) (hstr : ∀ x, env.strFloat x ≠ "") (h : self.runNucleonCSIterative env its w = (.ok self', w')) :
    ∃ reports residual chis chi,
      self.Reported env w' (nucleonTaskNames its) (reports ++ [residual]) (chis ++ [chi]) ∧
      BestByText env self.name reports chis self'.best_fit ∧
      ((∀ y z, some y ∈ chis → some z ∈ chis → y < z → env.strFloat y < env.strFloat z) →
        BestByValue self.name reports chis self'.best_fit) := by
  obtain ⟨p, rs, r, res, rest, h1, h2, h2', h2'', h3, h4, -, -, -⟩ := runNucleonCSIterative_ok hreach h
  have hm : List.Forall₂ (fun r n => r.Made env n) ((rs.map Prod.snd ++ [r]) ++ [res])
      (taskNames 0 (its.free_params_numbers.map fun _ => self.kind.fixAccording) ++
        ["Task#" ++ toString its.free_params_numbers.length ++ ":" ++ fullFitName its,
          "Task#" ++ toString (its.free_params_numbers.length + 1) ++ ":" ++ TaskClass.residual.pyName]) := by
    rw [List.append_assoc]
    exact List.rel_append (forall₂_snd h2) (.cons h2' (.cons h2'' .nil))
  have h4' := h4
  rw [show rs.map Prod.snd ++ [r, res] = (rs.map Prod.snd ++ [r]) ++ [res] by simp] at h4'
  obtain ⟨⟨chis, r1⟩, -⟩ := reported_of_traced h4' hm
  obtain ⟨cs, c, rfl⟩ : ∃ cs c, chis = cs ++ [c] := by
    have hl := r1.outcomes.length_eq
    rcases List.eq_nil_or_concat chis with rfl | ⟨cs, c, hc⟩
    · simp at hl
    · exact ⟨cs, c, by rw [hc, List.concat_eq_append]⟩
  have hout : List.Forall₂ (fun (r : Report) x => r.Says env x) (rs.map Prod.snd ++ [r]) cs := by
    have hl := r1.outcomes.length_eq
    rw [List.length_append, List.length_append (as := cs)] at hl
    have := List.forall₂_take (rs.map Prod.snd ++ [r]).length r1.outcomes
    rwa [List.take_left, List.take_left' (by simpa using hl.symm)] at this
  rw [hnew] at h3
  have hb := best_of_texts hout (foldl_best self.name _ (says_nonempty hstr hout))
  rw [← h3] at hb
  rw [taskNames_nucleon] at r1
  exact ⟨_, res, cs, c, r1, hb, best_by_value hb⟩

/-- The run of `C66_nucleonCS_partial` as one of `C57_nucleonCS_partial`. -/
example : quietPipeline.best_fit = .nothing ∧
    ∃ self' w', quietPipeline.runNucleonCSIterative failEnv ⟨[], 0⟩ (startWorld [quiet]) = (.ok self', w') := ⟨rfl, quiet_run 0⟩

/-- **C57** texts of decimal numbers with the same number of digits before the point are ordered like the numbers. -/
theorem C57_decimals {ip ip' fp fp' : List ℕ} (h1 : ∀ d ∈ ip, d < 10) (h2 : ∀ d ∈ ip', d < 10) (h3 : ∀ d ∈ fp, d < 10) (h4 : ∀ d ∈ fp', d < 10)
    (hlen : ip.length = ip'.length) (hlt : decimalValue ip fp < decimalValue ip' fp') : decimalText ip fp < decimalText ip' fp' := by
  by_contra h
  refine absurd (decimal_mono h2 h1 h4 h3 hlen.symm fun hl => h ?_) (not_le.mpr hlt)
  rw [String.lt_iff_toList_lt]
  unfold decimalText
  rw [String.toList_ofList, String.toList_ofList]
  exact hl

/-- `9.25 < 9.5`, and the texts are in this order. -/
example : decimalValue [9] [2, 5] < decimalValue [9] [5] ∧ decimalText [9] [2, 5] = "9.25" ∧ decimalText [9] [5] = "9.5" := by
  refine ⟨?_, by decide, by decide⟩
  simp only [decimalValue]
  norm_num

/-- **C57** as stated is false: a run of two full fits with chi squared 16 and 9, written as `16.0` and `9.0`, has the first one as its
best fit. -/
theorem C57_false : ¬ ∀ (self self' : Pipeline) (env : Env) (w w' : World), (∀ n : ℕ, env.strFloat (.finite n) = toString n ++ ".0") →
    (∀ p ∈ w.heap, Reachable p) → self.best_fit = .nothing → self.run env w = (.ok self', w') →
    ∃ reports chis, self.Reported env w' (numberedNames (self.tasks.map TaskClass.className)) reports chis ∧ BestByValue self.name reports chis self'.best_fit := by
  intro hall
  -- the optimiser finds 4 from 1 and 3 from 4
  obtain ⟨self', w', rs, h1, h2, ⟨ms, k, h3⟩, h4, h5⟩ := poles_run (fun a => if a = 4 then 3 else 4) wholeText 2 1
  obtain ⟨reports, chis, r1, r2⟩ := hall _ self' (polesEnv (fun a => if a = 4 then 3 else 4) wholeText) _ w' wholeText_nat (startWorld_good 1) rfl h1
  have hre := (reported_of_traced h3 (forall₂_snd h4)).1.choose_spec
  have hone : ∀ {i : ℕ} {q : String × Report} {r : Report} {x : Option PyFloat} {n : ℕ}, rs[i]? = some q → reports[i]? = some r →
      q.2.Says (polesEnv (fun a => if a = 4 then 3 else 4) wholeText) (some (.finite n)) →
      r.Says (polesEnv (fun a => if a = 4 then 3 else 4) wholeText) x → x = some (.finite n) := by
    intro i q r x n hq hr hs hx
    have f1 := r1.files i r hr
    have f2 := hre.files i q.2 (by rw [List.getElem?_map, hq]; rfl)
    rw [f2] at f1
    have f3 : q.2.chi_squared.getD "None" = r.chi_squared.getD "None" := Option.some.inj f1
    rw [hs.2] at f3
    exact says_of_text hx f3.symm
  obtain ⟨q₀, q₁, rfl⟩ : ∃ q₀ q₁, rs = [q₀, q₁] := by
    have := h5.length_eq
    rw [List.length_map, List.length_range] at this
    exact List.length_eq_two.mp this
  have hs0 : q₀.2.Says (polesEnv (fun a => if a = 4 then 3 else 4) wholeText) (some (.finite (16 : ℕ))) := by
    cases h5 with
    | cons h _ => convert h using 3; norm_num
  have hs1 : q₁.2.Says (polesEnv (fun a => if a = 4 then 3 else 4) wholeText) (some (.finite (9 : ℕ))) := by
    cases h5 with
    | cons _ h => cases h with
      | cons h _ => convert h using 3; norm_num
  obtain ⟨r₀, r₁, rfl⟩ : ∃ r₀ r₁, reports = [r₀, r₁] := by
    have := congrArg List.length r1.names
    rw [List.length_map] at this
    exact List.length_eq_two.mp this
  obtain ⟨x₀, x₁, rfl⟩ : ∃ x₀ x₁, chis = [x₀, x₁] := List.length_eq_two.mp r1.outcomes.length_eq.symm
  have hx : x₀ = some (.finite (16 : ℕ)) ∧ x₁ = some (.finite (9 : ℕ)) := by
    cases r1.outcomes with
    | cons o0 h => cases h with
      | cons o1 _ => exact ⟨hone (i := 0) rfl rfl hs0 o0, hone (i := 1) rfl rfl hs1 o1⟩
  obtain ⟨rfl, rfl⟩ := hx
  -- the best fit is the first one
  have hbest : self'.best_fit.chi_squared = some "16.0" := by
    have c0 : q₀.2.chi_squared = some "16.0" := by rw [hs0.2]; exact congrArg some (wholeText_nat 16)
    have c1 : q₁.2.chi_squared = some "9.0" := by rw [hs1.2]; exact congrArg some (wholeText_nat 9)
    rw [h2]
    show (bestStep "P" (bestStep "P" .nothing q₀.2) q₁.2).chi_squared = _
    have b0 : bestStep "P" .nothing q₀.2 = q₀.2.asBestFit "P" := by unfold bestStep; rw [c0]; rfl
    rw [b0]
    have hi : improves "9.0" (q₀.2.asBestFit "P").chi_squared = false := by
      rw [show (q₀.2.asBestFit "P").chi_squared = some "16.0" from c0]
      decide
    unfold bestStep
    rw [c1]
    dsimp only
    rw [if_neg (by decide), hi]
    exact c0
  rcases r2 with ⟨h, -⟩ | ⟨k, r, x, k1, k2, k3, k4⟩
  · cases h _ List.mem_cons_self
  · have hx := k4 (.finite (9 : ℕ)) (by simp)
    match k, k1, k2 with
    | 0, k1, k2 =>
      have : PyFloat.finite (16 : ℕ) = x := Option.some.inj (Option.some.inj k2)
      rw [← this] at hx
      exact hx (show ((9 : ℕ) : ℝ) < ((16 : ℕ) : ℝ) by norm_num)
    | 1, k1, k2 =>
      have hr : r₁ = r := Option.some.inj k1
      have hc : r.chi_squared = some "9.0" := by
        cases r1.outcomes with
        | cons _ h => cases h with
          | cons o1 _ => rw [← hr, o1.2]; exact congrArg some (wholeText_nat 9)
      rw [k3] at hbest
      rw [show (r.asBestFit _).chi_squared = r.chi_squared from rfl, hc] at hbest
      revert hbest
      decide
    | k + 2, k1, k2 => cases k1

end UA
