import Verif.Lemmas.PipelinesText

/-!
# Helper lemmas: completed runs of pipelines
-/

namespace UA

/-- The best fit after one more report. -/
def bestStep (pipeline : String) (b : BestFit) (r : Report) : BestFit :=
  match r.chi_squared with
  | none => b
  | some c => if c = "" then b else if improves c b.chi_squared then r.asBestFit pipeline else b

/-- The reports made by the tasks of a pipeline. -/
def Report.Made (r : Report) (env : Env) (task_name : String) : Prop := r.name = task_name ∧ ∃ x, r.Says env x

/-- The pipeline's parameters are an object. -/
def Pipeline.Live (self : Pipeline) (w : World) : Prop := w.Good ∧ ∃ p, w.heap[self.parameters]? = some p

theorem Pipeline.Live.of_heap {self self' : Pipeline} {w w' : World} (h : self.Live w) (hs : self'.parameters = self.parameters)
    (hw : w'.heap = w.heap) : self'.Live w' := by
  unfold Pipeline.Live World.Good at *
  rw [hs, hw]; exact h

theorem newTask_ok {self : Pipeline} {task_name : String} {cls : TaskClass} {w w' : World} {task : Task}
    (h : self.newTask task_name cls w = (.ok task, w')) : w' = w ∧ task.parameters = self.parameters ∧ task.name = task_name ∧
      task.report.name = task_name ∧ task.report.chi_squared = none ∧ (∃ p, w.heap[self.parameters]? = some p) := by
  unfold Pipeline.newTask Task.init at h
  obtain ⟨p, w₁, h1, h2⟩ := PyM.bind_eq_ok.mp h
  unfold readParams at h1
  rcases hp : w.heap[self.parameters]? with _ | p'
  · rw [hp] at h1; cases h1
  · rw [hp] at h1
    injection h1 with h1 h3
    rw [PyM.pure_run] at h2
    injection h2 with h2 h4
    injection h2 with h2
    subst h2
    exact ⟨h4.symm.trans h3.symm, rfl, rfl, rfl, rfl, p', rfl⟩

theorem readParams_ok {ref : ℕ} {w w' : World} {p : ModelParameters ℝ} (h : readParams ref w = (.ok p, w')) : w' = w ∧ w.heap[ref]? = some p := by
  unfold readParams at h
  rcases hp : w.heap[ref]? with _ | p'
  · rw [hp] at h; cases h
  · rw [hp] at h
    injection h with h1 h2
    injection h1 with h1
    exact ⟨h2.symm, by rw [h1]⟩

/-- What is known of a task that has just been made. -/
def Pipeline.Makes (self : Pipeline) (task_name : String) (w : World) (create : PyM World Task) : Prop :=
  ∀ t w₁, create w = (.ok t, w₁) → w₁ = w ∧ t.parameters = self.parameters ∧ t.name = task_name ∧ t.report.name = task_name ∧
    t.report.chi_squared = none ∧ ∃ p, w.heap[self.parameters]? = some p

theorem createTask_ok {self : Pipeline} (task_name : String) (cls : TaskClass) (w : World) :
    self.Makes task_name w (self.createTask task_name cls) := by
  intro t w₁ h
  unfold Pipeline.createTask at h
  split_ifs at h with hc h1
  · exact newTask_ok h
  · obtain ⟨p, w₂, h2, h3⟩ := PyM.bind_eq_ok.mp h
    clear h
    obtain ⟨rfl, hp⟩ := readParams_ok h2
    split_ifs at h3 with h4
    · have h := h3
      unfold Task.init at h
      rw [PyM.bind_ok (readParams_run hp), PyM.pure_run] at h
      injection h with h h5
      injection h with h
      subst h h5
      exact ⟨rfl, rfl, rfl, rfl, rfl, p, hp⟩
    · cases h3
  · cases h

/-- Making and running a task, however it is made. -/
noncomputable def Pipeline.taskFrom (self : Pipeline) (env : Env) (task_name : String) (create : PyM World Task) : PyM World (Task × Pipeline) := do
  let task ← create
  let self ← self.log ("Running " ++ task_name)
  let task ← task.run env
  let self ← self.log (task_name ++ " report: " ++ env.strReport task.report)
  let self ← self.updateBestFit task
  let self := { self with parameters := task.parameters }
  return (task, self)

theorem taskFrom_ok {self self' : Pipeline} {env : Env} {task_name : String} {create : PyM World Task} {w w' : World} {task : Task}
    (hl : w.Good) (hcreate : self.Makes task_name w create) (h : self.taskFrom env task_name create w = (.ok (task, self'), w')) :
    self'.Live w' ∧ task.report.Made env task_name ∧ self'.best_fit = bestStep self.name self.best_fit task.report ∧
      Traced self w self' w' ["Running " ++ task_name, task_name ++ " report: " ++ env.strReport task.report] 0 [] := by
  unfold Pipeline.taskFrom at h
  obtain ⟨t, w₁, h1, hA⟩ := PyM.bind_eq_ok.mp h
  obtain ⟨rfl, n1, n2, n3, n4, p, hp⟩ := hcreate t w₁ h1
  obtain ⟨s₁, w₂, h2, hB⟩ := PyM.bind_eq_ok.mp hA
  obtain ⟨t1, rfl, e1⟩ := Traced.log h2
  obtain ⟨t', w₃, h3, hC⟩ := PyM.bind_eq_ok.mp hB
  have hg2 : w₂.Good := by unfold World.Good; rw [e1]; exact hl
  have hg3 : w₃.Good := by have := run_good t env w₂ hg2; rw [h3] at this; exact this
  have ho3 : SameOutside w₂ w₃ := by have := run_outside t env w₂; rw [h3] at this; exact this
  have hp2 : w₂.heap[t.parameters]? = some p := by rw [e1, n1]; exact hp
  obtain ⟨p₂, r1, r2, r3, r4⟩ := run_result hp2 (hg2.read hp2) h3
  obtain ⟨s₂, w₄, h4, hD⟩ := PyM.bind_eq_ok.mp hC
  obtain ⟨t2, rfl, e2⟩ := Traced.log h4
  obtain ⟨s₃, w₅, h5, hE⟩ := PyM.bind_eq_ok.mp hD
  rw [PyM.pure_run] at hE
  injection hE with hE h6
  injection hE with hE
  injection hE with h7 h8
  subst h6 h7 h8
  have hw5 : w₅ = w₄ ∧ s₃ = { self with
      report := self.report ++ ("Running " ++ task_name ++ "\n") ++ (task_name ++ " report: " ++ env.strReport t'.report ++ "\n")
      best_fit := bestStep self.name self.best_fit t'.report } ∧ t'.report.Made env task_name := by
    have hr4 : w₄.heap[t'.parameters]? = some p₂ := by rw [e2]; exact r1
    unfold Pipeline.updateBestFit at h5
    rcases r4 with ⟨m, r4⟩ | ⟨ordered, ys, fs, chi, cov, r4, r5⟩
    · have hc : t'.report.chi_squared = none := by rw [r4]; exact n4
      rw [hc] at h5
      injection h5 with h5 h6
      injection h5 with h5
      refine ⟨h6.symm, ?_, ?_, none, ?_, hc⟩
      · rw [← h5]; unfold bestStep; rw [hc]
      · rw [r4]; exact n3
      · rw [r4]
    · have hc : t'.report.chi_squared = some (env.strFloat chi) := by rw [r5]; rfl
      have hmade : t'.report.Made env task_name := ⟨by rw [r5]; exact n3, some chi, by rw [r5]; rfl, hc⟩
      rw [hc] at h5
      dsimp only at h5
      by_cases he : env.strFloat chi = ""
      · rw [if_pos he] at h5
        injection h5 with h5 h6
        injection h5 with h5
        refine ⟨h6.symm, ?_, hmade⟩
        rw [← h5]; unfold bestStep; rw [hc]; dsimp only; rw [if_pos he]
      · rw [if_neg he] at h5
        by_cases hi : improves (env.strFloat chi) self.best_fit.chi_squared = true
        · rw [if_pos hi, PyM.bind_ok (readParams_run hr4), r4, PyM.bind_ok (PyM.lift_run _ _)] at h5
          injection h5 with h5 h6
          injection h5 with h5
          refine ⟨h6.symm, ?_, hmade⟩
          rw [← h5]; unfold bestStep; rw [hc]; dsimp only; rw [if_neg he, if_pos hi]
          unfold Report.asBestFit
          rw [r3, n2, hmade.1, hc, r5]
          rfl
        · rw [if_neg hi] at h5
          injection h5 with h5 h6
          injection h5 with h5
          refine ⟨h6.symm, ?_, hmade⟩
          rw [← h5]; unfold bestStep; rw [hc]; dsimp only; rw [if_neg he, if_neg hi]
  obtain ⟨rfl, rfl, hmade⟩ := hw5
  refine ⟨⟨by unfold World.Good; rw [e2]; exact hg3, p₂, by rw [e2]; exact r1⟩, hmade, rfl, ?_⟩
  have t3 := t1.trans ((Traced.same (b := { self with report := self.report ++ ("Running " ++ task_name ++ "\n") }) ho3 rfl rfl rfl rfl).trans t2)
  have t4 := t3.trans (Traced.same (b := { self with
      parameters := t'.parameters
      report := self.report ++ ("Running " ++ task_name ++ "\n") ++ (task_name ++ " report: " ++ env.strReport t'.report ++ "\n")
      best_fit := bestStep self.name self.best_fit t'.report }) (SameOutside.refl w₅) rfl rfl rfl rfl)
  exact t4

/-- Making and running a task. -/
theorem iterativeTask_ok {self self' : Pipeline} {env : Env} {task_name : String} {cls : TaskClass} {w w' : World} {task : Task}
    (hl : w.Good) (h : self.iterativeTask env task_name cls w = (.ok (task, self'), w')) :
    self'.Live w' ∧ task.report.Made env task_name ∧ self'.best_fit = bestStep self.name self.best_fit task.report ∧
      Traced self w self' w' ["Running " ++ task_name, task_name ++ " report: " ++ env.strReport task.report] 0 [] :=
  taskFrom_ok hl (fun _ _ => newTask_ok) h

/-- The files saved by tasks numbered from `i`. -/
def savedFiles (self : Pipeline) (env : Env) (i : ℕ) : List Report → List (String × String)
  | [] => []
  | r :: rest => (self.taskFile i, env.strReport r) :: savedFiles self env (i + 1) rest

theorem savedFiles_congr {self self' : Pipeline} (h : self'.reports_dir = self.reports_dir) (env : Env) (rs : List Report) :
    ∀ i, savedFiles self' env i rs = savedFiles self env i rs := by
  induction rs with
  | nil => intro i; rfl
  | cons r rs ih => intro i; unfold savedFiles; rw [ih]; unfold Pipeline.taskFile; rw [h]

theorem savedFiles_mem (self : Pipeline) (env : Env) (rs : List Report) :
    ∀ {i k : ℕ} {r : Report}, rs[k]? = some r → (self.taskFile (i + k), env.strReport r) ∈ savedFiles self env i rs := by
  induction rs with
  | nil => intro i k r h; cases h
  | cons r rs ih =>
    intro i k r' h
    cases k with
    | zero => cases h; exact List.mem_cons_self ..
    | succ k =>
      have := ih (i := i + 1) (k := k) h
      rw [show i + (k + 1) = i + 1 + k by omega]
      exact List.mem_cons_of_mem _ this

theorem savedFiles_names (self : Pipeline) (env : Env) (rs : List Report) :
    ∀ {i : ℕ} {q : String}, q ∈ (savedFiles self env i rs).map Prod.fst → ∃ k, i ≤ k ∧ k < i + rs.length ∧ q = self.taskFile k := by
  induction rs with
  | nil => intro i q h; cases h
  | cons r rs ih =>
    intro i q h
    rcases List.mem_cons.mp h with rfl | h
    · exact ⟨i, le_rfl, by simp, rfl⟩
    · obtain ⟨k, h1, h2, h3⟩ := ih h
      exact ⟨k, by omega, by simp only [List.length_cons]; omega, h3⟩

theorem savedFiles_nodup (self : Pipeline) (env : Env) (rs : List Report) : ∀ i, ((savedFiles self env i rs).map Prod.fst).Nodup := by
  induction rs with
  | nil => intro i; exact List.nodup_nil
  | cons r rs ih =>
    intro i
    refine List.nodup_cons.mpr ⟨fun h => ?_, ih _⟩
    obtain ⟨k, h1, -, h3⟩ := savedFiles_names self env rs h
    have := taskFile_inj self h3
    omega

theorem savedFiles_append (self : Pipeline) (env : Env) (rs rs' : List Report) :
    ∀ i, savedFiles self env i (rs ++ rs') = savedFiles self env i rs ++ savedFiles self env (i + rs.length) rs' := by
  induction rs with
  | nil => intro i; rfl
  | cons r rs ih =>
    intro i
    show _ :: savedFiles self env (i + 1) (rs ++ rs') = _ :: (_ ++ _)
    rw [ih, List.length_cons, show i + 1 + rs.length = i + (rs.length + 1) by omega]

/-- What the tasks of classes `classes`, numbered from `i`, have done. -/
structure TasksDone (env : Env) (what : String) (i : ℕ) (names : List String) (a : Pipeline) (w : World) (b : Pipeline) (w' : World)
    (rs : List (String × Report)) : Prop where
  live : b.Live w'
  made : List.Forall₂ (fun (q : String × Report) n => q.2.Made env n) rs names
  best : b.best_fit = (rs.map Prod.snd).foldl (bestStep a.name) a.best_fit
  traced : Traced a w b w' (taskMessages env what i rs) rs.length (savedFiles a env i (rs.map Prod.snd))

/-- The names of the tasks numbered from `i`. -/
def taskNames : ℕ → List TaskClass → List String
  | _, [] => []
  | i, c :: rest => ("Task#" ++ toString i ++ ":" ++ c.pyName) :: taskNames (i + 1) rest

theorem TasksDone.cons {env : Env} {what n init : String} {i : ℕ} {names : List String} {a b c : Pipeline} {u v w : World}
    {r : Report} {rs : List (String × Report)} (hm : r.Made env n) (hb : b.best_fit = bestStep a.name a.best_fit r)
    (ht : Traced a u b v ["Initializing Task#" ++ toString i ++ what ++ init, "Running " ++ n, n ++ " report: " ++ env.strReport r] 1
      [(a.taskFile i, env.strReport r)]) (h : TasksDone env what (i + 1) names b v c w rs) :
    TasksDone env what i (n :: names) a u c w ((init, r) :: rs) := by
  refine ⟨h.live, .cons hm h.made, ?_, ?_⟩
  · rw [h.best, ht.name, hb]; rfl
  · have := ht.trans h.traced
    rw [savedFiles_congr ht.dir, Nat.add_comm 1] at this
    show Traced a u c w (_ :: ("Running " ++ r.name) :: (r.name ++ " report: " ++ env.strReport r) :: _) (rs.length + 1) _
    rw [hm.1]
    exact this

/-- The first task of `runTasks`. -/
theorem runTasks_step_from {self s₆ : Pipeline} {env : Env} {i : ℕ} {c : TaskClass} (rest : List TaskClass) {w w₆ : World} {p : ModelParameters ℝ} {t' : Task}
    (hg : w.Good) (hp : w.heap[self.parameters]? = some p)
    (hit : Pipeline.taskFrom { self with report := self.report ++ ("Initializing Task#" ++ toString i ++ ". Parameters: " ++ env.strParameters p.toList ++ "\n") }
        env ("Task#" ++ toString i ++ ":" ++ c.pyName)
        (Pipeline.createTask { self with report := self.report ++ ("Initializing Task#" ++ toString i ++ ". Parameters: " ++ env.strParameters p.toList ++ "\n") }
          ("Task#" ++ toString i ++ ":" ++ c.pyName) c)
        { w with stdout := w.stdout ++ [printedLine self.name ("Initializing Task#" ++ toString i ++ ". Parameters: " ++ env.strParameters p.toList)] } =
      (.ok (t', s₆), w₆)) :
    ∃ w₉, Pipeline.runTasks env i (c :: rest) self w = Pipeline.runTasks env (i + 1) rest { s₆ with report := "\n" } w₉ ∧
      Pipeline.Live { s₆ with report := "\n" } w₉ ∧
      (∀ ref q, w₆.heap[ref]? = some q → w₉.heap[ref]? = some (if ref = s₆.parameters then q.releaseAllParameters else q)) ∧
      t'.report.Made env ("Task#" ++ toString i ++ ":" ++ c.pyName) ∧ s₆.best_fit = bestStep self.name self.best_fit t'.report ∧
      Traced self w { s₆ with report := "\n" } w₉ ["Initializing Task#" ++ toString i ++ ". Parameters: " ++ env.strParameters p.toList,
        "Running " ++ ("Task#" ++ toString i ++ ":" ++ c.pyName), "Task#" ++ toString i ++ ":" ++ c.pyName ++ " report: " ++ env.strReport t'.report]
        1 [(self.taskFile i, env.strReport t'.report)] := by
  have h1 : self.log ("Initializing Task#" ++ toString i ++ ". Parameters: " ++ env.strParameters p.toList) w =
      (.ok { self with report := self.report ++ ("Initializing Task#" ++ toString i ++ ". Parameters: " ++ env.strParameters p.toList ++ "\n") },
        { w with stdout := w.stdout ++ [printedLine self.name ("Initializing Task#" ++ toString i ++ ". Parameters: " ++ env.strParameters p.toList)] }) := rfl
  obtain ⟨t1, -, e1⟩ := Traced.log h1
  obtain ⟨l6, m6, b6, t6⟩ := taskFrom_ok (by unfold World.Good; exact hg) (createTask_ok _ _ _) hit
  obtain ⟨p₆, hp6⟩ := l6.2
  have h7 := mutateParams_run hp6 (fun p => (.ok (), p.releaseAllParameters))
  have g7 := release_good s₆.parameters w₆ l6.1
  have o7 := mutateParams_outside s₆.parameters (fun p => (.ok (), p.releaseAllParameters)) w₆
  generalize hw7 : ({ w₆ with heap := w₆.heap.set s₆.parameters p₆.releaseAllParameters } : World) = w₇
  have h7' : mutateParams s₆.parameters (fun p => (.ok (), p.releaseAllParameters)) w₆ = (.ok (), w₇) := by rw [← hw7]; exact h7
  rw [h7'] at g7 o7
  obtain ⟨w₈, h8⟩ : ∃ w₈, s₆.flushReport w₇ = (.ok { s₆ with report := "\n" }, w₈) := ⟨_, rfl⟩
  obtain ⟨t8, -, e8, -⟩ := Traced.flush h8
  obtain ⟨w₉, h9⟩ : ∃ w₉, Pipeline.saveReport { s₆ with report := "\n" } env (toString i) t'.report w₈ = (.ok (), w₉) := ⟨_, rfl⟩
  obtain ⟨t9, e9, -⟩ := Traced.save h9
  have l7 : ∀ ref q, w₆.heap[ref]? = some q → w₉.heap[ref]? = some (if ref = s₆.parameters then q.releaseAllParameters else q) := by
    intro ref q hq
    rw [e9, e8, ← hw7]
    by_cases hr : ref = s₆.parameters
    · rw [if_pos hr, hr]
      rw [hr, hp6] at hq
      injection hq with hq
      rw [← hq]
      exact List.getElem?_set_self (heap_set_append hp6)
    · rw [if_neg hr]
      show (w₆.heap.set s₆.parameters _)[ref]? = _
      rw [List.getElem?_set_ne (Ne.symm hr)]
      exact hq
  refine ⟨w₉, ?_, ⟨by unfold World.Good; rw [e9, e8]; exact g7, _, l7 _ _ hp6⟩, l7, m6, b6, ?_⟩
  · conv => lhs; unfold Pipeline.runTasks
    rw [PyM.bind_ok (readParams_run hp), PyM.bind_ok h1]
    unfold Pipeline.taskFrom at hit
    obtain ⟨ta, wa, ha, hit⟩ := PyM.bind_eq_ok.mp hit
    obtain ⟨tb, wb, hb, hit⟩ := PyM.bind_eq_ok.mp hit
    obtain ⟨tc, wc, hc', hit⟩ := PyM.bind_eq_ok.mp hit
    obtain ⟨td, wd, hd, hit⟩ := PyM.bind_eq_ok.mp hit
    obtain ⟨te, we, he, hit⟩ := PyM.bind_eq_ok.mp hit
    rw [PyM.pure_run] at hit
    injection hit with hit hw
    injection hit with hit
    injection hit with hi1 hi2
    subst hi1 hi2 hw
    refine (PyM.bind_ok (a := ta) (s₁ := wa) ?_).trans ?_
    · exact ha
    · rw [PyM.bind_ok hb, PyM.bind_ok hc', PyM.bind_ok hd, PyM.bind_ok he]
      dsimp only
      rw [PyM.bind_ok h7', PyM.bind_ok h8, PyM.bind_ok h9]
  · have hall := t1.trans (t6.trans ((Traced.same (b := s₆) o7 rfl rfl rfl rfl).trans (t8.trans t9)))
    have hf : Pipeline.taskFile { s₆ with report := "\n" } i = self.taskFile i := by
      unfold Pipeline.taskFile
      rw [show ({ s₆ with report := "\n" } : Pipeline).reports_dir = self.reports_dir from t6.dir]
    rw [hf] at hall
    exact hall

theorem runTasks_step {self s₆ : Pipeline} {env : Env} {i : ℕ} {c : TaskClass} (rest : List TaskClass) {w w₆ : World} {p : ModelParameters ℝ} {t' : Task}
    (hg : w.Good) (hp : w.heap[self.parameters]? = some p) (hc : c.takesConstants = self.kind.passesConstants)
    (hit : Pipeline.iterativeTask { self with report := self.report ++ ("Initializing Task#" ++ toString i ++ ". Parameters: " ++ env.strParameters p.toList ++ "\n") }
        env ("Task#" ++ toString i ++ ":" ++ c.pyName) c
        { w with stdout := w.stdout ++ [printedLine self.name ("Initializing Task#" ++ toString i ++ ". Parameters: " ++ env.strParameters p.toList)] } =
      (.ok (t', s₆), w₆)) :
    ∃ w₉, Pipeline.runTasks env i (c :: rest) self w = Pipeline.runTasks env (i + 1) rest { s₆ with report := "\n" } w₉ ∧
      Pipeline.Live { s₆ with report := "\n" } w₉ ∧
      (∀ ref q, w₆.heap[ref]? = some q → w₉.heap[ref]? = some (if ref = s₆.parameters then q.releaseAllParameters else q)) ∧
      t'.report.Made env ("Task#" ++ toString i ++ ":" ++ c.pyName) ∧ s₆.best_fit = bestStep self.name self.best_fit t'.report ∧
      Traced self w { s₆ with report := "\n" } w₉ ["Initializing Task#" ++ toString i ++ ". Parameters: " ++ env.strParameters p.toList,
        "Running " ++ ("Task#" ++ toString i ++ ":" ++ c.pyName), "Task#" ++ toString i ++ ":" ++ c.pyName ++ " report: " ++ env.strReport t'.report]
        1 [(self.taskFile i, env.strReport t'.report)] := by
  refine runTasks_step_from rest hg hp ?_
  unfold Pipeline.createTask
  rw [if_pos hc]
  exact hit

theorem runTasks_ok (env : Env) : ∀ (classes : List TaskClass) (i : ℕ) {self self' : Pipeline} {w w' : World}, self.Live w →
    Pipeline.runTasks env i classes self w = (.ok self', w') →
    ∃ rs, TasksDone env ". Parameters: " i (taskNames i classes) self w self' w' rs := by
  intro classes
  induction classes with
  | nil =>
    intro i self self' w w' hl h
    injection h with h1 h2
    injection h1 with h1
    subst h1 h2
    exact ⟨[], hl, .nil, rfl, .same (.refl _) rfl rfl rfl rfl⟩
  | cons c classes ih =>
    intro i self self' w w' hl h
    have h' := h
    unfold Pipeline.runTasks at h
    obtain ⟨p, hp⟩ := hl.2
    rw [PyM.bind_ok (readParams_run hp)] at h
    obtain ⟨s₁, w₁, h1, h⟩ := PyM.bind_eq_ok.mp h
    obtain ⟨t1, hs₁, e1⟩ := Traced.log h1
    obtain ⟨t, w₂, h2, h⟩ := PyM.bind_eq_ok.mp h
    obtain ⟨s₃, w₃, h3, h⟩ := PyM.bind_eq_ok.mp h
    obtain ⟨t', w₄, h4, h⟩ := PyM.bind_eq_ok.mp h
    obtain ⟨s₅, w₅, h5, h⟩ := PyM.bind_eq_ok.mp h
    obtain ⟨s₆, w₆, h6, h⟩ := PyM.bind_eq_ok.mp h
    have hit : Pipeline.taskFrom s₁ env ("Task#" ++ toString i ++ ":" ++ c.pyName) (s₁.createTask ("Task#" ++ toString i ++ ":" ++ c.pyName) c) w₁ =
        (.ok (t', { s₆ with parameters := t'.parameters }), w₆) := by
      unfold Pipeline.taskFrom
      rw [PyM.bind_ok h2, PyM.bind_ok h3, PyM.bind_ok h4, PyM.bind_ok h5, PyM.bind_ok h6]
      rfl
    have hw₁ : w₁ = { w with stdout := w.stdout ++ [printedLine self.name ("Initializing Task#" ++ toString i ++ ". Parameters: " ++ env.strParameters p.toList)] } :=
      (Prod.ext_iff.mp h1).2.symm
    rw [hs₁, hw₁] at hit
    obtain ⟨w₉, r1, r2, -, r3, r4, r5⟩ := runTasks_step_from classes hl.1 hp hit
    rw [r1] at h'
    obtain ⟨rs, hrs⟩ := ih (i + 1) r2 h'
    exact ⟨_, TasksDone.cons (b := { { s₆ with parameters := t'.parameters } with report := "\n" }) r3 r4 r5 hrs⟩

/-- One round of an iterative pipeline is one task. -/
theorem runRounds_ok (env : Env) (nr : ℤ) : ∀ (ks : List ℤ) (i : ℕ) {self self' : Pipeline} {w w' : World}, self.Live w →
    Pipeline.runRounds env nr i ks self w = (.ok self', w') →
    ∃ rs, TasksDone env ". Free parameters: " i (taskNames i (ks.map fun _ => self.kind.fixAccording)) self w self' w' rs := by
  intro ks
  induction ks with
  | nil =>
    intro i self self' w w' hl h
    injection h with h1 h2
    injection h1 with h1
    subst h1 h2
    exact ⟨[], hl, .nil, rfl, .same (.refl _) rfl rfl rfl rfl⟩
  | cons k ks ih =>
    intro i self self' w w' hl h
    unfold Pipeline.runRounds at h
    obtain ⟨chosen, w₀, h0, h⟩ := PyM.bind_eq_ok.mp h
    have g0 := randomlyFreeze_good env self.kind.capped self.parameters k (decide ((i : ℤ) < nr)) w hl.1
    have o0 := randomlyFreeze_outside env self.kind.capped self.parameters k (decide ((i : ℤ) < nr)) w
    rw [h0] at g0 o0
    obtain ⟨s₁, w₁, h1, h⟩ := PyM.bind_eq_ok.mp h
    obtain ⟨t1, rfl, e1⟩ := Traced.log h1
    obtain ⟨⟨t', s₆⟩, w₆, hit, h⟩ := PyM.bind_eq_ok.mp h
    obtain ⟨l6, m6, b6, t6⟩ := iterativeTask_ok (by unfold World.Good; rw [e1]; exact g0) hit
    dsimp only at h
    obtain ⟨s₈, w₈, h8, h⟩ := PyM.bind_eq_ok.mp h
    obtain ⟨t8, rfl, e8, -⟩ := Traced.flush h8
    obtain ⟨u9, w₉, h9, h⟩ := PyM.bind_eq_ok.mp h
    obtain ⟨t9, e9, -⟩ := Traced.save h9
    obtain ⟨p₆, hp6⟩ := l6.2
    obtain ⟨rs, hrs⟩ := ih (i + 1) (w := w₉) ⟨by unfold World.Good; rw [e9, e8]; exact l6.1, p₆, by rw [e9, e8]; exact hp6⟩ h
    have hk : ({ s₆ with report := "\n" } : Pipeline).kind = self.kind := t6.kind
    have hn : (ks.map fun _ => ({ s₆ with report := "\n" } : Pipeline).kind.fixAccording) = ks.map fun _ => self.kind.fixAccording := by rw [hk]
    rw [hn] at hrs
    refine ⟨(env.strNames chosen, t'.report) :: rs, TasksDone.cons (a := self) (b := { s₆ with report := "\n" }) m6 b6 ?_ hrs⟩
    have hall := (Traced.same (a := self) (b := self) o0 rfl rfl rfl rfl).trans (t1.trans (t6.trans (t8.trans t9)))
    have hf : Pipeline.taskFile { s₆ with report := "\n" } i = self.taskFile i := by
      unfold Pipeline.taskFile
      rw [show ({ s₆ with report := "\n" } : Pipeline).reports_dir = self.reports_dir from t6.dir]
    rw [hf] at hall
    exact hall

theorem taskNames_length (l : List TaskClass) : ∀ i, (taskNames i l).length = l.length := by
  induction l with
  | nil => intro i; rfl
  | cons x l ih => intro i; simp only [taskNames, List.length_cons, ih]

/-- A completed `run`. -/
theorem run_ok {self self' : Pipeline} {env : Env} {w w' : World} (hg : w.Good) (h : self.run env w = (.ok self', w')) :
    ∃ p rs rest, w.heap[self.parameters]? = some p ∧
      List.Forall₂ (fun (q : String × Report) n => q.2.Made env n) rs (taskNames 0 self.tasks) ∧
      self'.best_fit = (rs.map Prod.snd).foldl (bestStep self.name) self.best_fit ∧
      Traced self w self' w' (("Starting. Initial parameters: " ++ env.strParameters p.toList) ::
        (taskMessages env ". Parameters: " 0 rs ++ ["Best fit: " ++ env.strBestFit self'.best_fit])) (rs.length + 1)
        (savedFiles self env 0 (rs.map Prod.snd)) ∧
      w'.fs.files self.reportFile = some (self.text w ++ rest) ∧
      ContainsInOrder (("Starting. Initial parameters: " ++ env.strParameters p.toList) ::
        (taskMessages env ". Parameters: " 0 rs ++ ["Best fit: " ++ env.strBestFit self'.best_fit])) rest := by
  unfold Pipeline.run at h
  obtain ⟨p, w₀, h0, h'⟩ := PyM.bind_eq_ok.mp h
  obtain ⟨rfl, hp⟩ := readParams_ok h0
  obtain ⟨s₁, w₁, h1, hA⟩ := PyM.bind_eq_ok.mp h'
  obtain ⟨t1, rfl, e1⟩ := Traced.log h1
  obtain ⟨s₂, w₂, h2, hB⟩ := PyM.bind_eq_ok.mp hA
  obtain ⟨rs, d2⟩ := runTasks_ok env _ 0 ⟨by unfold World.Good; rw [e1]; exact hg, p, by rw [e1]; exact hp⟩ h2
  obtain ⟨s₃, w₃, h3, hC⟩ := PyM.bind_eq_ok.mp hB
  obtain ⟨t3, rfl, e3⟩ := Traced.log h3
  obtain ⟨t4, rfl, e4, f4⟩ := Traced.flush hC
  have t2 := d2.traced
  have hsf : ∀ s l i, savedFiles { self with report := s } env i l = savedFiles self env i l := fun s l i => savedFiles_congr (self := self) (self' := { self with report := s }) rfl env l i
  rw [hsf] at t2
  have t5 := t1.trans (t2.trans t3)
  have t6 := t5.trans t4
  obtain ⟨rest, r1, r2, -⟩ := t5.logged
  refine ⟨p, rs, rest, hp, d2.made, d2.best, ?_, ?_, ?_⟩
  · simp only [List.append_nil, zero_add, add_zero, List.nil_append] at t6
    exact t6
  · rw [t5.reportFile, r1] at f4; exact f4
  · exact r2

/-- A completed `run` of an iterative pipeline. -/
theorem runIterative_ok {self self' : Pipeline} {env : Env} {its : Iterations} {w w' : World} (hg : w.Good)
    (h : self.runIterative env its w = (.ok self', w')) :
    ∃ p rs r rest, w.heap[self.parameters]? = some p ∧
      List.Forall₂ (fun (q : String × Report) n => q.2.Made env n) rs
        (taskNames 0 (its.free_params_numbers.map fun _ => self.kind.fixAccording)) ∧
      r.Made env ("Task#" ++ toString its.free_params_numbers.length ++ ":" ++ self.kind.fullFit.pyName) ∧
      self'.best_fit = (rs.map Prod.snd ++ [r]).foldl (bestStep self.name) self.best_fit ∧
      Traced self w self' w' (("Starting. Initial parameters: " ++ env.strParameters p.toList) ::
        (taskMessages env ". Free parameters: " 0 rs ++ ["Initializing Task#" ++ toString its.free_params_numbers.length ++ ". Full fit.",
          "Running " ++ r.name, r.name ++ " report: " ++ env.strReport r, "Best fit: " ++ env.strBestFit self'.best_fit])) (rs.length + 1)
        (savedFiles self env 0 (rs.map Prod.snd ++ [r])) ∧
      w'.fs.files self.reportFile = some (self.text w ++ rest) ∧
      ContainsInOrder (("Starting. Initial parameters: " ++ env.strParameters p.toList) ::
        (taskMessages env ". Free parameters: " 0 rs ++ ["Initializing Task#" ++ toString its.free_params_numbers.length ++ ". Full fit.",
          "Running " ++ r.name, r.name ++ " report: " ++ env.strReport r, "Best fit: " ++ env.strBestFit self'.best_fit])) rest := by
  unfold Pipeline.runIterative at h
  obtain ⟨p, w₀, h0, h'⟩ := PyM.bind_eq_ok.mp h
  obtain ⟨rfl, hp⟩ := readParams_ok h0
  obtain ⟨s₁, w₁, h1, hA⟩ := PyM.bind_eq_ok.mp h'
  obtain ⟨t1, rfl, e1⟩ := Traced.log h1
  obtain ⟨s₂, w₂, h2, hB⟩ := PyM.bind_eq_ok.mp hA
  obtain ⟨rs, d2⟩ := runRounds_ok env _ _ 0 ⟨by unfold World.Good; rw [e1]; exact hg, p, by rw [e1]; exact hp⟩ h2
  obtain ⟨s₃, w₃, h3, hC⟩ := PyM.bind_eq_ok.mp hB
  obtain ⟨t3, rfl, e3⟩ := Traced.log h3
  obtain ⟨⟨t', s₄⟩, w₄, hit, hD⟩ := PyM.bind_eq_ok.mp hC
  obtain ⟨l4, m4, b4, t4⟩ := iterativeTask_ok (by unfold World.Good; rw [e3]; exact d2.live.1) hit
  dsimp only at hD
  obtain ⟨s₅, w₅, h5, hE⟩ := PyM.bind_eq_ok.mp hD
  obtain ⟨t5, rfl, e5⟩ := Traced.log h5
  obtain ⟨s₆, w₆, h6, hF⟩ := PyM.bind_eq_ok.mp hE
  obtain ⟨t6, rfl, e6, f6⟩ := Traced.flush h6
  obtain ⟨u7, w₇, h7, hG⟩ := PyM.bind_eq_ok.mp hF
  obtain ⟨t7, e7, f7⟩ := Traced.save h7
  rw [PyM.pure_run] at hG
  injection hG with hG hw
  injection hG with hG
  subst hG hw
  have t2 := d2.traced
  have hsf : ∀ s l i, savedFiles { self with report := s } env i l = savedFiles self env i l := fun s l i => savedFiles_congr (self := self) (self' := { self with report := s }) rfl env l i
  rw [hsf] at t2
  have hall := t1.trans (t2.trans (t3.trans (t4.trans t5)))
  have hall' := hall.trans (t6.trans t7)
  obtain ⟨rest, r1, r2, -⟩ := hall.logged
  have hlen : (rs.map Prod.snd).length = its.free_params_numbers.length := by
    have := d2.made.length_eq
    rw [List.length_map, this]
    rw [taskNames_length, List.length_map]
  have hk : s₂.kind = self.kind := d2.traced.kind
  have m4' : t'.report.Made env ("Task#" ++ toString its.free_params_numbers.length ++ ":" ++ self.kind.fullFit.pyName) := by
    have := m4; rw [show ({ s₂ with report := _ } : Pipeline).kind = self.kind from hk] at this; exact this
  refine ⟨p, rs, t'.report, rest, hp, d2.made, m4', ?_, ?_, ?_, ?_⟩
  · show s₄.best_fit = _
    rw [b4, List.foldl_append, ← d2.best]
    show bestStep s₂.name s₂.best_fit _ = bestStep self.name s₂.best_fit _
    rw [d2.traced.name]
  · rw [m4.1, savedFiles_append, hlen]
    simp only [List.append_nil, zero_add, add_zero, List.nil_append] at hall'
    rw [show Pipeline.taskFile { s₄ with report := "\n" } its.free_params_numbers.length = self.taskFile its.free_params_numbers.length from by
      unfold Pipeline.taskFile; rw [show ({ s₄ with report := "\n" } : Pipeline).reports_dir = self.reports_dir from t4.dir.trans d2.traced.dir]] at hall'
    rw [zero_add]
    exact hall'
  · rw [← r1]
    rw [show Pipeline.reportFile self = Pipeline.reportFile { s₄ with report := "\n" } from by
      unfold Pipeline.reportFile; rw [show ({ s₄ with report := "\n" } : Pipeline).reports_dir = self.reports_dir from t4.dir.trans d2.traced.dir], f7]
    exact f6
  · rw [m4.1]; exact r2

theorem log_fs {self self' : Pipeline} {msg : String} {w w' : World} (h : self.log msg w = (.ok self', w')) : w'.fs = w.fs := by
  have h' : ((Except.ok { self with report := self.report ++ (msg ++ "\n") } : Except PyErr Pipeline),
      { w with stdout := w.stdout ++ ["Pipeline " ++ self.name ++ ": " ++ msg ++ "\n"] }) = (.ok self', w') := h
  injection h' with h1 h2
  subst h2
  rfl

/-- A task that is run without touching the best fit. -/
theorem bareTask_ok {self : Pipeline} {env : Env} {task_name : String} {cls : TaskClass} {w w₁ w₂ w₃ w₄ : World} {t t' : Task} {s s' : Pipeline}
    (hl : w.Good) (h1 : self.newTask task_name cls w = (.ok t, w₁)) (h2 : self.log ("Running " ++ task_name) w₁ = (.ok s, w₂))
    (h3 : t.run env w₂ = (.ok t', w₃)) (h4 : s.log (task_name ++ " report: " ++ env.strReport t'.report) w₃ = (.ok s', w₄)) :
    t'.report.Made env task_name ∧ s'.best_fit = self.best_fit ∧ w₄.fs = w.fs ∧
      Traced self w s' w₄ ["Running " ++ task_name, task_name ++ " report: " ++ env.strReport t'.report] 0 [] := by
  obtain ⟨rfl, n1, n2, n3, n4, p, hp⟩ := newTask_ok h1
  obtain ⟨t1, rfl, e1⟩ := Traced.log h2
  have hg2 : w₂.Good := by unfold World.Good; rw [e1]; exact hl
  have ho3 : SameOutside w₂ w₃ := by have := run_outside t env w₂; rw [h3] at this; exact this
  have hp2 : w₂.heap[t.parameters]? = some p := by rw [e1, n1]; exact hp
  obtain ⟨p₂, r1, r2, r3, r4⟩ := run_result hp2 (hg2.read hp2) h3
  obtain ⟨t2, rfl, e2⟩ := Traced.log h4
  refine ⟨?_, rfl, ?_, ?_⟩
  · rcases r4 with ⟨m, r4⟩ | ⟨ordered, ys, fs, chi, cov, r4, r5⟩
    · exact ⟨by rw [r4]; exact n3, none, by rw [r4], by rw [r4]; exact n4⟩
    · exact ⟨by rw [r5]; exact n3, some chi, by rw [r5]; rfl, by rw [r5]; rfl⟩
  · rw [log_fs h4, ho3.1, log_fs h2]
  · have t3 := t1.trans ((Traced.same (b := { self with report := self.report ++ ("Running " ++ task_name ++ "\n") }) ho3 rfl rfl rfl rfl).trans t2)
    exact t3

/-- A completed `run` of the iterative nucleon cross section pipeline: the last three messages do not get into the file. -/
theorem runNucleonCSIterative_ok {self self' : Pipeline} {env : Env} {its : Iterations} {w w' : World} (hg : w.Good)
    (h : self.runNucleonCSIterative env its w = (.ok self', w')) :
    ∃ p rs r res rest, w.heap[self.parameters]? = some p ∧
      List.Forall₂ (fun (q : String × Report) n => q.2.Made env n) rs
        (taskNames 0 (its.free_params_numbers.map fun _ => self.kind.fixAccording)) ∧
      r.Made env ("Task#" ++ toString its.free_params_numbers.length ++ ":" ++ fullFitName its) ∧
      res.Made env ("Task#" ++ toString (its.free_params_numbers.length + 1) ++ ":" ++ TaskClass.residual.pyName) ∧
      self'.best_fit = (rs.map Prod.snd ++ [r]).foldl (bestStep self.name) self.best_fit ∧
      Traced self w self' w' ((("Starting. Initial parameters: " ++ env.strParameters p.toList) ::
        (taskMessages env ". Free parameters: " 0 rs ++ ["Initializing Task#" ++ toString its.free_params_numbers.length ++ ". " ++ fullFitName its ++ ".",
          "Running " ++ r.name, r.name ++ " report: " ++ env.strReport r, "Best fit: " ++ env.strBestFit self'.best_fit])) ++
        ["Initializing Task#" ++ toString (its.free_params_numbers.length + 1) ++ ". Residuals.", "Running " ++ res.name,
          res.name ++ " report: " ++ env.strReport res]) (rs.length + 1)
        (savedFiles self env 0 (rs.map Prod.snd ++ [r, res])) ∧
      w'.fs.files self.reportFile = some (self.text w ++ rest) ∧
      ContainsInOrder (("Starting. Initial parameters: " ++ env.strParameters p.toList) ::
        (taskMessages env ". Free parameters: " 0 rs ++ ["Initializing Task#" ++ toString its.free_params_numbers.length ++ ". " ++ fullFitName its ++ ".",
          "Running " ++ r.name, r.name ++ " report: " ++ env.strReport r, "Best fit: " ++ env.strBestFit self'.best_fit])) rest ∧
      rest.length = linesLength (("Starting. Initial parameters: " ++ env.strParameters p.toList) ::
        (taskMessages env ". Free parameters: " 0 rs ++ ["Initializing Task#" ++ toString its.free_params_numbers.length ++ ". " ++ fullFitName its ++ ".",
          "Running " ++ r.name, r.name ++ " report: " ++ env.strReport r, "Best fit: " ++ env.strBestFit self'.best_fit])) + rs.length := by
  unfold Pipeline.runNucleonCSIterative at h
  obtain ⟨p, w₀, h0, h'⟩ := PyM.bind_eq_ok.mp h
  obtain ⟨rfl, hp⟩ := readParams_ok h0
  obtain ⟨s₁, w₁, h1, hA⟩ := PyM.bind_eq_ok.mp h'
  obtain ⟨t1, rfl, e1⟩ := Traced.log h1
  obtain ⟨s₂, w₂, h2, hB⟩ := PyM.bind_eq_ok.mp hA
  obtain ⟨rs, d2⟩ := runRounds_ok env _ _ 0 ⟨by unfold World.Good; rw [e1]; exact hg, p, by rw [e1]; exact hp⟩ h2
  obtain ⟨u, wa, ha, hB'⟩ := PyM.bind_eq_ok.mp hB
  have ga := release_good s₂.parameters w₂ d2.live.1
  have oa := mutateParams_outside s₂.parameters (fun p => (.ok (), p.releaseAllParameters)) w₂
  rw [ha] at ga oa
  -- fixing the resonances or not
  obtain ⟨wb, gb, ob, hB''⟩ : ∃ wb : World, wb.Good ∧ SameOutside wa wb ∧ (do
      let self ← s₂.log ("Initializing Task#" ++ toString its.free_params_numbers.length ++ ". " ++ fullFitName its ++ ".")
      let task_name := "Task#" ++ toString its.free_params_numbers.length ++ ":" ++ fullFitName its
      let (task, self) ← self.iterativeTask env task_name .nucleonCSFixAccording
      let self ← self.log ("Best fit: " ++ env.strBestFit self.best_fit)
      let self ← self.flushReport
      self.saveReport env (toString its.free_params_numbers.length) task.report
      let number := toString (its.free_params_numbers.length + 1)
      let self ← self.log ("Initializing Task#" ++ number ++ ". Residuals.")
      let task_name := "Task#" ++ number ++ ":" ++ TaskClass.residual.pyName
      let task ← self.newTask task_name .residual
      let self ← self.log ("Running " ++ task_name)
      let task ← task.run env
      let self ← self.log (task_name ++ " report: " ++ env.strReport task.report)
      self.saveReport env number task.report
      return self : PyM World Pipeline) wb = (.ok self', w') := by
    by_cases hf : decide ((its.free_params_numbers.length : ℤ) < its.nr_initial_rounds_with_fixed_resonances) = true
    · unfold fullFitName
      dsimp only at hB'
      rw [if_pos hf] at hB' ⊢
      rw [if_pos hf] at hB'
      obtain ⟨u, wb, hb, hB''⟩ := PyM.bind_eq_ok.mp hB'
      have gb := mutateParams_good s₂.parameters (f := fun p => p.fixResonances) (fun _ hp => .step .fixResonances hp) wa ga
      have ob := mutateParams_outside s₂.parameters (fun p => p.fixResonances) wa
      rw [hb] at gb ob
      exact ⟨wb, gb, ob, hB''⟩
    · unfold fullFitName
      dsimp only at hB'
      rw [if_neg hf] at hB' ⊢
      rw [if_neg hf] at hB'
      exact ⟨wa, ga, .refl _, hB'⟩
  clear hB' hB hA h' h
  obtain ⟨s₃, w₃, h3, hC⟩ := PyM.bind_eq_ok.mp hB''
  obtain ⟨t3, rfl, e3⟩ := Traced.log h3
  obtain ⟨⟨t', s₄⟩, w₄, hit, hD⟩ := PyM.bind_eq_ok.mp hC
  obtain ⟨l4, m4, b4, t4⟩ := iterativeTask_ok (by unfold World.Good; rw [e3]; exact gb) hit
  dsimp only at hD
  obtain ⟨s₅, w₅, h5, hE⟩ := PyM.bind_eq_ok.mp hD
  obtain ⟨t5, rfl, e5⟩ := Traced.log h5
  obtain ⟨s₆, w₆, h6, hF⟩ := PyM.bind_eq_ok.mp hE
  obtain ⟨t6, rfl, e6, f6⟩ := Traced.flush h6
  obtain ⟨u7, w₇, h7, hG⟩ := PyM.bind_eq_ok.mp hF
  obtain ⟨t7, e7, f7⟩ := Traced.save h7
  obtain ⟨s₈, w₈, h8, hH⟩ := PyM.bind_eq_ok.mp hG
  obtain ⟨t8, rfl, e8⟩ := Traced.log h8
  obtain ⟨tr, w₉, h9, hI⟩ := PyM.bind_eq_ok.mp hH
  obtain ⟨s10, w10, h10, hJ⟩ := PyM.bind_eq_ok.mp hI
  obtain ⟨tr', w11, h11, hK⟩ := PyM.bind_eq_ok.mp hJ
  obtain ⟨s12, w12, h12, hL⟩ := PyM.bind_eq_ok.mp hK
  obtain ⟨m12, b12, f12, t12⟩ := bareTask_ok (by unfold World.Good; rw [e8, e7, e6, e5]; exact l4.1) h9 h10 h11 h12
  obtain ⟨u13, w13, h13, hM⟩ := PyM.bind_eq_ok.mp hL
  obtain ⟨t13, e13, f13⟩ := Traced.save h13
  rw [PyM.pure_run] at hM
  injection hM with hM hw
  injection hM with hM
  subst hM hw
  have t2 := d2.traced
  have hsf : ∀ s l i, savedFiles { self with report := s } env i l = savedFiles self env i l := fun s l i => savedFiles_congr (self := self) (self' := { self with report := s }) rfl env l i
  rw [hsf] at t2
  have hall := t1.trans (t2.trans ((Traced.same (b := s₂) (oa.trans _ _ _ ob) rfl rfl rfl rfl).trans (t3.trans (t4.trans t5))))
  have hlast := t8.trans (t12.trans t13)
  have hall' := hall.trans ((t6.trans t7).trans hlast)
  obtain ⟨rest, r1, r2, r3⟩ := hall.logged
  have hlen : (rs.map Prod.snd).length = its.free_params_numbers.length := by
    have := d2.made.length_eq
    rw [List.length_map, this]
    rw [taskNames_length, List.length_map]
  have hb' : s12.best_fit = s₄.best_fit := b12
  have hfile : ∀ s : Pipeline, s.reports_dir = s₄.reports_dir → ∀ i, s.taskFile i = self.taskFile i := by
    intro s hs i
    unfold Pipeline.taskFile; rw [hs.trans (t4.dir.trans d2.traced.dir)]
  have hrep : ∀ s : Pipeline, s.reports_dir = s₄.reports_dir → s.reportFile = self.reportFile := by
    intro s hs
    unfold Pipeline.reportFile; rw [hs.trans (t4.dir.trans d2.traced.dir)]
  have hd12 : s12.reports_dir = s₄.reports_dir := t12.dir
  refine ⟨p, rs, t'.report, tr'.report, rest, hp, d2.made, m4, m12, ?_, ?_, ?_, ?_, ?_⟩
  · rw [hb', b4, List.foldl_append, ← d2.best]
    show bestStep s₂.name s₂.best_fit _ = bestStep self.name s₂.best_fit _
    rw [d2.traced.name]
  · rw [m4.1, m12.1, savedFiles_append, hlen, hb']
    simp only [List.append_nil, zero_add, add_zero, List.nil_append] at hall'
    rw [hfile { s₄ with report := "\n" } rfl, hfile s12 hd12] at hall'
    rw [zero_add]
    exact hall'
  · rw [← r1, ← hrep s12 hd12, f13, hrep s12 hd12, f12, log_fs h8, ← hrep { s₄ with report := "\n" } rfl, f7]
    exact f6
  · rw [m4.1, hb']; exact r2
  · rw [m4.1, hb', r3, zero_add]; rfl

end UA
