import Verif.Lemmas.PipelinesBest
import Verif.Lemmas.TasksWitness

/-!
# A concrete pipeline for the examples
-/

namespace UA

/-- If its task completes, so does the step. -/
theorem iterativeTask_run {self : Pipeline} {env : Env} {task_name : String} {cls : TaskClass} {w w₃ : World} {t t' : Task} (hg : w.Good)
    (h1 : self.newTask task_name cls w = (.ok t, w))
    (h3 : t.run env { w with stdout := w.stdout ++ [printedLine self.name ("Running " ++ task_name)] } = (.ok t', w₃)) :
    ∃ s' w', self.iterativeTask env task_name cls w = (.ok (t', s'), w') ∧ w'.heap = w₃.heap ∧ s'.parameters = t'.parameters := by
  obtain ⟨-, n1, n2, n3, n4, p, hp⟩ := newTask_ok h1
  have hp2 : ({ w with stdout := w.stdout ++ [printedLine self.name ("Running " ++ task_name)] } : World).heap[t.parameters]? = some p := by rw [n1]; exact hp
  obtain ⟨p₂, r1, r2, r3, r4⟩ := run_result hp2 (hg.read hp) h3
  have hord : ∃ v, p₂.getOrderedValues = .ok v := by
    obtain ⟨v, hv⟩ := (reachable_wellFormed r2).exists_values
    exact ⟨_, (reachable_wellFormed r2).orderedValues hv⟩
  obtain ⟨v, hv⟩ := hord
  have hup : ∀ s : Pipeline, ∀ w₄ : World, w₄.heap = w₃.heap → ∃ s₅, s.updateBestFit t' w₄ = (.ok s₅, w₄) := by
    intro s w₄ hw
    unfold Pipeline.updateBestFit
    rcases t'.report.chi_squared with _ | c
    · exact ⟨_, rfl⟩
    · dsimp only
      split_ifs
      · exact ⟨_, rfl⟩
      · rw [PyM.bind_ok (readParams_run (by rw [hw]; exact r1)), hv, PyM.bind_ok (PyM.lift_run _ _)]
        exact ⟨_, rfl⟩
      · exact ⟨_, rfl⟩
  unfold Pipeline.iterativeTask
  rw [PyM.bind_ok h1]
  have h2 : self.log ("Running " ++ task_name) w = (.ok { self with report := self.report ++ ("Running " ++ task_name ++ "\n") },
      { w with stdout := w.stdout ++ [printedLine self.name ("Running " ++ task_name)] }) := rfl
  rw [PyM.bind_ok h2, PyM.bind_ok h3]
  obtain ⟨s₄, w₄, h4⟩ : ∃ s₄ w₄, Pipeline.log { self with report := self.report ++ ("Running " ++ task_name ++ "\n") }
    (task_name ++ " report: " ++ env.strReport t'.report) w₃ = (.ok s₄, w₄) := ⟨_, _, rfl⟩
  rw [PyM.bind_ok h4]
  obtain ⟨-, -, e4⟩ := Traced.log h4
  obtain ⟨s₅, h5⟩ := hup s₄ w₄ e4
  rw [PyM.bind_ok h5]
  exact ⟨_, _, rfl, e4, rfl⟩

/-- An environment whose fits of `poles a` find the amplitude `g a`; a report is shown by its chi squared. -/
noncomputable def polesEnv (g : ℝ → ℝ) (strFloat : PyFloat → String) : Env where
  curve_fit _ problem := .done (.ok ([g (problem.p0.headD 0), 1, 1], []))
  plot _ := .ok ()
  sample _ names k := names.take k
  strFloat := strFloat
  strParameters _ := ""
  strNames _ := ""
  strReport r := r.chi_squared.getD "None"
  strBestFit b := b.chi_squared.getD "None"
  mkdirFails _ := false
  numpy _ := true

/-- Full fits of two poles to four points. -/
noncomputable def polesPipeline (tasks : List TaskClass) : Pipeline where
  kind := .nucleonFF
  name := "P"
  parameters := 0
  tasks := tasks
  ts := List.replicate 4 (.nucleon 2 true true)
  ys := List.replicate 4 0
  errors := List.replicate 4 2
  reports_dir := "reports/P"
  plot := false
  use_handpicked_bounds := false
  constants := ⟨1, 1, 1⟩
  report := "Report P:\n"
  best_fit := .nothing

theorem startWorld_good (a : ℝ) : (startWorld [poles a]).Good := by
  intro p hp
  rw [List.mem_singleton.mp hp]
  exact poles_reachable a

/-- One full fit. -/
theorem poles_iterativeTask {g : ℝ → ℝ} {str : PyFloat → String} {self : Pipeline} {tasks : List TaskClass} (hcfg : self.config = (polesPipeline tasks).config)
    {w : World} (hg : w.Good) {a : ℝ} (hp : w.heap[self.parameters]? = some (poles a)) (task_name : String) (c : TaskClass)
    (hc : c = .nucleonFFFull ∨ c = .nucleonFFFixAccording) :
    ∃ t' s' w', self.iterativeTask (polesEnv g str) task_name c w = (.ok (t', s'), w') ∧
      t'.report.Says (polesEnv g str) (some (.finite ((g a) ^ 2))) ∧ w'.heap[s'.parameters]? = some (poles (g a)) := by
  have cts : self.ts = List.replicate 4 (.nucleon 2 true true) := congrArg Pipeline.ts hcfg
  have cys : self.ys = List.replicate 4 0 := congrArg Pipeline.ys hcfg
  have cer : self.errors = List.replicate 4 2 := congrArg Pipeline.errors hcfg
  have chb : self.use_handpicked_bounds = false := congrArg Pipeline.use_handpicked_bounds hcfg
  obtain ⟨bounds, hb⟩ := poles_bounds a false
  obtain ⟨t, hn, q1, q2, q3, q4, q5, q6, q7⟩ : ∃ t, self.newTask task_name c w = (.ok t, w) ∧ t.cls = c ∧ t.parameters = self.parameters ∧
      t.ts = List.replicate 4 (.nucleon 2 true true) ∧ t.ys = List.replicate 4 0 ∧ t.errors = List.replicate 4 2 ∧ t.use_handpicked_bounds = false ∧
      t.partial_f = none := by
    unfold Pipeline.newTask Task.init
    rw [PyM.bind_ok (readParams_run hp)]
    exact ⟨_, rfl, rfl, rfl, cts, cys, cer, chb, rfl⟩
  generalize hw1 : ({ w with stdout := w.stdout ++ [printedLine self.name ("Running " ++ task_name)] } : World) = w₁
  have hheap : w₁.heap = w.heap := by rw [← hw1]
  have hp1 : w₁.heap[t.parameters]? = some (poles a) := by rw [hheap, q2]; exact hp
  have hset : t.setUp w₁ = (.ok { t with partial_f := some (.ofPartial ⟨.formFactor, w₁.heap.length⟩) }, { w₁ with heap := w₁.heap ++ [poles a] }) := by
    have hwp := withPartial_run hp1 (poles_reachable a) .formFactor
    rcases hc with hc | hc
    · have : t.setUp = (do
          mutateParams t.parameters fun p => (.ok (), p.releaseAllParameters)
          t.withPartial .formFactor) := by unfold Task.setUp; rw [q1, hc]
      rw [this, PyM.bind_ok (mutateParams_run hp1 _)]
      rw [show (poles a).releaseAllParameters = poles a from rfl, set_self hp1]
      exact hwp
    · have : t.setUp = t.withPartial .formFactor := by unfold Task.setUp; rw [q1, hc]
      rw [this]
      exact hwp
  have hl := heap_set_append hp1
  have hr := run_cases (p := poles a) hset rfl (by show (w₁.heap ++ [poles a])[t.parameters]? = _; rw [List.getElem?_append_left hl]; exact hp1)
    (poles_reachable a) ⟨hl.ne', poles a, List.getElem?_concat_length, .refl _⟩ (by show (poles a).getBoundsForFreeParameters t.use_handpicked_bounds = _; rw [q6]; exact hb) (polesEnv g str)
  obtain ⟨h1, h2⟩ := hr.2.1 [g a, 1, 1] [] rfl
  obtain ⟨ordered, -, hrun⟩ := h2 () (by rw [poles_update])
  have hval : (TaskF.ofPartial ⟨.formFactor, w₁.heap.length⟩).value (poles a) t.ts [g a, 1, 1] = .ok (List.replicate 4 |g a|) := by
    rw [q3]
    unfold TaskF.value
    unfold partialSpec
    rw [poles_update]
    exact poles_value (g a) 4 true true
  have he : ∀ e ∈ t.errors, e ≠ 0 := by rw [q5]; intro e he; rw [List.eq_of_mem_replicate he]; norm_num
  have hchi : ∀ b, chiSquared b (List.zipWith (fun data fit => (data - fit) ^ 2) t.ys (List.replicate 4 |g a|)) t.errors [g a, 1, 1].length =
      .ok (.finite ((g a) ^ 2)) := by
    intro b
    rw [chiSquared_eq (by rw [q4]; rfl) he (by rw [q4]; simp)]
    rw [q4, q5]
    congr 2
    simp [reducedChiSquared, List.replicate]
    norm_num [div_pow]
    ring
  dsimp only at hrun
  rw [hval] at hrun
  dsimp only at hrun
  rw [hchi] at hrun
  dsimp only at hrun
  rw [show (if t.reports_dir = none ∨ t.reports_dir = some "" then (.ok () : Except PyErr Unit) else (polesEnv g str).plot w₁.plots) = .ok () from by split_ifs <;> rfl] at hrun
  dsimp only at hrun
  rcases hrr : t.run (polesEnv g str) w₁ with ⟨r, w₃⟩
  rw [hrr] at hrun h1
  dsimp only at hrun h1
  subst hrun
  obtain ⟨s', w', k1, k2, k3⟩ := iterativeTask_run hg hn (by rw [hw1]; exact hrr)
  refine ⟨_, s', w', k1, ⟨rfl, rfl⟩, ?_⟩
  rw [k2, k3]
  rw [poles_update] at h1
  exact h1

/-- Any number of full fits: they complete, with these chi squared. -/
theorem poles_runTasks (g : ℝ → ℝ) (str : PyFloat → String) {tasks : List TaskClass} : ∀ (n i : ℕ) {self : Pipeline} {w : World} {a : ℝ},
    self.config = (polesPipeline tasks).config → w.Good → w.heap[self.parameters]? = some (poles a) →
    ∃ self' w' rs, Pipeline.runTasks (polesEnv g str) i (List.replicate n .nucleonFFFull) self w = (.ok self', w') ∧
      TasksDone (polesEnv g str) ". Parameters: " i (taskNames i (List.replicate n .nucleonFFFull)) self w self' w' rs ∧
      List.Forall₂ (fun (q : String × Report) x => q.2.Says (polesEnv g str) (some x)) rs ((List.range n).map fun k => PyFloat.finite ((g^[k + 1] a) ^ 2)) := by
  intro n
  induction n with
  | zero =>
    intro i self w a hcfg hg hp
    exact ⟨self, w, [], rfl, ⟨⟨hg, _, hp⟩, .nil, rfl, .same (.refl _) rfl rfl rfl rfl⟩, .nil⟩
  | succ n ih =>
    intro i self w a hcfg hg hp
    obtain ⟨t', s', w', h1, h2, h3⟩ := poles_iterativeTask (g := g) (str := str)
      (self := { self with report := self.report ++ ("Initializing Task#" ++ toString i ++ ". Parameters: " ++ (polesEnv g str).strParameters (poles a).toList ++ "\n") })
      (w := { w with stdout := w.stdout ++ [printedLine self.name ("Initializing Task#" ++ toString i ++ ". Parameters: " ++ (polesEnv g str).strParameters (poles a).toList)] })
      hcfg hg hp ("Task#" ++ toString i ++ ":" ++ TaskClass.nucleonFFFull.pyName) .nucleonFFFull (.inl rfl)
    have hk : self.kind = .nucleonFF := congrArg Pipeline.kind hcfg
    obtain ⟨w₉, r1, r2, r3, r4, r5, r6⟩ := runTasks_step (List.replicate n .nucleonFFFull) hg hp (by rw [hk]; rfl) h1
    have hp9 : w₉.heap[s'.parameters]? = some (poles (g a)) := by rw [r3 _ _ h3, if_pos rfl]; rfl
    obtain ⟨self', w'', rs, i1, i2, i3⟩ := ih (i + 1) (r6.config.trans hcfg) r2.1 hp9
    refine ⟨self', w'', _, by rw [List.replicate_succ, r1]; exact i1, TasksDone.cons (b := { s' with report := "\n" }) r4 r5 r6 i2, ?_⟩
    rw [List.range_succ_eq_map, List.map_cons, List.map_map]
    refine .cons h2 ?_
    have : ((fun k => PyFloat.finite ((g^[k + 1] a) ^ 2)) ∘ Nat.succ) = fun k => PyFloat.finite ((g^[k + 1] (g a)) ^ 2) := by
      funext k; rfl
    rw [this]; exact i3

/-- A whole run. -/
theorem poles_run (g : ℝ → ℝ) (str : PyFloat → String) (n : ℕ) (a : ℝ) :
    ∃ self' w' rs, (polesPipeline (List.replicate n .nucleonFFFull)).run (polesEnv g str) (startWorld [poles a]) = (.ok self', w') ∧
      self'.best_fit = (rs.map Prod.snd).foldl (bestStep "P") .nothing ∧
      (∃ ms k, Traced (polesPipeline (List.replicate n .nucleonFFFull)) (startWorld [poles a]) self' w' ms k
        (savedFiles (polesPipeline (List.replicate n .nucleonFFFull)) (polesEnv g str) 0 (rs.map Prod.snd))) ∧
      List.Forall₂ (fun (q : String × Report) m => q.2.Made (polesEnv g str) m) rs (taskNames 0 (List.replicate n .nucleonFFFull)) ∧
      List.Forall₂ (fun (q : String × Report) x => q.2.Says (polesEnv g str) (some x)) rs ((List.range n).map fun k => PyFloat.finite ((g^[k + 1] a) ^ 2)) := by
  unfold Pipeline.run
  have hp : (startWorld [poles a]).heap[(polesPipeline (List.replicate n .nucleonFFFull)).parameters]? = some (poles a) := rfl
  rw [PyM.bind_ok (readParams_run hp)]
  obtain ⟨s₁, w₁, h1⟩ : ∃ s₁ w₁, (polesPipeline (List.replicate n .nucleonFFFull)).log
    ("Starting. Initial parameters: " ++ (polesEnv g str).strParameters (poles a).toList) (startWorld [poles a]) = (.ok s₁, w₁) := ⟨_, _, rfl⟩
  obtain ⟨t1, hs1, e1⟩ := Traced.log h1
  obtain ⟨s₂, w₂, rs, h2, d2, f2⟩ := poles_runTasks g str (tasks := List.replicate n .nucleonFFFull) n 0 (self := s₁) (w := w₁) (a := a) t1.config
    (by unfold World.Good; rw [e1]; exact startWorld_good a) (by rw [e1, hs1]; rfl)
  rw [PyM.bind_ok h1, show s₁.tasks = List.replicate n .nucleonFFFull from by rw [hs1]; rfl, PyM.bind_ok h2]
  obtain ⟨s₃, w₃, h3⟩ : ∃ s₃ w₃, s₂.log ("Best fit: " ++ (polesEnv g str).strBestFit s₂.best_fit) w₂ = (.ok s₃, w₃) := ⟨_, _, rfl⟩
  rw [PyM.bind_ok h3]
  obtain ⟨t3, hs3, -⟩ := Traced.log h3
  obtain ⟨s₄, w₄, h4⟩ : ∃ s₄ w₄, s₃.flushReport w₃ = (.ok s₄, w₄) := ⟨_, _, rfl⟩
  obtain ⟨t4, hs4, -⟩ := Traced.flush h4
  refine ⟨s₄, w₄, rs, h4, ?_, ?_, d2.made, f2⟩
  · rw [hs4, hs3]
    show s₂.best_fit = _
    rw [d2.best, hs1]; rfl
  · have t2 := d2.traced
    rw [savedFiles_congr (self := polesPipeline (List.replicate n .nucleonFFFull)) (self' := s₁) (by rw [hs1])] at t2
    have := t1.trans (t2.trans (t3.trans t4))
    simp only [List.append_nil, List.nil_append] at this
    exact ⟨_, _, this⟩

/-- Freezing down to three free parameters leaves two poles as they are. -/
theorem poles_freeze (g : ℝ → ℝ) (str : PyFloat → String) {w : World} {ref : ℕ} {a : ℝ} (hp : w.heap[ref]? = some (poles a)) :
    randomlyFreezeParameters (polesEnv g str) false ref 3 false w = (.ok ["a", "m_1", "m_2"], { w with samples := w.samples + 1 }) := by
  unfold randomlyFreezeParameters
  rw [PyM.bind_ok (mutateParams_run hp _)]
  rw [show (poles a).releaseAllParameters = poles a from rfl, set_self hp]
  rw [if_neg (by decide)]
  dsimp only
  rw [PyM.bind_ok (readParams_run hp)]
  have hl := heap_set_append hp
  have hs : (polesEnv g str).randomSample (((poles a).toList.filter (!·.is_fixed)).map (·.name)) (if false = true then
      min ((((poles a).toList.filter (!·.is_fixed)).map (·.name)).length : ℤ) 3 else 3) w = (.ok ["a", "m_1", "m_2"], { w with samples := w.samples + 1 }) := rfl
  rw [PyM.bind_ok hs]
  rw [PyM.bind_ok (mutateParams_run (w := { w with samples := w.samples + 1 }) hp _)]
  have hp' : (w.heap.set ref (poles a).fixAllParameters)[ref]? = some (poles a).fixAllParameters := List.getElem?_set_self hl
  rw [PyM.bind_ok (a := ()) (mutateParams_run (w := { w with heap := w.heap.set ref (poles a).fixAllParameters, samples := w.samples + 1 }) hp' _)]
  have hr : (poles a).fixAllParameters.releaseParameters ["a", "m_1", "m_2"] = (.ok (), poles a) := rfl
  rw [hr]
  dsimp only
  rw [List.set_set, set_self hp]
  rfl

/-- Rounds with three free parameters. -/
theorem poles_runRounds (g : ℝ → ℝ) (str : PyFloat → String) {tasks : List TaskClass} : ∀ (n i : ℕ) {self : Pipeline} {w : World} {a : ℝ},
    self.config = (polesPipeline tasks).config → w.Good → w.heap[self.parameters]? = some (poles a) →
    ∃ self' w' a', Pipeline.runRounds (polesEnv g str) 0 i (List.replicate n 3) self w = (.ok self', w') ∧
      self'.config = (polesPipeline tasks).config ∧ w'.Good ∧ w'.heap[self'.parameters]? = some (poles a') := by
  intro n
  induction n with
  | zero => intro i self w a hcfg hg hp; exact ⟨self, w, a, rfl, hcfg, hg, hp⟩
  | succ n ih =>
    intro i self w a hcfg hg hp
    have hk : self.kind = .nucleonFF := congrArg Pipeline.kind hcfg
    unfold Pipeline.runRounds
    rw [List.replicate_succ]
    dsimp only
    rw [hk, show decide ((i : ℤ) < 0) = false from by simp, show PipelineKind.nucleonFF.capped = false from rfl]
    rw [PyM.bind_ok (poles_freeze g str hp)]
    obtain ⟨s₁, w₁, h1⟩ : ∃ s₁ w₁, self.log ("Initializing Task#" ++ toString i ++ ". Free parameters: " ++ (polesEnv g str).strNames ["a", "m_1", "m_2"])
      { w with samples := w.samples + 1 } = (.ok s₁, w₁) := ⟨_, _, rfl⟩
    rw [PyM.bind_ok h1]
    obtain ⟨t1, d1, e1⟩ := Traced.log h1
    have g1 : w₁.Good := by unfold World.Good; rw [e1]; exact hg
    have k1 : s₁.kind = .nucleonFF := t1.kind.trans hk
    rw [k1]
    obtain ⟨t', s₂, w₂, h2, -, h3⟩ := poles_iterativeTask (g := g) (str := str) (self := s₁) (w := w₁) (t1.config.trans hcfg) g1
      (by rw [e1, d1]; exact hp) ("Task#" ++ toString i ++ ":" ++ PipelineKind.nucleonFF.fixAccording.pyName) .nucleonFFFixAccording (.inr rfl)
    rw [show PipelineKind.nucleonFF.fixAccording = .nucleonFFFixAccording from rfl] at h2 ⊢
    rw [PyM.bind_ok h2]
    obtain ⟨l2, -, -, t2⟩ := iterativeTask_ok g1 h2
    dsimp only
    obtain ⟨s₃, w₃, h4⟩ : ∃ s₃ w₃, s₂.flushReport w₂ = (.ok s₃, w₃) := ⟨_, _, rfl⟩
    rw [PyM.bind_ok h4]
    obtain ⟨t4, d4, e4, -⟩ := Traced.flush h4
    obtain ⟨w₄, h5⟩ : ∃ w₄, s₃.saveReport (polesEnv g str) (toString i) t'.report w₃ = (.ok (), w₄) := ⟨_, rfl⟩
    rw [PyM.bind_ok h5]
    obtain ⟨-, e5, -⟩ := Traced.save h5
    exact ih (i + 1) (t4.config.trans (t2.config.trans (t1.config.trans hcfg))) (by unfold World.Good; rw [e5, e4]; exact l2.1)
      (by rw [e5, e4, d4]; exact h3)

/-- A whole iterative run. -/
theorem poles_runIterative (g : ℝ → ℝ) (str : PyFloat → String) (n : ℕ) (a : ℝ) :
    ∃ self' w', (polesPipeline []).runIterative (polesEnv g str) ⟨List.replicate n 3, 0⟩ (startWorld [poles a]) = (.ok self', w') := by
  unfold Pipeline.runIterative
  have hp : (startWorld [poles a]).heap[(polesPipeline []).parameters]? = some (poles a) := rfl
  rw [PyM.bind_ok (readParams_run hp)]
  obtain ⟨s₁, w₁, h1⟩ : ∃ s₁ w₁, (polesPipeline []).log ("Starting. Initial parameters: " ++ (polesEnv g str).strParameters (poles a).toList)
    (startWorld [poles a]) = (.ok s₁, w₁) := ⟨_, _, rfl⟩
  obtain ⟨t1, d1, e1⟩ := Traced.log h1
  rw [PyM.bind_ok h1]
  obtain ⟨s₂, w₂, a', h2, c2, g2, p2⟩ := poles_runRounds g str (tasks := []) n 0 (self := s₁) (w := w₁) (a := a) t1.config
    (by unfold World.Good; rw [e1]; exact startWorld_good a) (by rw [e1, d1]; rfl)
  rw [PyM.bind_ok h2]
  dsimp only
  obtain ⟨s₃, w₃, h3⟩ : ∃ s₃ w₃, s₂.log ("Initializing Task#" ++ toString (List.replicate n (3 : ℤ)).length ++ ". Full fit.") w₂ = (.ok s₃, w₃) := ⟨_, _, rfl⟩
  obtain ⟨t3, d3, e3⟩ := Traced.log h3
  rw [PyM.bind_ok h3, show s₃.kind = .nucleonFF from congrArg Pipeline.kind (t3.config.trans c2)]
  obtain ⟨t', s₄, w₄, h4, -, -⟩ := poles_iterativeTask (g := g) (str := str) (self := s₃) (w := w₃) (a := a') (t3.config.trans c2)
    (by unfold World.Good; rw [e3]; exact g2) (by rw [e3, d3]; exact p2)
    ("Task#" ++ toString (List.replicate n (3 : ℤ)).length ++ ":" ++ PipelineKind.nucleonFF.fullFit.pyName) .nucleonFFFull (.inl rfl)
  rw [show PipelineKind.nucleonFF.fullFit = .nucleonFFFull from rfl] at h4 ⊢
  rw [PyM.bind_ok h4]
  exact ⟨_, _, rfl⟩

open Classical in
/-- `str` on whole numbers as Python writes them. -/
noncomputable def wholeText : PyFloat → String
  | .finite x => if h : ∃ n : ℕ, x = n then toString h.choose ++ ".0" else "?"
  | .inf => "inf"
  | .negInf => "-inf"
  | .nan => "nan"

theorem wholeText_nat (n : ℕ) : wholeText (n : ℝ) = toString n ++ ".0" := by
  have h : ∃ m : ℕ, (n : ℝ) = m := ⟨n, rfl⟩
  unfold wholeText
  dsimp only
  rw [dif_pos h]
  have := h.choose_spec
  rw [← Nat.cast_injective (R := ℝ) this]

theorem wholeText_ne (x : PyFloat) : wholeText x ≠ "" := by
  cases x with
  | finite x =>
    unfold wholeText
    dsimp only
    split_ifs
    · intro h
      have := congrArg String.length h
      rw [String.length_append] at this
      have e : (".0" : String).length = 2 := by decide
      have e' : ("" : String).length = 0 := by decide
      omega
    · decide
  | inf => decide
  | negInf => decide
  | nan => decide

theorem wholeText_inj {x : PyFloat} {n : ℕ} (h : wholeText x = wholeText (n : ℝ)) : x = (n : ℝ) := by
  rw [wholeText_nat] at h
  have hlast : ∀ s : String, s.toList.getLast? ≠ some '0' → s ≠ toString n ++ ".0" := by
    intro s hs he
    refine hs ?_
    rw [he, String.toList_append, show (".0" : String).toList = ['.', '0'] from by decide]
    simp
  cases x with
  | finite x =>
    unfold wholeText at h
    dsimp only at h
    split_ifs at h with hx
    · have h1 := toString_nat_inj (String.append_left_inj ".0" |>.mp h)
      rw [hx.choose_spec, h1]
    · exact absurd h (hlast _ (by decide))
  | inf => exact absurd h (hlast _ (by decide))
  | negInf => exact absurd h (hlast _ (by decide))
  | nan => exact absurd h (hlast _ (by decide))

theorem says_of_text {g : ℝ → ℝ} {r : Report} {x : Option PyFloat} {n : ℕ} (h : r.Says (polesEnv g wholeText) x)
    (ht : r.chi_squared.getD "None" = wholeText (n : ℝ)) : x = some ((n : ℝ) : PyFloat) := by
  cases x with
  | none =>
    rw [h.2, wholeText_nat] at ht
    exfalso
    have h1 := congrArg (fun s : String => s.toList.getLast?) ht
    simp only [String.toList_append] at h1
    rw [show (".0" : String).toList = ['.', '0'] from by decide] at h1
    simp at h1
  | some x =>
    rw [h.2] at ht
    rw [wholeText_inj ht]

end UA
