import Verif.Spec.Interrupted
import Verif.Lemmas.Frame

/-!
# Helper lemmas: runs that end with an exception
-/

namespace UA

theorem linesText_length : ∀ ms, (linesText ms).length = linesLength ms
  | [] => rfl
  | m :: ms => by
    have e2 : ("\n" : String).length = 1 := by decide
    have e : linesLength (m :: ms) = (m.length + 1) + linesLength ms := by simp [linesLength]
    rw [linesText, String.length_append, String.length_append, linesText_length ms, e, e2]

theorem linesText_append : ∀ ms ms', linesText (ms ++ ms') = linesText ms ++ linesText ms'
  | [], ms' => by simp [linesText]
  | m :: ms, ms' => by
    rw [List.cons_append, linesText, linesText_append ms ms', linesText]
    simp only [String.append_assoc]

/-- A text that has room for nothing else consists of the lines. -/
theorem linesText_of_length : ∀ {ms : List String} {s : String}, ContainsInOrder ms s → s.length = linesLength ms → s = linesText ms
  | [], s, _, h => by
    rw [show linesLength [] = 0 from rfl] at h
    exact String.length_eq_zero_iff.mp h
  | m :: ms, s, ⟨b, a, h, h'⟩, hl => by
    have e : linesLength (m :: ms) = (m.length + 1) + linesLength ms := by simp [linesLength]
    have e2 : ("\n" : String).length = 1 := by decide
    have := containsInOrder_length h'
    rw [h, e] at hl
    simp only [String.length_append, e2] at hl
    have hb : b = "" := String.length_eq_zero_iff.mp (by omega)
    have ha : a = linesText ms := linesText_of_length h' (by omega)
    rw [h, hb, ha, String.empty_append, linesText]

/-- Without a flush the text grows by the lines of the messages. -/
theorem Traced.exact {a b : Pipeline} {w w' : World} {ms : List String} {saved : List (String × String)} (h : Traced a w b w' ms 0 saved) :
    b.text w' = a.text w ++ linesText ms := by
  obtain ⟨rest, h1, h2, h3⟩ := h.logged
  rw [h1, linesText_of_length h2 h3]

theorem createTask_outside (self : Pipeline) (name : String) (cls : TaskClass) : (self.createTask name cls).Keeps SameOutside := by
  unfold Pipeline.createTask Pipeline.newTask Task.init
  split_ifs
  · exact outside_bind (readParams_outside _) fun _ => outside_pure _
  · refine outside_bind (readParams_outside _) fun p => ?_
    split_ifs
    · exact outside_bind (readParams_outside _) fun _ => outside_pure _
    · exact outside_raise _
  · exact outside_raise _

theorem newTask_outside (self : Pipeline) (name : String) (cls : TaskClass) : (self.newTask name cls).Keeps SameOutside := by
  unfold Pipeline.newTask Task.init
  exact outside_bind (readParams_outside _) fun _ => outside_pure _

/-- A task that raises: nothing is written, and printed is at most that it has been started. -/
theorem taskFrom_error {self : Pipeline} {env : Env} {task_name : String} {create : PyM World Task} {w w' : World} {e : PyErr}
    (hl : w.Good) (hcreate : self.Makes task_name w create) (hout : create.Keeps SameOutside)
    (h : self.taskFrom env task_name create w = (.error e, w')) :
    w'.fs = w.fs ∧ ∃ more, more <+: ["Running " ++ task_name] ∧ w'.stdout = w.stdout ++ more.map (printedLine self.name) := by
  unfold Pipeline.taskFrom at h
  have ho := hout w
  rcases h1 : create w with ⟨e1 | t, w₁⟩
  · rw [PyM.bind_error h1] at h
    rw [h1] at ho
    injection h with _ h
    subst h
    exact ⟨ho.1, [], List.nil_prefix, by rw [ho.2]; simp⟩
  · rw [PyM.bind_ok h1] at h
    obtain ⟨rfl, n1, n2, n3, n4, p, hp⟩ := hcreate t w₁ h1
    have h2 : self.log ("Running " ++ task_name) w₁ = (.ok { self with report := self.report ++ ("Running " ++ task_name ++ "\n") },
      { w₁ with stdout := w₁.stdout ++ [printedLine self.name ("Running " ++ task_name)] }) := rfl
    rw [PyM.bind_ok h2] at h
    generalize hw₂ : ({ w₁ with stdout := w₁.stdout ++ [printedLine self.name ("Running " ++ task_name)] } : World) = w₂ at h h2
    have ho2 := run_outside t env w₂
    have hg2 : w₂.Good := by unfold World.Good; rw [← hw₂]; exact hl
    have hp2 : w₂.heap[t.parameters]? = some p := by rw [← hw₂, n1]; exact hp
    rcases h3 : t.run env w₂ with ⟨e3 | t', w₃⟩
    · rw [PyM.bind_error h3] at h
      rw [h3] at ho2
      injection h with _ h
      subst h
      exact ⟨by rw [ho2.1, ← hw₂], _, List.prefix_rfl, by rw [ho2.2, ← hw₂]; rfl⟩
    · exfalso
      rw [PyM.bind_ok h3] at h
      obtain ⟨p₂, r1, r2, r3, r4⟩ := run_result hp2 (hg2.read hp2) h3
      obtain ⟨s₂, w₄, h4⟩ : ∃ s w, Pipeline.log { self with report := self.report ++ ("Running " ++ task_name ++ "\n") }
        (task_name ++ " report: " ++ env.strReport t'.report) w₃ = (.ok s, w) := ⟨_, _, rfl⟩
      rw [PyM.bind_ok h4] at h
      obtain ⟨-, -, e2⟩ := Traced.log h4
      have hr4 : w₄.heap[t'.parameters]? = some p₂ := by rw [e2]; exact r1
      have h5 : ∃ s, s₂.updateBestFit t' w₄ = (.ok s, w₄) := by
        unfold Pipeline.updateBestFit
        rcases r4 with ⟨m, r4⟩ | ⟨ordered, ys, fs, chi, cov, r4, r5⟩
        · rw [show t'.report.chi_squared = none by rw [r4]; exact n4]
          exact ⟨_, rfl⟩
        · rw [show t'.report.chi_squared = some (env.strFloat chi) by rw [r5]; rfl]
          dsimp only
          split_ifs
          · exact ⟨_, rfl⟩
          · rw [PyM.bind_ok (readParams_run hr4), r4, PyM.bind_ok (PyM.lift_run _ _)]
            exact ⟨_, rfl⟩
          · exact ⟨_, rfl⟩
      obtain ⟨s, h5⟩ := h5
      rw [PyM.bind_ok h5] at h
      cases h

theorem error_as {α β : Type} {e e' : PyErr} {w w' : World} (h : ((.error e : Except PyErr α), w) = (.error e', w')) :
    ((.error e : Except PyErr β), w) = (.error e', w') := by
  injection h with h1 h2
  injection h1 with h1
  rw [h1, h2]

/-- What tasks numbered from `i` have printed and written so far. -/
structure Progress (env : Env) (what : String) (i : ℕ) (a : Pipeline) (w w' : World) (rs : List (String × Report)) (more : List String) : Prop where
  printed : w'.stdout = w.stdout ++ (taskMessages env what i rs ++ more).map (printedLine a.name)
  dirs : w'.fs.dirs = w.fs.dirs
  files : ∀ q, q ≠ a.reportFile → w'.fs.files q = ((savedFiles a env i (rs.map Prod.snd)).foldl (fun fs s => fs.put s.1 s.2) w.fs).files q
  report : w'.fs.files a.reportFile = if rs = [] then w.fs.files a.reportFile else some (a.text w ++ blocksText (taskBlocks env what i rs))

/-- Nothing finished. -/
theorem Progress.nil {env : Env} {what : String} {i : ℕ} {a : Pipeline} {w w' : World} {more : List String} (hf : w'.fs = w.fs)
    (hp : w'.stdout = w.stdout ++ more.map (printedLine a.name)) : Progress env what i a w w' [] more :=
  ⟨hp, by rw [hf], fun q _ => by rw [hf]; rfl, by rw [hf, if_pos rfl]⟩

/-- One more task at the beginning. -/
theorem Progress.cons {env : Env} {what init : String} {i : ℕ} {a b : Pipeline} {u v w : World} {r : Report} {rs : List (String × Report)}
    {more : List String} (hn : b.name = a.name) (hd : b.reports_dir = a.reports_dir) (hr : b.report = "\n")
    (h1 : v.stdout = u.stdout ++ ["Initializing Task#" ++ toString i ++ what ++ init, "Running " ++ r.name, r.name ++ " report: " ++ env.strReport r].map (printedLine a.name))
    (h2 : v.fs.dirs = u.fs.dirs)
    (h3 : ∀ q, q ≠ a.reportFile → v.fs.files q = (u.fs.put (a.taskFile i) (env.strReport r)).files q)
    (h4 : v.fs.files a.reportFile = some (a.text u ++
      linesText ["Initializing Task#" ++ toString i ++ what ++ init, "Running " ++ r.name, r.name ++ " report: " ++ env.strReport r]))
    (h : Progress env what (i + 1) b v w rs more) : Progress env what i a u w ((init, r) :: rs) more := by
  have hf : b.reportFile = a.reportFile := by unfold Pipeline.reportFile; rw [hd]
  refine ⟨?_, h.dirs.trans h2, fun q hq => ?_, ?_⟩
  · rw [h.printed, h1, hn, List.append_assoc, ← List.map_append]; rfl
  · rw [h.files q (by rw [hf]; exact hq), savedFiles_congr hd]
    exact foldl_put_congr _ (h3 q hq)
  · rw [← hf, h.report, hf, h4, if_neg (List.cons_ne_nil _ _)]
    have ht : b.text v = a.text u ++
        linesText ["Initializing Task#" ++ toString i ++ what ++ init, "Running " ++ r.name, r.name ++ " report: " ++ env.strReport r] ++ "\n" := by
      unfold Pipeline.text
      rw [hf, h4, hr]; rfl
    cases rs with
    | nil => rw [if_pos rfl]; rfl
    | cons q rs =>
      obtain ⟨x, y⟩ := q
      rw [if_neg (List.cons_ne_nil _ _), ht, String.append_assoc, String.append_assoc]
      show _ = some (a.text u ++ (linesText _ ++ "\n" ++ blocksText (taskBlocks env what (i + 1) ((x, y) :: rs))))
      simp only [String.append_assoc]

/-- The buffer after these tasks. -/
def bufferAfter (report : String) (rs : List (String × Report)) : String := if rs = [] then report else "\n"

/-- The end of a task: flush and save. -/
theorem flush_save {s : Pipeline} {env : Env} {i : ℕ} {r : Report} (w : World) : ∃ w₈ w₉, s.flushReport w = (.ok { s with report := "\n" }, w₈) ∧
    Pipeline.saveReport { s with report := "\n" } env (toString i) r w₈ = (.ok (), w₉) ∧ w₉.heap = w.heap ∧ w₉.stdout = w.stdout ∧
    w₉.fs.dirs = w.fs.dirs ∧ (∀ q, q ≠ s.reportFile → w₉.fs.files q = (w.fs.put (s.taskFile i) (env.strReport r)).files q) ∧
    w₉.fs.files s.reportFile = some (s.text w) := by
  refine ⟨_, _, rfl, rfl, rfl, rfl, rfl, fun q hq => ?_, ?_⟩
  · show (if q = s.taskFile i then some (env.strReport r) else (if q = s.reportFile then _ else w.fs.files q)) =
      (if q = s.taskFile i then some (env.strReport r) else w.fs.files q)
    rw [if_neg hq]
  · show (if s.reportFile = s.taskFile i then some (env.strReport r) else (if s.reportFile = s.reportFile then some (s.text w) else w.fs.files _)) = _
    rw [if_neg fun h => taskFile_ne_reportFile s _ h.symm, if_pos rfl]

/-- The messages with which the task number `k` begins. -/
def Begun (what : String) (names : List String) (k i : ℕ) (more : List String) : Prop :=
  ∃ init name, names[k]? = some name ∧ more <+: ["Initializing Task#" ++ toString (i + k) ++ what ++ init, "Running " ++ name]

/-- All outcomes of the tasks of a pipeline. -/
theorem runTasks_all (env : Env) : ∀ (classes : List TaskClass) (i : ℕ) {self : Pipeline} {w : World}, self.Live w →
    (∃ self' w' rs, Pipeline.runTasks env i classes self w = (.ok self', w') ∧ TasksDone env ". Parameters: " i (taskNames i classes) self w self' w' rs ∧
      Progress env ". Parameters: " i self w w' rs [] ∧ self'.report = bufferAfter self.report rs) ∨
    ∃ e w' rs more, Pipeline.runTasks env i classes self w = (.error e, w') ∧ rs.length < classes.length ∧
      List.Forall₂ (fun (q : String × Report) n => q.2.Made env n) rs ((taskNames i classes).take rs.length) ∧
      Progress env ". Parameters: " i self w w' rs more ∧ Begun ". Parameters: " (taskNames i classes) rs.length i more ∧ more ≠ [] := by
  intro classes
  induction classes with
  | nil =>
    intro i self w hl
    exact .inl ⟨self, w, [], rfl, ⟨hl, .nil, rfl, .same (.refl _) rfl rfl rfl rfl⟩, .nil rfl (by simp), rfl⟩
  | cons c classes ih =>
    intro i self w hl
    obtain ⟨p, hp⟩ := hl.2
    generalize hm : "Initializing Task#" ++ toString i ++ ". Parameters: " ++ env.strParameters p.toList = m
    generalize hn : "Task#" ++ toString i ++ ":" ++ c.pyName = name
    obtain ⟨s₁, hs₁⟩ : ∃ s₁ : Pipeline, s₁ = { self with report := self.report ++ (m ++ "\n") } := ⟨_, rfl⟩
    obtain ⟨w₁, hw₁⟩ : ∃ w₁ : World, w₁ = { w with stdout := w.stdout ++ [printedLine self.name m] } := ⟨_, rfl⟩
    have h1 : self.log m w = (.ok s₁, w₁) := by rw [hs₁, hw₁]; rfl
    have hg1 : w₁.Good := by rw [hw₁]; unfold World.Good; exact hl.1
    rcases hit : Pipeline.taskFrom s₁ env name (s₁.createTask name c) w₁ with ⟨e | ⟨t', s₆⟩, w₆⟩
    · right
      obtain ⟨k1, more, k2, k3⟩ := taskFrom_error hg1 (createTask_ok _ _ _) (createTask_outside _ _ _) hit
      refine ⟨e, w₆, [], m :: more, ?_, Nat.succ_pos _, .nil, .nil ?_ ?_, ⟨env.strParameters p.toList, name, ?_, ?_⟩, List.cons_ne_nil _ _⟩
      · unfold Pipeline.runTasks
        rw [PyM.bind_ok (readParams_run hp), hm, hn, PyM.bind_ok h1]
        unfold Pipeline.taskFrom at hit
        rcases ha : s₁.createTask name c w₁ with ⟨e1 | ta, wa⟩
        · rw [PyM.bind_error ha] at hit
          exact (PyM.bind_error ha).trans (error_as hit)
        · rw [PyM.bind_ok ha] at hit
          refine (PyM.bind_ok ha).trans ?_
          rcases hb : s₁.log ("Running " ++ name) wa with ⟨e1 | sb, wb⟩
          · rw [PyM.bind_error hb] at hit ⊢; exact error_as hit
          · rw [PyM.bind_ok hb] at hit ⊢
            rcases hc : ta.run env wb with ⟨e1 | tc, wc⟩
            · rw [PyM.bind_error hc] at hit ⊢; exact error_as hit
            · rw [PyM.bind_ok hc] at hit ⊢
              rcases hd : sb.log (name ++ " report: " ++ env.strReport tc.report) wc with ⟨e1 | sd, wd⟩
              · rw [PyM.bind_error hd] at hit ⊢; exact error_as hit
              · rw [PyM.bind_ok hd] at hit ⊢
                rcases he : sd.updateBestFit tc wd with ⟨e1 | se, we⟩
                · rw [PyM.bind_error he] at hit ⊢; exact error_as hit
                · rw [PyM.bind_ok he] at hit; cases hit
      · rw [k1, hw₁]
      · rw [k3, hw₁, hs₁, List.map_cons, List.append_assoc]; rfl
      · rw [← hn]; rfl
      · rw [← hm]
        exact List.prefix_cons_inj _ |>.mpr k2
    · obtain ⟨l6, m6, b6, t6⟩ := taskFrom_ok hg1 (createTask_ok _ _ _) hit
      obtain ⟨p₆, hp6⟩ := l6.2
      have h7 := mutateParams_run hp6 (fun p => (.ok (), p.releaseAllParameters))
      have g7 := release_good s₆.parameters w₆ l6.1
      have o7 := mutateParams_outside s₆.parameters (fun p => (.ok (), p.releaseAllParameters)) w₆
      obtain ⟨w₇, hw7⟩ : ∃ w₇ : World, w₇ = { w₆ with heap := w₆.heap.set s₆.parameters p₆.releaseAllParameters } := ⟨_, rfl⟩
      have h7' : mutateParams s₆.parameters (fun p => (.ok (), p.releaseAllParameters)) w₆ = (.ok (), w₇) := by rw [hw7]; exact h7
      rw [h7'] at g7 o7
      obtain ⟨w₈, w₉, h8, h9, e1, e2, e3, e4, e5⟩ := flush_save (s := s₆) (env := env) (i := i) (r := t'.report) w₇
      have hstep : Pipeline.runTasks env i (c :: classes) self w = Pipeline.runTasks env (i + 1) classes { s₆ with report := "\n" } w₉ := by
        conv => lhs; unfold Pipeline.runTasks
        rw [PyM.bind_ok (readParams_run hp), hm, hn, PyM.bind_ok h1]
        unfold Pipeline.taskFrom at hit
        obtain ⟨ta, wa, ha, hit⟩ := PyM.bind_eq_ok.mp hit
        obtain ⟨tb, wb, hb, hit⟩ := PyM.bind_eq_ok.mp hit
        obtain ⟨tc, wc, hc', hit⟩ := PyM.bind_eq_ok.mp hit
        obtain ⟨td, wd, hd, hit⟩ := PyM.bind_eq_ok.mp hit
        obtain ⟨te, we, he, hit⟩ := PyM.bind_eq_ok.mp hit
        rw [PyM.pure_run] at hit
        injection hit with hit hw
        injection hit with hit
        injection hit with hi1 hi2
        subst hi1 hi2 hw
        refine (PyM.bind_ok ha).trans ?_
        rw [PyM.bind_ok hb, PyM.bind_ok hc', PyM.bind_ok hd, PyM.bind_ok he]
        dsimp only
        rw [PyM.bind_ok h7', PyM.bind_ok h8, PyM.bind_ok h9]
      have hlive : Pipeline.Live { s₆ with report := "\n" } w₉ := by
        refine ⟨by unfold World.Good; rw [e1]; exact g7, p₆.releaseAllParameters, ?_⟩
        rw [e1, hw7]
        exact List.getElem?_set_self (heap_set_append hp6)
      -- the first task
      obtain ⟨t1, -, -⟩ := Traced.log h1
      have t67 := (t1.trans t6).trans (Traced.same (b := s₆) o7 rfl rfl rfl rfl)
      have hname : s₆.name = self.name := t67.name
      have hdir : s₆.reports_dir = self.reports_dir := t67.dir
      have hrf : s₆.reportFile = self.reportFile := t67.reportFile
      have htf : s₆.taskFile i = self.taskFile i := t67.taskFile i
      have hprog : ∀ {w' : World} {rs : List (String × Report)} {more : List String}, Progress env ". Parameters: " (i + 1) { s₆ with report := "\n" } w₉ w' rs more →
          Progress env ". Parameters: " i self w w' ((env.strParameters p.toList, t'.report) :: rs) more := by
        intro w' rs more hpr
        refine Progress.cons (b := { s₆ with report := "\n" }) hname hdir rfl ?_ ?_ ?_ ?_ hpr
        · rw [e2, t67.printed, m6.1, hm]; rfl
        · rw [e3, t67.dirs]
        · intro q hq
          rw [e4 q (by rw [hrf]; exact hq), htf]
          exact foldl_put_congr [(self.taskFile i, env.strReport t'.report)] (t67.files q hq)
        · rw [← hrf, e5, t67.exact, m6.1, hm]; rfl
      rcases ih (i + 1) hlive with ⟨self', w', rs, r1, r2, r3, r4⟩ | ⟨e, w', rs, more, r1, r2, r3, r4, ⟨x, y, z1, z2⟩, r6⟩
      · left
        have hall := t67.trans ((Traced.flush h8).1.trans (Traced.save h9).1)
        have htf' : Pipeline.taskFile { s₆ with report := "\n" } i = self.taskFile i := htf
        rw [htf'] at hall
        refine ⟨self', w', _, hstep.trans r1, ?_, hprog r3, ?_⟩
        · refine TasksDone.cons (b := { s₆ with report := "\n" }) (n := "Task#" ++ toString i ++ ":" ++ c.pyName) (by rw [hn]; exact m6) ?_ ?_ r2
          · show s₆.best_fit = _
            rw [b6, hs₁]
          · rw [hn, hm]; exact hall
        · rw [r4]; unfold bufferAfter; rw [if_neg (List.cons_ne_nil _ _)]; split_ifs <;> rfl
      · right
        refine ⟨e, w', (env.strParameters p.toList, t'.report) :: rs, more, hstep.trans r1, Nat.succ_lt_succ r2, ?_, hprog r4, ⟨x, y, z1, ?_⟩, r6⟩
        · exact .cons (by rw [hn]; exact m6) r3
        · rw [List.length_cons, show i + (rs.length + 1) = i + 1 + rs.length by omega]; exact z2

/-- All outcomes of the rounds of an iterative pipeline. -/
theorem runRounds_all (env : Env) (nr : ℤ) : ∀ (ks : List ℤ) (i : ℕ) {self : Pipeline} {w : World}, self.Live w →
    (∃ self' w' rs, Pipeline.runRounds env nr i ks self w = (.ok self', w') ∧
      TasksDone env ". Free parameters: " i (taskNames i (ks.map fun _ => self.kind.fixAccording)) self w self' w' rs ∧
      Progress env ". Free parameters: " i self w w' rs [] ∧ self'.report = bufferAfter self.report rs) ∨
    ∃ e w' rs more, Pipeline.runRounds env nr i ks self w = (.error e, w') ∧ rs.length < ks.length ∧
      List.Forall₂ (fun (q : String × Report) n => q.2.Made env n) rs ((taskNames i (ks.map fun _ => self.kind.fixAccording)).take rs.length) ∧
      Progress env ". Free parameters: " i self w w' rs more ∧
      Begun ". Free parameters: " (taskNames i (ks.map fun _ => self.kind.fixAccording)) rs.length i more := by
  intro ks
  induction ks with
  | nil =>
    intro i self w hl
    exact .inl ⟨self, w, [], rfl, ⟨hl, .nil, rfl, .same (.refl _) rfl rfl rfl rfl⟩, .nil rfl (by simp), rfl⟩
  | cons k ks ih =>
    intro i self w hl
    generalize hn : "Task#" ++ toString i ++ ":" ++ self.kind.fixAccording.pyName = name
    have g0 := randomlyFreeze_good env self.kind.capped self.parameters k (decide ((i : ℤ) < nr)) w hl.1
    have o0 := randomlyFreeze_outside env self.kind.capped self.parameters k (decide ((i : ℤ) < nr)) w
    rcases h0 : randomlyFreezeParameters env self.kind.capped self.parameters k (decide ((i : ℤ) < nr)) w with ⟨e | chosen, w₀⟩
    · right
      rw [h0] at o0
      refine ⟨e, w₀, [], [], ?_, Nat.succ_pos _, .nil, .nil o0.1 (by rw [o0.2]; simp), ⟨"", name, by rw [← hn]; rfl, List.nil_prefix⟩⟩
      unfold Pipeline.runRounds
      exact PyM.bind_error h0
    · rw [h0] at g0 o0
      generalize hm : "Initializing Task#" ++ toString i ++ ". Free parameters: " ++ env.strNames chosen = m
      obtain ⟨s₁, hs₁⟩ : ∃ s₁ : Pipeline, s₁ = { self with report := self.report ++ (m ++ "\n") } := ⟨_, rfl⟩
      obtain ⟨w₁, hw₁⟩ : ∃ w₁ : World, w₁ = { w₀ with stdout := w₀.stdout ++ [printedLine self.name m] } := ⟨_, rfl⟩
      have h1 : self.log m w₀ = (.ok s₁, w₁) := by rw [hs₁, hw₁]; rfl
      have hg1 : w₁.Good := by rw [hw₁]; unfold World.Good; exact g0
      have hk1 : s₁.kind = self.kind := by rw [hs₁]
      rcases hit : s₁.iterativeTask env name self.kind.fixAccording w₁ with ⟨e | ⟨t', s₆⟩, w₆⟩
      · right
        have hit' : Pipeline.taskFrom s₁ env name (s₁.newTask name self.kind.fixAccording) w₁ = (.error e, w₆) := hit
        obtain ⟨k1, more, k2, k3⟩ := taskFrom_error hg1 (fun _ _ => newTask_ok) (newTask_outside _ _ _) hit'
        refine ⟨e, w₆, [], m :: more, ?_, Nat.succ_pos _, .nil, .nil ?_ ?_, ⟨env.strNames chosen, name, ?_, ?_⟩⟩
        · unfold Pipeline.runRounds
          rw [PyM.bind_ok h0, hm, PyM.bind_ok h1, hk1, hn]
          exact PyM.bind_error hit
        · rw [k1, hw₁]; exact o0.1
        · rw [k3, hw₁, hs₁, List.map_cons, List.append_assoc, o0.2]; rfl
        · rw [← hn]; rfl
        · rw [← hm]
          exact List.prefix_cons_inj _ |>.mpr k2
      · obtain ⟨l6, m6, b6, t6⟩ := iterativeTask_ok hg1 hit
        obtain ⟨p₆, hp6⟩ := l6.2
        obtain ⟨w₈, w₉, h8, h9, e1, e2, e3, e4, e5⟩ := flush_save (s := s₆) (env := env) (i := i) (r := t'.report) w₆
        have hstep : Pipeline.runRounds env nr i (k :: ks) self w = Pipeline.runRounds env nr (i + 1) ks { s₆ with report := "\n" } w₉ := by
          conv => lhs; unfold Pipeline.runRounds
          rw [PyM.bind_ok h0, hm, PyM.bind_ok h1, hk1, hn, PyM.bind_ok hit]
          dsimp only
          rw [PyM.bind_ok h8, PyM.bind_ok h9]
        have hlive : Pipeline.Live { s₆ with report := "\n" } w₉ := ⟨by unfold World.Good; rw [e1]; exact l6.1, p₆, by rw [e1]; exact hp6⟩
        obtain ⟨t1, -, -⟩ := Traced.log h1
        have t67 := (Traced.same (a := self) (b := self) o0 rfl rfl rfl rfl).trans (t1.trans t6)
        have hkind : ({ s₆ with report := "\n" } : Pipeline).kind = self.kind := t67.kind
        have hname : s₆.name = self.name := t67.name
        have hdir : s₆.reports_dir = self.reports_dir := t67.dir
        have hrf : s₆.reportFile = self.reportFile := t67.reportFile
        have htf : s₆.taskFile i = self.taskFile i := t67.taskFile i
        have hprog : ∀ {w' : World} {rs : List (String × Report)} {more : List String},
            Progress env ". Free parameters: " (i + 1) { s₆ with report := "\n" } w₉ w' rs more →
            Progress env ". Free parameters: " i self w w' ((env.strNames chosen, t'.report) :: rs) more := by
          intro w' rs more hpr
          refine Progress.cons (b := { s₆ with report := "\n" }) hname hdir rfl ?_ ?_ ?_ ?_ hpr
          · rw [e2, t67.printed, m6.1, hm]; rfl
          · rw [e3, t67.dirs]
          · intro q hq
            rw [e4 q (by rw [hrf]; exact hq), htf]
            exact foldl_put_congr [(self.taskFile i, env.strReport t'.report)] (t67.files q hq)
          · rw [← hrf, e5, t67.exact, m6.1, hm]; rfl
        have hih := ih (i + 1) hlive
        rw [show (fun _ : ℤ => ({ s₆ with report := "\n" } : Pipeline).kind.fixAccording) = fun _ => self.kind.fixAccording by rw [hkind]] at hih
        rcases hih with ⟨self', w', rs, r1, r2, r3, r4⟩ | ⟨e, w', rs, more, r1, r2, r3, r4, ⟨x, y, z1, z2⟩⟩
        · left
          have hall := t67.trans ((Traced.flush h8).1.trans (Traced.save h9).1)
          have htf' : Pipeline.taskFile { s₆ with report := "\n" } i = self.taskFile i := htf
          rw [htf'] at hall
          refine ⟨self', w', _, hstep.trans r1, ?_, hprog r3, ?_⟩
          · refine TasksDone.cons (b := { s₆ with report := "\n" }) (n := "Task#" ++ toString i ++ ":" ++ self.kind.fixAccording.pyName) (by rw [hn]; exact m6) ?_ ?_ r2
            · show s₆.best_fit = _
              rw [b6, hs₁]
            · rw [hn, hm]; exact hall
          · rw [r4]; unfold bufferAfter; rw [if_neg (List.cons_ne_nil _ _)]; split_ifs <;> rfl
        · right
          refine ⟨e, w', (env.strNames chosen, t'.report) :: rs, more, hstep.trans r1, Nat.succ_lt_succ r2, ?_, hprog r4, ⟨x, y, z1, ?_⟩⟩
          · exact .cons (by rw [hn]; exact m6) r3
          · rw [List.length_cons, show i + (rs.length + 1) = i + 1 + rs.length by omega]; exact z2

end UA
