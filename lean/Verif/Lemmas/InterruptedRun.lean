import Verif.Lemmas.Interrupted
import Verif.Lemmas.PipelinesBest

/-!
# Helper lemmas: whole runs that end with an exception
-/

namespace UA

theorem headed_text (m : String) : ∀ {bs : List (List String)}, bs ≠ [] → blocksText (headed m bs) = m ++ "\n" ++ blocksText bs
  | [], h => absurd rfl h
  | [b], _ => rfl
  | b :: b' :: bs, _ => by
    show (m ++ "\n" ++ linesText b) ++ "\n" ++ blocksText (b' :: bs) = m ++ "\n" ++ (linesText b ++ "\n" ++ blocksText (b' :: bs))
    simp only [String.append_assoc]

theorem headed_flatten (m : String) : ∀ {bs : List (List String)}, bs ≠ [] → (headed m bs).flatten = m :: bs.flatten
  | [], h => absurd rfl h
  | _ :: _, _ => rfl

theorem headed_eq_nil (m : String) : ∀ {bs : List (List String)}, headed m bs = [] ↔ bs = []
  | [] => ⟨fun _ => rfl, fun _ => rfl⟩
  | _ :: _ => ⟨fun h => (List.cons_ne_nil _ _ h).elim, fun h => (List.cons_ne_nil _ _ h).elim⟩

theorem taskBlocks_flatten (env : Env) (what : String) : ∀ (i : ℕ) (rs : List (String × Report)), (taskBlocks env what i rs).flatten = taskMessages env what i rs
  | _, [] => rfl
  | i, (x, r) :: rs => by
    show _ ++ (taskBlocks env what (i + 1) rs).flatten = _
    rw [taskBlocks_flatten env what (i + 1) rs]; rfl

theorem taskBlocks_eq_nil (env : Env) (what : String) (i : ℕ) : ∀ {rs : List (String × Report)}, taskBlocks env what i rs = [] ↔ rs = []
  | [] => ⟨fun _ => rfl, fun _ => rfl⟩
  | _ :: _ => ⟨fun h => (List.cons_ne_nil _ _ h).elim, fun h => (List.cons_ne_nil _ _ h).elim⟩

theorem blocksText_append : ∀ {bs bs' : List (List String)}, bs ≠ [] → bs' ≠ [] → blocksText (bs ++ bs') = blocksText bs ++ "\n" ++ blocksText bs'
  | [], _, h, _ => absurd rfl h
  | [b], b' :: bs', _, _ => rfl
  | [b], [], _, h => absurd rfl h
  | b :: b' :: bs, bs', _, h => by
    show linesText b ++ "\n" ++ blocksText (b' :: bs ++ bs') = linesText b ++ "\n" ++ blocksText (b' :: bs) ++ "\n" ++ blocksText bs'
    rw [blocksText_append (List.cons_ne_nil _ _) h]
    simp only [String.append_assoc]

theorem reported_of_files {self : Pipeline} {env : Env} {w w' : World} {rs : List Report} {names : List String}
    (hf : ∀ q, q ≠ self.reportFile → w'.fs.files q = ((savedFiles self env 0 rs).foldl (fun fs s => fs.put s.1 s.2) w.fs).files q)
    (hm : List.Forall₂ (fun r n => r.Made env n) rs names) :
    (∃ chis, self.Reported env w' names rs chis) ∧
      ∀ q, q ≠ self.reportFile → (∀ k, k < rs.length → q ≠ self.taskFile k) → w'.fs.files q = w.fs.files q := by
  obtain ⟨chis, hc⟩ := made_says hm
  refine ⟨⟨chis, made_names hm, fun k r hk => ?_, hc⟩, fun q h1 h2 => ?_⟩
  · rw [hf (self.taskFile k) (taskFile_ne_reportFile self _)]
    have := savedFiles_mem self env rs (i := 0) hk
    rw [zero_add] at this
    exact foldl_put_mem _ (savedFiles_nodup self env rs 0) this
  · rw [hf q h1]
    refine foldl_put_other _ fun hq => ?_
    obtain ⟨k, -, h3, h4⟩ := savedFiles_names self env rs hq
    exact h2 k (by omega) h4

theorem othersKept_of {self : Pipeline} {w w' : World} (h : HeapKept w.heap self.parameters w') : self.OthersKept w w' := by
  intro ref q h1 h2
  rw [h.2 ref (heap_set_append h2) h1]; exact h2

/-- From the progress after the first message to what a whole run has left. -/
theorem stopped_of_progress {self s₁ : Pipeline} {env : Env} {what : String} {names : List String} {p : ModelParameters ℝ} {w w₁ w' : World}
    {rs : List (String × Report)} {begun : List String} (hlog : self.log (startMessage env p) w = (.ok s₁, w₁))
    (hm : List.Forall₂ (fun (q : String × Report) n => q.2.Made env n) rs (names.take rs.length)) (hl : rs.length < names.length)
    (h : Progress env what 0 s₁ w₁ w' rs begun) (ho : self.OthersKept w w') :
    ∃ starts : List String, ∃ reports chis blocks more, self.Stopped env names w w' reports chis blocks more ∧ starts.length = reports.length ∧
      reports.length = rs.length ∧ blocks = headed (startMessage env p) (taskBlocks env what 0 (starts.zip reports)) ∧
      blocks.flatten ++ more = startMessage env p :: (taskMessages env what 0 (starts.zip reports) ++ begun) := by
  obtain ⟨t1, hs1, -⟩ := Traced.log hlog
  have hfs : w₁.fs = w.fs := log_fs hlog
  have hrf : s₁.reportFile = self.reportFile := t1.reportFile
  have hsave : savedFiles s₁ env 0 (rs.map Prod.snd) = savedFiles self env 0 (rs.map Prod.snd) := savedFiles_congr t1.dir env _ 0
  have hfiles : ∀ q, q ≠ self.reportFile → w'.fs.files q = ((savedFiles self env 0 (rs.map Prod.snd)).foldl (fun fs s => fs.put s.1 s.2) w.fs).files q := by
    intro q hq
    rw [h.files q (by rw [hrf]; exact hq), hsave, hfs]
  have hm' := forall₂_snd hm
  rw [← List.length_map (f := Prod.snd)] at hm' hl
  obtain ⟨⟨chis, r1⟩, r2⟩ := reported_of_files hfiles hm'
  have hz : (rs.map Prod.fst).zip (rs.map Prod.snd) = rs := (List.zip_of_prod (xs := rs) rfl rfl).symm
  have hflat : (headed (startMessage env p) (taskBlocks env what 0 rs)).flatten ++ (if rs = [] then startMessage env p :: begun else begun) =
      startMessage env p :: (taskMessages env what 0 rs ++ begun) := by
    by_cases hrs : rs = []
    · rw [if_pos hrs, hrs]; rfl
    · rw [if_neg hrs, headed_flatten _ (fun hb => hrs ((taskBlocks_eq_nil env what 0).mp hb)), taskBlocks_flatten]; rfl
  refine ⟨rs.map Prod.fst, rs.map Prod.snd, chis, _, if rs = [] then startMessage env p :: begun else begun, ⟨hl, r1, ?_, ?_, r2, ?_, ho⟩, by simp, by simp, rfl, ?_⟩
  · rw [hz, hflat, h.printed, t1.printed, t1.name, List.append_assoc, ← List.map_append]; rfl
  · rw [hz, ← hrf, h.report, hrf, hfs]
    by_cases hrs : rs = []
    · rw [if_pos hrs, if_pos ((headed_eq_nil _).mpr ((taskBlocks_eq_nil env what 0).mpr hrs))]
    · have hb : taskBlocks env what 0 rs ≠ [] := fun hb => hrs ((taskBlocks_eq_nil env what 0).mp hb)
      rw [if_neg hrs, if_neg fun hb' => hb ((headed_eq_nil _).mp hb'), t1.exact, headed_text _ hb]
      unfold Pipeline.text linesText linesText
      simp only [String.append_assoc, String.append_empty]
  · rw [h.dirs, hfs]
  · rw [hz]; exact hflat

theorem run_error {self : Pipeline} {env : Env} {p : ModelParameters ℝ} {w w' : World} {e : PyErr} (hg : w.Good) (hp : w.heap[self.parameters]? = some p)
    (h : self.run env w = (.error e, w')) :
    ∃ starts : List String, ∃ reports chis blocks more init begun, self.Stopped env (numberedNames (self.tasks.map TaskClass.className)) w w' reports chis blocks more ∧
      starts.length = reports.length ∧ blocks = headed (startMessage env p) (taskBlocks env ". Parameters: " 0 (starts.zip reports)) ∧
      blocks.flatten ++ more = startMessage env p :: (taskMessages env ". Parameters: " 0 (starts.zip reports) ++ begun) ∧ begun ≠ [] ∧
      Began (numberedNames (self.tasks.map TaskClass.className)) reports.length
        ("Initializing Task#" ++ toString reports.length ++ ". Parameters: " ++ init) begun := by
  have hk := (pipelineRun_kept (h := w.heap) (ref := self.parameters) (.inl rfl : self.Mine w.heap self.parameters) env w (.start w _)).1
  rw [h] at hk
  unfold Pipeline.run at h
  rw [PyM.bind_ok (readParams_run hp)] at h
  obtain ⟨s₁, w₁, h1⟩ : ∃ s₁ w₁, self.log (startMessage env p) w = (.ok s₁, w₁) := ⟨_, _, rfl⟩
  obtain ⟨t1, hs1, e1⟩ := Traced.log h1
  have h1' : self.log ("Starting. Initial parameters: " ++ env.strParameters p.toList) w = (.ok s₁, w₁) := h1
  have hlive : s₁.Live w₁ := ⟨by unfold World.Good; rw [e1]; exact hg, p, by rw [e1, hs1]; exact hp⟩
  rw [PyM.bind_ok h1'] at h
  rcases runTasks_all env s₁.tasks 0 hlive with ⟨s₂, w₂, rs, r1, -⟩ | ⟨e', w₂, rs, more, r1, r2, r3, r4, ⟨x, y, z1, z2⟩, r6⟩
  · rw [PyM.bind_ok r1] at h
    cases h
  · rw [PyM.bind_error r1] at h
    injection h with _ h
    subst h
    have ht : s₁.tasks = self.tasks := by rw [hs1]
    rw [ht, taskNames_eq] at r3 z1
    rw [ht] at r2
    obtain ⟨starts, reports, chis, blocks, m, k1, k2, k3, k4, k5⟩ := stopped_of_progress h1 r3 (by simpa [numberedNames] using r2) r4 (othersKept_of hk)
    refine ⟨starts, reports, chis, blocks, m, x, more, k1, k2, k4, k5, r6, y, by rw [k3]; exact z1, ?_⟩
    rw [k3]
    rw [zero_add] at z2
    exact z2

/-- More messages after the tasks, nothing written. -/
theorem Progress.more {env : Env} {what : String} {i : ℕ} {a : Pipeline} {w w' w'' : World} {rs : List (String × Report)} {ms : List String}
    (h : Progress env what i a w w' rs []) (hf : w''.fs = w'.fs) (hp : w''.stdout = w'.stdout ++ ms.map (printedLine a.name)) :
    Progress env what i a w w'' rs ms := by
  refine ⟨?_, by rw [hf]; exact h.dirs, fun q hq => by rw [hf]; exact h.files q hq, by rw [hf]; exact h.report⟩
  rw [hp, h.printed, List.append_nil, List.append_assoc, ← List.map_append]

theorem taskNames_take {kind : PipelineKind} {ks : List ℤ} (last : List String) {k : ℕ} (hk : k ≤ ks.length) :
    (taskNames 0 (ks.map fun _ => kind.fixAccording) ++ last).take k = (taskNames 0 (ks.map fun _ => kind.fixAccording)).take k := by
  rw [List.take_append_of_le_length]
  rw [taskNames_length, List.length_map]; exact hk

/-- A last task of an iterative pipeline that raises. -/
theorem lastTask_error {s₂ : Pipeline} {env : Env} {w₁ w₂ wb w' : World} {rs : List (String × Report)} {init name : String} {cls : TaskClass}
    {s₁ : Pipeline} {e : PyErr} (hgb : wb.Good) (hob : SameOutside w₂ wb) (hn : s₂.name = s₁.name) (h : Progress env ". Free parameters: " 0 s₁ w₁ w₂ rs [])
    (herr : (Pipeline.iterativeTask { s₂ with report := s₂.report ++ (init ++ "\n") } env name cls)
      { wb with stdout := wb.stdout ++ [printedLine s₂.name init] } = (.error e, w')) :
    ∃ begun, begun <+: [init, "Running " ++ name] ∧ Progress env ". Free parameters: " 0 s₁ w₁ w' rs begun := by
  have hg : World.Good { wb with stdout := wb.stdout ++ [printedLine s₂.name init] } := by unfold World.Good; exact hgb
  generalize hs : ({ s₂ with report := s₂.report ++ (init ++ "\n") } : Pipeline) = s₃ at herr
  generalize hw : ({ wb with stdout := wb.stdout ++ [printedLine s₂.name init] } : World) = w₃ at herr hg
  have herr' : Pipeline.taskFrom s₃ env name (s₃.newTask name cls) w₃ = (.error e, w') := herr
  obtain ⟨k1, more, k2, k3⟩ := taskFrom_error hg (fun _ _ => newTask_ok) (newTask_outside _ _ _) herr'
  refine ⟨init :: more, List.prefix_cons_inj _ |>.mpr k2, h.more ?_ ?_⟩
  · rw [k1, ← hw]; exact hob.1
  · rw [k3, ← hw, ← hs, List.map_cons, ← hn]
    show wb.stdout ++ [printedLine s₂.name init] ++ _ = _
    rw [hob.2, List.append_assoc]; rfl

theorem runIterative_error {self : Pipeline} (hkind : self.kind ≠ .nucleonCS) {env : Env} {its : Iterations} {p : ModelParameters ℝ} {w w' : World} {e : PyErr}
    (hg : w.Good) (hp : w.heap[self.parameters]? = some p) (h : self.runIterative env its w = (.error e, w')) :
    ∃ starts : List String, ∃ reports chis blocks more init begun,
      self.Stopped env (numberedNames (iterativeClassNames self.kind its.free_params_numbers)) w w' reports chis blocks more ∧
      starts.length = reports.length ∧ blocks = headed (startMessage env p) (taskBlocks env ". Free parameters: " 0 (starts.zip reports)) ∧
      blocks.flatten ++ more = startMessage env p :: (taskMessages env ". Free parameters: " 0 (starts.zip reports) ++ begun) ∧
      Began (numberedNames (iterativeClassNames self.kind its.free_params_numbers)) reports.length
        ("Initializing Task#" ++ toString reports.length ++
          if reports.length < its.free_params_numbers.length then ". Free parameters: " ++ init else ". Full fit.") begun := by
  have hk := (runIterative_kept (h := w.heap) (ref := self.parameters) (.inl rfl : self.Mine w.heap self.parameters) env its w (.start w _)).1
  rw [h] at hk
  unfold Pipeline.runIterative at h
  rw [PyM.bind_ok (readParams_run hp)] at h
  obtain ⟨s₁, w₁, h1⟩ : ∃ s₁ w₁, self.log (startMessage env p) w = (.ok s₁, w₁) := ⟨_, _, rfl⟩
  obtain ⟨t1, hs1, e1⟩ := Traced.log h1
  have h1' : self.log ("Starting. Initial parameters: " ++ env.strParameters p.toList) w = (.ok s₁, w₁) := h1
  have hlive : s₁.Live w₁ := ⟨by unfold World.Good; rw [e1]; exact hg, p, by rw [e1, hs1]; exact hp⟩
  rw [PyM.bind_ok h1'] at h
  have hall := runRounds_all env its.nr_initial_rounds_with_fixed_resonances its.free_params_numbers 0 hlive
  have hk1 : s₁.kind = self.kind := t1.kind
  rw [show (fun _ : ℤ => s₁.kind.fixAccording) = fun _ => self.kind.fixAccording by rw [hk1]] at hall
  rcases hall with ⟨s₂, w₂, rs, r1, d2, r3, -⟩ | ⟨e', w₂, rs, begun, r1, r2, r3, r4, ⟨x, y, z1, z2⟩⟩
  · rw [PyM.bind_ok r1] at h
    dsimp only at h
    have hlen : rs.length = its.free_params_numbers.length := by
      have := d2.made.length_eq
      rwa [taskNames_length, List.length_map] at this
    have hk2 : s₂.kind = self.kind := d2.traced.kind.trans hk1
    obtain ⟨s₃, w₃, h3⟩ : ∃ s₃ w₃, s₂.log ("Initializing Task#" ++ toString its.free_params_numbers.length ++ ". Full fit.") w₂ = (.ok s₃, w₃) := ⟨_, _, rfl⟩
    obtain ⟨t3, hs3, e3⟩ := Traced.log h3
    have hw3 : w₃ = { w₂ with stdout := w₂.stdout ++ [printedLine s₂.name ("Initializing Task#" ++ toString its.free_params_numbers.length ++ ". Full fit.")] } :=
      (Prod.ext_iff.mp h3).2.symm
    rw [PyM.bind_ok h3] at h
    have hk3 : s₃.kind = self.kind := t3.kind.trans hk2
    rw [hk3] at h
    rcases hit : s₃.iterativeTask env ("Task#" ++ toString its.free_params_numbers.length ++ ":" ++ self.kind.fullFit.pyName) self.kind.fullFit w₃ with ⟨e₄ | ⟨t', s₄⟩, w₄⟩
    · rw [PyM.bind_error hit] at h
      injection h with _ h
      subst h
      rw [hs3, hw3] at hit
      obtain ⟨begun, k1, k2⟩ := lastTask_error d2.live.1 (.refl _) d2.traced.name r3 hit
      have hm : List.Forall₂ (fun (q : String × Report) n => q.2.Made env n) rs
          ((numberedNames (iterativeClassNames self.kind its.free_params_numbers)).take rs.length) := by
        rw [← taskNames_iterative hkind, taskNames_take _ (le_of_eq hlen), List.take_of_length_le]
        · exact d2.made
        · rw [taskNames_length, List.length_map, hlen]
      have hlast : (numberedNames (iterativeClassNames self.kind its.free_params_numbers))[rs.length]? =
          some ("Task#" ++ toString its.free_params_numbers.length ++ ":" ++ self.kind.fullFit.pyName) := by
        rw [← taskNames_iterative hkind, List.getElem?_append_right (by rw [taskNames_length, List.length_map, hlen]), taskNames_length,
          List.length_map, hlen, Nat.sub_self]
        rfl
      have hl : rs.length < (numberedNames (iterativeClassNames self.kind its.free_params_numbers)).length := (List.getElem?_eq_some_iff.mp hlast).1
      obtain ⟨starts, reports, chis, blocks, m, q1, q2, q3, q4, q5⟩ := stopped_of_progress h1 hm hl k2 (othersKept_of hk)
      refine ⟨starts, reports, chis, blocks, m, "", begun, q1, q2, q4, q5, _, by rw [q3]; exact hlast, ?_⟩
      rw [q3, hlen, if_neg (lt_irrefl _)]
      exact k1
    · rw [PyM.bind_ok hit] at h
      dsimp only at h
      cases h
  · rw [PyM.bind_error r1] at h
    injection h with _ h
    subst h
    have hm : List.Forall₂ (fun (q : String × Report) n => q.2.Made env n) rs
        ((numberedNames (iterativeClassNames self.kind its.free_params_numbers)).take rs.length) := by
      rw [← taskNames_iterative hkind, taskNames_take _ r2.le]
      exact r3
    have hy : (numberedNames (iterativeClassNames self.kind its.free_params_numbers))[rs.length]? = some y := by
      rw [← taskNames_iterative hkind, List.getElem?_append_left (by rw [taskNames_length, List.length_map]; exact r2)]
      exact z1
    obtain ⟨starts, reports, chis, blocks, m, q1, q2, q3, q4, q5⟩ := stopped_of_progress h1 hm (List.getElem?_eq_some_iff.mp hy).1 r4 (othersKept_of hk)
    refine ⟨starts, reports, chis, blocks, m, x, begun, q1, q2, q4, q5, y, by rw [q3]; exact hy, ?_⟩
    rw [q3, if_pos r2, ← String.append_assoc]
    rw [zero_add] at z2
    exact z2

/-- The text with one more block. -/
theorem last_text {env : Env} {what : String} {s₁ s₂ : Pipeline} {w₁ w₂ : World} {rs : List (String × Report)} (h : Progress env what 0 s₁ w₁ w₂ rs [])
    (hb : s₂.report = bufferAfter s₁.report rs) (hf : s₂.reportFile = s₁.reportFile) (b : List String) :
    s₂.text w₂ ++ linesText b = s₁.text w₁ ++ blocksText (taskBlocks env what 0 rs ++ [b]) := by
  unfold Pipeline.text
  rw [hf, h.report, hb]
  unfold bufferAfter
  by_cases hrs : rs = []
  · subst hrs
    rw [if_pos rfl, if_pos rfl]; rfl
  · rw [if_neg hrs, if_neg hrs, blocksText_append (fun hb => hrs ((taskBlocks_eq_nil env what 0).mp hb)) (List.cons_ne_nil _ _)]
    show s₁.text w₁ ++ _ ++ "\n" ++ linesText b = _
    unfold Pipeline.text
    simp only [String.append_assoc]
    rfl

/-- The residual task raises only before anything is written. -/
theorem residual_error {s : Pipeline} {env : Env} {name number : String} {w w' : World} {e : PyErr} (hg : w.Good)
    (h : (do
      let task ← s.newTask name .residual
      let self ← s.log ("Running " ++ name)
      let task ← task.run env
      let self ← self.log (name ++ " report: " ++ env.strReport task.report)
      self.saveReport env number task.report
      return self : PyM World Pipeline) w = (.error e, w')) :
    w'.fs = w.fs ∧ ∃ more, more <+: ["Running " ++ name] ∧ w'.stdout = w.stdout ++ more.map (printedLine s.name) := by
  have hit : s.taskFrom env name (s.newTask name .residual) w = (.error e, w') := by
    unfold Pipeline.taskFrom
    rcases ha : s.newTask name .residual w with ⟨e1 | ta, wa⟩
    · rw [PyM.bind_error ha] at h
      exact (PyM.bind_error ha).trans (error_as h)
    · rw [PyM.bind_ok ha] at h
      refine (PyM.bind_ok ha).trans ?_
      rcases hb : s.log ("Running " ++ name) wa with ⟨e1 | sb, wb⟩
      · rw [PyM.bind_error hb] at h ⊢; exact error_as h
      · rw [PyM.bind_ok hb] at h ⊢
        rcases hc : ta.run env wb with ⟨e1 | tc, wc⟩
        · rw [PyM.bind_error hc] at h ⊢; exact error_as h
        · rw [PyM.bind_ok hc] at h
          cases h
  exact taskFrom_error hg (fun _ _ => newTask_ok) (newTask_outside _ _ _) hit

theorem runNucleonCSIterative_error {self : Pipeline} {env : Env} {its : Iterations} {p : ModelParameters ℝ} {w w' : World} {e : PyErr}
    (hg : w.Good) (hp : w.heap[self.parameters]? = some p) (h : self.runNucleonCSIterative env its w = (.error e, w')) :
    ∃ starts : List String, ∃ reports chis blocks more init begun best,
      self.Stopped env (nucleonTaskNames its) w w' reports chis blocks more ∧
      starts.length = min reports.length its.free_params_numbers.length ∧
      blocks = headed (startMessage env p) (taskBlocks env ". Free parameters: " 0 (starts.zip reports) ++
        (reports.drop its.free_params_numbers.length).map fun r =>
          ["Initializing Task#" ++ toString its.free_params_numbers.length ++ ". " ++ fullFitName its ++ ".", "Running " ++ r.name,
            r.name ++ " report: " ++ env.strReport r, "Best fit: " ++ env.strBestFit best]) ∧
      (if blocks = [] then more = startMessage env p :: begun else more = begun) ∧
      best = (reports.take (its.free_params_numbers.length + 1)).foldl (bestStep self.name) self.best_fit ∧
      Began (nucleonTaskNames its) reports.length
        ("Initializing Task#" ++ toString reports.length ++
          if reports.length < its.free_params_numbers.length then ". Free parameters: " ++ init
          else if reports.length = its.free_params_numbers.length then ". " ++ fullFitName its ++ "." else ". Residuals.") begun := by
  have hk := (runNucleonCSIterative_kept (h := w.heap) (ref := self.parameters) (.inl rfl : self.Mine w.heap self.parameters) env its w (.start w _)).1
  rw [h] at hk
  unfold Pipeline.runNucleonCSIterative at h
  rw [PyM.bind_ok (readParams_run hp)] at h
  obtain ⟨s₁, w₁, h1⟩ : ∃ s₁ w₁, self.log (startMessage env p) w = (.ok s₁, w₁) := ⟨_, _, rfl⟩
  obtain ⟨t1, hs1, e1⟩ := Traced.log h1
  have h1' : self.log ("Starting. Initial parameters: " ++ env.strParameters p.toList) w = (.ok s₁, w₁) := h1
  have hlive : s₁.Live w₁ := ⟨by unfold World.Good; rw [e1]; exact hg, p, by rw [e1, hs1]; exact hp⟩
  rw [PyM.bind_ok h1'] at h
  have hall := runRounds_all env its.nr_initial_rounds_with_fixed_resonances its.free_params_numbers 0 hlive
  -- stopped before the full fit has ended
  have early : ∀ {rs : List (String × Report)} {init : String} {begun : List String}, rs.length ≤ its.free_params_numbers.length →
      List.Forall₂ (fun (q : String × Report) n => q.2.Made env n) rs ((nucleonTaskNames its).take rs.length) →
      Progress env ". Free parameters: " 0 s₁ w₁ w' rs begun → 
      Began (nucleonTaskNames its) rs.length
        ("Initializing Task#" ++ toString rs.length ++
          if rs.length < its.free_params_numbers.length then ". Free parameters: " ++ init else ". " ++ fullFitName its ++ ".") begun → 
    ∃ starts : List String, ∃ reports chis blocks more init begun best,
      self.Stopped env (nucleonTaskNames its) w w' reports chis blocks more ∧
      starts.length = min reports.length its.free_params_numbers.length ∧
      blocks = headed (startMessage env p) (taskBlocks env ". Free parameters: " 0 (starts.zip reports) ++
        (reports.drop its.free_params_numbers.length).map fun r =>
          ["Initializing Task#" ++ toString its.free_params_numbers.length ++ ". " ++ fullFitName its ++ ".", "Running " ++ r.name,
            r.name ++ " report: " ++ env.strReport r, "Best fit: " ++ env.strBestFit best]) ∧
      (if blocks = [] then more = startMessage env p :: begun else more = begun) ∧
      best = (reports.take (its.free_params_numbers.length + 1)).foldl (bestStep self.name) self.best_fit ∧
      Began (nucleonTaskNames its) reports.length
        ("Initializing Task#" ++ toString reports.length ++
          if reports.length < its.free_params_numbers.length then ". Free parameters: " ++ init
          else if reports.length = its.free_params_numbers.length then ". " ++ fullFitName its ++ "." else ". Residuals.") begun := by
    intro rs init begun hle hm hpr hbegan
    have hl : rs.length < (nucleonTaskNames its).length := by
      obtain ⟨_, hn, _⟩ := hbegan
      exact (List.getElem?_eq_some_iff.mp hn).1
    obtain ⟨starts, reports, chis, blocks, m, q1, q2, q3, q4, q5⟩ := stopped_of_progress h1 hm hl hpr (othersKept_of hk)
    refine ⟨starts, reports, chis, blocks, m, init, begun, _, q1, ?_, ?_, ?_, rfl, ?_⟩
    · rw [q2, q3]; exact (min_eq_left hle).symm
    · rw [List.drop_eq_nil_of_le (by rw [q3]; exact hle), List.map_nil, List.append_nil]; exact q4
    · by_cases hb : blocks = []
      · rw [if_pos hb]
        rw [hb] at q4 q5
        have := (taskBlocks_eq_nil env _ 0).mp ((headed_eq_nil _).mp q4.symm)
        rw [this] at q5
        exact q5
      · rw [if_neg hb]
        have hz : taskBlocks env ". Free parameters: " 0 (starts.zip reports) ≠ [] := fun hz => hb (by rw [q4, hz]; rfl)
        rw [q4, headed_flatten _ hz, taskBlocks_flatten, List.cons_append, List.cons.injEq] at q5
        exact List.append_cancel_left q5.2
    · rw [q3]
      by_cases hlt : rs.length < its.free_params_numbers.length
      · rw [if_pos hlt] at hbegan ⊢; exact hbegan
      · rw [if_neg hlt] at hbegan ⊢; rw [if_pos (le_antisymm hle (not_lt.mp hlt))]; exact hbegan
  rcases hall with ⟨s₂, w₂, rs, r1, d2, r3, r4⟩ | ⟨e', w₂, rs, begun, r1, r2, r3, r4, ⟨x, y, z1, z2⟩⟩
  · rw [PyM.bind_ok r1] at h
    dsimp only at h
    have hlen : rs.length = its.free_params_numbers.length := by
      have := d2.made.length_eq
      rwa [taskNames_length, List.length_map] at this
    have hm : List.Forall₂ (fun (q : String × Report) n => q.2.Made env n) rs ((nucleonTaskNames its).take rs.length) := by
      rw [← taskNames_nucleon s₁.kind, taskNames_take _ (le_of_eq hlen), List.take_of_length_le]
      · exact d2.made
      · rw [taskNames_length, List.length_map, hlen]
    have hfull : (nucleonTaskNames its)[rs.length]? = some ("Task#" ++ toString its.free_params_numbers.length ++ ":" ++ fullFitName its) := by
      rw [← taskNames_nucleon s₁.kind, List.getElem?_append_right (by rw [taskNames_length, List.length_map, hlen]), taskNames_length,
        List.length_map, hlen, Nat.sub_self]
      rfl
    have hres : (nucleonTaskNames its)[rs.length + 1]? =
        some ("Task#" ++ toString (its.free_params_numbers.length + 1) ++ ":" ++ TaskClass.residual.pyName) := by
      rw [← taskNames_nucleon s₁.kind, List.getElem?_append_right (by rw [taskNames_length, List.length_map, hlen]; omega), taskNames_length,
        List.length_map, hlen, Nat.add_sub_cancel_left]
      rfl
    have ga := release_good s₂.parameters w₂ d2.live.1
    have oa := mutateParams_outside s₂.parameters (fun p => (.ok (), p.releaseAllParameters)) w₂
    rcases ha : mutateParams s₂.parameters (fun p => (.ok (), p.releaseAllParameters)) w₂ with ⟨ea | u, wa⟩
    · rw [PyM.bind_error ha] at h
      injection h with _ h
      subst h
      rw [ha] at oa
      exact early (init := "") hlen.le hm (r3.more (ms := []) oa.1 (by rw [oa.2]; simp)) ⟨_, hfull, List.nil_prefix⟩
    rw [PyM.bind_ok ha] at h
    rw [ha] at ga oa
    -- fixing the resonances or not
    obtain ⟨wb, gb, ob, h⟩ | ⟨ob⟩ : (∃ wb : World, wb.Good ∧ SameOutside wa wb ∧ (do
        let self ← s₂.log ("Initializing Task#" ++ toString its.free_params_numbers.length ++ ". " ++ fullFitName its ++ ".")
        let task_name := "Task#" ++ toString its.free_params_numbers.length ++ ":" ++ fullFitName its
        let (task, self) ← self.iterativeTask env task_name .nucleonCSFixAccording
        let self ← self.log ("Best fit: " ++ env.strBestFit self.best_fit)
        let self ← self.flushReport
        self.saveReport env (toString its.free_params_numbers.length) task.report
        let number := toString (its.free_params_numbers.length + 1)
        let self ← self.log ("Initializing Task#" ++ number ++ ". Residuals.")
        let task_name := "Task#" ++ number ++ ":" ++ TaskClass.residual.pyName
        let task ← self.newTask task_name .residual
        let self ← self.log ("Running " ++ task_name)
        let task ← task.run env
        let self ← self.log (task_name ++ " report: " ++ env.strReport task.report)
        self.saveReport env number task.report
        return self : PyM World Pipeline) wb = (.error e, w')) ∨ SameOutside wa w' := by
      by_cases hf : decide ((its.free_params_numbers.length : ℤ) < its.nr_initial_rounds_with_fixed_resonances) = true
      · unfold fullFitName
        rw [if_pos hf] at h ⊢
        rw [if_pos hf] at h
        have gb := mutateParams_good s₂.parameters (f := fun p => p.fixResonances) (fun _ hp => .step .fixResonances hp) wa ga
        have ob := mutateParams_outside s₂.parameters (fun p => p.fixResonances) wa
        rcases hb : mutateParams s₂.parameters (fun p => p.fixResonances) wa with ⟨eb | u, wb⟩
        · right
          rw [PyM.bind_error hb] at h
          injection h with _ h
          rw [hb] at ob
          rw [← h]; exact ob
        · left
          rw [PyM.bind_ok hb] at h
          rw [hb] at gb ob
          exact ⟨wb, gb, ob, h⟩
      · left
        unfold fullFitName
        rw [if_neg hf] at h ⊢
        rw [if_neg hf] at h
        exact ⟨wa, ga, .refl _, h⟩
    · have oab := oa.trans _ _ _ ob
      obtain ⟨s₃, w₃, h3⟩ : ∃ s₃ w₃, s₂.log ("Initializing Task#" ++ toString its.free_params_numbers.length ++ ". " ++ fullFitName its ++ ".") wb = (.ok s₃, w₃) :=
        ⟨_, _, rfl⟩
      obtain ⟨t3, hs3, e3⟩ := Traced.log h3
      have hw3 : w₃ = { wb with stdout := wb.stdout ++
          [printedLine s₂.name ("Initializing Task#" ++ toString its.free_params_numbers.length ++ ". " ++ fullFitName its ++ ".")] } :=
        (Prod.ext_iff.mp h3).2.symm
      rw [PyM.bind_ok h3] at h
      rcases hit : s₃.iterativeTask env ("Task#" ++ toString its.free_params_numbers.length ++ ":" ++ fullFitName its) .nucleonCSFixAccording w₃ with ⟨e₄ | ⟨t', s₄⟩, w₄⟩
      · rw [PyM.bind_error hit] at h
        injection h with _ h
        subst h
        rw [hs3, hw3] at hit
        obtain ⟨begun, k1, k2⟩ := lastTask_error gb oab d2.traced.name r3 hit
        refine early (init := "") hlen.le hm k2 ⟨_, hfull, ?_⟩
        rw [hlen, if_neg (lt_irrefl _)]
        simp only [String.append_assoc] at k1 ⊢
        exact k1
      · have hg3 : w₃.Good := by unfold World.Good; rw [e3]; exact gb
        obtain ⟨l4, m4, b4, t4⟩ := iterativeTask_ok hg3 hit
        rw [PyM.bind_ok hit] at h
        dsimp only at h
        obtain ⟨s₅, w₅, h5⟩ : ∃ s₅ w₅, s₄.log ("Best fit: " ++ env.strBestFit s₄.best_fit) w₄ = (.ok s₅, w₅) := ⟨_, _, rfl⟩
        obtain ⟨t5, hs5, e5⟩ := Traced.log h5
        rw [PyM.bind_ok h5] at h
        obtain ⟨w₈, w₉, h8, h9, f1, f2, f3, f4, f5⟩ := flush_save (s := s₅) (env := env) (i := its.free_params_numbers.length) (r := t'.report) w₅
        rw [PyM.bind_ok h8, PyM.bind_ok h9] at h
        obtain ⟨s₆, hs6⟩ : ∃ s₆ : Pipeline, s₆ = { s₅ with report := "\n" } := ⟨_, rfl⟩
        rw [← hs6] at h
        obtain ⟨s₇, w₁₀, h10⟩ : ∃ s₇ w₁₀, s₆.log ("Initializing Task#" ++ toString (its.free_params_numbers.length + 1) ++ ". Residuals.") w₉ = (.ok s₇, w₁₀) := ⟨_, _, rfl⟩
        obtain ⟨t10, hs10, e10⟩ := Traced.log h10
        rw [PyM.bind_ok h10] at h
        have hg10 : w₁₀.Good := by unfold World.Good; rw [e10, f1, e5]; exact l4.1
        obtain ⟨k1, more, k2, k3⟩ := residual_error hg10 h
        have T := (Traced.same (b := s₂) oab rfl rfl rfl rfl).trans (t3.trans (t4.trans t5))
        have n2 : s₂.name = self.name := d2.traced.name.trans t1.name
        have n5 : s₅.name = self.name := T.name.trans n2
        have c2 : s₂.reports_dir = self.reports_dir := d2.traced.dir.trans t1.dir
        have c5 : s₅.reports_dir = self.reports_dir := T.dir.trans c2
        have rf1 : s₁.reportFile = self.reportFile := t1.reportFile
        have rf2 : s₂.reportFile = self.reportFile := by unfold Pipeline.reportFile; rw [c2]
        have rf5 : s₅.reportFile = self.reportFile := by unfold Pipeline.reportFile; rw [c5]
        have hfs1 : w₁.fs = w.fs := log_fs h1
        have hfs9 : w'.fs = w₉.fs := k1.trans (log_fs h10)
        have hm' : List.Forall₂ (fun r n => r.Made env n) (rs.map Prod.snd ++ [t'.report]) ((nucleonTaskNames its).take (rs.map Prod.snd ++ [t'.report]).length) := by
          rw [List.length_append, List.length_map, List.length_singleton, List.take_add_one, hfull]
          exact List.rel_append (forall₂_snd hm) (.cons m4 .nil)
        have hfiles : ∀ q, q ≠ self.reportFile →
            w'.fs.files q = ((savedFiles self env 0 (rs.map Prod.snd ++ [t'.report])).foldl (fun fs s => fs.put s.1 s.2) w.fs).files q := by
          intro q hq
          rw [hfs9, f4 q (by rw [rf5]; exact hq), savedFiles_append, List.foldl_append, zero_add, List.length_map, hlen]
          have h5f : w₅.fs.files q = ((savedFiles self env 0 (rs.map Prod.snd)).foldl (fun fs s => fs.put s.1 s.2) w.fs).files q := by
            rw [← savedFiles_congr t1.dir, ← hfs1, ← r3.files q (by rw [rf1]; exact hq)]
            exact T.files q (by rw [rf2]; exact hq)
          have hten : s₅.taskFile its.free_params_numbers.length = self.taskFile its.free_params_numbers.length := by unfold Pipeline.taskFile; rw [c5]
          rw [hten]
          exact foldl_put_congr [(self.taskFile its.free_params_numbers.length, env.strReport t'.report)] h5f
        obtain ⟨⟨chis, v1⟩, v2⟩ := reported_of_files hfiles hm'
        have hlast : (rs.map Prod.snd ++ [t'.report]).length = its.free_params_numbers.length + 1 := by
          rw [List.length_append, List.length_map, hlen, List.length_singleton]
        have hz : (rs.map Prod.fst).zip (rs.map Prod.snd ++ [t'.report]) = rs := by
          have := List.zip_append (l₁ := rs.map Prod.fst) (l₂ := rs.map Prod.snd) (r₁ := []) (r₂ := [t'.report]) (by simp)
          rw [List.append_nil] at this
          rw [this, List.zip_nil_left, List.append_nil]
          exact (List.zip_of_prod (xs := rs) rfl rfl).symm
        have hdrop : (rs.map Prod.snd ++ [t'.report]).drop its.free_params_numbers.length = [t'.report] := by
          rw [List.drop_left' (by rw [List.length_map, hlen])]
        have hbest : s₄.best_fit = (rs.map Prod.snd ++ [t'.report]).foldl (bestStep self.name) self.best_fit := by
          rw [b4, List.foldl_append, ← t1.name]
          have := d2.best
          rw [hs1] at this ⊢
          rw [hs3]
          show bestStep s₂.name s₂.best_fit _ = _
          rw [this, d2.traced.name, hs1]
          rfl
        generalize hlb : (["Initializing Task#" ++ toString its.free_params_numbers.length ++ ". " ++ fullFitName its ++ ".", "Running " ++ t'.report.name,
            t'.report.name ++ " report: " ++ env.strReport t'.report, "Best fit: " ++ env.strBestFit s₄.best_fit] : List String) = lb
        have hne : taskBlocks env ". Free parameters: " 0 rs ++ [lb] ≠ [] := by simp
        refine ⟨rs.map Prod.fst, rs.map Prod.snd ++ [t'.report], chis, headed (startMessage env p) (taskBlocks env ". Free parameters: " 0 rs ++ [lb]),
          ("Initializing Task#" ++ toString (its.free_params_numbers.length + 1) ++ ". Residuals.") :: more, "",
          ("Initializing Task#" ++ toString (its.free_params_numbers.length + 1) ++ ". Residuals.") :: more, s₄.best_fit,
          ⟨?_, v1, ?_, ?_, v2, ?_, othersKept_of hk⟩, ?_, ?_, ?_, ?_, ?_⟩
        · rw [hlast, ← hlen]; exact (List.getElem?_eq_some_iff.mp hres).1
        · rw [headed_flatten _ hne, List.flatten_append, taskBlocks_flatten]
          have n6 : s₆.name = self.name := by rw [hs6]; exact n5
          have n7 : s₇.name = self.name := t10.name.trans n6
          have hp5 : w₅.stdout = w₂.stdout ++ lb.map (printedLine self.name) := by
            have := T.printed
            rw [n2] at this
            rw [this, ← hlb, m4.1]; rfl
          rw [k3, t10.printed, f2, hp5, r3.printed, t1.printed, t1.name, n6, n7]
          simp only [List.map_append, List.map_cons, List.map_nil, List.append_nil, List.flatten_cons, List.flatten_nil, List.append_assoc, List.cons_append,
            List.nil_append]
        · rw [if_neg fun hb => hne ((headed_eq_nil _).mp hb), headed_text _ hne, hfs9, ← rf5, f5, T.exact]
          have hl : ([] ++ (["Initializing Task#" ++ toString its.free_params_numbers.length ++ ". " ++ fullFitName its ++ "."] ++
              (["Running " ++ ("Task#" ++ toString its.free_params_numbers.length ++ ":" ++ fullFitName its),
                ("Task#" ++ toString its.free_params_numbers.length ++ ":" ++ fullFitName its) ++ " report: " ++ env.strReport t'.report] ++
                ["Best fit: " ++ env.strBestFit s₄.best_fit])) : List String) = lb := by rw [← hlb, m4.1]; rfl
          rw [hl, last_text r3 r4 (rf2.trans rf1.symm), t1.exact, rf5]
          unfold Pipeline.text linesText linesText
          simp only [String.append_assoc, String.append_empty]
        · rw [hfs9, f3, T.dirs, r3.dirs, hfs1]
        · rw [hlast, List.length_map, hlen]; simp
        · rw [hz, hdrop, List.map_singleton, hlb]
        · rw [if_neg fun hb => hne ((headed_eq_nil _).mp hb)]
        · rw [List.take_of_length_le hlast.le]; exact hbest
        · refine ⟨_, by rw [hlast, ← hlen]; exact hres, ?_⟩
          rw [hlast, if_neg (by omega), if_neg (by omega)]
          exact List.prefix_cons_inj _ |>.mpr k2
    · have oab := oa.trans _ _ _ ob
      exact early (init := "") hlen.le hm (r3.more (ms := []) oab.1 (by rw [oab.2]; simp)) ⟨_, hfull, List.nil_prefix⟩
  · rw [PyM.bind_error r1] at h
    injection h with _ h
    subst h
    refine early (init := x) r2.le ?_ r4 ⟨y, ?_, ?_⟩
    · rw [← taskNames_nucleon s₁.kind, taskNames_take _ r2.le]
      exact r3
    · rw [← taskNames_nucleon s₁.kind, List.getElem?_append_left (by rw [taskNames_length, List.length_map]; exact r2)]
      exact z1
    · rw [if_pos r2, ← String.append_assoc]
      rw [zero_add] at z2
      exact z2

/-- The exact text after a completed run. -/
theorem run_exact {self self' : Pipeline} {env : Env} {w w' : World} (hg : w.Good) (h : self.run env w = (.ok self', w')) :
    ∃ p, ∃ starts : List String, ∃ reports chis, w.heap[self.parameters]? = some p ∧
      self.Reported env w' (numberedNames (self.tasks.map TaskClass.className)) reports chis ∧ starts.length = reports.length ∧
      w'.fs.files self.reportFile = some ((w.fs.files self.reportFile).getD "" ++ self.report ++
        blocksText (headed (startMessage env p) (taskBlocks env ". Parameters: " 0 (starts.zip reports) ++ [["Best fit: " ++ env.strBestFit self'.best_fit]]))) := by
  unfold Pipeline.run at h
  obtain ⟨p, w₀, h0, hA⟩ := PyM.bind_eq_ok.mp h
  obtain ⟨rfl, hp⟩ := readParams_ok h0
  obtain ⟨s₁, w₁, h1, hB⟩ := PyM.bind_eq_ok.mp hA
  obtain ⟨t1, hs1, e1⟩ := Traced.log h1
  have hlive : s₁.Live w₁ := ⟨by unfold World.Good; rw [e1]; exact hg, p, by rw [e1, hs1]; exact hp⟩
  obtain ⟨s₂, w₂, h2, hC⟩ := PyM.bind_eq_ok.mp hB
  rcases runTasks_all env s₁.tasks 0 hlive with ⟨s₂', w₂', rs, r1, d2, r3, r4⟩ | ⟨e', w₂', rs, more, r1, -⟩
  swap
  · rw [h2] at r1; cases r1
  rw [h2] at r1
  injection r1 with r1 r1'
  injection r1 with r1
  subst r1 r1'
  obtain ⟨s₃, w₃, h3, h4⟩ := PyM.bind_eq_ok.mp hC
  obtain ⟨t3, hs3, e3⟩ := Traced.log h3
  obtain ⟨t4, hs4, e4, f4⟩ := Traced.flush h4
  have ht : s₁.tasks = self.tasks := by rw [hs1]
  rw [ht, taskNames_eq] at d2
  have t2 := d2.traced
  rw [savedFiles_congr t1.dir] at t2
  have T := t1.trans (t2.trans (t3.trans t4))
  simp only [List.append_nil, List.nil_append] at T
  obtain ⟨⟨chis, c1⟩, -⟩ := reported_of_traced T (forall₂_snd d2.made)
  refine ⟨p, rs.map Prod.fst, rs.map Prod.snd, chis, hp, c1, by simp, ?_⟩
  rw [show (rs.map Prod.fst).zip (rs.map Prod.snd) = rs from (List.zip_of_prod (xs := rs) rfl rfl).symm]
  have rf2 : s₂.reportFile = s₁.reportFile := d2.traced.reportFile
  have rf3 : s₃.reportFile = self.reportFile := t3.reportFile.trans (rf2.trans t1.reportFile)
  have hb : self'.best_fit = s₂.best_fit := by rw [hs4, hs3]
  rw [hb, ← rf3, f4, t3.exact, last_text r3 r4 rf2, t1.exact, headed_text _ (by simp), rf3]
  unfold Pipeline.text linesText linesText startMessage
  simp only [String.append_assoc, String.append_empty]

theorem runIterative_exact {self self' : Pipeline} (hkind : self.kind ≠ .nucleonCS) {env : Env} {its : Iterations} {w w' : World} (hg : w.Good)
    (h : self.runIterative env its w = (.ok self', w')) :
    ∃ p, ∃ starts : List String, ∃ reports full chis, w.heap[self.parameters]? = some p ∧
      self.Reported env w' (numberedNames (iterativeClassNames self.kind its.free_params_numbers)) (reports ++ [full]) chis ∧
      starts.length = reports.length ∧
      w'.fs.files self.reportFile = some ((w.fs.files self.reportFile).getD "" ++ self.report ++
        blocksText (headed (startMessage env p) (taskBlocks env ". Free parameters: " 0 (starts.zip reports) ++
          [["Initializing Task#" ++ toString its.free_params_numbers.length ++ ". Full fit.", "Running " ++ full.name,
            full.name ++ " report: " ++ env.strReport full, "Best fit: " ++ env.strBestFit self'.best_fit]]))) := by
  unfold Pipeline.runIterative at h
  obtain ⟨p, w₀, h0, hA⟩ := PyM.bind_eq_ok.mp h
  obtain ⟨rfl, hp⟩ := readParams_ok h0
  obtain ⟨s₁, w₁, h1, hB⟩ := PyM.bind_eq_ok.mp hA
  obtain ⟨t1, hs1, e1⟩ := Traced.log h1
  have hlive : s₁.Live w₁ := ⟨by unfold World.Good; rw [e1]; exact hg, p, by rw [e1, hs1]; exact hp⟩
  obtain ⟨s₂, w₂, h2, hC⟩ := PyM.bind_eq_ok.mp hB
  rcases runRounds_all env its.nr_initial_rounds_with_fixed_resonances its.free_params_numbers 0 hlive with
    ⟨s₂', w₂', rs, r1, d2, r3, r4⟩ | ⟨e', w₂', rs, more, r1, -⟩
  swap
  · rw [h2] at r1; cases r1
  rw [h2] at r1
  injection r1 with r1 r1'
  injection r1 with r1
  subst r1 r1'
  dsimp only at hC
  obtain ⟨s₃, w₃, h3, hD⟩ := PyM.bind_eq_ok.mp hC
  obtain ⟨t3, hs3, e3⟩ := Traced.log h3
  have hk3 : s₃.kind = self.kind := (t1.trans (d2.traced.trans t3)).kind
  rw [hk3] at hD
  obtain ⟨⟨t', s₄⟩, w₄, hit, hE⟩ := PyM.bind_eq_ok.mp hD
  obtain ⟨l4, m4, b4, t4⟩ := iterativeTask_ok (by unfold World.Good; rw [e3]; exact d2.live.1) hit
  dsimp only at hE
  obtain ⟨s₅, w₅, h5, hF⟩ := PyM.bind_eq_ok.mp hE
  obtain ⟨t5, hs5, e5⟩ := Traced.log h5
  obtain ⟨s₆, w₆, h6, hG⟩ := PyM.bind_eq_ok.mp hF
  obtain ⟨t6, hs6, e6, f6⟩ := Traced.flush h6
  obtain ⟨u, w₇, h7, hH⟩ := PyM.bind_eq_ok.mp hG
  obtain ⟨t7, e7, f7⟩ := Traced.save h7
  rw [PyM.pure_run] at hH
  injection hH with hH hw
  injection hH with hH
  subst hH hw
  have hlen : (rs.map Prod.snd).length = its.free_params_numbers.length := by
    have := d2.made.length_eq
    rw [List.length_map, this, taskNames_length, List.length_map]
  have t2 := d2.traced
  rw [savedFiles_congr t1.dir] at t2
  have hk1 : s₁.kind = self.kind := t1.kind
  have hm : List.Forall₂ (fun r n => r.Made env n) (rs.map Prod.snd ++ [t'.report]) (numberedNames (iterativeClassNames self.kind its.free_params_numbers)) := by
    rw [← taskNames_iterative hkind, ← hk1]
    exact List.rel_append (forall₂_snd d2.made) (.cons (by rw [hk1]; exact m4) .nil)
  have T := t1.trans (t2.trans (t3.trans (t4.trans (t5.trans (t6.trans t7)))))
  have c6 : s₆.taskFile its.free_params_numbers.length = self.taskFile its.free_params_numbers.length := by
    rw [t6.taskFile, t5.taskFile, t4.taskFile, t3.taskFile, t2.taskFile, t1.taskFile]
  have hs : savedFiles self env 0 (rs.map Prod.snd ++ [t'.report]) = savedFiles self env 0 (rs.map Prod.snd) ++ [(s₆.taskFile its.free_params_numbers.length, env.strReport t'.report)] := by
    rw [savedFiles_append, zero_add, hlen, c6]; rfl
  simp only [List.append_nil, List.nil_append] at T
  rw [← hs] at T
  obtain ⟨⟨chis, c1⟩, -⟩ := reported_of_traced T hm
  refine ⟨p, rs.map Prod.fst, rs.map Prod.snd, t'.report, chis, hp, c1, by simp, ?_⟩
  rw [show (rs.map Prod.fst).zip (rs.map Prod.snd) = rs from (List.zip_of_prod (xs := rs) rfl rfl).symm]
  have rf2 : s₂.reportFile = s₁.reportFile := d2.traced.reportFile
  have rf6 : s₆.reportFile = self.reportFile := by
    rw [t6.reportFile, t5.reportFile, t4.reportFile, t3.reportFile, t2.reportFile, t1.reportFile]
  have rf5 : s₅.reportFile = self.reportFile := by
    rw [t5.reportFile, t4.reportFile, t3.reportFile, t2.reportFile, t1.reportFile]
  have hb : s₆.best_fit = s₄.best_fit := by rw [hs6, hs5]
  have T2 := t3.trans (t4.trans t5)
  rw [hb, ← rf6, f7, rf6, ← rf5, f6, T2.exact, last_text r3 r4 rf2, t1.exact, headed_text _ (by simp), rf5, m4.1]
  unfold Pipeline.text linesText linesText startMessage
  simp only [String.append_assoc, String.append_empty]
  rfl

theorem runNucleonCSIterative_exact {self self' : Pipeline} {env : Env} {its : Iterations} {w w' : World} (hg : w.Good)
    (h : self.runNucleonCSIterative env its w = (.ok self', w')) :
    ∃ p, ∃ starts : List String, ∃ reports full residual chis, w.heap[self.parameters]? = some p ∧
      self.Reported env w' (nucleonTaskNames its) (reports ++ [full, residual]) chis ∧
      starts.length = reports.length ∧
      w'.fs.files self.reportFile = some ((w.fs.files self.reportFile).getD "" ++ self.report ++
        blocksText (headed (startMessage env p) (taskBlocks env ". Free parameters: " 0 (starts.zip reports) ++
          [["Initializing Task#" ++ toString its.free_params_numbers.length ++ ". " ++ fullFitName its ++ ".", "Running " ++ full.name,
            full.name ++ " report: " ++ env.strReport full, "Best fit: " ++ env.strBestFit self'.best_fit]]))) := by
  unfold Pipeline.runNucleonCSIterative at h
  obtain ⟨p, w₀, h0, hA⟩ := PyM.bind_eq_ok.mp h
  obtain ⟨rfl, hp⟩ := readParams_ok h0
  obtain ⟨s₁, w₁, h1, hB⟩ := PyM.bind_eq_ok.mp hA
  obtain ⟨t1, hs1, e1⟩ := Traced.log h1
  have hlive : s₁.Live w₁ := ⟨by unfold World.Good; rw [e1]; exact hg, p, by rw [e1, hs1]; exact hp⟩
  obtain ⟨s₂, w₂, h2, hC⟩ := PyM.bind_eq_ok.mp hB
  rcases runRounds_all env its.nr_initial_rounds_with_fixed_resonances its.free_params_numbers 0 hlive with
    ⟨s₂', w₂', rs, r1, d2, r3, r4⟩ | ⟨e', w₂', rs, more, r1, -⟩
  swap
  · rw [h2] at r1; cases r1
  rw [h2] at r1
  injection r1 with r1 r1'
  injection r1 with r1
  subst r1 r1'
  dsimp only at hC
  obtain ⟨u, wa, ha, hC'⟩ := PyM.bind_eq_ok.mp hC
  have ga := release_good s₂.parameters w₂ d2.live.1
  have oa := mutateParams_outside s₂.parameters (fun p => (.ok (), p.releaseAllParameters)) w₂
  rw [ha] at ga oa
  obtain ⟨wb, gb, ob, hC''⟩ : ∃ wb : World, wb.Good ∧ SameOutside wa wb ∧ (do
      let self ← s₂.log ("Initializing Task#" ++ toString its.free_params_numbers.length ++ ". " ++ fullFitName its ++ ".")
      let task_name := "Task#" ++ toString its.free_params_numbers.length ++ ":" ++ fullFitName its
      let (task, self) ← self.iterativeTask env task_name .nucleonCSFixAccording
      let self ← self.log ("Best fit: " ++ env.strBestFit self.best_fit)
      let self ← self.flushReport
      self.saveReport env (toString its.free_params_numbers.length) task.report
      let number := toString (its.free_params_numbers.length + 1)
      let self ← self.log ("Initializing Task#" ++ number ++ ". Residuals.")
      let task_name := "Task#" ++ number ++ ":" ++ TaskClass.residual.pyName
      let task ← self.newTask task_name .residual
      let self ← self.log ("Running " ++ task_name)
      let task ← task.run env
      let self ← self.log (task_name ++ " report: " ++ env.strReport task.report)
      self.saveReport env number task.report
      return self : PyM World Pipeline) wb = (.ok self', w') := by
    by_cases hf : decide ((its.free_params_numbers.length : ℤ) < its.nr_initial_rounds_with_fixed_resonances) = true
    · unfold fullFitName
      rw [if_pos hf] at hC' ⊢
      rw [if_pos hf] at hC'
      obtain ⟨u, wb, hb, hC''⟩ := PyM.bind_eq_ok.mp hC'
      have gb := mutateParams_good s₂.parameters (f := fun p => p.fixResonances) (fun _ hp => .step .fixResonances hp) wa ga
      have ob := mutateParams_outside s₂.parameters (fun p => p.fixResonances) wa
      rw [hb] at gb ob
      exact ⟨wb, gb, ob, hC''⟩
    · unfold fullFitName
      rw [if_neg hf] at hC' ⊢
      rw [if_neg hf] at hC'
      exact ⟨wa, ga, .refl _, hC'⟩
  clear hC' hC hB hA h
  obtain ⟨s₃, w₃, h3, hD⟩ := PyM.bind_eq_ok.mp hC''
  obtain ⟨t3, hs3, e3⟩ := Traced.log h3
  obtain ⟨⟨t', s₄⟩, w₄, hit, hE⟩ := PyM.bind_eq_ok.mp hD
  obtain ⟨l4, m4, b4, t4⟩ := iterativeTask_ok (by unfold World.Good; rw [e3]; exact gb) hit
  dsimp only at hE
  obtain ⟨s₅, w₅, h5, hF⟩ := PyM.bind_eq_ok.mp hE
  obtain ⟨t5, hs5, e5⟩ := Traced.log h5
  obtain ⟨s₆, w₆, h6, hG⟩ := PyM.bind_eq_ok.mp hF
  obtain ⟨t6, hs6, e6, f6⟩ := Traced.flush h6
  obtain ⟨u7, w₇, h7, hH⟩ := PyM.bind_eq_ok.mp hG
  obtain ⟨t7, e7, f7⟩ := Traced.save h7
  obtain ⟨s₈, w₈, h8, hI⟩ := PyM.bind_eq_ok.mp hH
  obtain ⟨t8, hs8, e8⟩ := Traced.log h8
  obtain ⟨tr, w₉, h9, hJ⟩ := PyM.bind_eq_ok.mp hI
  obtain ⟨s10, w10, h10, hK⟩ := PyM.bind_eq_ok.mp hJ
  obtain ⟨tr', w11, h11, hL⟩ := PyM.bind_eq_ok.mp hK
  obtain ⟨s12, w12, h12, hM⟩ := PyM.bind_eq_ok.mp hL
  obtain ⟨m12, b12, f12, t12⟩ := bareTask_ok (by unfold World.Good; rw [e8, e7, e6, e5]; exact l4.1) h9 h10 h11 h12
  obtain ⟨u13, w13, h13, hN⟩ := PyM.bind_eq_ok.mp hM
  obtain ⟨t13, e13, f13⟩ := Traced.save h13
  rw [PyM.pure_run] at hN
  injection hN with hN hw
  injection hN with hN
  subst hN hw
  have hlen : (rs.map Prod.snd).length = its.free_params_numbers.length := by
    have := d2.made.length_eq
    rw [List.length_map, this, taskNames_length, List.length_map]
  have t2 := d2.traced
  rw [savedFiles_congr t1.dir] at t2
  have hm : List.Forall₂ (fun r n => r.Made env n) (rs.map Prod.snd ++ [t'.report, tr'.report]) (nucleonTaskNames its) := by
    rw [← taskNames_nucleon s₁.kind]
    exact List.rel_append (forall₂_snd d2.made) (.cons m4 (.cons m12 .nil))
  have T := t1.trans (t2.trans ((Traced.same (b := s₂) (oa.trans _ _ _ ob) rfl rfl rfl rfl).trans
    (t3.trans (t4.trans (t5.trans (t6.trans (t7.trans (t8.trans (t12.trans t13)))))))))
  have d6 : s₆.reports_dir = self.reports_dir := by rw [t6.dir, t5.dir, t4.dir, t3.dir, t2.dir, t1.dir]
  have d12 : s12.reports_dir = self.reports_dir := by rw [t12.dir, t8.dir, t7.dir, d6]
  have c6 : s₆.taskFile its.free_params_numbers.length = self.taskFile its.free_params_numbers.length := by unfold Pipeline.taskFile; rw [d6]
  have c12 : s12.taskFile (its.free_params_numbers.length + 1) = self.taskFile (its.free_params_numbers.length + 1) := by unfold Pipeline.taskFile; rw [d12]
  have hs : savedFiles self env 0 (rs.map Prod.snd ++ [t'.report, tr'.report]) = savedFiles self env 0 (rs.map Prod.snd) ++
      [(s₆.taskFile its.free_params_numbers.length, env.strReport t'.report), (s12.taskFile (its.free_params_numbers.length + 1), env.strReport tr'.report)] := by
    rw [savedFiles_append, zero_add, hlen, c6, c12]; rfl
  simp only [List.append_nil, List.nil_append, List.cons_append] at T
  rw [← hs] at T
  obtain ⟨⟨chis, c1⟩, -⟩ := reported_of_traced T hm
  refine ⟨p, rs.map Prod.fst, rs.map Prod.snd, t'.report, tr'.report, chis, hp, c1, by simp, ?_⟩
  rw [show (rs.map Prod.fst).zip (rs.map Prod.snd) = rs from (List.zip_of_prod (xs := rs) rfl rfl).symm]
  have rf2 : s₂.reportFile = s₁.reportFile := d2.traced.reportFile
  have rf6 : s₆.reportFile = self.reportFile := by unfold Pipeline.reportFile; rw [d6]
  have rf12 : s12.reportFile = self.reportFile := by unfold Pipeline.reportFile; rw [d12]
  have rf5 : s₅.reportFile = self.reportFile := by
    rw [t5.reportFile, t4.reportFile, t3.reportFile, t2.reportFile, t1.reportFile]
  have hb : s12.best_fit = s₄.best_fit := by
    have : s12.best_fit = s₈.best_fit := b12
    rw [this, hs8, hs6, hs5]
  have T2 := (Traced.same (b := s₂) (oa.trans _ _ _ ob) rfl rfl rfl rfl).trans (t3.trans (t4.trans t5))
  rw [hb, ← rf12, f13, rf12, f12, log_fs h8, ← rf6, f7, rf6, ← rf5, f6, T2.exact, last_text r3 r4 rf2, t1.exact, headed_text _ (by simp), rf5, m4.1]
  unfold Pipeline.text linesText linesText startMessage
  simp only [String.append_assoc, String.append_empty]
  rfl

end UA
