import Verif.Model.OtherFit
import Verif.Spec.OtherFit
import Verif.Lemmas.PipelinesRun
import Verif.Lemmas.TasksResult
import Verif.Lemmas.Utils
import Verif.Lemmas.Residual
import Verif.Props.Utils
import Verif.Props.Pipelines

/-!
# Helper lemmas: fits of the background models
-/

namespace UA

open Complex

theorem background_eval {p : ModelParameters ℝ} (hp : Reachable p) (hc : p.cls.IsBackground) (ts : List Datapoint) (m a h : ℝ) :
    functionCrossSection ts m a h p = noFormFactorLoop ts := by
  have hw := reachable_wellFormed hp
  obtain ⟨v, hv⟩ := hw.exists_values
  rcases hc with hc | hc
  · exact (etgmr_wiring hw hv hc).2.2 ts m a h
  · exact (twoPoles_wiring hw hv hc).2.2 ts m a h

theorem noFormFactorLoop_ne {ts : List Datapoint} (h : ts ≠ []) (rs : List ℝ) : noFormFactorLoop ts ≠ .ok rs := by
  cases ts with
  | nil => exact absurd rfl h
  | cons d ts =>
    show (readDatapointNucleon d >>= fun _ => (.error .attributeError : Except PyErr (List ℝ))) ≠ _
    rcases readDatapointNucleon d with e | x
    · rw [except_error_bind]; intro h; cases h
    · rw [except_ok_bind]; intro h; cases h

/-- Points and rows of the kaon. -/
def KaonLike (ts : List Datapoint) : Prop := ∃ d ds, ts = d :: ds ∧ ((∃ t c, d = .kaon t c) ∨ ∃ x y, d = .row [x, y])

theorem KaonLike.ne {ts : List Datapoint} (h : KaonLike ts) : ts ≠ [] := by
  obtain ⟨d, ds, rfl, -⟩ := h; exact List.cons_ne_nil _ _

theorem KaonLike.toRow {ts : List Datapoint} (h : KaonLike ts) : KaonLike (ts.map Datapoint.toRow) := by
  obtain ⟨d, ds, rfl, ⟨t, c, rfl⟩ | ⟨x, y, rfl⟩⟩ := h
  · exact ⟨_, _, rfl, Or.inr ⟨_, _, rfl⟩⟩
  · exact ⟨_, _, rfl, Or.inr ⟨_, _, rfl⟩⟩

theorem noFormFactorLoop_kaon {ts : List Datapoint} (h : KaonLike ts) : noFormFactorLoop ts = .error .indexError := by
  obtain ⟨d, ds, rfl, ⟨t, c, rfl⟩ | ⟨x, y, rfl⟩⟩ := h <;> rfl

theorem background_value {p : ModelParameters ℝ} (hp : Reachable p) (hc : p.cls.IsBackground) (m a h : ℝ) (ts : List Datapoint) (args : List ℝ) :
    partialSpec (.crossSection m a h) p ts args = if p.getFreeValues.length = args.length then noFormFactorLoop ts else .error .valueError := by
  unfold partialSpec
  have hr : Reachable (p.updateFreeValues args).2 := .step (.updateFreeValues args) hp
  rw [updateFreeValues_eq] at hr ⊢
  split_ifs at hr ⊢ with hl
  · exact background_eval hr hc ts m a h
  · rfl

theorem outcome_fails {g : List ℝ → Except PyErr (List ℝ)} (hg : ∀ args rs, g args ≠ .ok rs) (proc : FitProc) :
    (∃ r, proc = .done r ∧ proc.outcome g = r) ∨ ∃ args next e, proc = .ask args next ∧ g args = .error e ∧ proc.outcome g = .error (e, "") := by
  cases proc with
  | done r => exact Or.inl ⟨r, rfl, rfl⟩
  | ask args next =>
    right
    rcases hga : g args with e | rs
    · refine ⟨args, next, e, rfl, hga, ?_⟩
      unfold FitProc.outcome; rw [hga]
    · exact absurd hga (hg args rs)

/-- Set-up of a task that fits cross sections: nothing can go wrong. -/
theorem background_setUp {self : Task} (hc : self.cls.FitsCrossSections) {w : World} {p : ModelParameters ℝ} (h : w.heap[self.parameters]? = some p)
    (hp : Reachable p) : ∃ p' m a hc2, Reachable p' ∧ p'.cls = p.cls ∧ 
      p'.toList = p.toList.map (fun q => ⟨q.name, q.value, self.cls.flagAfter p.cls q.name q.is_fixed⟩) ∧
      self.setUp w = (.ok { self with partial_f := some (.ofPartial ⟨.crossSection m a hc2, w.heap.length⟩) },
        { w with heap := w.heap.set self.parameters p' ++ [p'] }) := by
  have h1 : self.cls ≠ .residual := by rcases hc with e | e | e | e | e | e | e | e <;> rw [e] <;> decide
  have h2 : ¬ self.cls.IsOnlyCharged := by rcases hc with e | e | e | e | e | e | e | e <;> rw [e] <;> decide
  obtain ⟨p', g1, g2, g3, g4⟩ := setUp_run h1 h hp
  rw [if_neg h2] at g4
  obtain ⟨m, a, hc2, hk⟩ : ∃ m a hc2, self.cls.fitted self.constants = .crossSection m a hc2 := by
    rcases hc with e | e | e | e | e | e | e | e <;> rw [e] <;> exact ⟨_, _, _, rfl⟩
  rw [hk] at g4
  exact ⟨p', m, a, hc2, g1, g2, g3, g4⟩

theorem background_bounds {p : ModelParameters ℝ} (hp : Reachable p) (hc : p.cls.IsBackground) (handpicked : Bool) :
    (∃ dict, p.bounds handpicked = .ok dict) ∧ ∃ bounds, p.getBoundsForFreeParameters handpicked = .ok bounds := by
  obtain ⟨dict, lo, up, h1, h2, -⟩ := C44_bounds hp handpicked (fun _ q hq ht => by
    exfalso
    have hw := reachable_wellFormed hp
    have : q.name ∈ p.cls.table.initArgs := by rw [← hw.names]; exact List.mem_map_of_mem hq
    have h3 : ∀ n ∈ ParamClass.etgmr.table.initArgs ++ ParamClass.twoPoles.table.initArgs, ¬ "t_0_".toList <+: n.toList := by decide +kernel
    refine h3 q.name (List.mem_append.mpr ?_) ht
    rcases hc with hc | hc <;> rw [hc] at this
    · exact Or.inl this
    · exact Or.inr this)
  exact ⟨⟨dict, h1⟩, _, h2⟩

/-- Running a task on background parameters: an exception, or the library gives up without having evaluated the function. -/
theorem background_run {self : Task} (hc : self.cls.FitsCrossSections) {w : World} {p : ModelParameters ℝ} (h : w.heap[self.parameters]? = some p)
    (hp : Reachable p) (hb : p.cls.IsBackground) (hts : self.ts ≠ []) (env : Env) {t' : Task} {w' : World}
    (hrun : self.run env w = (.ok t', w')) :
    (∃ message, t'.report = { self.report with status := "failed", error_message := some message }) ∧ t'.parameters = self.parameters ∧
      ∃ p', w'.heap[t'.parameters]? = some p' ∧ Reachable p' ∧ p'.cls = p.cls := by
  obtain ⟨p', m, a, hc2, g1, g2, g3, g4⟩ := background_setUp hc h hp
  have hl := heap_set_append h
  obtain ⟨-, bounds, hbounds⟩ := background_bounds g1 (by rw [g2]; exact hb) self.use_handpicked_bounds
  have hp1 : (w.heap.set self.parameters p' ++ [p'])[self.parameters]? = some p' := by simp [hl, List.getElem?_append]
  have hready : (TaskF.ofPartial ⟨.crossSection m a hc2, w.heap.length⟩).Ready self.parameters p' { w with heap := w.heap.set self.parameters p' ++ [p'] } :=
    ⟨hl.ne', p', by simp, .refl _⟩
  obtain ⟨c1, c2, -, -, c3, -⟩ := run_cases g4 rfl hp1 g1 hready hbounds env
  rw [hrun] at c1 c2 c3
  obtain ⟨n1, n2⟩ := c3 t' rfl
  have hval : ∀ ts : List Datapoint, ts ≠ [] → ∀ args rs, (TaskF.ofPartial ⟨.crossSection m a hc2, w.heap.length⟩).value p' ts args ≠ .ok rs := by
    intro ts hts args rs he
    have he' : partialSpec (.crossSection m a hc2) p' ts args = .ok rs := he
    rw [background_value g1 (by rw [g2]; exact hb)] at he'
    split_ifs at he'
    exact noFormFactorLoop_ne hts rs he'
  obtain ⟨w₂, hs2, hr2, hfitrun⟩ := fit_run (task := { self with partial_f := some (.ofPartial ⟨.crossSection m a hc2, w.heap.length⟩) }) rfl hp1 hready
    hbounds env
  rcases hout : (env.curve_fit w.fits (Task.problem { self with partial_f := some (.ofPartial ⟨.crossSection m a hc2, w.heap.length⟩) } p' bounds)).outcome
    ((TaskF.ofPartial ⟨.crossSection m a hc2, w.heap.length⟩).value p' (self.ts_fit.map Datapoint.toRow)) with ⟨e, msg⟩ | ⟨opt, cov⟩
  · obtain ⟨d1, d2⟩ := c1 e msg hout
    split_ifs at d2 with he
    injection d2 with d2
    subst d2
    exact ⟨⟨msg, rfl⟩, rfl, p', d1, g1, g2⟩
  · exfalso
    obtain ⟨d1, d2⟩ := c2 opt cov hout
    rcases hu : (p'.updateFreeValues opt).1 with e | u
    · unfold Task.run at hrun
      rw [PyM.bind_ok g4] at hrun
      rw [hout] at hfitrun
      rw [PyM.bind_ok hfitrun] at hrun
      dsimp only at hrun
      obtain ⟨_, w₃, hm, -⟩ := PyM.bind_eq_ok.mp hrun
      have hp2 : w₂.heap[self.parameters]? = some p' := by rw [hs2.heap _ hready.ref_ne]; exact hp1
      rw [mutateParams_run hp2] at hm
      injection hm with hm _
      rw [hu] at hm; cases hm
    · obtain ⟨ordered, -, hres⟩ := d2 u (Prod.ext hu rfl)
      rcases hfs : (TaskF.ofPartial ⟨.crossSection m a hc2, w.heap.length⟩).value p' self.ts opt with e | fs
      · rw [hfs] at hres; cases hres
      · exact hval _ hts _ _ hfs

/-- The same on kaon points with a library that keeps to the number of parameters: `IndexError`, or the library gives up. -/
theorem background_run_kaon {self : Task} (hc : self.cls.FitsCrossSections) {w : World} {p : ModelParameters ℝ} (h : w.heap[self.parameters]? = some p)
    (hp : Reachable p) (hb : p.cls.IsBackground) (hts : KaonLike self.ts) (hfit : KaonLike self.ts_fit) {env : Env} (henv : env.FitsSized) :
    ((self.run env w).1 = .error .indexError ∨ (∃ t', (self.run env w).1 = .ok t')) ∧
      (env.Evaluates → (self.run env w).1 = .error .indexError) := by
  obtain ⟨p', m, a, hc2, g1, g2, g3, g4⟩ := background_setUp hc h hp
  have hl := heap_set_append h
  obtain ⟨-, bounds, hbounds⟩ := background_bounds g1 (by rw [g2]; exact hb) self.use_handpicked_bounds
  have hp1 : (w.heap.set self.parameters p' ++ [p'])[self.parameters]? = some p' := by simp [hl, List.getElem?_append]
  have hready : (TaskF.ofPartial ⟨.crossSection m a hc2, w.heap.length⟩).Ready self.parameters p' { w with heap := w.heap.set self.parameters p' ++ [p'] } :=
    ⟨hl.ne', p', by simp, .refl _⟩
  obtain ⟨c1, c2, -, -, -, -⟩ := run_cases g4 rfl hp1 g1 hready hbounds env
  have hval : ∀ ts : List Datapoint, KaonLike ts → ∀ args : List ℝ, args.length = p'.getFreeValues.length →
      (TaskF.ofPartial ⟨.crossSection m a hc2, w.heap.length⟩).value p' ts args = .error .indexError := by
    intro ts hts args ha
    show partialSpec (.crossSection m a hc2) p' ts args = _
    rw [background_value g1 (by rw [g2]; exact hb), if_pos ha.symm, noFormFactorLoop_kaon hts]
  have hsized := henv w.fits (Task.problem { self with partial_f := some (.ofPartial ⟨.crossSection m a hc2, w.heap.length⟩) } p' bounds)
    (by exact hfit.toRow.ne)
  have hev : env.Evaluates → ∃ args next, env.curve_fit w.fits
      (Task.problem { self with partial_f := some (.ofPartial ⟨.crossSection m a hc2, w.heap.length⟩) } p' bounds) = .ask args next := fun h => h _ _
  revert hsized c1 c2 hev
  dsimp only
  generalize env.curve_fit w.fits _ = proc
  intro c1 c2 hsized hev
  cases proc with
  | ask args next =>
    have hv := hval _ hfit.toRow args hsized.1
    have := (c1 .indexError "" (by unfold FitProc.outcome; rw [hv])).2
    rw [if_neg (by decide)] at this
    exact ⟨Or.inl this, fun _ => this⟩
  | done r =>
    refine ⟨?_, fun h => by obtain ⟨_, _, h⟩ := hev h; cases h⟩
    rcases r with ⟨e, msg⟩ | ⟨opt, cov⟩
    · right
      have := (c1 e msg rfl).2
      rw [if_pos (show e = .runtimeError from hsized)] at this
      exact ⟨_, this⟩
    · left
      have hlen : opt.length = p'.getFreeValues.length := hsized
      have hu : p'.updateFreeValues opt = (.ok (), (p'.updateFreeValues opt).2) := by rw [updateFreeValues_eq, if_pos hlen.symm]
      obtain ⟨ordered, -, hres⟩ := (c2 opt cov rfl).2 () hu
      rw [hval _ hts opt hlen] at hres
      exact hres

/-- A library that gives up at once. -/
theorem background_run_failed {self : Task} (hc : self.cls.FitsCrossSections) {w : World} {p : ModelParameters ℝ} (h : w.heap[self.parameters]? = some p)
    (hp : Reachable p) (hb : p.cls.IsBackground) {env : Env} {message : String}
    (henv : ∀ k problem, env.curve_fit k problem = .done (.error (.runtimeError, message))) : ∃ t' w', self.run env w = (.ok t', w') := by
  obtain ⟨p', m, a, hc2, g1, g2, g3, g4⟩ := background_setUp hc h hp
  have hl := heap_set_append h
  obtain ⟨-, bounds, hbounds⟩ := background_bounds g1 (by rw [g2]; exact hb) self.use_handpicked_bounds
  have hp1 : (w.heap.set self.parameters p' ++ [p'])[self.parameters]? = some p' := by simp [hl, List.getElem?_append]
  have hready : (TaskF.ofPartial ⟨.crossSection m a hc2, w.heap.length⟩).Ready self.parameters p' { w with heap := w.heap.set self.parameters p' ++ [p'] } :=
    ⟨hl.ne', p', by simp, .refl _⟩
  obtain ⟨c1, -⟩ := run_cases g4 rfl hp1 g1 hready hbounds env
  have := (c1 .runtimeError message (by rw [henv]; rfl)).2
  exact ⟨_, _, Prod.ext this rfl⟩

/-- The residual task on background parameters fails in its set-up. -/
theorem background_residual {self : Task} (hc : self.cls = .residual) {w : World} {p : ModelParameters ℝ} (h : w.heap[self.parameters]? = some p)
    (hp : Reachable p) (hb : p.cls.IsBackground) (env : Env) {e : PyErr} (he : noFormFactorLoop self.ts = .error e) :
    (self.run env w).1 = .error e := by
  have hfix : Reachable p.fixAllParameters := .step .fixAll hp
  have hl := heap_set_append h
  have hset : (self.setUp w).1 = .error e := by
    unfold Task.setUp
    rw [hc]
    show (self.setUpResidual w).1 = _
    unfold Task.setUpResidual
    rw [PyM.bind_ok (mutateParams_run h _)]
    have hp1 : (w.heap.set self.parameters p.fixAllParameters)[self.parameters]? = some p.fixAllParameters := List.getElem?_set_self hl
    rw [PyM.bind_ok (makePartialIn_run (w := { w with heap := w.heap.set self.parameters p.fixAllParameters }) hp1 hfix _)]
    rw [PyM.bind_run, callPartialIn_run (q := p.fixAllParameters) (by exact List.getElem?_concat_length)]
    have hps : partialSpec self.csKind p.fixAllParameters self.ts [] = .error e := by
      unfold partialSpec
      rw [fixAll_update]
      exact (background_eval hfix hb _ _ _ _).trans he
    rw [hps]
  unfold Task.run
  rw [PyM.bind_error (Prod.ext hset rfl : self.setUp w = (.error e, (self.setUp w).2))]

theorem taskInit_run {ref : ℕ} {w : World} {p : ModelParameters ℝ} (h : w.heap[ref]? = some p) (c : TaskClass) (name : String) (ts : List Datapoint)
    (ys errors : List ℝ) (constants : Constants) (dir : Option String) (plot handpicked : Bool) :
    ∃ task, Task.init c name ref ts ys errors constants dir plot handpicked w = (.ok task, w) ∧ task.cls = c ∧ task.parameters = ref ∧
      task.ts = ts ∧ task.ts_fit = ts ∧ task.report.chi_squared = none := by
  unfold Task.init
  rw [PyM.bind_ok (readParams_run h)]
  exact ⟨_, rfl, rfl, rfl, rfl, rfl, rfl⟩

/-- Making these tasks in a form factor pipeline. -/
theorem createTask_background {self : Pipeline} (hk : self.kind = .kaonFF) {c : TaskClass} (hc : c = .etgmr ∨ c = .twoPoles ∨ c = .residual) {w : World}
    {p : ModelParameters ℝ} (h : w.heap[self.parameters]? = some p) (hb : p.cls.IsBackground) (name : String) :
    ∃ task, self.createTask name c w = (.ok task, w) ∧ task.cls = c ∧ task.parameters = self.parameters ∧ task.ts = self.ts ∧
      task.ts_fit = self.ts ∧ task.report.chi_squared = none := by
  have hcase : self.createTask name c w = Task.init c name self.parameters self.ts self.ys self.errors ⟨0, 0, 0⟩ none true true w ∨
      self.createTask name c w = self.newTask name c w := by
    unfold Pipeline.createTask
    rw [hk]
    rcases hc with rfl | rfl | rfl
    · left
      rw [if_neg (by decide), if_pos (by decide), PyM.bind_ok (readParams_run h), if_pos (show p.cls = .etgmr ∨ p.cls = .twoPoles from hb)]
    · right
      rw [if_pos (by decide)]
    · left
      rw [if_neg (by decide), if_pos (by decide), PyM.bind_ok (readParams_run h), if_pos (show p.cls = .etgmr ∨ p.cls = .twoPoles from hb)]
  rcases hcase with e | e
  · obtain ⟨task, h1, h2⟩ := taskInit_run h c name self.ts self.ys self.errors ⟨0, 0, 0⟩ none true true
    exact ⟨task, e.trans h1, h2⟩
  · obtain ⟨task, h1, h2⟩ := taskInit_run h c name self.ts self.ys self.errors self.constants (some self.reports_dir) self.plot self.use_handpicked_bounds
    exact ⟨task, e.trans h1, h2⟩

/-- What is known before a task of the script. -/
structure Pipeline.Background (pipeline : Pipeline) (w : World) : Prop where
  kind : pipeline.kind = .kaonFF
  ts : KaonLike pipeline.ts
  params : ∃ p, w.heap[pipeline.parameters]? = some p ∧ Reachable p ∧ p.cls.IsBackground

theorem log_background {self : Pipeline} {w : World} (h : self.Background w) (msg : String) :
    ∃ self' w', self.log msg w = (.ok self', w') ∧ self'.Background w' ∧ self'.parameters = self.parameters ∧ self'.ts = self.ts ∧
      w'.heap = w.heap ∧ w'.fs = w.fs :=
  ⟨_, _, rfl, ⟨h.kind, h.ts, h.params⟩, rfl, rfl, rfl, rfl⟩

theorem createTask_of {self : Pipeline} {w : World} (h : self.Background w) {c : TaskClass} (hc : c = .etgmr ∨ c = .twoPoles ∨ c = .residual) (name : String) :
    ∃ task, self.createTask name c w = (.ok task, w) ∧ task.cls = c ∧ task.parameters = self.parameters ∧ task.ts = self.ts ∧
      task.ts_fit = self.ts ∧ task.report.chi_squared = none := by
  obtain ⟨p, hp, -, hb⟩ := h.params
  exact createTask_background h.kind hc hp hb name

/-- The last task. -/
theorem runTasks_residual {self : Pipeline} {w : World} (h : self.Background w) (env : Env) (i : ℕ) :
    ∃ w', Pipeline.runTasks env i [.residual] self w = (.error .indexError, w') := by
  obtain ⟨p, hp, -⟩ := h.params
  unfold Pipeline.runTasks
  rw [PyM.bind_ok (readParams_run hp)]
  obtain ⟨s₁, w₁, e1, b1, -⟩ := log_background h ("Initializing Task#" ++ toString i ++ ". Parameters: " ++ env.strParameters p.toList)
  rw [PyM.bind_ok e1]
  obtain ⟨task, e2, t1, t2, t3, -⟩ := createTask_of b1 (c := .residual) (Or.inr (Or.inr rfl)) ("Task#" ++ toString i ++ ":" ++ TaskClass.residual.pyName)
  dsimp only
  rw [PyM.bind_ok e2]
  obtain ⟨s₂, w₂, e3, b2, p2, ts2, -⟩ := log_background b1 ("Running " ++ ("Task#" ++ toString i ++ ":" ++ TaskClass.residual.pyName))
  rw [PyM.bind_ok e3]
  obtain ⟨q, hq, hr, hb⟩ := b2.params
  have hrun := background_residual t1 (w := w₂) (by rw [t2, ← p2]; exact hq) hr hb env (by rw [t3, ← ts2]; exact noFormFactorLoop_kaon b2.ts)
  rw [PyM.bind_error (Prod.ext hrun rfl : task.run env w₂ = (.error .indexError, (task.run env w₂).2))]
  exact ⟨_, rfl⟩

/-- Both tasks. -/
theorem runTasks_background {self : Pipeline} {w : World} (h : self.Background w) {c : TaskClass} (hc : c = .etgmr ∨ c = .twoPoles) (env : Env) (i : ℕ) :
    ∃ e w', Pipeline.runTasks env i [c, .residual] self w = (.error e, w') ∧
      (env.FitsSized → e = .indexError ∧ (env.Evaluates → w'.fs = w.fs)) := by
  obtain ⟨p, hp, -⟩ := h.params
  unfold Pipeline.runTasks
  rw [PyM.bind_ok (readParams_run hp)]
  obtain ⟨s₁, w₁, e1, b1, -, -, -, f1⟩ := log_background h ("Initializing Task#" ++ toString i ++ ". Parameters: " ++ env.strParameters p.toList)
  rw [PyM.bind_ok e1]
  obtain ⟨task, e2, t1, t2, t3, t4, t5⟩ := createTask_of b1 (c := c) (by tauto) ("Task#" ++ toString i ++ ":" ++ c.pyName)
  dsimp only
  rw [PyM.bind_ok e2]
  obtain ⟨s₂, w₂, e3, b2, p2, ts2, -, f2⟩ := log_background b1 ("Running " ++ ("Task#" ++ toString i ++ ":" ++ c.pyName))
  rw [PyM.bind_ok e3]
  obtain ⟨q, hq, hr, hb⟩ := b2.params
  have hcls : task.cls.FitsCrossSections := by rw [t1]; unfold TaskClass.FitsCrossSections; tauto
  have hq' : w₂.heap[task.parameters]? = some q := by rw [t2, ← p2]; exact hq
  have hts : KaonLike task.ts := by rw [t3, ← ts2]; exact b2.ts
  have htf : KaonLike task.ts_fit := by rw [t4, ← ts2]; exact b2.ts
  rcases hrun : task.run env w₂ with ⟨e | t', w₃⟩
  · refine ⟨e, w₃, PyM.bind_error hrun, fun hs => ?_⟩
    obtain ⟨g1, -⟩ := background_run_kaon hcls hq' hr hb hts htf hs
    rw [hrun] at g1
    refine ⟨?_, fun _ => ?_⟩
    · rcases g1 with g | ⟨t, g⟩
      · injection g
      · cases g
    · have := (run_outside task env w₂).1
      rw [hrun] at this
      rw [this, f2, f1]
  · rw [PyM.bind_ok hrun]
    obtain ⟨⟨msg, r1⟩, r2, p', r3, r4, r5⟩ := background_run hcls hq' hr hb hts.ne env hrun
    obtain ⟨s₃, w₄, e5, b3, p3, ts3, h3, -⟩ : ∃ self' w', s₂.log ("Task#" ++ toString i ++ ":" ++ c.pyName ++ " report: " ++ env.strReport t'.report) w₃ =
        (.ok self', w') ∧ self'.Background w' ∧ self'.parameters = s₂.parameters ∧ self'.ts = s₂.ts ∧ w'.heap = w₃.heap ∧ w'.fs = w₃.fs := by
      refine log_background ⟨b2.kind, b2.ts, p', ?_, r4, r5 ▸ hb⟩ _
      rw [p2, ← t2, ← r2]; exact r3
    rw [PyM.bind_ok e5]
    have hbest : s₃.updateBestFit t' w₄ = (.ok s₃, w₄) := by
      unfold Pipeline.updateBestFit
      rw [r1]
      dsimp only
      rw [t5]
      rfl
    rw [PyM.bind_ok hbest]
    have hp3 : w₄.heap[t'.parameters]? = some p' := by rw [h3]; exact r3
    rw [PyM.bind_ok (mutateParams_run hp3 _)]
    dsimp only
    have hl := heap_set_append hp3
    obtain ⟨s₄, w₅, e6, b4, h5⟩ : ∃ s₄ w₅, Pipeline.flushReport { s₃ with parameters := t'.parameters }
        { w₄ with heap := w₄.heap.set t'.parameters p'.releaseAllParameters } = (.ok s₄, w₅) ∧ s₄.Background w₅ ∧ True := by
      refine ⟨_, _, rfl, ⟨b3.kind, b3.ts, p'.releaseAllParameters, ?_, .step .releaseAll r4, ?_⟩, trivial⟩
      · exact List.getElem?_set_self hl
      · show p'.cls.IsBackground; rw [r5]; exact hb
    rw [PyM.bind_ok e6]
    obtain ⟨w₆, e7, b5⟩ : ∃ w₆, s₄.saveReport env (toString i) t'.report w₅ = (.ok (), w₆) ∧ s₄.Background w₆ := ⟨_, rfl, b4.kind, b4.ts, b4.params⟩
    rw [PyM.bind_ok e7]
    obtain ⟨w', hlast⟩ := runTasks_residual b5 env (i + 1)
    refine ⟨.indexError, w', hlast, fun hs => ⟨rfl, fun hev => ?_⟩⟩
    obtain ⟨-, g2⟩ := background_run_kaon hcls hq' hr hb hts htf hs
    have := g2 hev
    rw [hrun] at this
    cases this

theorem pipeline_background {self : Pipeline} {w : World} (h : self.Background w) {c : TaskClass} (hc : c = .etgmr ∨ c = .twoPoles)
    (ht : self.tasks = [c, .residual]) (env : Env) :
    ∃ e w', self.run env w = (.error e, w') ∧ (env.FitsSized → e = .indexError ∧ (env.Evaluates → w'.fs = w.fs)) := by
  obtain ⟨p, hp, -⟩ := h.params
  unfold Pipeline.run
  rw [PyM.bind_ok (readParams_run hp)]
  obtain ⟨s₁, w₁, e1, b1, -, -, -, f1⟩ := log_background h ("Starting. Initial parameters: " ++ env.strParameters p.toList)
  rw [PyM.bind_ok e1, show s₁.tasks = [c, .residual] by
    have : s₁ = { self with report := self.report ++ ("Starting. Initial parameters: " ++ env.strParameters p.toList ++ "\n") } := by
      have h' : (Except.ok _, _) = ((Except.ok s₁ : Except PyErr Pipeline), w₁) := e1
      injection h' with h1 _
      injection h1 with h1
      exact h1.symm
    rw [this]; exact ht]
  obtain ⟨e, w', he, hs⟩ := runTasks_background b1 hc env 0
  refine ⟨e, w', PyM.bind_error he, fun h => ⟨(hs h).1, fun h' => ?_⟩⟩
  rw [(hs h).2 h', f1]

/-- The start of the script. -/
theorem otherModels_start {model : String} (hm : model.toLower = "etgmr" ∨ model.toLower = "twopoles") (random : ℕ → ℝ) :
    ∃ p₀ p c, makeOtherInitialParameters model = .ok p₀ ∧ perturbModelParameters p₀ 1.0 (some 0.1) false random = (.ok (), p) ∧
      otherModelsTasks model = .ok [c, .residual] ∧ (c = .etgmr ∨ c = .twoPoles) ∧ Reachable p ∧ p.cls.IsBackground := by
  have hmake : ∃ p₀ c, makeOtherInitialParameters model = .ok p₀ ∧ otherModelsTasks model = .ok [c, .residual] ∧ (c = .etgmr ∨ c = .twoPoles) ∧
      Reachable p₀ ∧ p₀.cls.IsBackground := by
    unfold makeOtherInitialParameters otherModelsTasks
    rcases hm with hm | hm
    · rw [if_pos hm, if_pos hm]
      have h0 : ParamClass.etgmr.init [("a", (1.0 : ℝ)), ("m_a", 1.0), ("m_d", Real.sqrt 0.71)] =
        .ok ⟨.etgmr, [], [⟨"a", 1.0, false⟩, ⟨"m_a", 1.0, false⟩, ⟨"m_d", Real.sqrt 0.71, false⟩]⟩ := rfl
      exact ⟨_, .etgmr, h0, rfl, Or.inl rfl, .init h0, Or.inl rfl⟩
    · rw [if_neg (by rw [hm]; decide), if_pos hm, if_neg (by rw [hm]; decide), if_pos hm]
      have h0 : ParamClass.twoPoles.init [("a", (1.0 : ℝ)), ("m_1", 0.5), ("m_2", 2.0)] =
        .ok ⟨.twoPoles, [], [⟨"a", 1.0, false⟩, ⟨"m_1", 0.5, false⟩, ⟨"m_2", 2.0, false⟩]⟩ := rfl
      exact ⟨_, .twoPoles, h0, rfl, Or.inr rfl, .init h0, Or.inr rfl⟩
  obtain ⟨p₀, c, h1, h2, h3, h4, h5⟩ := hmake
  obtain ⟨g1, g2, -, g4⟩ := C48_only_free h4 false 1.0 (some 0.1) random
  refine ⟨p₀, _, c, h1, Prod.ext (g4.mpr (background_bounds h4 h5 false).1) rfl, h2, h3, g1, ?_⟩
  rw [g2]; exact h5

/-- `f` of the script up to the making of the pipeline. -/
theorem fitOtherModels_run (env : Env) (random : ℕ → ℝ) {data : List (ℝ × ℝ × ℝ)} (hdata : data ≠ []) (path_to_reports name : String) {model : String}
    (hm : model.toLower = "etgmr" ∨ model.toLower = "twopoles") (w : World) :
    ∃ (p : ModelParameters ℝ) (c : TaskClass) (pipeline : Pipeline), (c = .etgmr ∨ c = .twoPoles) ∧ pipeline.tasks = [c, .residual] ∧
      pipeline.Background { w with heap := w.heap ++ [p], fs := { w.fs with
        dirs := fun q => q == pathJoin path_to_reports (model ++ "_" ++ name) || w.fs.dirs q } } ∧
      fitOtherModels env random (data.map (·.1)) (data.map (·.2.1)) (data.map (·.2.2)) path_to_reports name model w =
        (do setUpReportsDirectory env (pathJoin path_to_reports (model ++ "_" ++ name))
            let pipeline ← pipeline.run env
            return pipeline.best_fit : PyM World BestFit) { w with heap := w.heap ++ [p] } := by
  obtain ⟨p₀, p, c, h1, h2, h3, h4, h5, h6⟩ := otherModels_start hm random
  obtain ⟨out, hout, hperm, -⟩ := C58_kaon data [] (Or.inl hdata)
  have hne : out ≠ [] := by
    rintro rfl
    have := hperm.length_eq
    simp at this
    exact hdata (List.length_eq_zero_iff.mp this.symm)
  refine ⟨p, c, (⟨.kaonFF, model ++ "_" ++ name, w.heap.length, [c, .residual], out.map (fun q => .kaon q.1.1 q.1.2), out.map (·.2.1), out.map (·.2.2),
    pathJoin path_to_reports (model ++ "_" ++ name), true, false, ⟨0, 0, 0⟩, "Report " ++ (model ++ "_" ++ name) ++ ":\n",
    ⟨none, none, none, none, none, none⟩⟩ : Pipeline), h4, rfl, ⟨rfl, ?_, p, ?_, h5, h6⟩, ?_⟩
  · obtain ⟨d, ds, rfl⟩ := List.exists_cons_of_ne_nil hne
    exact ⟨_, _, rfl, Or.inl ⟨_, _, rfl⟩⟩
  · exact List.getElem?_concat_length
  · unfold fitOtherModels
    rw [h1, PyM.bind_ok (PyM.lift_run _ _), PyM.bind_ok (newParams_run p₀ w)]
    have hmut : mutateParams w.heap.length (fun p => perturbModelParameters p 1.0 (some 0.1) false random) { w with heap := w.heap ++ [p₀] } =
        (.ok (), { w with heap := w.heap ++ [p] }) := by
      rw [mutateParams_run (p := p₀) (by simp), h2]
      dsimp only
      congr 2
      simp
    rw [PyM.bind_ok hmut, h3, PyM.bind_ok (PyM.lift_run _ _)]
    have hout' : prepareKaonData (data.map (·.1)) (data.map (·.2.1)) (data.map (·.2.2)) [] [] [] =
      .ok (out.map (fun q => .kaon q.1.1 q.1.2), out.map (·.2.1), out.map (·.2.2)) := hout
    rw [hout', PyM.bind_ok (PyM.lift_run _ _)]
    dsimp only
    unfold Pipeline.init
    dsimp only
    rw [PyM.bind_run, PyM.bind_run, PyM.bind_run]
    rcases setUpReportsDirectory env (pathJoin path_to_reports (model ++ "_" ++ name)) { w with heap := w.heap ++ [p] } with ⟨e | a, w'⟩ <;> rfl

end UA
