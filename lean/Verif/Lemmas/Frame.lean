import Verif.Lemmas.PipelinesRun

/-!
# Helper lemmas: which parameter objects are changed, whatever the outcome
-/

namespace UA

/-- Whatever the outcome the state keeps `I`, and a result satisfies `Q`. -/
def PyM.Holds {σ α : Type} (x : PyM σ α) (I : σ → Prop) (Q : α → Prop) : Prop := ∀ s, I s → I (x s).2 ∧ ∀ a, (x s).1 = .ok a → Q a

namespace PyM.Holds

variable {σ α β : Type} {x : PyM σ α} {I : σ → Prop} {Q : α → Prop}

theorem bind {f : α → PyM σ β} {R : β → Prop} (hx : x.Holds I Q) (hf : ∀ a, Q a → (f a).Holds I R) : (x >>= f).Holds I R := by
  intro s hs
  obtain ⟨h1, h2⟩ := hx s hs
  rcases hr : x s with ⟨e | a, s'⟩
  · rw [PyM.bind_error hr]
    rw [hr] at h1
    exact ⟨h1, fun b hb => by cases hb⟩
  · rw [PyM.bind_ok hr]
    rw [hr] at h1 h2
    exact hf a (h2 a rfl) s' h1

theorem pure (a : α) (h : Q a) : (Pure.pure a : PyM σ α).Holds I Q := by
  intro s hs
  refine ⟨hs, fun b hb => ?_⟩
  rw [PyM.pure_run] at hb
  injection hb with hb
  rw [← hb]; exact h

theorem lift (r : Except PyErr α) (h : ∀ a, r = .ok a → Q a) : (PyM.lift r : PyM σ α).Holds I Q := fun _ hs => ⟨hs, h⟩

theorem raise (e : PyErr) : (PyM.raise e : PyM σ α).Holds I Q := fun _ hs => ⟨hs, fun b hb => by cases hb⟩

theorem mono {R : α → Prop} (hx : x.Holds I Q) (h : ∀ a, Q a → R a) : x.Holds I R := fun s hs => ⟨(hx s hs).1, fun a ha => h a ((hx s hs).2 a ha)⟩

theorem ite {c : Prop} [Decidable c] {y : PyM σ α} (hx : x.Holds I Q) (hy : y.Holds I Q) : (if c then x else y).Holds I Q := by
  split_ifs <;> assumption

end PyM.Holds

/-- The objects of `h` other than `ref` are as they were. -/
def HeapKept (h : Heap) (ref : ℕ) (w : World) : Prop := h.length ≤ w.heap.length ∧ ∀ r, r < h.length → r ≠ ref → w.heap[r]? = h[r]?

/-- The objects that may change: `ref` and those made later. -/
def Mine (h : Heap) (ref r : ℕ) : Prop := r = ref ∨ h.length ≤ r

theorem HeapKept.set {h : Heap} {ref r : ℕ} {w : World} (hw : HeapKept h ref w) (hr : Mine h ref r) (p : ModelParameters ℝ) (w' : World)
    (he : w'.heap = w.heap.set r p) : HeapKept h ref w' := by
  refine ⟨by rw [he, List.length_set]; exact hw.1, fun r' h1 h2 => ?_⟩
  rw [he, List.getElem?_set_ne ?_]
  · exact hw.2 r' h1 h2
  · rintro rfl
    rcases hr with hr | hr
    · exact h2 hr
    · omega

theorem HeapKept.append {h : Heap} {ref : ℕ} {w : World} (hw : HeapKept h ref w) (p : ModelParameters ℝ) (w' : World)
    (he : w'.heap = w.heap ++ [p]) : HeapKept h ref w' := by
  refine ⟨by rw [he, List.length_append]; exact Nat.le_add_right_of_le hw.1, fun r h1 h2 => ?_⟩
  rw [he, List.getElem?_append_left (lt_of_lt_of_le h1 hw.1)]
  exact hw.2 r h1 h2

theorem HeapKept.same {h : Heap} {ref : ℕ} {w w' : World} (hw : HeapKept h ref w) (he : w'.heap = w.heap) : HeapKept h ref w' := by
  unfold HeapKept; rw [he]; exact hw

section

variable {h : Heap} {ref : ℕ}

/-- A step that leaves all objects. -/
theorem keeps_heap {α : Type} {x : PyM World α} (hx : ∀ w, (x w).2.heap = w.heap) : x.Holds (HeapKept h ref) fun _ => True :=
  fun w hw => ⟨hw.same (hx w), fun _ _ => trivial⟩

theorem readParams_kept (r : ℕ) : (readParams r).Holds (HeapKept h ref) fun _ => True := by
  refine keeps_heap fun w => ?_
  unfold readParams
  rcases w.heap[r]? with _ | p <;> rfl

theorem mutateParams_kept {r : ℕ} (hr : Mine h ref r) (f : ModelParameters ℝ → Mutation ℝ) :
    (mutateParams r f).Holds (HeapKept h ref) fun _ => True := by
  intro w hw
  refine ⟨?_, fun _ _ => trivial⟩
  unfold mutateParams
  rcases w.heap[r]? with _ | p
  · exact hw
  · exact hw.set hr _ _ rfl

theorem newParams_kept (p : ModelParameters ℝ) : (newParams p).Holds (HeapKept h ref) (Mine h ref) := by
  intro w hw
  refine ⟨hw.append p _ rfl, fun r hr => ?_⟩
  injection hr with hr
  rw [← hr]; exact .inr hw.1

theorem makePartialIn_kept (kind : PartialKind) (r : ℕ) : (makePartialIn kind r).Holds (HeapKept h ref) fun f => Mine h ref f.parameters := by
  intro w hw
  unfold makePartialIn
  rcases hm : makePartial kind w.heap r with e | ⟨f, h'⟩
  · exact ⟨hw, fun _ hf => by cases hf⟩
  · unfold makePartial at hm
    rcases hp : w.heap[r]? with _ | p
    · rw [hp] at hm; cases hm
    · rw [hp] at hm
      dsimp only at hm
      rcases hq : p.copy with e | q
      · rw [hq] at hm; cases hm
      · rw [hq] at hm
        injection hm with hm
        injection hm with h1 h2
        refine ⟨hw.append q _ h2.symm, fun g hg => ?_⟩
        injection hg with hg
        rw [← hg, ← h1]; exact .inr hw.1

theorem callPartialIn_kept {f : PartialF} (hf : Mine h ref f.parameters) (ts : List Datapoint) (args : List ℝ) :
    (callPartialIn f ts args).Holds (HeapKept h ref) fun _ => True := by
  intro w hw
  refine ⟨?_, fun _ _ => trivial⟩
  unfold callPartialIn PartialF.call
  dsimp only
  rcases w.heap[f.parameters]? with _ | p
  · exact hw.same rfl
  · dsimp only
    rcases p.updateFreeValues args with ⟨e | u, p'⟩
    · exact hw.set hf p' _ rfl
    · exact hw.set hf p' _ rfl

/-- The function of a task changes its own copy only. -/
def TaskF.Mine (h : Heap) (ref : ℕ) : TaskF → Prop
  | .ofPartial f => UA.Mine h ref f.parameters
  | .oscillations _ => True

theorem TaskF.call_kept {f : TaskF} (hf : f.Mine h ref) (ts : List Datapoint) (args : List ℝ) :
    (f.call ts args).Holds (HeapKept h ref) fun _ => True := by
  cases f with
  | ofPartial f => exact callPartialIn_kept hf ts args
  | oscillations r => exact (readParams_kept r).bind fun p _ => .lift _ fun _ _ => trivial

/-- A task on objects that may change. -/
def Task.Mine (h : Heap) (ref : ℕ) (t : Task) : Prop := UA.Mine h ref t.parameters ∧ ∀ f, t.partial_f = some f → f.Mine h ref

theorem withPartial_kept {self : Task} (ht : UA.Mine h ref self.parameters) (kind : PartialKind) :
    (self.withPartial kind).Holds (HeapKept h ref) (Task.Mine h ref) :=
  (makePartialIn_kept _ _).bind fun f hf => .pure _ ⟨ht, fun g hg => by cases hg; exact hf⟩

theorem fixCouplings_kept {r : ℕ} (hr : Mine h ref r) : (fixCouplings r).Holds (HeapKept h ref) fun _ => True :=
  (mutateParams_kept hr _).bind fun _ _ => (readParams_kept _).bind fun _ _ => mutateParams_kept hr _

theorem onlyCharged_mine {t t' : Task} (ht : t.Mine h ref) (h' : t.onlyCharged = .ok t') : t'.Mine h ref := by
  unfold Task.onlyCharged at h'
  rcases h1 : filterCharged (zip3 t.ts_fit t.ys_fit t.errors_fit) with e | l
  · rw [h1] at h'; cases h'
  · rw [h1] at h'
    rcases h2 : unzip3 l with e | ⟨a, b, c⟩
    · have h3 : (unzip3 l >>= fun q => (pure { t with ts_fit := q.1, ys_fit := q.2.1, errors_fit := q.2.2 } : Except PyErr Task)) = .ok t' := h'
      rw [h2] at h3; cases h3
    · have h3 : (unzip3 l >>= fun q => (pure { t with ts_fit := q.1, ys_fit := q.2.1, errors_fit := q.2.2 } : Except PyErr Task)) = .ok t' := h'
      rw [h2] at h3
      injection h3 with h3
      rw [← h3]; exact ht

theorem setUpResidual_kept {self : Task} (ht : UA.Mine h ref self.parameters) : self.setUpResidual.Holds (HeapKept h ref) (Task.Mine h ref) := by
  unfold Task.setUpResidual
  refine (mutateParams_kept ht _).bind fun _ _ => (makePartialIn_kept _ _).bind fun f hf => (callPartialIn_kept hf _ _).bind fun _ _ =>
    PyM.Holds.bind (Q := fun _ => True) (.lift _ fun _ _ => trivial) fun q _ => ?_
  obtain ⟨a, b⟩ := q
  refine PyM.Holds.bind (Q := fun _ => True) (.lift _ fun _ _ => trivial) fun q _ => ?_
  obtain ⟨c, d⟩ := q
  refine PyM.Holds.bind (Q := fun _ => True) (.lift _ fun _ _ => trivial) fun q _ =>
    PyM.Holds.bind (Q := fun _ => True) (.lift _ fun _ _ => trivial) fun q _ => ?_
  obtain ⟨a1, a2, a3⟩ := q
  exact PyM.Holds.bind (Q := fun _ => True) (.lift _ fun _ _ => trivial) fun p _ => (newParams_kept p).bind fun r hr =>
    .pure _ ⟨hr, fun g hg => by cases hg; exact trivial⟩

theorem setUp_kept {self : Task} (ht : UA.Mine h ref self.parameters) : self.setUp.Holds (HeapKept h ref) (Task.Mine h ref) := by
  unfold Task.setUp
  have hl : ∀ t : Task, t.Mine h ref → (PyM.lift t.onlyCharged : PyM World Task).Holds (HeapKept h ref) (Task.Mine h ref) :=
    fun t ht => .lift _ fun t' h' => onlyCharged_mine ht h'
  rcases self.cls <;> first
    | exact withPartial_kept ht _
    | exact setUpResidual_kept ht
    | exact (mutateParams_kept ht _).bind fun _ _ => withPartial_kept ht _
    | exact (fixCouplings_kept ht).bind fun _ _ => withPartial_kept ht _
    | exact (mutateParams_kept ht _).bind fun _ _ => (withPartial_kept ht _).bind hl
    | exact (withPartial_kept ht _).bind hl

theorem FitProc.run_kept {f : List ℝ → PyM World (List ℝ)} (hf : ∀ args, (f args).Holds (HeapKept h ref) fun _ => True) (proc : FitProc) :
    ∀ w, HeapKept h ref w → HeapKept h ref (proc.run f w).2 := by
  induction proc with
  | done r => intro w hw; exact hw
  | ask args next ih =>
    intro w hw
    have h1 := (hf args w hw).1
    unfold FitProc.run
    revert h1
    rcases f args w with ⟨e | ys, w'⟩
    · exact fun h1 => h1
    · exact fun h1 => ih ys w' h1

theorem runCurveFit_kept (env : Env) {f : TaskF} (hf : f.Mine h ref) (problem : FitProblem) :
    (runCurveFit env f problem).Holds (HeapKept h ref) fun _ => True :=
  fun w hw => ⟨HeapKept.same (FitProc.run_kept (fun args => TaskF.call_kept hf _ args) _ w hw) rfl, fun _ _ => trivial⟩

theorem fit_kept {self : Task} (ht : self.Mine h ref) (env : Env) : (self.fit env).Holds (HeapKept h ref) fun q => q.2.Mine h ref := by
  unfold Task.fit
  refine (readParams_kept _).bind fun _ _ => PyM.Holds.bind (Q := fun _ => True) (.lift _ fun _ _ => trivial) fun _ _ => ?_
  rcases hf : self.partial_f with _ | f
  · exact .raise _
  · refine (runCurveFit_kept env (ht.2 f hf) _).bind fun r _ => ?_
    rcases r with ⟨e, m⟩ | r
    · dsimp only
      split_ifs
      · exact .pure _ ⟨ht.1, fun g hg => ht.2 g (hf.trans hg)⟩
      · exact .raise _
    · exact .pure _ ht

theorem updateReport_kept {self : Task} (ht : self.Mine h ref) (env : Env) (opt : List ℝ) (cov : Cov) :
    (self.updateReport env opt cov).Holds (HeapKept h ref) (Task.Mine h ref) := by
  unfold Task.updateReport
  rcases hf : self.partial_f with _ | f
  · exact .raise _
  · exact (TaskF.call_kept (ht.2 f hf) _ _).bind fun _ _ => PyM.Holds.bind (Q := fun _ => True) (fun _ hs => ⟨hs, fun _ _ => trivial⟩) fun _ _ =>
      PyM.Holds.bind (Q := fun _ => True) (.lift _ fun _ _ => trivial) fun _ _ => (readParams_kept _).bind fun _ _ => PyM.Holds.bind (Q := fun _ => True) (.lift _ fun _ _ => trivial) fun _ _ =>
      .pure _ ⟨ht.1, fun g hg => ht.2 g (hf.trans hg)⟩

theorem plot_kept {self : Task} (ht : self.Mine h ref) (env : Env) (opt : List ℝ) : (self.plot env opt).Holds (HeapKept h ref) fun _ => True := by
  unfold Task.plot
  rcases self.reports_dir with _ | dir
  · exact .pure _ trivial
  · rcases hf : self.partial_f with _ | f
    · exact .pure _ trivial
    · dsimp only
      split_ifs
      · exact .pure _ trivial
      · exact (TaskF.call_kept (ht.2 f hf) _ _).bind fun _ _ => keeps_heap fun _ => rfl

/-- Running a task changes no other objects, also when it raises. -/
theorem run_kept {self : Task} (ht : UA.Mine h ref self.parameters) (env : Env) : (self.run env).Holds (HeapKept h ref) (Task.Mine h ref) := by
  unfold Task.run
  refine (setUp_kept ht).bind fun task ht => (fit_kept ht env).bind fun q hq => ?_
  obtain ⟨r, task⟩ := q
  rcases r with _ | ⟨opt, cov⟩
  · exact .pure _ hq
  · exact (mutateParams_kept hq.1 _).bind fun _ _ => (updateReport_kept hq _ _ _).bind fun t ht => (plot_kept ht _ _).bind fun _ _ => .pure _ ht

theorem taskInit_kept {r : ℕ} (hr : Mine h ref r) {cls : TaskClass} {name : String} {ts : List Datapoint} {ys errors : List ℝ} {k : Constants}
    {dir : Option String} {plot bounds : Bool} :
    (Task.init cls name r ts ys errors k dir plot bounds).Holds (HeapKept h ref) fun t => Mine h ref t.parameters := by
  unfold Task.init
  exact (readParams_kept _).bind fun _ _ => .pure _ hr

/-- A pipeline on objects that may change. -/
def Pipeline.Mine (h : Heap) (ref : ℕ) (self : Pipeline) : Prop := UA.Mine h ref self.parameters

theorem log_kept {self : Pipeline} (hs : self.Mine h ref) (msg : String) : (self.log msg).Holds (HeapKept h ref) (Pipeline.Mine h ref) :=
  (keeps_heap fun _ => rfl).bind fun _ _ => .pure _ hs

theorem flush_kept {self : Pipeline} (hs : self.Mine h ref) : self.flushReport.Holds (HeapKept h ref) (Pipeline.Mine h ref) :=
  (keeps_heap fun _ => rfl).bind fun _ _ => .pure _ hs

theorem save_kept (self : Pipeline) (env : Env) (name : String) (r : Report) : (self.saveReport env name r).Holds (HeapKept h ref) fun _ => True :=
  keeps_heap fun _ => rfl

theorem updateBestFit_kept {self : Pipeline} (hs : self.Mine h ref) (t : Task) : (self.updateBestFit t).Holds (HeapKept h ref) (Pipeline.Mine h ref) := by
  unfold Pipeline.updateBestFit
  rcases t.report.chi_squared with _ | c
  · exact .pure _ hs
  · dsimp only
    split_ifs
    · exact .pure _ hs
    · exact (readParams_kept _).bind fun _ _ => PyM.Holds.bind (Q := fun _ => True) (.lift _ fun _ _ => trivial) fun _ _ => .pure _ hs
    · exact .pure _ hs

theorem createTask_kept {self : Pipeline} (hs : self.Mine h ref) (name : String) (cls : TaskClass) :
    (self.createTask name cls).Holds (HeapKept h ref) fun t => Mine h ref t.parameters := by
  unfold Pipeline.createTask
  refine .ite (taskInit_kept hs) (.ite ((readParams_kept _).bind fun p _ => ?_) (.raise _))
  exact .ite (taskInit_kept hs) (.raise _)

theorem taskFrom_kept {self : Pipeline} (hs : self.Mine h ref) (env : Env) (name : String) {create : PyM World Task}
    (hc : create.Holds (HeapKept h ref) fun t => Mine h ref t.parameters) :
    (self.taskFrom env name create).Holds (HeapKept h ref) fun q => q.2.Mine h ref := by
  unfold Pipeline.taskFrom
  exact hc.bind fun t ht => (log_kept hs _).bind fun s hs => (run_kept ht env).bind fun t' ht' => (log_kept hs _).bind fun s hs =>
    (updateBestFit_kept hs _).bind fun s _ => .pure _ ht'.1

theorem iterativeTask_kept {self : Pipeline} (hs : self.Mine h ref) (env : Env) (name : String) (cls : TaskClass) :
    (self.iterativeTask env name cls).Holds (HeapKept h ref) fun q => q.2.Mine h ref :=
  taskFrom_kept hs env name (taskInit_kept hs)

theorem runTasks_kept (env : Env) : ∀ (classes : List TaskClass) (i : ℕ) {self : Pipeline}, self.Mine h ref →
    (Pipeline.runTasks env i classes self).Holds (HeapKept h ref) (Pipeline.Mine h ref) := by
  intro classes
  induction classes with
  | nil => intro i self hs; exact .pure _ hs
  | cons c classes ih =>
    intro i self hs
    unfold Pipeline.runTasks
    exact (readParams_kept _).bind fun p _ => (log_kept hs _).bind fun s hs => (createTask_kept hs _ _).bind fun t ht =>
      (log_kept hs _).bind fun s hs => (run_kept ht env).bind fun t ht => (log_kept hs _).bind fun s hs => (updateBestFit_kept hs t).bind fun s _ =>
      (mutateParams_kept ht.1 _).bind fun _ _ => (flush_kept (self := { s with parameters := t.parameters }) ht.1).bind fun s hs => (save_kept s env _ _).bind fun _ _ => ih _ hs

/-- `run` changes no other objects than that of the pipeline, also when it raises. -/
theorem pipelineRun_kept {self : Pipeline} (hs : self.Mine h ref) (env : Env) : (self.run env).Holds (HeapKept h ref) (Pipeline.Mine h ref) := by
  unfold Pipeline.run
  exact (readParams_kept _).bind fun p _ => (log_kept hs _).bind fun s hs => (runTasks_kept env _ _ hs).bind fun s hs => (log_kept hs _).bind fun s hs =>
    flush_kept hs

theorem randomlyFreeze_kept (env : Env) (capped : Bool) {r : ℕ} (hr : Mine h ref r) (k : ℤ) (fix : Bool) :
    (randomlyFreezeParameters env capped r k fix).Holds (HeapKept h ref) fun _ => True := by
  unfold randomlyFreezeParameters
  have hsample : ∀ names k, (env.randomSample names k).Holds (HeapKept h ref) fun _ => True := by
    intro names k
    refine keeps_heap fun w => ?_
    unfold Env.randomSample
    split_ifs <;> rfl
  refine (mutateParams_kept hr _).bind fun _ _ => ?_
  have hrest : (do
      let p ← readParams r
      let names := (p.toList.filter (!·.is_fixed)).map (·.name)
      let k := if capped then min (names.length : ℤ) k else k
      let chosen_names ← env.randomSample names k
      mutateParams r fun p => (.ok (), p.fixAllParameters)
      mutateParams r fun p => p.releaseParameters chosen_names
      return chosen_names : PyM World (List String)).Holds (HeapKept h ref) fun _ => True :=
    (readParams_kept _).bind fun _ _ => (hsample _ _).bind fun _ _ => (mutateParams_kept hr _).bind fun _ _ => (mutateParams_kept hr _).bind fun _ _ =>
      .pure _ trivial
  cases fix with
  | false => exact hrest
  | true => exact (mutateParams_kept hr _).bind fun _ _ => hrest

theorem runRounds_kept (env : Env) (nr : ℤ) : ∀ (ks : List ℤ) (i : ℕ) {self : Pipeline}, self.Mine h ref →
    (Pipeline.runRounds env nr i ks self).Holds (HeapKept h ref) (Pipeline.Mine h ref) := by
  intro ks
  induction ks with
  | nil => intro i self hs; exact .pure _ hs
  | cons k ks ih =>
    intro i self hs
    unfold Pipeline.runRounds
    exact (randomlyFreeze_kept env _ hs _ _).bind fun _ _ => (log_kept hs _).bind fun s hs => (iterativeTask_kept hs env _ _).bind fun q hq =>
      (flush_kept hq).bind fun s hs => (save_kept s env _ _).bind fun _ _ => ih _ hs

theorem runIterative_kept {self : Pipeline} (hs : self.Mine h ref) (env : Env) (its : Iterations) :
    (self.runIterative env its).Holds (HeapKept h ref) (Pipeline.Mine h ref) := by
  unfold Pipeline.runIterative
  exact (readParams_kept _).bind fun p _ => (log_kept hs _).bind fun s hs => (runRounds_kept env _ _ _ hs).bind fun s hs => (log_kept hs _).bind fun s hs =>
    (iterativeTask_kept hs env _ _).bind fun q hq => (log_kept hq _).bind fun s hs => (flush_kept hs).bind fun s hs =>
    (save_kept s env _ _).bind fun _ _ => .pure _ hs

theorem runNucleonCSIterative_kept {self : Pipeline} (hs : self.Mine h ref) (env : Env) (its : Iterations) :
    (self.runNucleonCSIterative env its).Holds (HeapKept h ref) (Pipeline.Mine h ref) := by
  unfold Pipeline.runNucleonCSIterative
  refine (readParams_kept _).bind fun p _ => (log_kept hs _).bind fun s hs => (runRounds_kept env _ _ _ hs).bind fun s hs =>
    (mutateParams_kept hs _).bind fun _ _ => ?_
  have hrest : ∀ name : String, (do
      let number := toString its.free_params_numbers.length
      let self ← s.log ("Initializing Task#" ++ number ++ ". " ++ name ++ ".")
      let task_name := "Task#" ++ number ++ ":" ++ name
      let (task, self) ← self.iterativeTask env task_name .nucleonCSFixAccording
      let self ← self.log ("Best fit: " ++ env.strBestFit self.best_fit)
      let self ← self.flushReport
      self.saveReport env number task.report
      let number := toString (its.free_params_numbers.length + 1)
      let self ← self.log ("Initializing Task#" ++ number ++ ". Residuals.")
      let task_name := "Task#" ++ number ++ ":" ++ TaskClass.residual.pyName
      let task ← self.newTask task_name .residual
      let self ← self.log ("Running " ++ task_name)
      let task ← task.run env
      let self ← self.log (task_name ++ " report: " ++ env.strReport task.report)
      self.saveReport env number task.report
      return self : PyM World Pipeline).Holds (HeapKept h ref) (Pipeline.Mine h ref) := by
    intro name
    refine (log_kept hs _).bind fun s hs => (iterativeTask_kept hs env _ _).bind fun q hq => (log_kept hq _).bind fun s hs => (flush_kept hs).bind fun s hs =>
      (save_kept s env _ _).bind fun _ _ => (log_kept hs _).bind fun s hs => (taskInit_kept hs).bind fun t ht => (log_kept hs _).bind fun s hs =>
      (run_kept ht env).bind fun t _ => (log_kept hs _).bind fun s hs => (save_kept s env _ _).bind fun _ _ => .pure _ hs
  dsimp only
  split_ifs
  · exact (mutateParams_kept hs _).bind fun _ _ => hrest _
  · exact hrest _

end

theorem HeapKept.start (w : World) (ref : ℕ) : HeapKept w.heap ref w := ⟨le_rfl, fun _ _ _ => rfl⟩

end UA
