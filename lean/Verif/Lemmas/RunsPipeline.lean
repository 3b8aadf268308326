import Verif.Lemmas.RunsTask

/-!
# Helper lemmas: whole kaon pipelines whose values stay inside the bounds
-/

namespace UA

open Complex

/-- Every outcome satisfies its condition. -/
def PyM.Sat {σ α : Type} (x : PyM σ α) (s : σ) (Q : α → σ → Prop) (E : PyErr → Prop) : Prop :=
  match x s with
  | (.ok a, s') => Q a s'
  | (.error e, _) => E e

namespace PyM.Sat

variable {σ α β : Type} {x : PyM σ α} {s : σ} {Q : α → σ → Prop} {E : PyErr → Prop}

theorem bind {f : α → PyM σ β} {R : β → σ → Prop} (h : x.Sat s Q E) (hf : ∀ a s', Q a s' → (f a).Sat s' R E) : (x >>= f).Sat s R E := by
  unfold PyM.Sat at h ⊢
  rw [PyM.bind_run]
  revert h
  rcases x s with ⟨e | a, s'⟩
  · exact fun h => h
  · exact fun h => hf a s' h

theorem of_run {a : α} {s' : σ} (h : x s = (.ok a, s')) (hQ : Q a s') : x.Sat s Q E := by
  unfold PyM.Sat
  rw [h]; exact hQ

theorem step {f : α → PyM σ β} {R : β → σ → Prop} {a : α} {s' : σ} (h : x s = (.ok a, s')) (hf : (f a).Sat s' R E) : (x >>= f).Sat s R E := by
  unfold PyM.Sat at hf ⊢
  rw [PyM.bind_ok h]; exact hf

theorem mono {R : α → σ → Prop} (h : x.Sat s Q E) (hQ : ∀ a s', Q a s' → R a s') : x.Sat s R E := by
  unfold PyM.Sat at h ⊢
  revert h
  rcases x s with ⟨e | a, s'⟩
  · exact fun h => h
  · exact fun h => hQ a s' h

theorem errors {E' : PyErr → Prop} (h : x.Sat s Q E) (hE : ∀ e, E e → E' e) : x.Sat s Q E' := by
  unfold PyM.Sat at h ⊢
  revert h
  rcases x s with ⟨e | a, s'⟩
  · exact fun h => hE e h
  · exact fun h => h

end PyM.Sat

/-- The object a pipeline holds satisfies `G` (for the kind of bounds the pipeline uses) and has `n` parameters. -/
def Pipeline.Holds (self : Pipeline) (G : Bool → ModelParameters ℝ → Prop) (n : ℕ) (w : World) : Prop :=
  ∃ p, w.heap[self.parameters]? = some p ∧ G self.use_handpicked_bounds p ∧ p.names.length = n

/-- What is used of the property `G` of the objects: they belong to class `c`, and flags do not matter. -/
structure ObjectProperty (c : ParamClass) (G : Bool → ModelParameters ℝ → Prop) : Prop where
  reachable : ∀ {h : Bool} {p : ModelParameters ℝ}, G h p → Reachable p
  cls : ∀ {h : Bool} {p : ModelParameters ℝ}, G h p → p.cls = c
  flags : ∀ {h : Bool} {p p' : ModelParameters ℝ}, G h p → Reachable p' → p'.cls = p.cls → ∀ {f : Parameter ℝ → Bool},
    p'.toList = p.toList.map (fun q => ⟨q.name, q.value, f q⟩) → G h p'

theorem goodObject_property (c : ParamClass) (S : Set ℝ) : ObjectProperty c (GoodObject c · S) :=
  ⟨fun h => h.1, fun h => h.2.1, fun h hr hc _ hl => h.flags hr hc hl⟩

/-- The data of a pipeline whose object has `n` parameters. -/
structure Pipeline.KaonRun (pipeline : Pipeline) (points : List (ℝ × Bool)) (n : ℕ) : Prop where
  kind : pipeline.kind = .kaonCS ∨ pipeline.kind = .kaonFF
  ts : pipeline.ts = points.map fun d => .kaon d.1 d.2
  ys : pipeline.ys.length = points.length
  errors : pipeline.errors.length = points.length
  nonzero : ∀ e ∈ pipeline.errors, e ≠ 0
  positive : ∀ d ∈ points, 0 < d.1
  charged : ∃ d ∈ points, d.2 = true
  enough : n < points.length

theorem Pipeline.KaonData.run {pipeline : Pipeline} {p : ModelParameters ℝ} {points : List (ℝ × Bool)} (h : pipeline.KaonData p points) :
    pipeline.KaonRun points p.names.length :=
  ⟨h.kind, h.ts, h.ys, h.errors, h.nonzero, h.positive, h.charged, h.enough⟩

/-- What does not change during a run. -/
structure Pipeline.Same (a b : Pipeline) : Prop where
  kind : b.kind = a.kind
  parameters : b.parameters = a.parameters
  ts : b.ts = a.ts
  ys : b.ys = a.ys
  errors : b.errors = a.errors
  bounds : b.use_handpicked_bounds = a.use_handpicked_bounds
  constants : b.constants = a.constants

theorem Pipeline.Same.refl (a : Pipeline) : a.Same a := ⟨rfl, rfl, rfl, rfl, rfl, rfl, rfl⟩

theorem Pipeline.Same.trans {a b c : Pipeline} (h : a.Same b) (h' : b.Same c) : a.Same c :=
  ⟨h'.kind.trans h.kind, h'.parameters.trans h.parameters, h'.ts.trans h.ts, h'.ys.trans h.ys, h'.errors.trans h.errors, h'.bounds.trans h.bounds,
    h'.constants.trans h.constants⟩

theorem Pipeline.KaonRun.same {a b : Pipeline} {points : List (ℝ × Bool)} {n : ℕ} (h : a.KaonRun points n) (hs : a.Same b) : b.KaonRun points n :=
  ⟨by rw [hs.kind]; exact h.kind, by rw [hs.ts]; exact h.ts, by rw [hs.ys]; exact h.ys, by rw [hs.errors]; exact h.errors,
    by rw [hs.errors]; exact h.nonzero, h.positive, h.charged, h.enough⟩

section
variable {points : List (ℝ × Bool)} {n : ℕ} {c : ParamClass} {S : Set ℝ} {env : Env}

/-- The exceptions a run may end with. -/
def RunError (points : List (ℝ × Bool)) (S : Set ℝ) (e : PyErr) : Prop := e = .zeroDivisionError ∧ ∃ d ∈ points, d.1 ∉ S

theorem newTask_good {self : Pipeline} (hk : self.KaonRun points n) {cls : TaskClass} (hcls : cls ∈ self.kind.kaonTasks) (name : String)
    {w : World} {p : ModelParameters ℝ} (hp : w.heap[self.parameters]? = some p) :
    ∃ task, self.newTask name cls w = (.ok task, w) ∧ task.KaonTask points n ∧ task.parameters = self.parameters ∧
      task.use_handpicked_bounds = self.use_handpicked_bounds ∧ task.cls = cls := by
  unfold Pipeline.newTask Task.init
  rw [PyM.bind_ok (readParams_run hp)]
  refine ⟨_, rfl, ?_⟩
  · exact ⟨⟨by rcases hk.kind with h | h <;> rw [h] at hcls <;> [exact Or.inl hcls; exact Or.inr hcls], hk.ts, rfl, hk.ys, rfl, hk.errors, rfl,
      hk.nonzero, hk.positive, hk.charged, hk.enough⟩, rfl, rfl, rfl⟩

theorem createTask_eq {self : Pipeline} {cls : TaskClass} (hkind : self.kind = .kaonCS ∨ self.kind = .kaonFF) (hcls : cls ∈ self.kind.kaonTasks)
    (name : String) : self.createTask name cls = self.newTask name cls := by
  unfold Pipeline.createTask
  refine if_pos ?_
  rcases hkind with h | h <;> rw [h] at hcls ⊢ <;> revert hcls <;> cases cls <;> decide

theorem task_sat {task : Task} (hk : task.KaonTask points n) (hc : IsKaonClass c)
    {w : World} {p : ModelParameters ℝ} (hp : w.heap[task.parameters]? = some p) (hg : GoodObject c task.use_handpicked_bounds S p)
    (hf : task.cls.IsFull ∨ p.HasFree) (hn : p.names.length = n) (henv : env.FitsInside S) (hplot : ∀ k, env.plot k = .ok ()) :
    (task.run env).Sat w (fun task' w' => task'.parameters = task.parameters ∧ ∃ p', w'.heap[task.parameters]? = some p' ∧
      GoodObject c task.use_handpicked_bounds S p' ∧ p'.names.length = n) (RunError points S) := by
  have := task_good hk hc hp hg hf hn henv hplot
  unfold PyM.Sat
  revert this
  rcases task.run env w with ⟨e | t, w'⟩
  · exact fun this => this
  · exact fun this => ⟨this.1, this.2.choose, this.2.choose_spec.1, this.2.choose_spec.2.1, this.2.choose_spec.2.2.2⟩

theorem log_run (self : Pipeline) (msg : String) (w : World) : ∃ self' w', self.log msg w = (.ok self', w') ∧ self.Same self' ∧
    self'.tasks = self.tasks ∧ w'.heap = w.heap :=
  ⟨_, _, rfl, ⟨rfl, rfl, rfl, rfl, rfl, rfl, rfl⟩, rfl, rfl⟩

theorem updateBestFit_sat (self : Pipeline) (task : Task) (h : task.parameters = self.parameters) {w : World} {p : ModelParameters ℝ}
    (hp : w.heap[self.parameters]? = some p) (hr : Reachable p) :
    ∃ self', self.updateBestFit task w = (.ok self', w) ∧ self.Same self' := by
  unfold Pipeline.updateBestFit
  rcases task.report.chi_squared with _ | cur
  · exact ⟨_, rfl, .refl _⟩
  · dsimp only
    by_cases h1 : cur = ""
    · rw [if_pos h1]; exact ⟨_, rfl, .refl _⟩
    · rw [if_neg h1]
      by_cases h2 : improves cur self.best_fit.chi_squared = true
      · rw [if_pos h2, h, PyM.bind_ok (readParams_run hp)]
        have hw := reachable_wellFormed hr
        obtain ⟨v, hv⟩ := hw.exists_values
        rw [hw.orderedValues hv, PyM.bind_ok (PyM.lift_run _ _)]
        exact ⟨_, rfl, ⟨rfl, rfl, rfl, rfl, rfl, rfl, rfl⟩⟩
      · rw [if_neg h2]; exact ⟨_, rfl, .refl _⟩

theorem hasFree_release {p : ModelParameters ℝ} (hr : Reachable p) (hc : IsKaonClass p.cls) : p.releaseAllParameters.HasFree := by
  have hw := reachable_wellFormed hr
  obtain ⟨h1, h2⟩ := kaon_tin_free hc
  have hd : ¬ DeclaredFixed p.cls "t_in_isoscalar" := fun h => h2 ((declaredFixed_iff _ _ h1).mp h)
  rw [← hw.names] at h1
  obtain ⟨q, hq, hn⟩ := List.mem_map.mp h1
  unfold ModelParameters.HasFree
  rw [(releaseAll_spec hr).2.2]
  exact ⟨_, List.mem_map_of_mem hq, by dsimp only; rw [hn]; exact decide_eq_false hd⟩

theorem names_flags {p p' : ModelParameters ℝ} {f : Parameter ℝ → Bool} (hl : p'.toList = p.toList.map fun q => ⟨q.name, q.value, f q⟩) :
    p'.names = p.names := by
  show p'.toList.map (·.name) = p.toList.map (·.name)
  rw [hl, List.map_map]; rfl

/-- What the proofs below use of a kind of pipeline: `D` says what the pipeline's data are, `T` which task classes belong to it, `E` which
exceptions may occur. -/
structure TasksGood (env : Env) (c : ParamClass) (G : Bool → ModelParameters ℝ → Prop) (n : ℕ) (E : PyErr → Prop) (D : Pipeline → Prop)
    (T : PipelineKind → List TaskClass) : Prop where
  cls : IsResonanceClass c
  inv : ObjectProperty c G
  same : ∀ {a b : Pipeline}, D a → a.Same b → D b
  free : ∀ {p : ModelParameters ℝ}, Reachable p → p.cls = c → p.releaseAllParameters.HasFree
  fixAccording : ∀ {self : Pipeline}, D self → self.kind.fixAccording ∈ T self.kind
  create : ∀ {self : Pipeline} {cls : TaskClass}, D self → cls ∈ T self.kind → ∀ name, self.createTask name cls = self.newTask name cls
  task : ∀ {self : Pipeline} {cls : TaskClass}, D self → cls ∈ T self.kind → ∀ (name : String) {w : World} {p : ModelParameters ℝ},
    w.heap[self.parameters]? = some p → G self.use_handpicked_bounds p → (cls.IsFull ∨ p.HasFree) → p.names.length = n →
    ∃ task, self.newTask name cls w = (.ok task, w) ∧ task.parameters = self.parameters ∧
      task.use_handpicked_bounds = self.use_handpicked_bounds ∧ ∀ w' : World, w'.heap = w.heap →
      (task.run env).Sat w' (fun task' w' => task'.parameters = task.parameters ∧ ∃ p', w'.heap[task.parameters]? = some p' ∧
        G task.use_handpicked_bounds p' ∧ p'.names.length = n) E

section
variable {G : Bool → ModelParameters ℝ → Prop} {E : PyErr → Prop} {D : Pipeline → Prop} {T : PipelineKind → List TaskClass}

/-- The tasks of `run`, each starting from an object with a free parameter. -/
theorem runTasks_sat (H : TasksGood env c G n E D T) :
    ∀ (tasks : List TaskClass) (i : ℕ) (self : Pipeline) (w : World), (∀ t ∈ tasks, t ∈ T self.kind) → D self →
      (∃ p, w.heap[self.parameters]? = some p ∧ G self.use_handpicked_bounds p ∧ p.HasFree ∧ p.names.length = n) →
      (Pipeline.runTasks env i tasks self).Sat w (fun self' w' => self.Same self' ∧ self'.Holds G n w') E
  | [], i, self, w, _, _, ⟨p, h1, h2, _, h4⟩ => ⟨.refl _, p, h1, h2, h4⟩
  | cls :: rest, i, self, w, ht, hk, ⟨p, h1, h2, h3, h4⟩ => by
    unfold Pipeline.runTasks
    refine .step (readParams_run h1) ?_
    obtain ⟨self₁, w₁, e1, s1, -, hh1⟩ := log_run self ("Initializing Task#" ++ toString i ++ ". Parameters: " ++ env.strParameters p.toList) w
    refine .step e1 ?_
    have hp₁ : w₁.heap[self₁.parameters]? = some p := by rw [hh1, s1.parameters]; exact h1
    have hcls : cls ∈ T self₁.kind := by rw [s1.kind]; exact ht cls List.mem_cons_self
    have hk₁ := H.same hk s1
    obtain ⟨task, e2, htp, htb, hrun⟩ := H.task hk₁ hcls ("Task#" ++ toString i ++ ":" ++ cls.pyName) hp₁ (by rw [s1.bounds]; exact h2)
      (Or.inr h3) h4
    refine .step (by rw [H.create hk₁ hcls]; exact e2) ?_
    obtain ⟨self₂, w₂, e3, s2, -, hh2⟩ := log_run self₁ ("Running " ++ ("Task#" ++ toString i ++ ":" ++ cls.pyName)) w₁
    refine .step e3 ?_
    refine (hrun w₂ hh2).bind ?_
    rintro task' w₃ ⟨htp', p', hp', hg', hn'⟩
    obtain ⟨self₃, w₄, e4, s3, -, hh4⟩ := log_run self₂ ("Task#" ++ toString i ++ ":" ++ cls.pyName ++ " report: " ++ env.strReport task'.report) w₃
    refine .step e4 ?_
    have hpar : task'.parameters = self₃.parameters := by rw [htp', htp, s3.parameters, s2.parameters]
    have hpar' : task.parameters = self₃.parameters := by rw [htp, s3.parameters, s2.parameters]
    have hp₄ : w₄.heap[self₃.parameters]? = some p' := by rw [hh4, ← hpar']; exact hp'
    obtain ⟨self₄, e5, s4⟩ := updateBestFit_sat self₃ task' hpar hp₄ (H.inv.reachable hg')
    refine .step e5 ?_
    dsimp only
    have hp₅ : w₄.heap[task'.parameters]? = some p' := by rw [hpar]; exact hp₄
    refine .step (mutateParams_run hp₅ _) ?_
    obtain ⟨r1, r2, r3⟩ := releaseAll_spec (H.inv.reachable hg')
    have hg₅ : G task.use_handpicked_bounds p'.releaseAllParameters := H.inv.flags hg' r1 r2 r3
    have hl := heap_set_append hp₅
    refine .step rfl (.step rfl ?_)
    have hs : self.Same { ({ self₄ with parameters := task'.parameters } : Pipeline) with report := "\n" } := by
      have := ((s1.trans s2).trans s3).trans s4
      exact ⟨this.kind, (by rw [htp', htp, s1.parameters]), this.ts, this.ys, this.errors, this.bounds, this.constants⟩
    refine (runTasks_sat H rest (i + 1) _ _ (fun t h => by rw [hs.kind]; exact ht t (List.mem_cons_of_mem _ h)) (H.same hk hs)
      ⟨p'.releaseAllParameters, ?_, ?_, H.free (H.inv.reachable hg') (H.inv.cls hg'), ?_⟩).mono fun a s' h => ⟨hs.trans h.1, h.2⟩
    · show (w₄.heap.set _ _)[_]? = _
      simp [hl]
    · have : ({ ({ self₄ with parameters := task'.parameters } : Pipeline) with report := "\n" } : Pipeline).use_handpicked_bounds =
        task.use_handpicked_bounds := by rw [hs.bounds, htb, s1.bounds]
      rw [this]; exact hg₅
    · rw [names_flags r3]; exact hn'

/-- `run`. -/
theorem run_sat (H : TasksGood env c G n E D T) (self : Pipeline) (w : World)
    (ht : ∀ t ∈ self.tasks, t ∈ T self.kind) (hk : D self)
    (hp : ∃ p, w.heap[self.parameters]? = some p ∧ G self.use_handpicked_bounds p ∧ p.HasFree ∧ p.names.length = n) :
    (self.run env).Sat w (fun self' w' => self.Same self' ∧ self'.Holds G n w') E := by
  obtain ⟨p, h1, h2, h3, h4⟩ := hp
  unfold Pipeline.run
  refine .step (readParams_run h1) ?_
  obtain ⟨self₁, w₁, e1, s1, ht1, hh1⟩ := log_run self ("Starting. Initial parameters: " ++ env.strParameters p.toList) w
  refine .step e1 ?_
  refine (runTasks_sat H self₁.tasks 0 self₁ w₁ (by rw [ht1, s1.kind]; exact ht) (H.same hk s1)
    ⟨p, by rw [hh1, s1.parameters]; exact h1, by rw [s1.bounds]; exact h2, h3, h4⟩).bind ?_
  rintro self₂ w₂ ⟨s2, p₂, hp₂, hg₂⟩
  obtain ⟨self₃, w₃, e3, s3, -, hh3⟩ := log_run self₂ ("Best fit: " ++ env.strBestFit self₂.best_fit) w₂
  refine .step e3 (.of_run rfl ⟨?_, p₂, ?_, ?_⟩)
  · have := (s1.trans s2).trans s3
    exact ⟨this.kind, this.parameters, this.ts, this.ys, this.errors, this.bounds, this.constants⟩
  · show w₃.heap[self₃.parameters]? = _
    rw [hh3, s3.parameters]; exact hp₂
  · show G self₃.use_handpicked_bounds p₂ ∧ _
    rw [s3.bounds]; exact hg₂

/-- One task of an iterative pipeline. -/
theorem iterativeTask_sat (H : TasksGood env c G n E D T) (self : Pipeline) (w : World)
    (name : String) {cls : TaskClass} (hcls : cls ∈ T self.kind) (hk : D self)
    (hp : ∃ p, w.heap[self.parameters]? = some p ∧ G self.use_handpicked_bounds p ∧ (cls.IsFull ∨ p.HasFree) ∧ p.names.length = n) :
    (self.iterativeTask env name cls).Sat w (fun r w' => self.Same r.2 ∧ r.2.Holds G n w') E := by
  obtain ⟨p, h1, h2, h3, h4⟩ := hp
  unfold Pipeline.iterativeTask
  obtain ⟨task, e2, htp, htb, hrun⟩ := H.task hk hcls name h1 h2 h3 h4
  refine .step e2 ?_
  obtain ⟨self₂, w₂, e3, s2, -, hh2⟩ := log_run self ("Running " ++ name) w
  refine .step e3 ?_
  refine (hrun w₂ hh2).bind ?_
  rintro task' w₃ ⟨htp', p', hp', hg', hn'⟩
  obtain ⟨self₃, w₄, e4, s3, -, hh4⟩ := log_run self₂ (name ++ " report: " ++ env.strReport task'.report) w₃
  refine .step e4 ?_
  have hpar : task'.parameters = self₃.parameters := by rw [htp', htp, s3.parameters, s2.parameters]
  have hpar' : task.parameters = self₃.parameters := by rw [htp, s3.parameters, s2.parameters]
  have hp₄ : w₄.heap[self₃.parameters]? = some p' := by rw [hh4, ← hpar']; exact hp'
  obtain ⟨self₄, e5, s4⟩ := updateBestFit_sat self₃ task' hpar hp₄ (H.inv.reachable hg')
  refine .step e5 (.of_run rfl ?_)
  have := (s2.trans s3).trans s4
  refine ⟨⟨this.kind, (by dsimp only; rw [htp', htp]), this.ts, this.ys, this.errors, this.bounds, this.constants⟩, p', ?_, ?_, hn'⟩
  · dsimp only; rw [hpar]; exact hp₄
  · show G self₄.use_handpicked_bounds p'
    rw [this.bounds, ← htb]; exact hg'

theorem freezable_flags {p p' : ModelParameters ℝ} (hc : p'.cls = p.cls) (hn : p'.names = p.names) (fix : Bool) :
    p'.freezable fix = p.freezable fix := by
  unfold ModelParameters.freezable
  rw [hn, hc]

/-- The number of names a kaon class offers for a round. -/
theorem freezable_count {p : ModelParameters ℝ} (hr : Reachable p) (fix : Bool) :
    p.freezable fix = p.cls.table.initArgs.filter fun m => decide (¬ DeclaredFixed p.cls m ∧ ¬ (fix = true ∧ IsResonanceName m)) := by
  unfold ModelParameters.freezable
  rw [(reachable_wellFormed hr).names]

/-- How many parameters a round may leave free. -/
noncomputable def roundSize (c : ParamClass) (fix : Bool) : ℤ :=
  ((c.table.initArgs.filter fun m => decide (¬ DeclaredFixed c m ∧ ¬ (fix = true ∧ IsResonanceName m))).length : ℤ)

/-- The rounds of an iterative pipeline. -/
theorem runRounds_sat (H : TasksGood env c G n E D T) (hsamp : env.Samples) (nr : ℤ) :
    ∀ (numbers : List ℤ) (i : ℕ) (self : Pipeline) (w : World), D self → self.Holds G n w →
      (∀ j k, numbers[j]? = some k → 1 ≤ k ∧ 1 ≤ roundSize c (decide (((i + j : ℕ) : ℤ) < nr)) ∧
        (self.kind.capped = false → k ≤ roundSize c (decide (((i + j : ℕ) : ℤ) < nr)))) →
      (Pipeline.runRounds env nr i numbers self).Sat w (fun self' w' => self.Same self' ∧ self'.Holds G n w') E
  | [], i, self, w, _, hh, _ => ⟨.refl _, hh⟩
  | k :: rest, i, self, w, hk, ⟨p, h1, h2, h4⟩, hnum => by
    unfold Pipeline.runRounds
    dsimp only
    obtain ⟨-, hgood⟩ := randomlyFreeze_run hsamp self.kind.capped k (fix := decide ((i : ℤ) < nr)) h1 (H.inv.reachable h2)
      (fun _ => by rw [(H.inv.cls h2)]; exact H.cls)
    obtain ⟨k1, k2, k3⟩ := hnum 0 k rfl
    unfold roundSize at k2 k3
    rw [Nat.add_zero, ← (H.inv.cls h2), ← freezable_count (H.inv.reachable h2)] at k2 k3
    have hsize : 1 ≤ (if self.kind.capped then min ((p.freezable (decide ((i : ℤ) < nr))).length : ℤ) k else k) ∧
        (if self.kind.capped then min ((p.freezable (decide ((i : ℤ) < nr))).length : ℤ) k else k) ≤
          ((p.freezable (decide ((i : ℤ) < nr))).length : ℤ) := by
      rcases hcap : self.kind.capped
      · exact ⟨k1, k3 hcap⟩
      · exact ⟨le_min k2 k1, min_le_left _ _⟩
    obtain ⟨chosen, p', hr', hcls', hnd, hlen, hmem, hlist, hrun⟩ := hgood (le_trans zero_le_one hsize.1) hsize.2
    refine .step hrun ?_
    have hl := heap_set_append h1
    have hg' : G self.use_handpicked_bounds p' := H.inv.flags h2 hr' hcls' hlist
    have hfree : p'.HasFree := by
      have : chosen ≠ [] := by
        rintro rfl
        rw [← hlen] at hsize
        simp at hsize
      obtain ⟨x, hx⟩ := List.exists_mem_of_ne_nil _ this
      have hxn := (List.mem_filter.mp (hmem x hx)).1
      obtain ⟨q, hq, rfl⟩ := List.mem_map.mp hxn
      unfold ModelParameters.HasFree
      rw [hlist]
      exact ⟨_, List.mem_map_of_mem hq, by simpa using hx⟩
    obtain ⟨self₁, w₁, e1, s1, -, hh1⟩ := log_run self ("Initializing Task#" ++ toString i ++ ". Free parameters: " ++ env.strNames chosen)
      { w with heap := w.heap.set self.parameters p', samples := w.samples + 1 }
    refine .step e1 ?_
    have hcls : self₁.kind.fixAccording ∈ T self₁.kind := H.fixAccording (H.same hk s1)
    refine (iterativeTask_sat H self₁ w₁ _ hcls (H.same hk s1) ⟨p', ?_, ?_, Or.inr hfree, ?_⟩).bind ?_
    · rw [hh1, s1.parameters]; simp [hl]
    · rw [s1.bounds]; exact hg'
    · rw [names_flags hlist]; exact h4
    · rintro ⟨task, self₂⟩ w₂ ⟨s2, p₂, hp₂, hg₂⟩
      dsimp only at s2 hp₂ hg₂ ⊢
      refine .step rfl (.step rfl ?_)
      have hs : self.Same { self₂ with report := "\n" } := by
        have := s1.trans s2
        exact ⟨this.kind, this.parameters, this.ts, this.ys, this.errors, this.bounds, this.constants⟩
      refine (runRounds_sat H hsamp nr rest (i + 1) _ _ (H.same hk hs) ?_ fun j k' hj => ?_).mono
        fun a s' h => ⟨hs.trans h.1, h.2⟩
      · exact ⟨p₂, hp₂, hg₂⟩
      have := hnum (j + 1) k' (by simpa using hj)
      rw [show i + (j + 1) = i + 1 + j by omega, ← hs.kind] at this
      exact this

/-- `run` of the iterative pipelines, the one for the nucleon cross section excepted. -/
theorem runIterative_sat (H : TasksGood env c G n E D T) (hsamp : env.Samples)
    (its : Iterations) (self : Pipeline) (w : World) (hk : D self) (hp : self.Holds G n w)
    (hfull : ∀ self, D self → self.kind.fullFit ∈ T self.kind ∧ self.kind.fullFit.IsFull)
    (hnum : ∀ (j : ℕ) (k : ℤ), its.free_params_numbers[j]? = some k → 1 ≤ k ∧ k ≤ ((c.table.initArgs.filter fun m =>
        decide (¬ DeclaredFixed c m ∧ ¬ (decide ((j : ℤ) < its.nr_initial_rounds_with_fixed_resonances) = true ∧ IsResonanceName m))).length : ℤ)) :
    (self.runIterative env its).Sat w (fun self' w' => self.Same self' ∧ self'.Holds G n w') E := by
  obtain ⟨p, h1, h2⟩ := hp
  unfold Pipeline.runIterative
  refine .step (readParams_run h1) ?_
  obtain ⟨self₁, w₁, e1, s1, ht1, hh1⟩ := log_run self ("Starting. Initial parameters: " ++ env.strParameters p.toList) w
  refine .step e1 ?_
  refine (runRounds_sat H hsamp _ its.free_params_numbers 0 self₁ w₁ (H.same hk s1)
    ⟨p, by rw [hh1, s1.parameters]; exact h1, by rw [s1.bounds]; exact h2⟩ (fun j k hj => by
      rw [Nat.zero_add]; exact ⟨(hnum j k hj).1, (hnum j k hj).1.trans (hnum j k hj).2, fun _ => (hnum j k hj).2⟩)).bind ?_
  rintro self₂ w₂ ⟨s2, p₂, hp₂, hg₂, hn₂⟩
  dsimp only
  obtain ⟨self₃, w₃, e3, s3, -, hh3⟩ := log_run self₂ ("Initializing Task#" ++ toString its.free_params_numbers.length ++ ". Full fit.") w₂
  refine .step e3 ?_
  have hk₃ := H.same (H.same (H.same hk s1) s2) s3
  have hfull := hfull _ hk₃
  refine (iterativeTask_sat H self₃ w₃ _ hfull.1 hk₃ ⟨p₂, ?_, ?_, Or.inl hfull.2, hn₂⟩).bind ?_
  · rw [hh3, s3.parameters]; exact hp₂
  · rw [s3.bounds]; exact hg₂
  · rintro ⟨task, self₄⟩ w₄ ⟨s4, p₄, hp₄, hg₄⟩
    dsimp only at s4 hp₄ hg₄ ⊢
    obtain ⟨self₅, w₅, e5, s5, -, hh5⟩ := log_run self₄ ("Best fit: " ++ env.strBestFit self₄.best_fit) w₄
    refine .step e5 (.step rfl (.step rfl (.of_run rfl ⟨?_, p₄, ?_, ?_⟩)))
    · have := (((s1.trans s2).trans s3).trans s4).trans s5
      exact ⟨this.kind, this.parameters, this.ts, this.ys, this.errors, this.bounds, this.constants⟩
    · show w₅.heap[self₅.parameters]? = _
      rw [hh5, s5.parameters]; exact hp₄
    · show G self₅.use_handpicked_bounds p₄ ∧ _
      rw [s5.bounds]; exact hg₄

end

/-- The kaon pipelines. -/
theorem kaon_tasksGood (hc : IsKaonClass c) (henv : env.FitsInside S) (hplot : ∀ k, env.plot k = .ok ()) :
    TasksGood env c (GoodObject c · S) n (RunError points S) (fun self => self.KaonRun points n) PipelineKind.kaonTasks where
  cls := hc.resonance
  inv := goodObject_property c S
  same h hs := h.same hs
  free hr h := hasFree_release hr (by rw [h]; exact hc)
  fixAccording h := by rcases h.kind with h | h <;> rw [h] <;> decide
  create h hcls name := createTask_eq h.kind hcls name
  task {self cls} h hcls name w p hp hg hf hn := by
    obtain ⟨task, e, hkt, htp, htb, htc⟩ := newTask_good h hcls name hp
    refine ⟨task, e, htp, htb, fun w' hw' => ?_⟩
    exact task_sat hkt hc (by rw [hw', htp]; exact hp) (by rw [htb]; exact hg) (by rw [htc]; exact hf) hn henv hplot

theorem kaon_fullFit : ∀ self : Pipeline, self.KaonRun points n → self.kind.fullFit ∈ self.kind.kaonTasks ∧ self.kind.fullFit.IsFull := by
  intro self h
  rcases h.kind with h | h <;> rw [h] <;> decide

end

end UA
