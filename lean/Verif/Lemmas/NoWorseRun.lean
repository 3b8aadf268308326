import Verif.Lemmas.NoWorse

/-!
# Helper lemmas: whole runs that do not get worse
-/

namespace UA

/-- Tasks of this class, made for the points of this pipeline, fit these points. -/
def FitsFor (self : Pipeline) (fit : FitData) (c : TaskClass) : Prop :=
  ∀ (name : String) (ref : ℕ) (k : Constants) (dir : Option String) (plot handpicked : Bool) (w w₁ : World) (t : Task),
    Task.init c name ref self.ts self.ys self.errors k dir plot handpicked w = (.ok t, w₁) → FitsPoints t fit

theorem FitsFor.config {self self' : Pipeline} (h : self'.config = self.config) {fit : FitData} {c : TaskClass} (hf : FitsFor self fit c) :
    FitsFor self' fit c := by
  unfold FitsFor
  have h1 : self'.ts = self.ts := (congrArg Pipeline.ts h :)
  have h2 : self'.ys = self.ys := (congrArg Pipeline.ys h :)
  have h3 : self'.errors = self.errors := (congrArg Pipeline.errors h :)
  rw [h1, h2, h3]
  exact hf

/-- The tasks of a plain pipeline. -/
theorem runTasks_noWorse {env : Env} (hn : env.NeverWorse) (fit : FitData) : ∀ (classes : List TaskClass) (i : ℕ) {self self' : Pipeline} {w w' : World}
    {p : ModelParameters ℝ}, (∀ c ∈ classes, c ≠ .residual ∧ FitsFor self fit c ∧ c.fitted self.constants = fit.f) → w.Good →
    w.heap[self.parameters]? = some p → Pipeline.runTasks env i classes self w = (.ok self', w') →
    ∃ p', w'.heap[self.parameters]? = some p' ∧ fit.NoWorse p p' := by
  intro classes
  induction classes with
  | nil =>
    intro i self self' w w' p _ hg hp h
    injection h with h1 h2
    subst h2
    exact ⟨p, hp, .refl _ _⟩
  | cons c classes ih =>
    intro i self self' w w' p hall hg hp h
    have h' := h
    unfold Pipeline.runTasks at h
    rw [PyM.bind_ok (readParams_run hp)] at h
    obtain ⟨s₁, w₁, h1, h⟩ := PyM.bind_eq_ok.mp h
    obtain ⟨t1, hs₁, e1⟩ := Traced.log h1
    obtain ⟨t, w₂, h2, h⟩ := PyM.bind_eq_ok.mp h
    obtain ⟨s₃, w₃, h3, h⟩ := PyM.bind_eq_ok.mp h
    obtain ⟨t', w₄, h4, h⟩ := PyM.bind_eq_ok.mp h
    obtain ⟨s₅, w₅, h5, h⟩ := PyM.bind_eq_ok.mp h
    obtain ⟨s₆, w₆, h6, h⟩ := PyM.bind_eq_ok.mp h
    have hit : Pipeline.taskFrom s₁ env ("Task#" ++ toString i ++ ":" ++ c.pyName) (s₁.createTask ("Task#" ++ toString i ++ ":" ++ c.pyName) c) w₁ =
        (.ok (t', { s₆ with parameters := t'.parameters }), w₆) := by
      unfold Pipeline.taskFrom
      rw [PyM.bind_ok h2, PyM.bind_ok h3, PyM.bind_ok h4, PyM.bind_ok h5, PyM.bind_ok h6]
      rfl
    have hw₁ : w₁ = { w with stdout := w.stdout ++ [printedLine self.name ("Initializing Task#" ++ toString i ++ ". Parameters: " ++ env.strParameters p.toList)] } :=
      (Prod.ext_iff.mp h1).2.symm
    obtain ⟨hc, hch, hf⟩ := hall c List.mem_cons_self
    have hs1 : s₁.parameters = self.parameters := by rw [hs₁]
    have hp1 : w₁.heap[s₁.parameters]? = some p := by rw [e1, hs1]; exact hp
    obtain ⟨-, -, q2, q3, q4, -⟩ := taskFrom_parameters hc hp1 (hg.read hp) (fun _ _ h => createTask_parameters hp1 h) hit
    obtain ⟨p₆, q1, q5⟩ := taskFrom_noWorse (fit := fit) hn hp1 (hg.read hp) (fun t w₁' h => by
      obtain ⟨i1, i2, i3, -, -, -, -, -, -, i10⟩ := createTask_parameters hp1 h
      refine ⟨i1, i2, ?_, fun q hq ts => ?_⟩
      · have hch := hch.config (self' := s₁) t1.config
        unfold Pipeline.createTask at h
        split_ifs at h with x1 x2
        · exact hch _ _ _ _ _ _ _ _ _ h
        · rw [PyM.bind_ok (readParams_run hp1)] at h
          split_ifs at h with x3
          · exact hch _ _ _ _ _ _ _ _ _ h
          · cases h
        · cases h
      · rw [i3, i10 q hq ts, show s₁.constants = self.constants by rw [hs₁], hf]) hit
    rw [hs1] at q1 q4
    have hr6 : Reachable p₆ := by
      obtain ⟨p₂, u1, u2, -⟩ := taskFrom_parameters hc hp1 (hg.read hp) (fun _ _ h => createTask_parameters hp1 h) hit
      rw [hs1] at u1
      rw [Option.some.inj (q1.symm.trans u1)]
      exact u2
    rw [hs₁, hw₁] at hit
    obtain ⟨w₉, r1, r2, r0, r3, r4, r5⟩ := runTasks_step_from classes hg hp hit
    rw [r1] at h'
    have q4 : t'.parameters = self.parameters := q4
    have hp9 : w₉.heap[self.parameters]? = some p₆.releaseAllParameters := by
      have := r0 _ _ q1
      rwa [if_pos (by show _ = t'.parameters; exact q4.symm)] at this
    have hcfg : ({ { s₆ with parameters := t'.parameters } with report := "\n" } : Pipeline).config = self.config := r5.config
    have hconst : ({ { s₆ with parameters := t'.parameters } with report := "\n" } : Pipeline).constants = self.constants := (congrArg Pipeline.constants hcfg :)
    obtain ⟨p', d1, d2⟩ := ih (i + 1) (fun c hm => by
      obtain ⟨x1, x2, x3⟩ := hall c (List.mem_cons_of_mem _ hm)
      exact ⟨x1, x2.config hcfg, by rw [hconst]; exact x3⟩) r2.1
      (p := p₆.releaseAllParameters) (by show w₉.heap[t'.parameters]? = _; rw [q4]; exact hp9) h'
    have hpar : ({ { s₆ with parameters := t'.parameters } with report := "\n" } : Pipeline).parameters = self.parameters := q4
    rw [hpar] at d1
    obtain ⟨-, v2, v3⟩ := releaseAll_spec hr6
    exact ⟨p', d1, (q5.trans (.flags _ v2 v3)).trans d2⟩

/-- A completed run of a plain pipeline. -/
theorem run_plain_noWorse {env : Env} (hn : env.NeverWorse) {fit : FitData} {self self' : Pipeline} {w w' : World} {p : ModelParameters ℝ}
    (hall : ∀ c ∈ self.tasks, c ≠ .residual ∧ FitsFor self fit c ∧ c.fitted self.constants = fit.f) (hg : w.Good)
    (hp : w.heap[self.parameters]? = some p) (h : self.run env w = (.ok self', w')) :
    ∃ p', w'.heap[self.parameters]? = some p' ∧ fit.NoWorse p p' := by
  unfold Pipeline.run at h
  rw [PyM.bind_ok (readParams_run hp)] at h
  obtain ⟨s₁, w₁, h1, hA⟩ := PyM.bind_eq_ok.mp h
  obtain ⟨-, rfl, e1⟩ := Traced.log h1
  obtain ⟨s₂, w₂, h2, hB⟩ := PyM.bind_eq_ok.mp hA
  obtain ⟨p', r1, r2⟩ := runTasks_noWorse hn fit _ 0 (p := p) (by exact hall) (by unfold World.Good; rw [e1]; exact hg) (by rw [e1]; exact hp) h2
  obtain ⟨s₃, w₃, h3, hC⟩ := PyM.bind_eq_ok.mp hB
  obtain ⟨-, rfl, e3⟩ := Traced.log h3
  obtain ⟨-, -, e4, -⟩ := Traced.flush hC
  exact ⟨p', by rw [e4, e3]; exact r1, r2⟩

/-- A completed run of the iterative pipeline for nucleon cross sections. -/
theorem runNucleonCS_noWorse {env : Env} (hs : env.Samples) (hn : env.NeverWorse) {self self' : Pipeline} (hkind : self.kind = .nucleonCS)
    {its : Iterations} {w w' : World} {p : ModelParameters ℝ} (hg : w.Good) (hp : w.heap[self.parameters]? = some p)
    (h : self.runNucleonCSIterative env its w = (.ok self', w')) :
    ∃ p', w'.heap[self.parameters]? = some p' ∧ (self.fitData env (self.kind.fitted self.constants)).NoWorse p p' := by
  unfold Pipeline.runNucleonCSIterative at h
  rw [PyM.bind_ok (readParams_run hp)] at h
  obtain ⟨s₁, w₁, h1, hA⟩ := PyM.bind_eq_ok.mp h
  obtain ⟨-, rfl, e1⟩ := Traced.log h1
  obtain ⟨s₂, w₂, h2, hB⟩ := PyM.bind_eq_ok.mp hA
  obtain ⟨rs, pₙ, d2, -, a2, a3, -⟩ := runRounds_parameters hs _ _ 0 (p := p) (by unfold World.Good; rw [e1]; exact hg) (by rw [e1]; exact hp) h2
  obtain ⟨pₘ, b1, b2⟩ := runRounds_noWorse hs hn _ _ 0 (p := p) (by unfold World.Good; rw [e1]; exact hg) (by rw [e1]; exact hp) h2
  obtain rfl := Option.some.inj (b1.symm.trans a2)
  have a3' : s₂.parameters = self.parameters := a3
  have a2' : w₂.heap[self.parameters]? = some pₘ := a2
  obtain ⟨u, wa, ha, hB'⟩ := PyM.bind_eq_ok.mp hB
  have ga := release_good s₂.parameters w₂ d2.live.1
  rw [ha] at ga
  obtain ⟨wb, gb, hflags, hB''⟩ : ∃ wb : World, wb.Good ∧
      (do mutateParams s₂.parameters fun p => (.ok (), p.releaseAllParameters)
          if decide ((its.free_params_numbers.length : ℤ) < its.nr_initial_rounds_with_fixed_resonances) then
            mutateParams s₂.parameters fun p => p.fixResonances : PyM World Unit) w₂ = (.ok (), wb) ∧ (do
      let self ← s₂.log ("Initializing Task#" ++ toString its.free_params_numbers.length ++ ". " ++ fullFitName its ++ ".")
      let task_name := "Task#" ++ toString its.free_params_numbers.length ++ ":" ++ fullFitName its
      let (task, self) ← self.iterativeTask env task_name .nucleonCSFixAccording
      let self ← self.log ("Best fit: " ++ env.strBestFit self.best_fit)
      let self ← self.flushReport
      self.saveReport env (toString its.free_params_numbers.length) task.report
      let number := toString (its.free_params_numbers.length + 1)
      let self ← self.log ("Initializing Task#" ++ number ++ ". Residuals.")
      let task_name := "Task#" ++ number ++ ":" ++ TaskClass.residual.pyName
      let task ← self.newTask task_name .residual
      let self ← self.log ("Running " ++ task_name)
      let task ← task.run env
      let self ← self.log (task_name ++ " report: " ++ env.strReport task.report)
      self.saveReport env number task.report
      return self : PyM World Pipeline) wb = (.ok self', w') := by
    by_cases hf : decide ((its.free_params_numbers.length : ℤ) < its.nr_initial_rounds_with_fixed_resonances) = true
    · rw [show fullFitName its = "Full fit (Fixed resonances)" from if_pos hf]
      dsimp only at hB'
      rw [if_pos hf] at hB'
      rw [if_pos hf] at hB'
      obtain ⟨u, wb, hb, hB''⟩ := PyM.bind_eq_ok.mp hB'
      have gb := mutateParams_good s₂.parameters (f := fun p => p.fixResonances) (fun _ hp => .step .fixResonances hp) wa ga
      rw [hb] at gb
      exact ⟨wb, gb, by rw [PyM.bind_ok ha, if_pos hf]; exact hb, hB''⟩
    · rw [show fullFitName its = "Full fit" from if_neg hf]
      dsimp only at hB'
      rw [if_neg hf] at hB'
      rw [if_neg hf] at hB'
      exact ⟨wa, ga, by rw [PyM.bind_ok ha, if_neg hf]; rfl, hB'⟩
  clear hB' hB hA h
  rw [a3'] at hflags
  obtain ⟨pb, g1, g2, g3, g4⟩ := nucleonFull_flags a2' (d2.live.1.read a2') hflags
  obtain ⟨s₃, w₃, h3, hC⟩ := PyM.bind_eq_ok.mp hB''
  obtain ⟨-, rfl, e3⟩ := Traced.log h3
  obtain ⟨⟨t', s₄⟩, w₄, hit, hD⟩ := PyM.bind_eq_ok.mp hC
  have hl := heap_set_append a2'
  have hpb : w₃.heap[s₂.parameters]? = some pb := by rw [e3, a3', g1]; simp [hl]
  obtain ⟨pf, r1, r2, -, r4, -⟩ := iterativeTask_parameters (by decide) (p := pb) (by exact hpb) g2 hit
  obtain ⟨pe, y1, y2⟩ := iterativeTask_noWorse hn (by decide) (by decide +kernel) (p := pb) (by exact hpb) g2 hit
  obtain rfl := Option.some.inj (y1.symm.trans r1)
  have hcfg : s₂.config = self.config := d2.traced.config
  have hconst : s₂.constants = self.constants := (congrArg Pipeline.constants hcfg :)
  have y2 : (self.fitData env (self.kind.fitted self.constants)).NoWorse pb pe := by
    rw [← fitData_config hcfg, hkind, ← hconst]
    exact y2
  dsimp only at hD
  obtain ⟨s₅, w₅, h5, hE⟩ := PyM.bind_eq_ok.mp hD
  obtain ⟨-, rfl, e5⟩ := Traced.log h5
  obtain ⟨s₆, w₆, h6, hF⟩ := PyM.bind_eq_ok.mp hE
  obtain ⟨-, rfl, e6, -⟩ := Traced.flush h6
  obtain ⟨u7, w₇, h7, hG⟩ := PyM.bind_eq_ok.mp hF
  obtain ⟨-, e7, -⟩ := Traced.save h7
  obtain ⟨s₈, w₈, h8, hH⟩ := PyM.bind_eq_ok.mp hG
  obtain ⟨-, rfl, e8⟩ := Traced.log h8
  obtain ⟨tr, w₉, h9, hI⟩ := PyM.bind_eq_ok.mp hH
  obtain ⟨s10, w10, h10, hJ⟩ := PyM.bind_eq_ok.mp hI
  obtain ⟨tr', w11, h11, hK⟩ := PyM.bind_eq_ok.mp hJ
  obtain ⟨s12, w12, h12, hL⟩ := PyM.bind_eq_ok.mp hK
  have r4' : s₄.parameters = self.parameters := r4.trans a3'
  have r1' : w₄.heap[self.parameters]? = some pe := by
    have r1 : w₄.heap[s₂.parameters]? = some pe := r1
    rwa [a3'] at r1
  have hp8 : w₈.heap[self.parameters]? = some pe := by rw [e8, e7, e6, e5]; exact r1'
  unfold Pipeline.newTask Task.init at h9
  rw [PyM.bind_ok (readParams_run (p := pe) (by show w₈.heap[s₄.parameters]? = _; rw [r4']; exact hp8)), PyM.pure_run] at h9
  injection h9 with h9 hw9
  injection h9 with h9
  obtain ⟨-, hs10, e10⟩ := Traced.log h10
  have htr : tr.parameters = self.parameters ∧ tr.cls = .residual := by rw [← h9]; exact ⟨r4', rfl⟩
  obtain ⟨x1, -⟩ := residual_parameters (self := tr) htr.2 (p := pe) (by rw [htr.1, e10, ← hw9]; exact hp8) r2 h11
  rw [htr.1] at x1
  obtain ⟨-, hs12, e12⟩ := Traced.log h12
  obtain ⟨u13, w13, h13, hM⟩ := PyM.bind_eq_ok.mp hL
  obtain ⟨-, e13, -⟩ := Traced.save h13
  rw [PyM.pure_run] at hM
  injection hM with _ hw
  subst hw
  exact ⟨pe.fixAllParameters, by rw [e13, e12]; exact x1,
    ((b2.trans (.flags _ g3 g4)).trans y2).trans (.flags (p := pe) (p' := pe.fixAllParameters) _ (flag := fun _ => true) rfl rfl)⟩

end UA
