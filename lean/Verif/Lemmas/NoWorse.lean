import Verif.Spec.NoWorse
import Verif.Lemmas.RoundsRun
import Verif.Lemmas.Residual

/-!
# Helper lemmas: fits that do not get worse
-/

namespace UA

theorem FitData.NoWorse.refl (fit : FitData) (p : ModelParameters ℝ) : fit.NoWorse p p := fun fs h => ⟨fs, h, le_rfl⟩

theorem FitData.NoWorse.trans {fit : FitData} {p p' p'' : ModelParameters ℝ} (h : fit.NoWorse p p') (h' : fit.NoWorse p' p'') : fit.NoWorse p p'' := by
  intro fs hfs
  obtain ⟨fs', h1, h2⟩ := h fs hfs
  obtain ⟨fs'', h3, h4⟩ := h' fs' h1
  exact ⟨fs'', h3, h4.trans h2⟩

/-- Flags do not matter for the evaluation. -/
theorem eval_flags {p p' : ModelParameters ℝ} (hc : p'.cls = p.cls) {flag : Parameter ℝ → Bool}
    (hl : p'.toList = p.toList.map fun q => ⟨q.name, q.value, flag q⟩) (f : PartialKind) (ts : List Datapoint) : f.eval ts p' = f.eval ts p := by
  have hm : getFFModel p' = getFFModel p := by
    rw [← getFFModel_fixAll p', ← getFFModel_fixAll p]
    have hd : p'.fixAllParameters.data = p.fixAllParameters.data := by
      show p'.toList.map (fun q => (⟨q.name, q.value, true⟩ : Parameter ℝ)) = p.toList.map fun q => ⟨q.name, q.value, true⟩
      rw [hl, List.map_map]
      rfl
    have hcls : p'.fixAllParameters.cls = p.fixAllParameters.cls := hc
    unfold getFFModel ModelParameters.asKwargs ModelParameters.getItem ModelParameters.find ModelParameters.toList
    rw [hd, hcls]
  cases f with
  | formFactor => show functionFormFactor ts p' = functionFormFactor ts p; unfold functionFormFactor; rw [hm]
  | crossSection m a h => show functionCrossSection ts m a h p' = functionCrossSection ts m a h p; unfold functionCrossSection; rw [hm]

theorem FitData.NoWorse.flags (fit : FitData) {p p' : ModelParameters ℝ} (hc : p'.cls = p.cls) {flag : Parameter ℝ → Bool}
    (hl : p'.toList = p.toList.map fun q => ⟨q.name, q.value, flag q⟩) : fit.NoWorse p p' :=
  fun fs h => ⟨fs, (eval_flags hc hl _ _).trans h, le_rfl⟩

/-- A task that fits these points, which are among its points. -/
structure FitsPoints (t : Task) (fit : FitData) : Prop where
  residual : t.cls ≠ .residual
  set_up : ∀ f, (if t.cls.IsOnlyCharged then ({ t with partial_f := some f } : Task).onlyCharged else .ok { t with partial_f := some f }) =
    .ok { t with partial_f := some f, ts_fit := fit.ts, ys_fit := fit.ys, errors_fit := fit.errors }
  sub : ∀ d ∈ fit.ts, d ∈ t.ts

/-- The points of a task that can be evaluated together can be evaluated separately. -/
theorem eval_sub {p : ModelParameters ℝ} (h : Reachable p) (kind : PartialKind) {ts ts' : List Datapoint} (hs : ∀ d ∈ ts', d ∈ ts) {fs : List ℝ}
    (he : kind.eval ts p = .ok fs) : ∃ fs', kind.eval ts' p = .ok fs' := by
  obtain ⟨pre, g, hg⟩ := eval_pointwise (reachable_wellFormed h) kind
  have e := hg.eq
  rw [e] at he ⊢
  rcases pre with e | u
  · cases he
  · rw [except_ok_bind] at he ⊢
    exact mapM_exists_ok.mpr fun d hd => mapM_exists_ok.mp ⟨fs, he⟩ d (hs d hd)

/-- A completed run of such a task. -/
theorem run_noWorse {self t' : Task} {fit : FitData} (ha : FitsPoints self fit) {env : Env} (hn : env.NeverWorse) {w w' : World} {p : ModelParameters ℝ}
    (hf : ∀ q : ModelParameters ℝ, q.cls = p.cls → ∀ ts, (self.cls.fitted self.constants).eval ts q = fit.f.eval ts q)
    (h : w.heap[self.parameters]? = some p) (hp : Reachable p) (hrun : self.run env w = (.ok t', w')) :
    ∃ p₂, w'.heap[self.parameters]? = some p₂ ∧ fit.NoWorse p p₂ := by
  have hrun' := hrun
  unfold Task.run at hrun'
  obtain ⟨task, w₁, hset, hrun'⟩ := PyM.bind_eq_ok.mp hrun'
  obtain ⟨p', k1, k2, k3, k4⟩ := setUp_run ha.residual h hp
  obtain ⟨f, p'', h1, h2, h3, h4, h5, h6⟩ := setUp_ready h hp hset
  have hl := heap_set_append h
  have hset' := hset
  rw [k4, ha.set_up] at hset
  injection hset with hs hw
  injection hs with hs
  have t1 : task.partial_f = some (.ofPartial ⟨self.cls.fitted self.constants, w.heap.length⟩) := by rw [← hs]
  have t2 : task.parameters = self.parameters := by rw [← hs]
  have t3 : task.ts = self.ts := by rw [← hs]
  have t4 : task.ts_fit = fit.ts := by rw [← hs]
  have t5 : task.ys_fit = fit.ys := by rw [← hs]
  have t6 : task.errors_fit = fit.errors := by rw [← hs]
  have hpp : p'' = p' := by
    rw [t2, ← hw] at h2
    have : (w.heap.set self.parameters p' ++ [p'])[self.parameters]? = some p' := by simp [hl, List.getElem?_append]
    rw [this] at h2
    injection h2 with h2
    exact h2.symm
  subst hpp
  obtain ⟨bounds, hb⟩ : ∃ bounds, p''.getBoundsForFreeParameters task.use_handpicked_bounds = .ok bounds := by
    obtain ⟨r, w₂, hfit, -⟩ := PyM.bind_eq_ok.mp hrun'
    unfold Task.fit at hfit
    rw [PyM.bind_ok (readParams_run h2)] at hfit
    obtain ⟨bounds, w₃, hb, -⟩ := PyM.bind_eq_ok.mp hfit
    rw [PyM.lift_run] at hb
    injection hb with hb _
    exact ⟨bounds, hb⟩
  obtain ⟨c1, c2, -, -, c3, -⟩ := run_cases hset' h1 h2 h3 h4 hb env
  rw [hrun] at c1 c2 c3
  have hflags : fit.NoWorse p p'' := .flags fit k2 k3
  rcases hout : (env.curve_fit w₁.fits (task.problem p'' bounds)).outcome (f.value p'' (task.ts_fit.map Datapoint.toRow)) with ⟨e, m⟩ | ⟨opt, cov⟩
  · obtain ⟨d1, -⟩ := c1 e m hout
    rw [t2] at d1
    exact ⟨p'', d1, hflags⟩
  · obtain ⟨d1, d2⟩ := c2 opt cov hout
    rw [t2] at d1
    refine ⟨_, d1, hflags.trans fun start hstart => ?_⟩
    have hu : ∃ u, p''.updateFreeValues opt = (.ok u, (p''.updateFreeValues opt).2) := by
      rcases hu : (p''.updateFreeValues opt).1 with e | u
      · exfalso
        obtain ⟨w₂, hs2, -, hfit⟩ := fit_run h1 h2 h4 hb env
        rw [hout] at hfit
        rw [PyM.bind_ok hfit] at hrun'
        dsimp only at hrun'
        obtain ⟨_, w₃, hm, -⟩ := PyM.bind_eq_ok.mp hrun'
        have hp2 : w₂.heap[task.parameters]? = some p'' := by rw [hs2.heap _ h4.ref_ne]; exact h2
        rw [mutateParams_run hp2] at hm
        injection hm with hm _
        rw [hu] at hm; cases hm
      · exact ⟨u, Prod.ext hu rfl⟩
    obtain ⟨u, hu⟩ := hu
    obtain ⟨ordered, -, hres⟩ := d2 u hu
    have hreach : Reachable (p''.updateFreeValues opt).2 := .step (.updateFreeValues opt) h3
    have hcls : (p''.updateFreeValues opt).2.cls = p.cls := (updateFree_same p'' opt).1.trans k2
    have hfe : f = .ofPartial ⟨self.cls.fitted self.constants, w.heap.length⟩ := Option.some.inj (h1.symm.trans t1)
    have hval : ∀ ts args q, p''.updateFreeValues args = (.ok (), q) → q.cls = p.cls → f.value p'' ts args = fit.f.eval ts q := by
      intro ts args q hq hc
      rw [hfe]
      show partialSpec (self.cls.fitted self.constants) p'' ts args = _
      unfold partialSpec
      rw [hq]
      exact hf q hc ts
    rcases hfs : f.value p'' task.ts opt with e | fs
    · rw [hfs] at hres; cases hres
    · rw [hval _ _ _ hu hcls, t3] at hfs
      obtain ⟨fs, hfs⟩ := eval_sub hreach fit.f ha.sub hfs
      refine ⟨fs, hfs, ?_⟩
      have := hn w₁.fits (task.problem p'' bounds) _ opt cov start fs hout
        (by
          show f.value p'' _ p''.getFreeValues = _
          rw [hval _ _ _ (C40_write_back p'') k2, C52_rows h3, t4]
          exact hstart)
        (by rw [hval _ _ _ hu hcls, C52_rows hreach, t4]; exact hfs)
      have hy : (task.problem p'' bounds).ydata = fit.ys := t5
      have hsig : (task.problem p'' bounds).sigma = fit.errors := t6
      rw [hy, hsig] at this
      exact this

/-- Making and running a task of a pipeline. -/
theorem taskFrom_noWorse {self s' : Pipeline} {fit : FitData} {env : Env} (hn : env.NeverWorse) {task_name : String} {w w' : World}
    {t' : Task} {p : ModelParameters ℝ} (hp : w.heap[self.parameters]? = some p) (hr : Reachable p) {create : PyM World Task}
    (hcreate : ∀ t w₁, create w = (.ok t, w₁) → w₁ = w ∧ t.parameters = self.parameters ∧ FitsPoints t fit ∧
      ∀ q : ModelParameters ℝ, q.cls = p.cls → ∀ ts, (t.cls.fitted t.constants).eval ts q = fit.f.eval ts q)
    (h : self.taskFrom env task_name create w = (.ok (t', s'), w')) : ∃ p₂, w'.heap[self.parameters]? = some p₂ ∧ fit.NoWorse p p₂ := by
  unfold Pipeline.taskFrom at h
  obtain ⟨t, w₁, h1, hA⟩ := PyM.bind_eq_ok.mp h
  obtain ⟨rfl, c1, c2, c3⟩ := hcreate t w₁ h1
  obtain ⟨s₁, w₂, h2, hB⟩ := PyM.bind_eq_ok.mp hA
  obtain ⟨-, -, e2⟩ := Traced.log h2
  obtain ⟨t'', w₃, h3, hC⟩ := PyM.bind_eq_ok.mp hB
  obtain ⟨s₂, w₄, h4, hD⟩ := PyM.bind_eq_ok.mp hC
  obtain ⟨-, -, e4⟩ := Traced.log h4
  obtain ⟨s₃, w₅, h5, hE⟩ := PyM.bind_eq_ok.mp hD
  rw [PyM.pure_run] at hE
  injection hE with _ h6
  have hw5 : w₅ = w₄ := by
    unfold Pipeline.updateBestFit at h5
    rcases hcs : t''.report.chi_squared with _ | c
    · rw [hcs] at h5; injection h5 with _ h5; exact h5.symm
    · rw [hcs] at h5
      dsimp only at h5
      split_ifs at h5
      · injection h5 with _ h5; exact h5.symm
      · obtain ⟨q, wa, ha, h5'⟩ := PyM.bind_eq_ok.mp h5
        obtain ⟨l, wb, hb, h5''⟩ := PyM.bind_eq_ok.mp h5'
        rw [PyM.lift_run] at hb
        injection hb with _ hb
        injection h5'' with _ h5''
        rw [← h5'', ← hb, (readParams_ok ha).1]
      · injection h5 with _ h5; exact h5.symm
  obtain ⟨p₂, r1, r2⟩ := run_noWorse c2 hn c3 (by rw [c1, e2]; exact hp) hr h3
  refine ⟨p₂, ?_, r2⟩
  rw [← h6, hw5, e4, ← c1]
  exact r1

theorem taskInit_allPoints {cls : TaskClass} (h1 : cls ≠ .residual) (h2 : ¬ cls.IsOnlyCharged) {name : String} {ref : ℕ} {fit : FitData}
    {constants : Constants} {dir : Option String} {plot handpicked : Bool} {w w₁ : World} {t : Task}
    (h : Task.init cls name ref fit.ts fit.ys fit.errors constants dir plot handpicked w = (.ok t, w₁)) : FitsPoints t fit := by
  unfold Task.init at h
  obtain ⟨q, w₂, -, h⟩ := PyM.bind_eq_ok.mp h
  rw [PyM.pure_run] at h
  injection h with h _
  injection h with h
  subst h
  exact ⟨h1, fun f => if_neg h2, fun _ hd => hd⟩

theorem iterativeTask_noWorse {self s' : Pipeline} {env : Env} (hn : env.NeverWorse) {task_name : String} {cls : TaskClass} (h1 : cls ≠ .residual)
    (h2 : ¬ cls.IsOnlyCharged) {w w' : World} {t' : Task} {p : ModelParameters ℝ} (hp : w.heap[self.parameters]? = some p) (hr : Reachable p)
    (h : self.iterativeTask env task_name cls w = (.ok (t', s'), w')) :
    ∃ p₂, w'.heap[self.parameters]? = some p₂ ∧ (self.fitData env (cls.fitted self.constants)).NoWorse p p₂ :=
  taskFrom_noWorse hn hp hr (fun t _ h => by
    obtain ⟨i1, i2, i3, -, -, -, -, -, -, i10⟩ := taskInit_parameters hp h
    refine ⟨i1, i2, taskInit_allPoints (fit := self.fitData env (cls.fitted self.constants)) h1 h2 h, fun q _ ts => ?_⟩
    rw [i3, i10]
    rfl) h

theorem fixAccording_all (kind : PipelineKind) : ¬ kind.fixAccording.IsOnlyCharged := by cases kind <;> decide +kernel

/-- The rounds. -/
theorem runRounds_noWorse {env : Env} (hs : env.Samples) (hn : env.NeverWorse) (nr : ℤ) : ∀ (ks : List ℤ) (i : ℕ) {self self' : Pipeline} {w w' : World}
    {p : ModelParameters ℝ}, w.Good → w.heap[self.parameters]? = some p → Pipeline.runRounds env nr i ks self w = (.ok self', w') →
    ∃ p', w'.heap[self.parameters]? = some p' ∧ (self.fitData env (self.kind.fitted self.constants)).NoWorse p p' := by
  intro ks
  induction ks with
  | nil =>
    intro i self self' w w' p hg hp h
    injection h with h1 h2
    subst h2
    exact ⟨p, hp, .refl _ _⟩
  | cons k ks ih =>
    intro i self self' w w' p hg hp h
    have hr := hg.read hp
    unfold Pipeline.runRounds at h
    obtain ⟨chosen, w₀, h0, h⟩ := PyM.bind_eq_ok.mp h
    have g0 := randomlyFreeze_good env self.kind.capped self.parameters k (decide ((i : ℤ) < nr)) w hg
    rw [h0] at g0
    obtain ⟨p₀, f1, f2, f3, -, -, -, f7⟩ := randomlyFreeze_ok hs hp hr h0
    have hl := heap_set_append hp
    have hp0 : w₀.heap[self.parameters]? = some p₀ := by rw [f1]; simp [hl]
    obtain ⟨s₁, w₁, h1, h⟩ := PyM.bind_eq_ok.mp h
    obtain ⟨t1, rfl, e1⟩ := Traced.log h1
    obtain ⟨⟨t', s₆⟩, w₆, hit, h⟩ := PyM.bind_eq_ok.mp h
    obtain ⟨l6, -, -, t6⟩ := iterativeTask_ok (by unfold World.Good; rw [e1]; exact g0) hit
    obtain ⟨c1, -, -⟩ := fixAccording_keeps self.kind
    obtain ⟨-, -, -, -, r4, -⟩ := iterativeTask_parameters c1 (p := p₀) (by rw [e1]; exact hp0) f2 hit
    obtain ⟨p₆, r1, r5⟩ := iterativeTask_noWorse hn c1 (fixAccording_all _) (p := p₀) (by rw [e1]; exact hp0) f2 hit
    dsimp only at h
    obtain ⟨s₈, w₈, h8, h⟩ := PyM.bind_eq_ok.mp h
    obtain ⟨-, rfl, e8, -⟩ := Traced.flush h8
    obtain ⟨u9, w₉, h9, h⟩ := PyM.bind_eq_ok.mp h
    obtain ⟨-, e9, -⟩ := Traced.save h9
    have hw9 : w₉.heap = w₆.heap := by rw [e9, e8]
    have r4 : s₆.parameters = self.parameters := r4
    obtain ⟨p', d1, d2⟩ := ih (i + 1) (self := { s₆ with report := "\n" }) (w := w₉) (p := p₆)
      (by unfold World.Good; rw [hw9]; exact l6.1) (by rw [hw9]; show w₆.heap[s₆.parameters]? = _; rw [r4]; exact r1) h
    have hk : ({ s₆ with report := "\n" } : Pipeline).kind = self.kind := t6.kind
    have hpar : ({ s₆ with report := "\n" } : Pipeline).parameters = self.parameters := r4
    have hcfg : ({ s₆ with report := "\n" } : Pipeline).config = self.config := t6.config
    rw [fitData_config hcfg, hk, show ({ s₆ with report := "\n" } : Pipeline).constants = self.constants from (congrArg Pipeline.constants hcfg :)] at d2
    rw [hpar] at d1
    rw [fixAccording_fitted] at r5
    exact ⟨p', d1, ((FitData.NoWorse.flags _ f3 f7).trans r5).trans d2⟩

/-- A completed run of an iterative pipeline for kaon cross sections or nucleon form factors. -/
theorem runIterative_noWorse {env : Env} (hs : env.Samples) (hn : env.NeverWorse) {self self' : Pipeline} (hkind : self.kind = .kaonCS ∨ self.kind = .nucleonFF)
    {its : Iterations} {w w' : World} {p : ModelParameters ℝ} (hg : w.Good) (hp : w.heap[self.parameters]? = some p)
    (h : self.runIterative env its w = (.ok self', w')) :
    ∃ p', w'.heap[self.parameters]? = some p' ∧ (self.fitData env (self.kind.fitted self.constants)).NoWorse p p' := by
  unfold Pipeline.runIterative at h
  rw [PyM.bind_ok (readParams_run hp)] at h
  obtain ⟨s₁, w₁, h1, hA⟩ := PyM.bind_eq_ok.mp h
  obtain ⟨-, rfl, e1⟩ := Traced.log h1
  obtain ⟨s₂, w₂, h2, hB⟩ := PyM.bind_eq_ok.mp hA
  obtain ⟨rs, pₙ, d2, -, a2, a3, -⟩ := runRounds_parameters hs _ _ 0 (p := p) (by unfold World.Good; rw [e1]; exact hg) (by rw [e1]; exact hp) h2
  obtain ⟨pₘ, b1, b2⟩ := runRounds_noWorse hs hn _ _ 0 (p := p) (by unfold World.Good; rw [e1]; exact hg) (by rw [e1]; exact hp) h2
  obtain rfl := Option.some.inj (b1.symm.trans a2)
  obtain ⟨s₃, w₃, h3, hC⟩ := PyM.bind_eq_ok.mp hB
  obtain ⟨-, rfl, e3⟩ := Traced.log h3
  obtain ⟨⟨t', s₄⟩, w₄, hit, hD⟩ := PyM.bind_eq_ok.mp hC
  have a3' : s₂.parameters = self.parameters := a3
  have a2' : w₂.heap[self.parameters]? = some pₘ := a2
  have hk : s₂.kind = self.kind := d2.traced.kind
  have hfull : s₂.kind.fullFit ≠ .residual ∧ ¬ s₂.kind.fullFit.IsOnlyCharged := by
    rw [hk]
    rcases hkind with hk | hk <;> rw [hk] <;> decide +kernel
  obtain ⟨p', r1, r2⟩ := iterativeTask_noWorse hn hfull.1 hfull.2 (p := pₘ) (by
    rw [e3]; show w₂.heap[s₂.parameters]? = _; rw [a3']; exact a2') (d2.live.1.read a2') hit
  have hcfg : s₂.config = self.config := d2.traced.config
  have hconst : s₂.constants = self.constants := (congrArg Pipeline.constants hcfg :)
  have r2 : (self.fitData env (self.kind.fitted self.constants)).NoWorse pₘ p' := by
    rw [← fitData_config hcfg, ← hk, ← hconst, ← fullFit_fitted]
    exact r2
  dsimp only at hD
  obtain ⟨s₅, w₅, h5, hE⟩ := PyM.bind_eq_ok.mp hD
  obtain ⟨-, rfl, e5⟩ := Traced.log h5
  obtain ⟨s₆, w₆, h6, hF⟩ := PyM.bind_eq_ok.mp hE
  obtain ⟨-, rfl, e6, -⟩ := Traced.flush h6
  obtain ⟨u7, w₇, h7, hG⟩ := PyM.bind_eq_ok.mp hF
  obtain ⟨-, e7, -⟩ := Traced.save h7
  rw [PyM.pure_run] at hG
  injection hG with _ hw
  subst hw
  have r1 : w₄.heap[s₂.parameters]? = some p' := r1
  rw [a3'] at r1
  exact ⟨p', by rw [e7, e6, e5]; exact r1, b2.trans r2⟩

/-- Values with weighted sum of squares 0 are the data. -/
theorem weightedSquares_self (ys es : List ℝ) : weightedSquares ys es ys = 0 := by
  unfold weightedSquares
  simp

theorem eq_of_weightedSquares {ys es fs : List ℝ} (hl : fs.length = ys.length) (he : es.length = ys.length) (h0 : ∀ e ∈ es, e ≠ 0)
    (h : weightedSquares ys es fs ≤ 0) : fs = ys := by
  unfold weightedSquares at h
  have hz := (Finset.sum_eq_zero_iff_of_nonneg fun i _ => sq_nonneg _).mp (le_antisymm h (Finset.sum_nonneg fun i _ => sq_nonneg _))
  refine List.ext_getElem hl fun i h1 h2 => ?_
  have := hz i (Finset.mem_range.mpr h1)
  have h3 : i < es.length := he ▸ h2
  rw [List.getD_eq_getElem?_getD, List.getD_eq_getElem?_getD, List.getD_eq_getElem?_getD, List.getElem?_eq_getElem h1, List.getElem?_eq_getElem h2,
    List.getElem?_eq_getElem h3, Option.getD_some, Option.getD_some, Option.getD_some] at this
  have := (div_eq_zero_iff.mp (pow_eq_zero_iff two_ne_zero |>.mp this)).resolve_right (h0 _ (List.getElem_mem h3))
  linarith

end UA
