import Verif.Spec.Rounds
import Verif.Lemmas.PipelinesRun
import Verif.Props.Pipelines

/-!
# Helper lemmas: what the rounds of a pipeline do to the parameters
-/

namespace UA

/-- `updateFreeValues` changes free values only. -/
theorem updateFree_same (p : ModelParameters ℝ) (args : List ℝ) :
    (p.updateFreeValues args).2.cls = p.cls ∧ SameButFree p.toList (p.updateFreeValues args).2.toList := by
  obtain ⟨⟨d, h1, h2⟩, -⟩ := (OtherFree.refl p).update args
  rw [h1]
  exact ⟨rfl, h2⟩

/-- A chi squared that has been computed. -/
theorem chiSquared_ok {ys fs errors : List ℝ} (h1 : fs.length = ys.length) {k : ℕ} {numpy : Bool} {chi : PyFloat}
    (h : chiSquared numpy (List.zipWith (fun data fit => (data - fit) ^ 2) ys fs) errors k = .ok chi) : chi = reportedChiSquared ys fs errors k := by
  cases numpy with
  | true =>
    rw [chiSquared_numpy h1] at h
    injection h with h
    exact h.symm
  | false =>
    unfold chiSquared at h
    rw [if_neg (by decide)] at h
    obtain ⟨terms, h2, h3⟩ := except_bind_eq_ok.mp h
    have hterms : terms = ((ys.zip (fs.zip errors)).map fun q => ((q.1 - q.2.1) / q.2.2) ^ 2) ∧ ∀ q ∈ ys.zip (fs.zip errors), q.2.2 ≠ 0 := by
      clear h h3
      induction ys generalizing fs errors terms with
      | nil => injection h2 with h2; exact ⟨h2.symm, by simp⟩
      | cons y ys ih =>
        cases fs with
        | nil => cases h1
        | cons f fs =>
          cases errors with
          | nil => injection h2 with h2; exact ⟨h2.symm, by simp⟩
          | cons e errors =>
            simp only [List.zipWith_cons_cons, List.zip_cons_cons, List.mapM_cons] at h2
            obtain ⟨x, h4, h5⟩ := except_bind_eq_ok.mp h2
            obtain ⟨l, h6, h7⟩ := except_bind_eq_ok.mp h5
            injection h7 with h7
            obtain ⟨i1, i2⟩ := ih (by simpa using h1) l h6
            by_cases he : e ^ 2 = 0
            · rw [he, pyDivR_zero] at h4; cases h4
            · rw [pyDivR_ok he] at h4
              injection h4 with h4
              refine ⟨?_, ?_⟩
              · rw [← h7, i1]
                simp only [List.zip_cons_cons, List.map_cons]
                rw [← h4, div_pow]
              · intro q hq
                rcases List.mem_cons.mp hq with rfl | hq
                · exact fun h0 => he (by rw [show e = 0 from h0]; norm_num)
                · exact i2 q hq
    obtain ⟨q, h4, h5⟩ := except_bind_eq_ok.mp h3
    rw [List.length_zipWith, h1, min_self] at h4
    by_cases hz : ((ys.length : ℝ) - k) = 0
    · rw [hz, pyDivR_zero] at h4; cases h4
    · rw [pyDivR_ok hz] at h4
      injection h4 with h4
      injection h5 with h5
      unfold reportedChiSquared
      rw [if_neg (by rintro ⟨q, hq, h0, -⟩; exact hterms.2 q hq h0), if_neg (by rintro ⟨q, hq, h0⟩; exact hterms.2 q hq h0),
        if_neg (fun hk => hz (by rw [hk, sub_self])), ← h5, ← h4, hterms.1]
      rfl

theorem countP_free (p : ModelParameters ℝ) : (p.toList.countP fun q => !q.is_fixed) = p.getFreeValues.length := by
  unfold ModelParameters.getFreeValues
  rw [List.length_map, List.countP_eq_length_filter]
  rfl

/-- A completed run of a task that is not the residual one: the parameters. -/
theorem run_parameters {self t' : Task} (hc : self.cls ≠ .residual) {env : Env} {w w' : World} {p : ModelParameters ℝ}
    (h : w.heap[self.parameters]? = some p) (hp : Reachable p) (hrun : self.run env w = (.ok t', w')) :
    ∃ p₂, w'.heap[self.parameters]? = some p₂ ∧ Reachable p₂ ∧ p₂.cls = p.cls ∧ t'.parameters = self.parameters ∧
      SameButFree (p.toList.map (fun q => ⟨q.name, q.value, self.cls.flagAfter p.cls q.name q.is_fixed⟩)) p₂.toList ∧
      t'.report.initial_parameters = self.report.initial_parameters ∧
      ((t'.report.status = "failed" ∧ t'.report.final_parameters = self.report.final_parameters ∧
          t'.report.chi_squared = self.report.chi_squared ∧ p₂.toList.map (·.value) = p.toList.map (·.value)) ∨
        ∃ chi, t'.report.Correct ⟨env.strFloat, self.cls.fitted self.constants, self.ts, self.ys, self.errors⟩ p₂ chi) ∧
      w.heap.length ≤ w'.heap.length ∧ ∀ i < w.heap.length, i ≠ self.parameters → w'.heap[i]? = w.heap[i]? := by
  have hrun' := hrun
  unfold Task.run at hrun'
  obtain ⟨task, w₁, hset, hrun'⟩ := PyM.bind_eq_ok.mp hrun'
  obtain ⟨p', k1, k2, k3, k4⟩ := setUp_run hc h hp
  obtain ⟨f, p'', h1, h2, h3, h4, h5, h6⟩ := setUp_ready h hp hset
  have hl := heap_set_append h
  have hset' := hset
  rw [k4] at hset
  injection hset with hs hw
  have ht : task.partial_f = some (.ofPartial ⟨self.cls.fitted self.constants, w.heap.length⟩) ∧ task.parameters = self.parameters ∧
      task.ts = self.ts ∧ task.ys = self.ys ∧ task.errors = self.errors := by
    split_ifs at hs
    · unfold Task.onlyCharged at hs
      obtain ⟨l, -, hs⟩ := except_bind_eq_ok.mp hs
      obtain ⟨q, -, hs⟩ := except_bind_eq_ok.mp hs
      injection hs with hs
      subst hs
      exact ⟨rfl, rfl, rfl, rfl, rfl⟩
    · injection hs with hs; subst hs; exact ⟨rfl, rfl, rfl, rfl, rfl⟩
  obtain ⟨t1, t2, t3, t4, t5⟩ := ht
  have hpp : p'' = p' := by
    rw [t2, ← hw] at h2
    have : (w.heap.set self.parameters p' ++ [p'])[self.parameters]? = some p' := by simp [hl, List.getElem?_append]
    rw [this] at h2
    injection h2 with h2
    exact h2.symm
  subst hpp
  obtain ⟨bounds, hb⟩ : ∃ bounds, p''.getBoundsForFreeParameters task.use_handpicked_bounds = .ok bounds := by
    obtain ⟨r, w₂, hfit, -⟩ := PyM.bind_eq_ok.mp hrun'
    unfold Task.fit at hfit
    rw [PyM.bind_ok (readParams_run h2)] at hfit
    obtain ⟨bounds, w₃, hb, -⟩ := PyM.bind_eq_ok.mp hfit
    rw [PyM.lift_run] at hb
    injection hb with hb _
    exact ⟨bounds, hb⟩
  obtain ⟨c1, c2, c4, c5, c3, -⟩ := run_cases hset' h1 h2 h3 h4 hb env
  obtain ⟨p₂, r1, r2, r3, r4⟩ := run_result_full h hp hrun
  rw [hrun] at c1 c2 c3 c4 c5
  obtain ⟨n1, n2⟩ := c3 t' rfl
  have hframe : w.heap.length ≤ w'.heap.length ∧ ∀ i < w.heap.length, i ≠ self.parameters → w'.heap[i]? = w.heap[i]? := by
    refine ⟨?_, fun i hi hne => ?_⟩
    · have c4 : w'.heap.length = w₁.heap.length := c4
      rw [c4, ← hw]
      simp
    · refine (c5 i (by rw [t2]; exact hne) ?_).trans ?_
      · intro g hg
        rw [h1] at t1
        injection t1 with t1
        rw [hg] at t1
        injection t1 with t1
        rw [t1]
        exact hi.ne
      · rw [← hw]
        show (w.heap.set self.parameters p'' ++ [p''])[i]? = _
        rw [List.getElem?_append_left (by simpa using hi), List.getElem?_set_ne (Ne.symm hne)]
  rw [n1, t2] at r1
  rw [← k3]
  have hvals : p''.toList.map (·.value) = p.toList.map (·.value) := by rw [k3, List.map_map]; rfl
  have hsame : p₂.cls = p.cls ∧ SameButFree p''.toList p₂.toList := by
    rcases hout : (env.curve_fit w₁.fits (task.problem p'' bounds)).outcome (f.value p'' (task.ts_fit.map Datapoint.toRow)) with ⟨e, m⟩ | ⟨opt, cov⟩
    · obtain ⟨d1, -⟩ := c1 e m hout
      rw [t2] at d1
      rw [Option.some.inj (r1.symm.trans d1)]
      exact ⟨k2, .refl _⟩
    · obtain ⟨d1, -⟩ := c2 opt cov hout
      rw [t2] at d1
      rw [Option.some.inj (r1.symm.trans d1)]
      obtain ⟨u1, u2⟩ := updateFree_same p'' opt
      exact ⟨u1.trans k2, u2⟩
  refine ⟨p₂, r1, r2, hsame.1, n1.trans t2, hsame.2, ?_, ?_, hframe⟩
  · rcases r4 with ⟨m, r4, -⟩ | ⟨ordered, ys, fs, chi, cov', -, r5⟩
    · rw [r4]
    · rw [r5.1]; rfl
  · rcases r4 with ⟨m, r4, r5⟩ | ⟨ordered, ys, fs, chi, cov', r6, r5, r7⟩
    · have := r5 _ _ hset'
      rw [h2] at this
      injection this with this
      exact .inl ⟨by rw [r4], by rw [r4], by rw [r4], by rw [← this]; exact hvals⟩
    · refine .inr ⟨chi, r2, by rw [r5]; rfl, by rw [r5]; rfl, by rw [r5]; exact r6, by rw [r5]; rfl, fun hlen => ⟨fs, ?_⟩⟩
      obtain ⟨g, q, opt, g1, g2, g3, g4, g5, g6⟩ := r7 _ _ hset'
      rw [t1] at g1
      injection g1 with g1
      obtain rfl := Option.some.inj (g2.symm.trans h2)
      rw [← g1, t3] at g4
      have heval : (self.cls.fitted self.constants).eval self.ts p₂ = .ok fs := by
        have g4 : partialSpec (self.cls.fitted self.constants) q self.ts opt = .ok fs := g4
        unfold partialSpec at g4
        rw [g3] at g4
        exact g4
      have hfl : fs.length = ys.length := by
        rw [((C51_pointwise r2 _).2 heval).1, g5, t4]
        exact hlen.symm
      have hn : opt.length = q.getFreeValues.length := by
        by_contra hne
        rw [C40_wrong_length q opt hne] at g3
        cases g3
      obtain ⟨q', u1, u2, -⟩ := C40_update q opt hn
      rw [g3] at u1
      injection u1 with _ u1
      have hchi := chiSquared_ok hfl g6
      rw [t5] at hchi
      refine ⟨heval, ?_, ?_⟩
      · rw [countP_free, show p₂.getFreeValues = opt by rw [u1]; exact u2, hchi, g5, t4]
      · rw [r5, ← t4, ← g5]
        show some (env.strFloat _) = some (env.strFloat _)
        rw [sumOfSquares_eq]

/-- Making and running a task of a pipeline: the parameters. -/
theorem taskFrom_parameters {self s' : Pipeline} {env : Env} {task_name : String} {cls : TaskClass} (hc : cls ≠ .residual) {w w' : World}
    {t' : Task} {p : ModelParameters ℝ} (hp : w.heap[self.parameters]? = some p) (hr : Reachable p) {create : PyM World Task}
    (hcreate : ∀ t w₁, create w = (.ok t, w₁) → w₁ = w ∧ t.parameters = self.parameters ∧ t.cls = cls ∧
      t.report.initial_parameters = p.toList ∧ t.report.final_parameters = none ∧ t.report.chi_squared = none ∧ t.ts = self.ts ∧ t.ys = self.ys ∧
      t.errors = self.errors ∧ ∀ q : ModelParameters ℝ, q.cls = p.cls → ∀ ts, (cls.fitted t.constants).eval ts q = (cls.fitted self.constants).eval ts q)
    (h : self.taskFrom env task_name create w = (.ok (t', s'), w')) :
    ∃ p₂, w'.heap[self.parameters]? = some p₂ ∧ Reachable p₂ ∧ p₂.cls = p.cls ∧ s'.parameters = self.parameters ∧
      SameButFree (p.toList.map (fun q => ⟨q.name, q.value, cls.flagAfter p.cls q.name q.is_fixed⟩)) p₂.toList ∧
      t'.report.Tells (self.fitData env (cls.fitted self.constants)) p.toList p₂ ∧
      w.heap.length ≤ w'.heap.length ∧ ∀ i < w.heap.length, i ≠ self.parameters → w'.heap[i]? = w.heap[i]? := by
  unfold Pipeline.taskFrom at h
  obtain ⟨t, w₁, h1, hA⟩ := PyM.bind_eq_ok.mp h
  obtain ⟨rfl, ht1⟩ := hcreate t w₁ h1
  obtain ⟨s₁, w₂, h2, hB⟩ := PyM.bind_eq_ok.mp hA
  obtain ⟨-, -, e2⟩ := Traced.log h2
  obtain ⟨t'', w₃, h3, hC⟩ := PyM.bind_eq_ok.mp hB
  obtain ⟨s₂, w₄, h4, hD⟩ := PyM.bind_eq_ok.mp hC
  obtain ⟨-, -, e4⟩ := Traced.log h4
  obtain ⟨s₃, w₅, h5, hE⟩ := PyM.bind_eq_ok.mp hD
  rw [PyM.pure_run] at hE
  injection hE with hE h6
  injection hE with hE
  injection hE with h7 h8
  have hw5 : w₅ = w₄ := by
    unfold Pipeline.updateBestFit at h5
    rcases hcs : t''.report.chi_squared with _ | c
    · rw [hcs] at h5; injection h5 with _ h5; exact h5.symm
    · rw [hcs] at h5
      dsimp only at h5
      split_ifs at h5
      · injection h5 with _ h5; exact h5.symm
      · obtain ⟨q, wa, ha, h5'⟩ := PyM.bind_eq_ok.mp h5
        obtain ⟨l, wb, hb, h5''⟩ := PyM.bind_eq_ok.mp h5'
        rw [PyM.lift_run] at hb
        injection hb with _ hb
        injection h5'' with _ h5''
        rw [← h5'', ← hb, (readParams_ok ha).1]
      · injection h5 with _ h5; exact h5.symm
  obtain ⟨p₂, r1, r2, r3, r4, r5, r6, r7, r8, r9⟩ := run_parameters (self := t) (by rw [ht1.2.1]; exact hc) (p := p) (by rw [ht1.1, e2]; exact hp) hr h3
  rw [ht1.1] at r1 r4 r9
  rw [e2] at r8 r9
  rw [ht1.2.1] at r5
  rw [ht1.2.2.1] at r6
  rw [ht1.2.2.2.1, ht1.2.2.2.2.1, ht1.2.1, ht1.2.2.2.2.2.1, ht1.2.2.2.2.2.2.1, ht1.2.2.2.2.2.2.2.1] at r7
  have r7' := r7.imp_right fun ⟨chi, hcor⟩ => (⟨chi, hcor.reachable, hcor.status, hcor.final, hcor.ordered, hcor.chi_squared, fun hl => by
    obtain ⟨fs, f1, f2⟩ := hcor.values hl
    exact ⟨fs, (ht1.2.2.2.2.2.2.2.2 p₂ r3 self.ts).symm.trans f1, f2⟩⟩ :
    ∃ chi, t''.report.Correct (self.fitData env (cls.fitted self.constants)) p₂ chi)
  subst h7
  have hheap : w'.heap = w₃.heap := by rw [← h6, hw5, e4]
  refine ⟨p₂, by rw [hheap]; exact r1, r2, r3, ?_, r5, ⟨r6, r7'⟩, by rw [hheap]; exact r8, fun i h1 h2 => by rw [hheap]; exact r9 i h1 h2⟩
  rw [← h8]
  exact r4

theorem taskInit_parameters {p : ModelParameters ℝ} {cls : TaskClass} {name : String} {ref : ℕ} {ts : List Datapoint} {ys errors : List ℝ}
    {constants : Constants} {dir : Option String} {plot handpicked : Bool} {w w₁ : World} {t : Task} (hp : w.heap[ref]? = some p)
    (h : Task.init cls name ref ts ys errors constants dir plot handpicked w = (.ok t, w₁)) :
    w₁ = w ∧ t.parameters = ref ∧ t.cls = cls ∧ t.report.initial_parameters = p.toList ∧ t.report.final_parameters = none ∧
      t.report.chi_squared = none ∧ t.ts = ts ∧ t.ys = ys ∧ t.errors = errors ∧ t.constants = constants := by
  unfold Task.init at h
  rw [PyM.bind_ok (readParams_run hp), PyM.pure_run] at h
  injection h with h1 h2
  injection h1 with h1
  subst h1 h2
  exact ⟨rfl, rfl, rfl, rfl, rfl, rfl, rfl, rfl, rfl, rfl⟩

theorem iterativeTask_parameters {self s' : Pipeline} {env : Env} {task_name : String} {cls : TaskClass} (hc : cls ≠ .residual) {w w' : World}
    {t' : Task} {p : ModelParameters ℝ} (hp : w.heap[self.parameters]? = some p) (hr : Reachable p)
    (h : self.iterativeTask env task_name cls w = (.ok (t', s'), w')) :
    ∃ p₂, w'.heap[self.parameters]? = some p₂ ∧ Reachable p₂ ∧ p₂.cls = p.cls ∧ s'.parameters = self.parameters ∧
      SameButFree (p.toList.map (fun q => ⟨q.name, q.value, cls.flagAfter p.cls q.name q.is_fixed⟩)) p₂.toList ∧
      t'.report.Tells (self.fitData env (cls.fitted self.constants)) p.toList p₂ ∧
      w.heap.length ≤ w'.heap.length ∧ ∀ i < w.heap.length, i ≠ self.parameters → w'.heap[i]? = w.heap[i]? :=
  taskFrom_parameters hc hp hr (fun _ _ h => by
    obtain ⟨h1, h2, h3, h4, h5, h6, h7, h8, h9, h10⟩ := taskInit_parameters hp h
    exact ⟨h1, h2, h3, h4, h5, h6, h7, h8, h9, fun q _ ts => by rw [h10]⟩) h

/-- The cross section constants do not matter for the two models that are their own cross section. -/
theorem eval_noConstants {p : ModelParameters ℝ} (hc : p.cls = .etgmr ∨ p.cls = .twoPoles) (m a h m' a' h' : ℝ) (ts : List Datapoint) :
    (PartialKind.crossSection m a h).eval ts p = (PartialKind.crossSection m' a' h').eval ts p := by
  show functionCrossSection ts m a h p = functionCrossSection ts m' a' h' p
  unfold functionCrossSection getFFModel
  rcases hc with hc | hc
  · rw [hc]
    dsimp only
    rcases p.getItem "a" with _ | x
    · rfl
    · rcases p.getItem "m_a" with _ | y
      · rfl
      · rcases p.getItem "m_d" with _ | z <;> rfl
  · rw [hc]
    dsimp only
    rcases p.getItem "a" with _ | x
    · rfl
    · rcases p.getItem "m_1" with _ | y
      · rfl
      · rcases p.getItem "m_2" with _ | z <;> rfl

theorem createTask_parameters {self : Pipeline} {task_name : String} {cls : TaskClass} {w w₁ : World} {t : Task} {p : ModelParameters ℝ}
    (hp : w.heap[self.parameters]? = some p) (h : self.createTask task_name cls w = (.ok t, w₁)) :
    w₁ = w ∧ t.parameters = self.parameters ∧ t.cls = cls ∧ t.report.initial_parameters = p.toList ∧ t.report.final_parameters = none ∧
      t.report.chi_squared = none ∧ t.ts = self.ts ∧ t.ys = self.ys ∧ t.errors = self.errors ∧
      ∀ q : ModelParameters ℝ, q.cls = p.cls → ∀ ts, (cls.fitted t.constants).eval ts q = (cls.fitted self.constants).eval ts q := by
  unfold Pipeline.createTask at h
  split_ifs at h with hc h1
  · obtain ⟨h1, h2, h3, h4, h5, h6, h7, h8, h9, h10⟩ := taskInit_parameters hp h
    exact ⟨h1, h2, h3, h4, h5, h6, h7, h8, h9, fun q _ ts => by rw [h10]⟩
  · rw [PyM.bind_ok (readParams_run hp)] at h
    split_ifs at h with h4
    · obtain ⟨k1, k2, k3, k4, k5, k6, k7, k8, k9, k10⟩ := taskInit_parameters hp h
      refine ⟨k1, k2, k3, k4, k5, k6, k7, k8, k9, fun q hq ts => ?_⟩
      rw [← hq] at h4
      rcases h1 with rfl | rfl
      · exact eval_noConstants h4 _ _ _ _ _ _ ts
      · exact eval_noConstants h4 _ _ _ _ _ _ ts
    · cases h
  · cases h

/-- Flags given by a set of names. -/
theorem fittedFrom_of_same {free : String → Prop} {l l' : List (Parameter ℝ)} {flag : Parameter ℝ → Bool} (hf : ∀ q ∈ l, flag q = true ↔ ¬ free q.name)
    (h : SameButFree (l.map fun q => ⟨q.name, q.value, flag q⟩) l') : FittedFrom free l l' := by
  unfold SameButFree at h
  rw [List.forall₂_map_left_iff] at h
  unfold FittedFrom
  induction h with
  | nil => exact .nil
  | @cons q q' l l' h1 _ ih =>
    refine .cons ⟨h1.1, ?_, fun hn => ?_⟩ (ih fun q hq => hf q (List.mem_cons_of_mem _ hq))
    · rw [h1.2.1]; exact hf q List.mem_cons_self
    · rw [h1.2.2 ((hf q List.mem_cons_self).mpr hn)]

theorem freezable_of_mem {p : ModelParameters ℝ} {fix : Bool} {x : String} (h : x ∈ p.freezable fix) :
    x ∈ p.names ∧ ¬ DeclaredFixed p.cls x ∧ (fix = true → ¬ IsResonanceName x) := by
  have := List.mem_filter.mp h
  have h' := decide_eq_true_eq.mp this.2
  exact ⟨this.1, h'.1, fun hf hr => h'.2 ⟨hf, hr⟩⟩

/-- A successful choice of the free parameters. -/
theorem randomlyFreeze_ok {env : Env} (hs : env.Samples) {kind : PipelineKind} {ref : ℕ} {k : ℤ} {fix : Bool} {w w' : World} {p : ModelParameters ℝ}
    (h : w.heap[ref]? = some p) (hp : Reachable p) {chosen : List String}
    (hrun : randomlyFreezeParameters env kind.capped ref k fix w = (.ok chosen, w')) :
    ∃ p', w'.heap = w.heap.set ref p' ∧ Reachable p' ∧ p'.cls = p.cls ∧ chosen.Nodup ∧
      (chosen.length : ℤ) = (if kind = .nucleonCS then min ((p.freezable fix).length : ℤ) k else k) ∧
      (∀ x ∈ chosen, x ∈ p.freezable fix) ∧ p'.toList = p.toList.map (fun q => ⟨q.name, q.value, decide (q.name ∉ chosen)⟩) := by
  have hc : fix = true → IsResonanceClass p.cls := by
    intro hf
    subst hf
    by_contra hno
    rw [randomlyFreeze_noResonances env kind.capped k h hno] at hrun
    cases hrun
  obtain ⟨hbad, hgood⟩ := randomlyFreeze_run hs kind.capped k h hp hc
  by_cases hn : (if kind.capped then min ((p.freezable fix).length : ℤ) k else k) < 0 ∨
      ((p.freezable fix).length : ℤ) < (if kind.capped then min ((p.freezable fix).length : ℤ) k else k)
  · obtain ⟨p₁, -, -, -, he⟩ := hbad hn
    rw [hrun] at he
    cases he
  · push Not at hn
    obtain ⟨chosen', p', h1, h2, h3, h4, h5, h6, h7⟩ := hgood hn.1 hn.2
    rw [hrun] at h7
    injection h7 with h7 h8
    injection h7 with h7
    subst h7 h8
    exact ⟨p', rfl, h1, h2, h3, by rw [h4]; cases kind <;> rfl, h5, h6⟩

theorem fixAccording_fitted (kind : PipelineKind) (k : Constants) : kind.fixAccording.fitted k = kind.fitted k := by cases kind <;> rfl

theorem fullFit_fitted (kind : PipelineKind) (k : Constants) : kind.fullFit.fitted k = kind.fitted k := by cases kind <;> rfl

theorem fitData_config {a b : Pipeline} (h : b.config = a.config) (env : Env) (f : PartialKind) : b.fitData env f = a.fitData env f := by
  have h1 : b.ts = a.ts := (congrArg Pipeline.ts h :)
  have h2 : b.ys = a.ys := (congrArg Pipeline.ys h :)
  have h3 : b.errors = a.errors := (congrArg Pipeline.errors h :)
  unfold Pipeline.fitData
  rw [h1, h2, h3]

theorem fitFun_config {a b : Pipeline} (h : b.config = a.config) (env : Env) :
    (fun c : TaskClass => b.fitData env (c.fitted b.constants)) = fun c => a.fitData env (c.fitted a.constants) := by
  funext c
  rw [fitData_config h, show b.constants = a.constants from (congrArg Pipeline.constants h :)]

theorem fixAccording_keeps (kind : PipelineKind) : kind.fixAccording ≠ .residual ∧ ¬ kind.fixAccording.IsFull ∧ ¬ kind.fixAccording.IsFixedCouplings := by
  cases kind <;> decide

/-- The rounds, with what they write. -/
theorem runRounds_parameters {env : Env} (hs : env.Samples) (nr : ℤ) : ∀ (ks : List ℤ) (i : ℕ) {self self' : Pipeline} {w w' : World} {p : ModelParameters ℝ},
    w.Good → w.heap[self.parameters]? = some p → Pipeline.runRounds env nr i ks self w = (.ok self', w') →
    ∃ rs p', TasksDone env ". Free parameters: " i (taskNames i (ks.map fun _ => self.kind.fixAccording)) self w self' w'
        (rs.map fun q => (env.strNames q.1, q.2)) ∧
      Rounds self.kind (self.fitData env (self.kind.fitted self.constants)) nr i ks p rs p' ∧ w'.heap[self.parameters]? = some p' ∧ self'.parameters = self.parameters ∧
      w.heap.length ≤ w'.heap.length ∧ ∀ j < w.heap.length, j ≠ self.parameters → w'.heap[j]? = w.heap[j]? := by
  intro ks
  induction ks with
  | nil =>
    intro i self self' w w' p hg hp h
    injection h with h1 h2
    injection h1 with h1
    subst h1 h2
    exact ⟨[], p, ⟨⟨hg, p, hp⟩, .nil, rfl, .same (.refl _) rfl rfl rfl rfl⟩, .nil, hp, rfl, le_rfl, fun _ _ _ => rfl⟩
  | cons k ks ih =>
    intro i self self' w w' p hg hp h
    have hr := hg.read hp
    unfold Pipeline.runRounds at h
    obtain ⟨chosen, w₀, h0, h⟩ := PyM.bind_eq_ok.mp h
    have g0 := randomlyFreeze_good env self.kind.capped self.parameters k (decide ((i : ℤ) < nr)) w hg
    have o0 := randomlyFreeze_outside env self.kind.capped self.parameters k (decide ((i : ℤ) < nr)) w
    rw [h0] at g0 o0
    obtain ⟨p₀, f1, f2, f3, f4, f5, f6, f7⟩ := randomlyFreeze_ok hs hp hr h0
    have hl := heap_set_append hp
    have hp0 : w₀.heap[self.parameters]? = some p₀ := by rw [f1]; simp [hl]
    obtain ⟨s₁, w₁, h1, h⟩ := PyM.bind_eq_ok.mp h
    obtain ⟨t1, rfl, e1⟩ := Traced.log h1
    obtain ⟨⟨t', s₆⟩, w₆, hit, h⟩ := PyM.bind_eq_ok.mp h
    obtain ⟨l6, m6, b6, t6⟩ := iterativeTask_ok (by unfold World.Good; rw [e1]; exact g0) hit
    obtain ⟨c1, c2, c3⟩ := fixAccording_keeps self.kind
    obtain ⟨p₆, r1, r2, r3, r4, r5, r6, r7, r8⟩ := iterativeTask_parameters c1 (p := p₀) (by rw [e1]; exact hp0) f2 hit
    dsimp only at h
    obtain ⟨s₈, w₈, h8, h⟩ := PyM.bind_eq_ok.mp h
    obtain ⟨t8, rfl, e8, -⟩ := Traced.flush h8
    obtain ⟨u9, w₉, h9, h⟩ := PyM.bind_eq_ok.mp h
    obtain ⟨t9, e9, -⟩ := Traced.save h9
    have hw9 : w₉.heap = w₆.heap := by rw [e9, e8]
    have r4 : s₆.parameters = self.parameters := r4
    obtain ⟨rs, p', d1, d2, d3, d4, d5, d6⟩ := ih (i + 1) (self := { s₆ with report := "\n" }) (w := w₉) (p := p₆)
      (by unfold World.Good; rw [hw9]; exact l6.1) (by rw [hw9]; show w₆.heap[s₆.parameters]? = _; rw [r4]; exact r1) h
    have hk : ({ s₆ with report := "\n" } : Pipeline).kind = self.kind := t6.kind
    have hpar : ({ s₆ with report := "\n" } : Pipeline).parameters = self.parameters := r4
    have hn : (ks.map fun _ => ({ s₆ with report := "\n" } : Pipeline).kind.fixAccording) = ks.map fun _ => self.kind.fixAccording := by rw [hk]
    rw [hn] at d1
    have hcfg : ({ s₆ with report := "\n" } : Pipeline).config = self.config := t6.config
    rw [fitData_config hcfg, hk, show ({ s₆ with report := "\n" } : Pipeline).constants = self.constants from (congrArg Pipeline.constants hcfg :)] at d2
    rw [hpar] at d3 d4 d6
    refine ⟨(chosen, t'.report) :: rs, p', TasksDone.cons (a := self) (b := { s₆ with report := "\n" }) m6 b6 ?_ d1, .cons ?_ d2, d3, d4, ?_, ?_⟩
    · have hall := (Traced.same (a := self) (b := self) o0 rfl rfl rfl rfl).trans (t1.trans (t6.trans (t8.trans t9)))
      have hf : Pipeline.taskFile { s₆ with report := "\n" } i = self.taskFile i := by
        unfold Pipeline.taskFile
        rw [show ({ s₆ with report := "\n" } : Pipeline).reports_dir = self.reports_dir from t6.dir]
      rw [hf] at hall
      exact hall
    · refine ⟨r3.trans f3, f5, f4, fun x hx => freezable_of_mem (f6 x hx), ?_, by rw [← f7, ← fixAccording_fitted]; exact r6⟩
      have r5' : SameButFree (p.toList.map fun q => ⟨q.name, q.value, decide (q.name ∉ chosen)⟩) p₆.toList := by
        have : (fun q : Parameter ℝ => (⟨q.name, q.value, self.kind.fixAccording.flagAfter p₀.cls q.name q.is_fixed⟩ : Parameter ℝ)) = id := by
          funext q
          unfold TaskClass.flagAfter
          rw [if_neg c2, if_neg c3]
          rfl
        have r5 : SameButFree (p₀.toList.map fun q => ⟨q.name, q.value, self.kind.fixAccording.flagAfter p₀.cls q.name q.is_fixed⟩) p₆.toList := r5
        rw [this, List.map_id, f7] at r5
        exact r5
      exact fittedFrom_of_same (fun q _ => by simp) r5'
    · rw [hw9] at d5
      refine le_trans ?_ d5
      rw [e1, f1, List.length_set] at r7
      exact r7
    · intro j hj hne
      rw [e1, f1, List.length_set] at r7 r8
      rw [d6 j (by rw [hw9]; exact lt_of_lt_of_le hj r7) hne, hw9, r8 j hj hne, List.getElem?_set_ne (Ne.symm hne)]

theorem Rounds.cls {kind : PipelineKind} {fit : FitData} {nr : ℤ} {i : ℕ} {ks : List ℤ} {p p' : ModelParameters ℝ} {rs : List (List String × Report)}
    (h : Rounds kind fit nr i ks p rs p') : p'.cls = p.cls := by
  induction h with
  | nil => rfl
  | cons h _ ih => exact ih.trans h.cls

/-- The tasks of a plain pipeline, with what they write. -/
theorem runTasks_parameters (env : Env) : ∀ (classes : List TaskClass) (i : ℕ) {self self' : Pipeline} {w w' : World} {p : ModelParameters ℝ},
    .residual ∉ classes → w.Good → w.heap[self.parameters]? = some p → Pipeline.runTasks env i classes self w = (.ok self', w') →
    ∃ rs p', TasksDone env ". Parameters: " i (taskNames i classes) self w self' w' (rs.map fun q => (env.strParameters q.1.toList, q.2)) ∧
      PlainTasks (fun c => self.fitData env (c.fitted self.constants)) classes p rs p' ∧ w'.heap[self.parameters]? = some p' ∧ self'.parameters = self.parameters ∧
      w.heap.length ≤ w'.heap.length ∧ ∀ j < w.heap.length, j ≠ self.parameters → w'.heap[j]? = w.heap[j]? := by
  intro classes
  induction classes with
  | nil =>
    intro i self self' w w' p hres hg hp h
    injection h with h1 h2
    injection h1 with h1
    subst h1 h2
    exact ⟨[], p, ⟨⟨hg, p, hp⟩, .nil, rfl, .same (.refl _) rfl rfl rfl rfl⟩, .nil, hp, rfl, le_rfl, fun _ _ _ => rfl⟩
  | cons c classes ih =>
    intro i self self' w w' p hres hg hp h
    have h' := h
    unfold Pipeline.runTasks at h
    rw [PyM.bind_ok (readParams_run hp)] at h
    obtain ⟨s₁, w₁, h1, h⟩ := PyM.bind_eq_ok.mp h
    obtain ⟨t1, hs₁, e1⟩ := Traced.log h1
    obtain ⟨t, w₂, h2, h⟩ := PyM.bind_eq_ok.mp h
    obtain ⟨s₃, w₃, h3, h⟩ := PyM.bind_eq_ok.mp h
    obtain ⟨t', w₄, h4, h⟩ := PyM.bind_eq_ok.mp h
    obtain ⟨s₅, w₅, h5, h⟩ := PyM.bind_eq_ok.mp h
    obtain ⟨s₆, w₆, h6, h⟩ := PyM.bind_eq_ok.mp h
    have hit : Pipeline.taskFrom s₁ env ("Task#" ++ toString i ++ ":" ++ c.pyName) (s₁.createTask ("Task#" ++ toString i ++ ":" ++ c.pyName) c) w₁ =
        (.ok (t', { s₆ with parameters := t'.parameters }), w₆) := by
      unfold Pipeline.taskFrom
      rw [PyM.bind_ok h2, PyM.bind_ok h3, PyM.bind_ok h4, PyM.bind_ok h5, PyM.bind_ok h6]
      rfl
    have hw₁ : w₁ = { w with stdout := w.stdout ++ [printedLine self.name ("Initializing Task#" ++ toString i ++ ". Parameters: " ++ env.strParameters p.toList)] } :=
      (Prod.ext_iff.mp h1).2.symm
    have hc : c ≠ .residual := fun hc => hres (by rw [hc]; exact List.mem_cons_self)
    have hs1 : s₁.parameters = self.parameters := by rw [hs₁]
    have hp1 : w₁.heap[s₁.parameters]? = some p := by rw [e1, hs1]; exact hp
    obtain ⟨p₆, q1, q2, q3, q4, q5, q6, q7, q8⟩ := taskFrom_parameters hc hp1 (hg.read hp) (fun _ _ h => createTask_parameters hp1 h) hit
    rw [hs1] at q1 q4 q8
    rw [e1] at q7 q8
    rw [hs₁, hw₁] at hit
    obtain ⟨w₉, r1, r2, r0, r3, r4, r5⟩ := runTasks_step_from classes hg hp hit
    rw [r1] at h'
    have q4 : t'.parameters = self.parameters := q4
    have hp9 : w₉.heap[self.parameters]? = some p₆.releaseAllParameters := by
      have := r0 _ _ q1
      rwa [if_pos (by show _ = t'.parameters; exact q4.symm)] at this
    obtain ⟨rs, p', d1, d2, d3, d4, d5, d6⟩ := ih (i + 1) (fun hm => hres (List.mem_cons_of_mem _ hm)) r2.1
      (p := p₆.releaseAllParameters) (by show w₉.heap[t'.parameters]? = _; rw [q4]; exact hp9) h'
    have hpar : ({ { s₆ with parameters := t'.parameters } with report := "\n" } : Pipeline).parameters = self.parameters := q4
    rw [hpar] at d3 d4 d6
    have hcfg : ({ { s₆ with parameters := t'.parameters } with report := "\n" } : Pipeline).config = self.config := r5.config
    have d2 := (congrArg (fun F => PlainTasks F classes p₆.releaseAllParameters rs p') (fitFun_config hcfg env)).mp d2
    have hlen : w₆.heap.length ≤ w₉.heap.length := by
      by_contra hlt
      push Not at hlt
      have := r0 w₉.heap.length _ (List.getElem?_eq_getElem hlt)
      rw [List.getElem?_eq_none le_rfl] at this
      cases this
    refine ⟨(p, t'.report) :: rs, p', TasksDone.cons (b := { { s₆ with parameters := t'.parameters } with report := "\n" }) r3 r4 r5 d1, .cons ?_ d2, d3, d4, ?_, ?_⟩
    · refine ⟨q3, p₆, q3, ?_, by rw [hs₁] at q6; exact q6, ?_⟩
      · unfold SameButFree at q5
        rw [List.forall₂_map_left_iff] at q5
        refine List.Forall₂.imp (fun q q' hq => ⟨hq.1, hq.2.1, fun hf => ?_⟩) q5
        rw [hq.2.2 (by rw [← hq.2.1]; exact hf)]
      · rw [(releaseAll_spec q2).2.2, q3]
    · exact le_trans q7 (le_trans hlen d5)
    · intro j hj hne
      have hj6 : j < w₆.heap.length := lt_of_lt_of_le hj q7
      have h9 := r0 j _ (List.getElem?_eq_getElem hj6)
      rw [if_neg (by show ¬ j = t'.parameters; rw [q4]; exact hne)] at h9
      rw [d6 j (lt_of_lt_of_le hj6 hlen) hne, h9, ← List.getElem?_eq_getElem hj6, q8 j hj hne]

/-! ### What is kept -/

theorem Kept.refl (kept : String → Prop) (l : List (Parameter ℝ)) : Kept kept l l := by
  induction l with
  | nil => exact .nil
  | cons q l ih => exact .cons ⟨rfl, fun _ => rfl⟩ ih

theorem Kept.trans {kept : String → Prop} {l l' l'' : List (Parameter ℝ)} (h : Kept kept l l') (h' : Kept kept l' l'') : Kept kept l l'' := by
  unfold Kept at *
  induction h generalizing l'' with
  | nil => cases h'; exact .nil
  | cons a _ ih =>
    cases h' with
    | cons b t => exact .cons ⟨b.1.trans a.1, fun hk => (b.2 (by rw [a.1]; exact hk)).trans (a.2 hk)⟩ (ih t)

theorem FittedFrom.kept {free kept : String → Prop} (hk : ∀ x, kept x → ¬ free x) {l l' : List (Parameter ℝ)} (h : FittedFrom free l l') : Kept kept l l' :=
  List.Forall₂.imp (fun _ _ hq => ⟨hq.1, fun hx => hq.2.2 (hk _ hx)⟩) h

theorem kept_map {kept : String → Prop} {l : List (Parameter ℝ)} (flag : Parameter ℝ → Bool) : Kept kept l (l.map fun q => ⟨q.name, q.value, flag q⟩) := by
  induction l with
  | nil => exact .nil
  | cons q l ih => exact .cons ⟨rfl, fun _ => rfl⟩ ih

theorem Rounds.kept {kind : PipelineKind} {fit : FitData} {nr : ℤ} {i : ℕ} {ks : List ℤ} {p p' : ModelParameters ℝ} {rs : List (List String × Report)}
    (h : Rounds kind fit nr i ks p rs p') {kept : String → Prop}
    (hk : ∀ x, kept x → DeclaredFixed p.cls x ∨ ((i : ℤ) + ks.length ≤ nr ∧ IsResonanceName x)) : Kept kept p.toList p'.toList := by
  induction h with
  | nil => exact .refl _ _
  | @cons i k ks p p₁ p' chosen r rs h _ ih =>
    refine (h.fitted.kept fun x hx hm => ?_).trans (ih fun x hx => ?_)
    · rcases hk x hx with hd | ⟨hn, hr⟩
      · exact (h.allowed x hm).2.1 hd
      · refine (h.allowed x hm).2.2 (decide_eq_true ?_) hr
        rw [List.length_cons] at hn
        push_cast at hn
        omega
    · rw [h.cls]
      refine (hk x hx).imp_right fun ⟨hn, hr⟩ => ⟨?_, hr⟩
      rw [List.length_cons] at hn
      push_cast at hn ⊢
      omega

theorem PlainTasks.kept {fit : TaskClass → FitData} {cs : List TaskClass} {p p' : ModelParameters ℝ} {rs : List (ModelParameters ℝ × Report)} (h : PlainTasks fit cs p rs p') :
    (∀ q ∈ p.toList, DeclaredFixed p.cls q.name → q.is_fixed = true) →
    p'.cls = p.cls ∧ Kept (DeclaredFixed p.cls) p.toList p'.toList := by
  induction h with
  | nil => exact fun _ => ⟨rfl, .refl _ _⟩
  | @cons c cs p p₁ p' r rs h _ ih =>
    intro hf
    obtain ⟨hc, fitted, -, h1, -, h2⟩ := h
    have hf1 : ∀ q ∈ p₁.toList, DeclaredFixed p₁.cls q.name → q.is_fixed = true := by
      intro q hq hd
      rw [h2] at hq
      obtain ⟨q', -, rfl⟩ := List.mem_map.mp hq
      rw [hc] at hd
      exact decide_eq_true hd
    obtain ⟨i1, i2⟩ := ih hf1
    rw [hc] at i1 i2
    refine ⟨i1, Kept.trans ?_ i2⟩
    rw [h2]
    refine Kept.trans (l' := fitted.toList) ?_ (kept_map fun q => decide (DeclaredFixed p.cls q.name))
    clear h2 i2 ih
    have h1' : List.Forall₂ (fun q q' : Parameter ℝ => q ∈ p.toList ∧ q'.name = q.name ∧ q'.is_fixed = c.flagAfter p.cls q.name q.is_fixed ∧
        (q'.is_fixed = true → q'.value = q.value)) p.toList fitted.toList := by
      revert h1
      generalize p.cls = pc
      clear hf hf1 i1
      generalize p.toList = l
      generalize fitted.toList = l'
      intro h1
      induction h1 with
      | nil => exact .nil
      | cons a _ ih => exact .cons ⟨List.mem_cons_self, a⟩ (List.Forall₂.imp (fun _ _ hq => ⟨List.mem_cons_of_mem _ hq.1, hq.2⟩) ih)
    refine List.Forall₂.imp (fun q q' hq => ⟨hq.2.1, fun hd => hq.2.2.2 ?_⟩) h1'
    rw [hq.2.2.1]
    unfold TaskClass.flagAfter
    split_ifs
    · exact decide_eq_true hd
    · exact decide_eq_true (.inl hd)
    · exact hf q hq.1 hd

end UA
