import Verif.Lemmas.TasksRun

/-!
# Helper lemmas: what a completed run of any task leaves
-/

namespace UA

open Complex

theorem newParams_run (p : ModelParameters ℝ) (w : World) : newParams p w = (.ok w.heap.length, { w with heap := w.heap ++ [p] }) := rfl

/-- A successful set-up of the residual task: a new object, and everything else of the task's identity stays. -/
theorem setUpResidual_ok {self task : Task} {w w₁ : World} (hset : self.setUpResidual w = (.ok task, w₁)) :
    ∃ p', w₁.heap[task.parameters]? = some p' ∧ p'.cls = .oscillations ∧ Reachable p' ∧ task.partial_f = some (.oscillations task.parameters) ∧
      task.report = self.report ∧ task.name = self.name := by
  unfold Task.setUpResidual at hset
  obtain ⟨_, s1, -, hset⟩ := PyM.bind_eq_ok.mp hset
  obtain ⟨_, s2, -, hset⟩ := PyM.bind_eq_ok.mp hset
  obtain ⟨_, s3, -, hset⟩ := PyM.bind_eq_ok.mp hset
  obtain ⟨⟨a, b⟩, s4, -, hset⟩ := PyM.bind_eq_ok.mp hset
  obtain ⟨⟨c, d⟩, s5, -, hset⟩ := PyM.bind_eq_ok.mp hset
  obtain ⟨ts, s6, -, hset⟩ := PyM.bind_eq_ok.mp hset
  obtain ⟨⟨a1, a2, a3⟩, s7, -, hset⟩ := PyM.bind_eq_ok.mp hset
  obtain ⟨q, s8, hq, hset⟩ := PyM.bind_eq_ok.mp hset
  obtain ⟨ref, s9, hn, hset⟩ := PyM.bind_eq_ok.mp hset
  rw [PyM.lift_run] at hq
  injection hq with hq hs
  rw [newParams_run] at hn
  injection hn with hn hs'
  injection hn with hn
  injection hset with hset hs''
  injection hset with hset
  subst hset
  refine ⟨q, ?_, ?_, .init hq, rfl, rfl, rfl⟩
  · rw [← hs'', ← hs', ← hn]
    simp
  · have h0 : ParamClass.oscillations.init [("a", (100 : ℝ)), ("b", 2), ("c", 5), ("d", 0)] =
        .ok ⟨.oscillations, [], [⟨"a", 100, false⟩, ⟨"b", 2, false⟩, ⟨"c", 5, false⟩, ⟨"d", 0, false⟩]⟩ := rfl
    rw [h0] at hq
    injection hq with hq
    rw [← hq]

/-- After a successful set-up the task is ready. -/
theorem setUp_ready {self task : Task} {w w₁ : World} {p : ModelParameters ℝ} (h : w.heap[self.parameters]? = some p) (hp : Reachable p)
    (hset : self.setUp w = (.ok task, w₁)) : ∃ f p', task.partial_f = some f ∧ w₁.heap[task.parameters]? = some p' ∧ Reachable p' ∧
      f.Ready task.parameters p' w₁ ∧ task.report = self.report ∧ task.name = self.name := by
  by_cases hc : self.cls = .residual
  · have hset : self.setUpResidual w = (.ok task, w₁) := by
      unfold Task.setUp at hset
      rw [hc] at hset
      exact hset
    obtain ⟨p', h1, h2, h3, h4, h5, h6⟩ := setUpResidual_ok hset
    exact ⟨_, p', h4, h1, h3, ⟨rfl, h2, h3, p', h1, h3, .refl _⟩, h5, h6⟩
  · obtain ⟨p', h1, h2, h3, h4⟩ := setUp_run hc h hp
    have hl := heap_set_append h
    rw [h4] at hset
    injection hset with hs hw
    have ht : task.partial_f = some (.ofPartial ⟨self.cls.fitted self.constants, w.heap.length⟩) ∧ task.parameters = self.parameters ∧
        task.report = self.report ∧ task.name = self.name := by
      split_ifs at hs
      · unfold Task.onlyCharged at hs
        obtain ⟨l, -, hs⟩ := except_bind_eq_ok.mp hs
        obtain ⟨q, -, hs⟩ := except_bind_eq_ok.mp hs
        injection hs with hs
        subst hs
        exact ⟨rfl, rfl, rfl, rfl⟩
      · injection hs with hs; subst hs; exact ⟨rfl, rfl, rfl, rfl⟩
    obtain ⟨t1, t2, t3, t4⟩ := ht
    refine ⟨_, p', t1, ?_, h1, ⟨?_, p', ?_, .refl _⟩, t3, t4⟩
    · rw [t2, ← hw]; simp [hl, List.getElem?_append]
    · rw [t2]; exact hl.ne'
    · rw [← hw]; simp

/-- A completed run: the task's object is reachable, and the report is the one of a failed or of a finished fit, with the values the
object now has; after a failed fit the object is the one of the set-up, after a finished one the report is about the function made there. -/
theorem run_result_full {self t' : Task} {env : Env} {w w' : World} {p : ModelParameters ℝ} (h : w.heap[self.parameters]? = some p) (hp : Reachable p)
    (hrun : self.run env w = (.ok t', w')) : ∃ p₂, w'.heap[t'.parameters]? = some p₂ ∧ Reachable p₂ ∧ t'.name = self.name ∧
      ((∃ m, t'.report = { self.report with status := "failed", error_message := some m } ∧
          ∀ task w₁, self.setUp w = (.ok task, w₁) → w₁.heap[task.parameters]? = some p₂) ∨
        ∃ ordered ys fs chi cov, p₂.getOrderedValues = .ok ordered ∧ t'.report = self.report.finish env p₂ ordered ys fs chi cov ∧
          ∀ task w₁, self.setUp w = (.ok task, w₁) → ∃ f p' opt, task.partial_f = some f ∧ w₁.heap[task.parameters]? = some p' ∧
            p'.updateFreeValues opt = (.ok (), p₂) ∧ f.value p' task.ts opt = .ok fs ∧ ys = task.ys ∧
            chiSquared (env.numpyAt f (w₁.fits + 1)) (List.zipWith (fun data fit => (data - fit) ^ 2) ys fs) task.errors opt.length = .ok chi) := by
  have hrun' := hrun
  unfold Task.run at hrun'
  obtain ⟨task, w₁, hset, hrun'⟩ := PyM.bind_eq_ok.mp hrun'
  obtain ⟨f, p', h1, h2, h3, h4, h5, h6⟩ := setUp_ready h hp hset
  -- the bounds were computed
  obtain ⟨bounds, hb⟩ : ∃ bounds, p'.getBoundsForFreeParameters task.use_handpicked_bounds = .ok bounds := by
    obtain ⟨r, w₂, hfit, -⟩ := PyM.bind_eq_ok.mp hrun'
    unfold Task.fit at hfit
    rw [PyM.bind_ok (readParams_run h2)] at hfit
    obtain ⟨bounds, w₃, hb, -⟩ := PyM.bind_eq_ok.mp hfit
    rw [PyM.lift_run] at hb
    injection hb with hb _
    exact ⟨bounds, hb⟩
  obtain ⟨c1, c2, -, -, c3, -⟩ := run_cases hset h1 h2 h3 h4 hb env
  rw [hrun] at c1 c2 c3
  obtain ⟨n1, n2⟩ := c3 t' rfl
  rcases hout : (env.curve_fit w₁.fits (task.problem p' bounds)).outcome (f.value p' (task.ts_fit.map Datapoint.toRow)) with ⟨e, m⟩ | ⟨opt, cov⟩
  · obtain ⟨d1, d2⟩ := c1 e m hout
    refine ⟨p', by rw [n1]; exact d1, h3, n2.trans h6, Or.inl ⟨m, ?_, fun task' w₁' h' => by
      rw [hset] at h'
      injection h' with h' h''
      injection h' with h'
      rw [← h', ← h'']
      exact h2⟩⟩
    by_cases he : e = .runtimeError
    · rw [if_pos he] at d2
      injection d2 with d2
      rw [d2, ← h5]
    · rw [if_neg he] at d2; cases d2
  · obtain ⟨d1, d2⟩ := c2 opt cov hout
    refine ⟨_, by rw [n1]; exact d1, .step (.updateFreeValues opt) h3, n2.trans h6, Or.inr ?_⟩
    have hu : ∃ u, p'.updateFreeValues opt = (.ok u, (p'.updateFreeValues opt).2) := by
      rcases hu : (p'.updateFreeValues opt).1 with e | u
      · exfalso
        obtain ⟨w₂, -, -, hfit⟩ := fit_run h1 h2 h4 hb env
        rw [hout] at hfit
        rw [PyM.bind_ok hfit] at hrun'
        dsimp only at hrun'
        obtain ⟨_, w₃, hm, -⟩ := PyM.bind_eq_ok.mp hrun'
        have hp2 : w₂.heap[task.parameters]? = some p' := by
          obtain ⟨w₂', hs2, -, hfit'⟩ := fit_run h1 h2 h4 hb env
          rw [hout] at hfit'
          have : w₂ = w₂' := congrArg Prod.snd (hfit.symm.trans hfit')
          rw [this, hs2.heap _ h4.ref_ne]; exact h2
        rw [mutateParams_run hp2] at hm
        injection hm with hm _
        rw [hu] at hm; cases hm
      · exact ⟨u, Prod.ext hu rfl⟩
    obtain ⟨u, hu⟩ := hu
    obtain ⟨ordered, hord, hres⟩ := d2 u hu
    rcases hfs : f.value p' task.ts opt with e | fs
    · rw [hfs] at hres; cases hres
    · rw [hfs] at hres
      dsimp only at hres
      rcases hchi : chiSquared (env.numpyAt f (w₁.fits + 1)) (List.zipWith (fun data fit => (data - fit) ^ 2) task.ys fs) task.errors opt.length with e | chi
      · rw [hchi] at hres; cases hres
      · rw [hchi] at hres
        dsimp only at hres
        revert hres
        rcases (if task.reports_dir = none ∨ task.reports_dir = some "" then Except.ok () else env.plot w₁.plots) with e | u
        · intro hres; cases hres
        · intro hres
          injection hres with hres
          refine ⟨ordered, task.ys, fs, chi, cov, hord, by rw [← h5]; exact congrArg Task.report hres, fun task' w₁' h' => ?_⟩
          rw [hset] at h'
          injection h' with h' h''
          injection h' with h'
          rw [← h', ← h'']
          exact ⟨f, p', opt, h1, h2, hu, hfs, rfl, hchi⟩

theorem run_result_object {self t' : Task} {env : Env} {w w' : World} {p : ModelParameters ℝ} (h : w.heap[self.parameters]? = some p) (hp : Reachable p)
    (hrun : self.run env w = (.ok t', w')) : ∃ p₂, w'.heap[t'.parameters]? = some p₂ ∧ Reachable p₂ ∧ t'.name = self.name ∧
      ((∃ m, t'.report = { self.report with status := "failed", error_message := some m } ∧
          ∀ task w₁, self.setUp w = (.ok task, w₁) → w₁.heap[task.parameters]? = some p₂) ∨
        ∃ ordered ys fs chi cov, p₂.getOrderedValues = .ok ordered ∧ t'.report = self.report.finish env p₂ ordered ys fs chi cov) := by
  obtain ⟨p₂, h1, h2, h3, h4⟩ := run_result_full h hp hrun
  exact ⟨p₂, h1, h2, h3, h4.imp_right fun ⟨ordered, ys, fs, chi, cov, h5, h6, _⟩ => ⟨ordered, ys, fs, chi, cov, h5, h6⟩⟩

theorem run_result {self t' : Task} {env : Env} {w w' : World} {p : ModelParameters ℝ} (h : w.heap[self.parameters]? = some p) (hp : Reachable p)
    (hrun : self.run env w = (.ok t', w')) : ∃ p₂, w'.heap[t'.parameters]? = some p₂ ∧ Reachable p₂ ∧ t'.name = self.name ∧
      ((∃ m, t'.report = { self.report with status := "failed", error_message := some m }) ∨
        ∃ ordered ys fs chi cov, p₂.getOrderedValues = .ok ordered ∧ t'.report = self.report.finish env p₂ ordered ys fs chi cov) := by
  obtain ⟨p₂, h1, h2, h3, h4⟩ := run_result_object h hp hrun
  exact ⟨p₂, h1, h2, h3, h4.imp (fun ⟨m, h, _⟩ => ⟨m, h⟩) id⟩

end UA
