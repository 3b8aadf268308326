import Verif.Lemmas.TasksPython
import Verif.Props.Utils

/-!
# Properties C55 and C56: tasks
-/

namespace UA

open Complex

/-! ### C56 -/

/-- **C56** after the set-up (also one that raises) the parameters are free or fixed as the name of the task class says
(`TaskClass.flagAfter`: full fits, fixed couplings, unchanged), names and values are the same, and no other object has changed. -/
theorem C56_flags {self : Task} (hc : self.cls ≠ .residual) {w : World} {p : ModelParameters ℝ} (h : w.heap[self.parameters]? = some p)
    (hp : Reachable p) :
    ∃ p', (self.setUp w).2.heap[self.parameters]? = some p' ∧ Reachable p' ∧ p'.cls = p.cls ∧
      p'.toList = p.toList.map (fun q => ⟨q.name, q.value, self.cls.flagAfter p.cls q.name q.is_fixed⟩) ∧
      ∀ i < w.heap.length, i ≠ self.parameters → (self.setUp w).2.heap[i]? = w.heap[i]? := by
  obtain ⟨p', h1, h2, h3, h4⟩ := setUp_run hc h hp
  have hl := heap_set_append h
  refine ⟨p', ?_, h1, h2, h3, fun i hi hne => ?_⟩
  · rw [h4]
    simp [hl, List.getElem?_append]
  · rw [h4]
    simp only
    rw [List.getElem?_append_left (by simpa using hi), List.getElem?_set_ne hne.symm]

/-- A fit with fixed couplings of a kaon object: after the set-up the couplings are fixed. -/
example : ∃ p', (({ polesTask 0 1 with cls := .kaonCSFixedCouplings } : Task).setUp (startWorld [typical .kaon 1])).2.heap[0]? = some p' ∧
    p'.toList = (typical .kaon 1).toList.map (fun q => ⟨q.name, q.value, TaskClass.kaonCSFixedCouplings.flagAfter .kaon q.name q.is_fixed⟩) := by
  obtain ⟨p', h1, -, -, h2, -⟩ := C56_flags (self := { polesTask 0 1 with cls := .kaonCSFixedCouplings }) (by decide)
    (w := startWorld [typical .kaon 1]) rfl (typical_reachable .kaon 1)
  exact ⟨p', h1, h2⟩

/-- **C56** the function to be fitted is the one the class is for, evaluated with the parameters as set up. -/
theorem C56_function {self task : Task} (hc : self.cls ≠ .residual) {w w' : World} {p : ModelParameters ℝ} (h : w.heap[self.parameters]? = some p)
    (hp : Reachable p) (hset : self.setUp w = (.ok task, w')) :
    ∃ f p', task.partial_f = some f ∧ w'.heap[self.parameters]? = some p' ∧
      ∀ ts args, (f.call ts args w').1 = partialSpec (self.cls.fitted self.constants) p' ts args := by
  obtain ⟨p', h1, h2, h3, h4⟩ := setUp_run hc h hp
  have hl := heap_set_append h
  rw [h4] at hset
  injection hset with hs hw
  subst hw
  refine ⟨.ofPartial ⟨self.cls.fitted self.constants, w.heap.length⟩, p', ?_, ?_, fun ts args => ?_⟩
  · split_ifs at hs
    · unfold Task.onlyCharged at hs
      obtain ⟨l, -, hs⟩ := except_bind_eq_ok.mp hs
      obtain ⟨q, -, hs⟩ := except_bind_eq_ok.mp hs
      injection hs with hs
      subst hs
      rfl
    · injection hs with hs; subst hs; rfl
  · simp [hl, List.getElem?_append]
  · show (callPartialIn _ ts args _).1 = _
    rw [callPartialIn_run (q := p') (by simp)]

example : ∃ (f : TaskF) (p' : ModelParameters ℝ), (startWorld [poles 1, poles 1]).heap[0]? = some p' ∧
    ∀ ts args, (f.call ts args (startWorld [poles 1, poles 1])).1 = partialSpec .formFactor p' ts args := by
  obtain ⟨f, p', -, h1, h2⟩ := C56_function (self := polesTask 4 2) (by decide) (w := startWorld [poles 1]) rfl (poles_reachable 1)
    (polesTask_setUp 4 2)
  exact ⟨f, p', h1, h2⟩

/-- **C56** charged-only fits use exactly the charged points, in order; without any the set-up raises `ValueError`. Everything else
about the task stays. -/
theorem C56_charged {self : Task} (hc : self.cls.IsOnlyCharged) {w : World} {p : ModelParameters ℝ} (h : w.heap[self.parameters]? = some p)
    (hp : Reachable p) {l : List ((ℂ × Bool) × ℝ × ℝ)} (hl : self.Fits l) :
    ((∀ q ∈ l, q.1.2 = false) → (self.setUp w).1 = .error .valueError) ∧
    ((∃ q ∈ l, q.1.2 = true) → ∃ task, (self.setUp w).1 = .ok task ∧ task.Fits (l.filter fun q => q.1.2) ∧
      task.ts = self.ts ∧ task.ys = self.ys ∧ task.errors = self.errors ∧ task.parameters = self.parameters ∧ task.report = self.report) := by
  have hne : self.cls ≠ .residual := by
    intro he; rw [he] at hc; exact absurd hc (by decide)
  obtain ⟨p', h1, h2, h3, h4⟩ := setUp_run hne h hp
  rw [h4, if_pos hc]
  set ready : Task := { self with partial_f := some (.ofPartial ⟨self.cls.fitted self.constants, w.heap.length⟩) }
  have hf : ready.Fits l := hl
  rw [onlyCharged_eq hf]
  constructor
  · intro hno
    rw [if_pos (List.filter_eq_nil_iff.mpr fun q hq => by rw [hno q hq]; simp)]
  · rintro ⟨q, hq, hqc⟩
    rw [if_neg (fun he => (List.filter_eq_nil_iff.mp he) q hq hqc)]
    exact ⟨_, rfl, ⟨rfl, rfl, rfl⟩, rfl, rfl, rfl, rfl, rfl⟩

/-- **C56** all other fits use all points, and their set-up does not raise. -/
theorem C56_all_points {self : Task} (hc : self.cls ≠ .residual) (hn : ¬ self.cls.IsOnlyCharged) {w : World} {p : ModelParameters ℝ}
    (h : w.heap[self.parameters]? = some p) (hp : Reachable p) :
    ∃ task, (self.setUp w).1 = .ok task ∧ task.ts_fit = self.ts_fit ∧ task.ys_fit = self.ys_fit ∧ task.errors_fit = self.errors_fit ∧
      task.ts = self.ts ∧ task.ys = self.ys ∧ task.errors = self.errors ∧ task.parameters = self.parameters ∧ task.report = self.report := by
  obtain ⟨p', h1, h2, h3, h4⟩ := setUp_run hc h hp
  rw [h4, if_neg hn]
  exact ⟨_, rfl, rfl, rfl, rfl, rfl, rfl, rfl, rfl, rfl⟩

example : ∃ task, ((polesTask 4 2).setUp (startWorld [poles 1])).1 = .ok task ∧ task.ts_fit = List.replicate 4 (.nucleon 2 true true) := by
  obtain ⟨task, h1, h2, -⟩ := C56_all_points (self := polesTask 4 2) (by decide) (by decide) (w := startWorld [poles 1]) rfl (poles_reachable 1)
  exact ⟨task, h1, h2⟩

/-- What the names say, spelled out for the classes, and for three parameters of a kaon object. -/
example : [TaskClass.kaonCSFull, .kaonFFFull, .kaonFFFullOnlyCharged, .nucleonCSFull, .nucleonFFFull].all (fun c => decide c.IsFull) ∧
    [TaskClass.kaonCSFixedCouplings, .nucleonCSFixedCouplings].all (fun c => decide c.IsFixedCouplings) ∧
    [TaskClass.kaonFFFullOnlyCharged, .kaonFFFixAccordingOnlyCharged].all (fun c => decide c.IsOnlyCharged) := by decide
example : TaskClass.kaonCSFixedCouplings.flagAfter .kaon "a_omega" false = true ∧
    TaskClass.kaonCSFixedCouplings.flagAfter .kaon "mass_omega" true = false ∧
    TaskClass.kaonCSFull.flagAfter .kaon "t_0_isoscalar" true = true ∧ TaskClass.kaonCSFull.flagAfter .kaon "a_omega" true = false ∧
    TaskClass.kaonCSFixAccording.flagAfter .kaon "a_omega" true = true := by decide +kernel

/-- A charged-only full fit of three points, the second of them neutral: two are fitted. -/
example : ∃ task, (({ polesTask 0 1 with
      cls := .kaonFFFullOnlyCharged
      ts_fit := [.kaon 1 true, .kaon 2 false, .kaon 3 true], ys_fit := [4, 5, 6], errors_fit := [7, 8, 9] } : Task).setUp
        (startWorld [typical .kaon 1])).1 = .ok task ∧
    task.ts_fit = [.kaon 1 true, .kaon 3 true] ∧ task.ys_fit = [4, 6] ∧ task.errors_fit = [7, 9] := by
  obtain ⟨task, h1, ⟨h2, h3, h4⟩, -⟩ := (C56_charged (self := { polesTask 0 1 with
      cls := .kaonFFFullOnlyCharged
      ts_fit := [.kaon 1 true, .kaon 2 false, .kaon 3 true], ys_fit := [4, 5, 6], errors_fit := [7, 8, 9] })
    (w := startWorld [typical .kaon 1]) (show TaskClass.kaonFFFullOnlyCharged.IsOnlyCharged by decide) rfl (typical_reachable .kaon 1)
    (l := [((1, true), 4, 7), ((2, false), 5, 8), ((3, true), 6, 9)]) ⟨rfl, rfl, rfl⟩).2 ⟨((1, true), 4, 7), by simp, rfl⟩
  exact ⟨task, h1, h2, h3, h4⟩

/-! ### C55 -/

/-- **C55** (what holds) `p'` is the parameter object after the set-up, which has changed no value. `outcome` is what the fitting
library does with the problem it is given. An optimum with the right number of values becomes the free values, the fixed values
stay, and the report is finished and carries the reduced chi squared (`inf` or `nan` for a division by zero) and the sum of squares at
the optimum and the square roots of the diagonal of the covariance matrix, provided that the values of the fitted function are NumPy
numbers or no division by zero occurs; an exception of the plot, which is made when there is a directory, is passed on; after a
`RuntimeError` the values are those before and the report says so; after any other exception, which is passed on, too. A wrong number of
values would raise `ValueError` without a change.
Missing from the stated property: a successful fit is not always marked finished. If the values of the fitted function are Python numbers,
`ZeroDivisionError` is raised when there are as many points as free parameters (`C55_false`) or an error is zero, and the plot may raise. -/
theorem C55_run_partial {self task : Task} (hc : self.cls ≠ .residual) {w w₁ : World} {p : ModelParameters ℝ} (h : w.heap[self.parameters]? = some p)
    (hp : Reachable p) (hset : self.setUp w = (.ok task, w₁)) (env : Env) :
    ∃ p', w₁.heap[self.parameters]? = some p' ∧ p'.getAllValues = p.getAllValues ∧
      ∀ bounds, p'.getBoundsForFreeParameters self.use_handpicked_bounds = .ok bounds →
      ∀ outcome, outcome = (env.curve_fit w₁.fits ⟨task.ts_fit.map Datapoint.toRow, task.ys_fit, p'.getFreeValues, task.errors_fit, bounds⟩).outcome
          (fun args => partialSpec (self.cls.fitted self.constants) p' (task.ts_fit.map Datapoint.toRow) args) →
        (∀ opt cov, outcome = .ok (opt, cov) → opt.length = p'.getFreeValues.length →
          ∃ p₂, (self.run env w).2.heap[self.parameters]? = some p₂ ∧ p₂.getFreeValues = opt ∧ p₂.getFixedValues = p'.getFixedValues ∧
            p₂.names = p'.names ∧ p₂.flags = p'.flags ∧
            ∀ fs, partialSpec (self.cls.fitted self.constants) p' self.ts opt = .ok fs → self.ys.length = self.ts.length →
              (env.numpy (w₁.fits + 1) = false → (∀ e ∈ self.errors, e ≠ 0) → self.ys.length = opt.length →
                (self.run env w).1 = .error .zeroDivisionError) ∧
              (env.numpy (w₁.fits + 1) = true ∨ ((∀ e ∈ self.errors, e ≠ 0) ∧ self.ys.length ≠ opt.length) →
              ((self.reports_dir = none ∨ self.reports_dir = some "" ∨ env.plot w.plots = .ok ()) →
                ∃ t' ordered, (self.run env w).1 = .ok t' ∧ t'.report.status = "finished" ∧ t'.report.error_message = self.report.error_message ∧
                  t'.report.chi_squared = some (env.strFloat (reportedChiSquared self.ys fs self.errors opt.length)) ∧
                  t'.report.final_parameters = some p₂.toList ∧ t'.report.covariance_matrix = some cov ∧
                  p₂.getOrderedValues = .ok ordered ∧ t'.report.parameter_list = ordered ∧
                  t'.report.r2 = some (env.strFloat (.finite (sumOfSquares self.ys fs))) ∧
                  ((∀ row ∈ cov, row.length = cov.length) →
                    ∃ errors, t'.report.parameter_errors = some errors ∧ IsDiagonalRoots cov errors)) ∧
              (∀ dir e, self.reports_dir = some dir → dir ≠ "" → env.plot w.plots = .error e → (self.run env w).1 = .error e))) ∧
        (∀ opt cov, outcome = .ok (opt, cov) → opt.length ≠ p'.getFreeValues.length →
          (self.run env w).2.heap[self.parameters]? = some p') ∧
        (∀ message, outcome = .error (.runtimeError, message) → (self.run env w).2.heap[self.parameters]? = some p' ∧
          ∃ t', (self.run env w).1 = .ok t' ∧ t'.report = { self.report with status := "failed", error_message := some message }) ∧
        (∀ e message, outcome = .error (e, message) → e ≠ .runtimeError → (self.run env w).2.heap[self.parameters]? = some p' ∧
          (self.run env w).1 = .error e) := by
  obtain ⟨p', h1, h2, h3, h4⟩ := setUp_run hc h hp
  have hl := heap_set_append h
  have hset' := hset
  rw [h4] at hset
  injection hset with hs hw
  have hp' : w₁.heap[self.parameters]? = some p' := by
    rw [← hw]; simp [hl, List.getElem?_append]
  have hplots : w₁.plots = w.plots := by rw [← hw]
  -- the task after the set-up
  have ht : task.partial_f = some (.ofPartial ⟨self.cls.fitted self.constants, w.heap.length⟩) ∧ task.parameters = self.parameters ∧
      task.use_handpicked_bounds = self.use_handpicked_bounds ∧ task.ts = self.ts ∧ task.ys = self.ys ∧ task.errors = self.errors ∧
      task.report = self.report ∧ task.reports_dir = self.reports_dir := by
    split_ifs at hs
    · unfold Task.onlyCharged at hs
      obtain ⟨l, -, hs⟩ := except_bind_eq_ok.mp hs
      obtain ⟨q, -, hs⟩ := except_bind_eq_ok.mp hs
      injection hs with hs
      subst hs
      exact ⟨rfl, rfl, rfl, rfl, rfl, rfl, rfl, rfl⟩
    · injection hs with hs; subst hs; exact ⟨rfl, rfl, rfl, rfl, rfl, rfl, rfl, rfl⟩
  obtain ⟨t1, t2, t3, t4, t5, t6, t7, t8⟩ := ht
  have hready : (TaskF.ofPartial ⟨self.cls.fitted self.constants, w.heap.length⟩).Ready task.parameters p' w₁ := by
    refine ⟨?_, p', ?_, .refl _⟩
    · rw [t2]; exact hl.ne'
    · rw [← hw]; simp
  refine ⟨p', hp', ?_, fun bounds hb outcome ho => ?_⟩
  · show p'.toList.map (·.value) = p.toList.map (·.value)
    rw [h3, List.map_map]; rfl
  · obtain ⟨c1, c2, -⟩ := run_cases hset' t1 (by rw [t2]; exact hp') h1 hready (by rw [t3]; exact hb) env
    rw [t2] at c1 c2
    have hov : (env.curve_fit w₁.fits (task.problem p' bounds)).outcome
        ((TaskF.ofPartial ⟨self.cls.fitted self.constants, w.heap.length⟩).value p' (task.ts_fit.map Datapoint.toRow)) = outcome := ho.symm
    refine ⟨fun opt cov hok hlen => ?_, fun opt cov hok hlen => ?_, fun message hm => ?_, fun e message hm hne => ?_⟩
    · obtain ⟨p₂, u1, u2, u3, u4, u5, u6, -⟩ := C40_update p' opt hlen
      obtain ⟨d1, d2⟩ := c2 opt cov (hov.trans hok)
      rw [u1] at d1 d2
      refine ⟨p₂, d1, u2, u3, u4, u5, fun fs hfs hys => ?_⟩
      obtain ⟨ordered, hord, hres⟩ := d2 () rfl
      have hval : (TaskF.ofPartial ⟨self.cls.fitted self.constants, w.heap.length⟩).value p' task.ts opt = .ok fs := by rw [t4]; exact hfs
      have hlenf : fs.length = self.ys.length := by
        rw [hys]
        have hev : (self.cls.fitted self.constants).eval self.ts p₂ = .ok fs := by
          unfold partialSpec at hfs
          rw [u1] at hfs; exact hfs
        have hr2 : Reachable p₂ := by
          have := Reachable.step (.updateFreeValues opt) h1
          rw [show (ParamOp.updateFreeValues opt).run p' = p'.updateFreeValues opt from rfl, u1] at this
          exact this
        exact ((C51_pointwise hr2 _).2 hev).1
      rw [hval] at hres
      dsimp only at hres
      rw [t5, t6, show env.numpyAt (.ofPartial ⟨self.cls.fitted self.constants, w.heap.length⟩) (w₁.fits + 1) = env.numpy (w₁.fits + 1) from rfl] at hres
      refine ⟨fun hn he hk => ?_, fun hcase => ?_⟩
      · rw [hn, chiSquared_zero hlenf he hk] at hres
        exact hres
      have hchi : chiSquared (env.numpy (w₁.fits + 1)) (List.zipWith (fun data fit => (data - fit) ^ 2) self.ys fs) self.errors opt.length =
          .ok (reportedChiSquared self.ys fs self.errors opt.length) := by
        rcases hcase with hn | ⟨he, hk⟩
        · rw [hn, chiSquared_numpy hlenf]
        · rw [chiSquared_eq hlenf he hk, reported_eq he hk]
      rw [hchi] at hres
      dsimp only at hres
      refine ⟨fun hpl => ?_, fun dir e hdir hne hpl => ?_⟩
      · have hplot : (if task.reports_dir = none ∨ task.reports_dir = some "" then .ok () else env.plot w₁.plots) = (.ok () : Except PyErr Unit) := by
          rw [t8, hplots]
          rcases hpl with hpl | hpl | hpl
          · rw [if_pos (Or.inl hpl)]
          · rw [if_pos (Or.inr hpl)]
          · rw [hpl, ite_self]
        rw [hplot] at hres
        exact ⟨_, ordered, hres, rfl, by rw [← t7]; rfl, rfl, rfl, rfl, hord, rfl, by rw [← sumOfSquares_eq, ← t5]; rfl,
          fun hsq => ⟨_, rfl, parameterErrors_diagonal hsq⟩⟩
      · rw [t8, hplots, if_neg (by rw [hdir]; simp [hne]), hpl] at hres
        exact hres
    · have := (c2 opt cov (hov.trans hok)).1
      rw [C40_wrong_length p' opt hlen] at this
      exact this
    · obtain ⟨d1, d2⟩ := c1 _ _ (hov.trans hm)
      rw [if_pos rfl] at d2
      exact ⟨d1, _, d2, by rw [t7]⟩
    · obtain ⟨d1, d2⟩ := c1 _ _ (hov.trans hm)
      rw [if_neg hne] at d2
      exact ⟨d1, d2⟩

/-- The errors in the report of a fit with covariance matrix `((4, 1), (1, ∞))`. -/
example : IsDiagonalRoots [[((4 : ℝ) : WithTop ℝ), ((1 : ℝ) : WithTop ℝ)], [((1 : ℝ) : WithTop ℝ), ⊤]] [((2 : ℝ) : WithTop ℝ), ⊤] := by
  have h2 : Real.sqrt 4 = 2 := by rw [show (4 : ℝ) = 2 ^ 2 by norm_num]; exact Real.sqrt_sq (by norm_num)
  refine ⟨rfl, fun i row hi => ?_⟩
  match i, hi with
  | 0, hi =>
    cases hi
    exact ⟨fun x hx => by
      have : ((4 : ℝ) : WithTop ℝ) = (x : WithTop ℝ) := Option.some.inj hx
      rw [← WithTop.coe_injective this, h2]; rfl, fun h => absurd (Option.some.inj h) (WithTop.coe_ne_top)⟩
  | 1, hi =>
    cases hi
    exact ⟨fun x hx => absurd (Option.some.inj hx).symm WithTop.coe_ne_top, fun _ => rfl⟩
  | i + 2, hi => simp at hi

/-- **C56** a charged-only fit hands exactly the charged points, in order, with their values and errors to the optimiser: its optimum for this
problem becomes the free values of the parameter object, and its exceptions for this problem leave the object with the values from before. -/
theorem C56_charged_fit {self : Task} (hc : self.cls.IsOnlyCharged) {w : World} {p : ModelParameters ℝ} (h : w.heap[self.parameters]? = some p)
    (hp : Reachable p) {l : List ((ℂ × Bool) × ℝ × ℝ)} (hl : self.Fits l) (hcharged : ∃ q ∈ l, q.1.2 = true) (env : Env) :
    ∃ p' : ModelParameters ℝ, p'.getAllValues = p.getAllValues ∧ ∀ bounds, p'.getBoundsForFreeParameters self.use_handpicked_bounds = .ok bounds →
      ∀ points, points = l.filter (fun q => q.1.2) → ∀ rows, rows = points.map (fun q => (Datapoint.kaon q.1.1 q.1.2).toRow) →
      ∀ outcome, outcome = (env.curve_fit w.fits ⟨rows, points.map (·.2.1), p'.getFreeValues, points.map (·.2.2), bounds⟩).outcome
          (fun args => partialSpec (self.cls.fitted self.constants) p' rows args) →
        (∀ opt cov, outcome = .ok (opt, cov) → opt.length = p'.getFreeValues.length →
          ∃ p₂, (self.run env w).2.heap[self.parameters]? = some p₂ ∧ p₂.getFreeValues = opt) ∧
        (∀ e message, outcome = .error (e, message) → (self.run env w).2.heap[self.parameters]? = some p') := by
  have hne : self.cls ≠ .residual := by
    intro he; rw [he] at hc; exact absurd hc (by decide)
  obtain ⟨task, h1, ⟨f1, f2, f3⟩, -⟩ := (C56_charged hc h hp hl).2 hcharged
  have hfits : (self.setUp w).2.fits = w.fits := by
    obtain ⟨q, -, -, -, h4⟩ := setUp_run hne h hp
    rw [h4]
  obtain ⟨p', -, h3, h4⟩ := C55_run_partial hne h hp (Prod.ext h1 rfl : self.setUp w = (.ok task, (self.setUp w).2)) env
  refine ⟨p', h3, fun bounds hb points hpts rows hrows outcome ho => ?_⟩
  obtain ⟨c1, -, c3, c4⟩ := h4 bounds hb outcome (by
    rw [ho, hfits, f1, f2, f3, hrows, hpts, List.map_map]
    rfl)
  refine ⟨fun opt cov hok hlen => ?_, fun e message he => ?_⟩
  · obtain ⟨p₂, d1, d2, -⟩ := c1 opt cov hok hlen
    exact ⟨p₂, d1, d2⟩
  · rcases eq_or_ne e .runtimeError with rfl | hn
    · exact (c3 message he).1
    · exact (c4 e message he hn).1

/-- A charged-only fit of three points, the second of them neutral. -/
example (env : Env) : ∃ p' : ModelParameters ℝ, p'.getAllValues = (typical .kaon 1).getAllValues ∧
    ∀ bounds, p'.getBoundsForFreeParameters true = .ok bounds →
      ∀ message, (env.curve_fit 0 ⟨[(Datapoint.kaon 1 true).toRow, (Datapoint.kaon 3 true).toRow], [4, 6], p'.getFreeValues, [7, 9], bounds⟩).outcome
          (fun args => partialSpec (TaskClass.kaonFFFullOnlyCharged.fitted (polesTask 0 1).constants) p'
            [(Datapoint.kaon 1 true).toRow, (Datapoint.kaon 3 true).toRow] args) = .error (.valueError, message) →
        (({ polesTask 0 1 with
          cls := .kaonFFFullOnlyCharged, use_handpicked_bounds := true
          ts_fit := [.kaon 1 true, .kaon 2 false, .kaon 3 true], ys_fit := [4, 5, 6], errors_fit := [7, 8, 9] } : Task).run env
            (startWorld [typical .kaon 1])).2.heap[(polesTask 0 1).parameters]? = some p' := by
  obtain ⟨p', h1, h2⟩ := C56_charged_fit (self := { polesTask 0 1 with
      cls := .kaonFFFullOnlyCharged, use_handpicked_bounds := true
      ts_fit := [.kaon 1 true, .kaon 2 false, .kaon 3 true], ys_fit := [4, 5, 6], errors_fit := [7, 8, 9] })
    (w := startWorld [typical .kaon 1]) (show TaskClass.kaonFFFullOnlyCharged.IsOnlyCharged by decide) rfl (typical_reachable .kaon 1)
    (l := [((1, true), 4, 7), ((2, false), 5, 8), ((3, true), 6, 9)]) ⟨rfl, rfl, rfl⟩ ⟨((1, true), 4, 7), by simp, rfl⟩ env
  exact ⟨p', h1, fun bounds hb message he =>
    (h2 bounds hb [((1, true), 4, 7), ((3, true), 6, 9)] rfl _ rfl _ rfl).2 .valueError message he⟩

/-- **C55** a task as constructed has no chi squared and no final parameters, and a run in which the fit raises `RuntimeError` leaves
it so: the report says failed. (The hypothesis on `curve_fit` is the one of the fourth outcome above for a library that raises at
once.) -/
theorem C55_failed {cls : TaskClass} (hc : cls ≠ .residual) {name : String} {ref : ℕ} {ts : List Datapoint} {ys errors : List ℝ}
    {constants : Constants} {dir : Option String} {plot handpicked : Bool} {w w₁ : World} {self task : Task} {p p' : ModelParameters ℝ}
    (h : w.heap[ref]? = some p) (hp : Reachable p)
    (hinit : Task.init cls name ref ts ys errors constants dir plot handpicked w = (.ok self, w))
    (hset : self.setUp w = (.ok task, w₁)) (hp' : w₁.heap[ref]? = some p') {bounds} (hb : p'.getBoundsForFreeParameters handpicked = .ok bounds)
    {env : Env} {message : String} (hfit : ∀ problem, env.curve_fit w₁.fits problem = .done (.error (.runtimeError, message))) :
    ∃ t', (self.run env w).1 = .ok t' ∧ t'.report.status = "failed" ∧ t'.report.error_message = some message ∧
      t'.report.chi_squared = none ∧ t'.report.final_parameters = none ∧ t'.report.initial_parameters = p.toList ∧
      (self.run env w).2.heap[ref]? = some p' ∧ p'.getAllValues = p.getAllValues := by
  have hi : self.cls = cls ∧ self.parameters = ref ∧ self.use_handpicked_bounds = handpicked ∧ self.report.chi_squared = none ∧
      self.report.final_parameters = none ∧ self.report.initial_parameters = p.toList := by
    unfold Task.init at hinit
    rw [PyM.bind_ok (readParams_run h)] at hinit
    injection hinit with hinit _
    injection hinit with hinit
    subst hinit
    exact ⟨rfl, rfl, rfl, rfl, rfl, rfl⟩
  obtain ⟨i1, i2, i3, i4, i5, i6⟩ := hi
  obtain ⟨q, hq, hv, hrun⟩ := C55_run_partial (by rw [i1]; exact hc) (by rw [i2]; exact h) hp hset env
  rw [i2] at hq hrun
  rw [hp'] at hq
  injection hq with hq
  subst hq
  obtain ⟨-, -, hrt, -⟩ := hrun bounds (by rw [i3]; exact hb) _ rfl
  obtain ⟨d1, t', d2, d3⟩ := hrt message (by rw [hfit]; rfl)
  exact ⟨t', d2, by rw [d3], by rw [d3], by rw [d3]; exact i4, by rw [d3]; exact i5, by rw [d3]; exact i6, d1, hv⟩

example : ∃ self w', Task.init .nucleonFFFull "fit" 0 (List.replicate 4 (.nucleon 2 true true)) [1, 1, 1, 1] [1, 1, 1, 1] ⟨1, 1, 1⟩ none false false
      (startWorld [poles 1]) = (.ok self, w') ∧
    ∃ t', (self.run (constEnv (fun _ => .error (.runtimeError, "no optimum")) fun _ => "") (startWorld [poles 1])).1 = .ok t' ∧
      t'.report.status = "failed" ∧ t'.report.chi_squared = none := by
  obtain ⟨bounds, hb⟩ := poles_bounds 1 false
  refine ⟨_, _, rfl, ?_⟩
  obtain ⟨t', h1, h2, -, h3, -⟩ := C55_failed (cls := .nucleonFFFull) (by decide) (ref := 0) (w := startWorld [poles 1]) rfl (poles_reachable 1)
    rfl rfl rfl hb (env := constEnv (fun _ => .error (.runtimeError, "no optimum")) fun _ => "") (fun _ => rfl)
  exact ⟨t', h1, h2, h3⟩

/-- The hypotheses of the theorems above hold for a fit of four points, and the optimum `a = 3` gives the chi squared
`4 * (3 / 2)² / (4 - 3) = 9`. -/
example (str : PyFloat → String) : ∃ t', ((polesTask 4 2).run (constEnv (fun _ => .ok ([3, 1, 1], [])) str) (startWorld [poles 1])).1 = .ok t' ∧
    t'.report.status = "finished" ∧ t'.report.chi_squared = some (str (.finite 9)) ∧
    ((polesTask 4 2).run (constEnv (fun _ => .ok ([3, 1, 1], [])) str) (startWorld [poles 1])).2.heap[0]? = some (poles 3) := by
  obtain ⟨bounds, hb⟩ := poles_bounds 1 false
  obtain ⟨p', h1, -, h2⟩ := C55_run_partial (self := polesTask 4 2) (by decide) (w := startWorld [poles 1]) rfl (poles_reachable 1)
    (polesTask_setUp 4 2) (constEnv (fun _ => .ok ([3, 1, 1], [])) str)
  have : p' = poles 1 := (Option.some.inj h1).symm
  subst this
  obtain ⟨h3, -⟩ := h2 bounds hb _ rfl
  obtain ⟨p₂, g1, -, -, -, -, g2⟩ := h3 [3, 1, 1] [] rfl rfl
  have hfs : partialSpec ((polesTask 4 2).cls.fitted (polesTask 4 2).constants) (poles 1) (polesTask 4 2).ts [3, 1, 1] = .ok (List.replicate 4 |(3 : ℝ)|) := by
    unfold partialSpec
    rw [poles_update]
    exact poles_value 3 4 true true
  obtain ⟨t', ordered, k1, k2, -, k3, -⟩ := ((g2 _ hfs rfl).2 (Or.inl rfl)).1 (Or.inl rfl)
  refine ⟨t', k1, k2, ?_, ?_⟩
  · rw [k3, reported_eq (by intro e he; rw [List.eq_of_mem_replicate he]; norm_num) (by decide)]
    have : reducedChiSquared (polesTask 4 2).ys (List.replicate 4 |(3 : ℝ)|) (polesTask 4 2).errors [(3 : ℝ), 1, 1].length = 9 := by
      simp [reducedChiSquared, polesTask, List.replicate]
      norm_num
    rw [this]; rfl
  · have hr := run_cases (self := polesTask 4 2) (polesTask_setUp 4 2) rfl rfl (poles_reachable 1) ⟨by decide, poles 1, rfl, .refl _⟩ hb
      (constEnv (fun _ => .ok ([3, 1, 1], [])) str)
    have := (hr.2.1 [3, 1, 1] [] rfl).1
    rw [poles_update] at this
    exact this

/-- With three points for the three free parameters the same fit is finished, too, and its chi squared is `inf` (these values are NumPy
numbers). -/
example (str : PyFloat → String) : ∃ t', ((polesTask 3 2).run (constEnv (fun _ => .ok ([3, 1, 1], [])) str) (startWorld [poles 1])).1 = .ok t' ∧
    t'.report.status = "finished" ∧ t'.report.chi_squared = some (str .inf) := by
  obtain ⟨bounds, hb⟩ := poles_bounds 1 false
  obtain ⟨p', h1, -, h2⟩ := C55_run_partial (self := polesTask 3 2) (by decide) (w := startWorld [poles 1]) rfl (poles_reachable 1)
    (polesTask_setUp 3 2) (constEnv (fun _ => .ok ([3, 1, 1], [])) str)
  have : p' = poles 1 := (Option.some.inj h1).symm
  subst this
  obtain ⟨h3, -⟩ := h2 bounds hb _ rfl
  obtain ⟨p₂, g1, -, -, -, -, g2⟩ := h3 [3, 1, 1] [] rfl rfl
  have hfs : partialSpec ((polesTask 3 2).cls.fitted (polesTask 3 2).constants) (poles 1) (polesTask 3 2).ts [3, 1, 1] = .ok (List.replicate 3 |(3 : ℝ)|) := by
    unfold partialSpec
    rw [poles_update]
    exact poles_value 3 3 true true
  obtain ⟨t', ordered, k1, k2, -, k3, -⟩ := ((g2 _ hfs rfl).2 (Or.inl rfl)).1 (Or.inl rfl)
  refine ⟨t', k1, k2, ?_⟩
  rw [k3]
  have : reportedChiSquared (polesTask 3 2).ys (List.replicate 3 |(3 : ℝ)|) (polesTask 3 2).errors [(3 : ℝ), 1, 1].length = .inf := by
    simp [reportedChiSquared, polesTask, List.replicate]
  rw [this]; rfl

/-- **C55** as stated is false: a successful fit of one mass of a kaon model to one point raises `ZeroDivisionError` in the computation
of the report, which is never marked finished, since the values of these models are NumPy numbers only if a coupling is free. (The
value has been updated before.) -/
theorem C55_false : ¬ ∀ (self task : Task) (w w₁ : World) (p : ModelParameters ℝ) (bounds) (env : Env) (opt : List ℝ) (cov : Cov) (fs : List ℝ),
    self.cls ≠ .residual → w.heap[self.parameters]? = some p → Reachable p → self.setUp w = (.ok task, w₁) →
    w₁.heap[self.parameters]? = some p → p.getBoundsForFreeParameters self.use_handpicked_bounds = .ok bounds →
    (env.curve_fit w₁.fits ⟨task.ts_fit.map Datapoint.toRow, task.ys_fit, p.getFreeValues, task.errors_fit, bounds⟩).outcome
      (fun args => partialSpec (self.cls.fitted self.constants) p (task.ts_fit.map Datapoint.toRow) args) = .ok (opt, cov) →
    opt.length = p.getFreeValues.length → partialSpec (self.cls.fitted self.constants) p self.ts opt = .ok fs →
    self.ys.length = self.ts.length → self.errors.length = self.ts.length → (∀ e ∈ self.errors, e ≠ 0) → (∀ k, env.plot k = .ok ()) →
    IsKaonClass p.cls → (∀ k, env.numpy k = true ↔ ∃ q ∈ p.toList, q.is_fixed = false ∧ "a_".toList <+: q.name.toList) →
    ∃ t', (self.run env w).1 = .ok t' ∧ t'.report.status = "finished" := by
  intro hall
  obtain ⟨lo, up, hb, -⟩ := C80_start oneMass_reachable oneMass_inside
  obtain ⟨fs, hfs⟩ := massTask_value
  have he : ∀ e ∈ massTask.errors, e ≠ 0 := by
    intro e he
    rw [show e = 1 by simpa [massTask] using he]
    exact one_ne_zero
  have hfree : ∀ k, pythonEnv.numpy k = true ↔ ∃ q ∈ oneMass.toList, q.is_fixed = false ∧ "a_".toList <+: q.name.toList := by
    intro k
    refine ⟨(fun h => by cases h), ?_⟩
    rintro ⟨q, hq, h1, h2⟩
    have : q ∈ oneMass.toList.filter (!·.is_fixed) := List.mem_filter.mpr ⟨hq, by rw [h1]; rfl⟩
    rw [oneMass_free] at this
    rw [List.mem_singleton.mp this] at h2
    exact absurd h2 (by decide)
  obtain ⟨t', h, -⟩ := hall massTask _ (startWorld [oneMass]) _ oneMass (lo, up) pythonEnv oneMass.getFreeValues [[1]] fs (by decide) rfl
    oneMass_reachable massTask_setUp rfl hb rfl rfl hfs rfl rfl he (fun _ => rfl) (by rw [oneMass_cls]; trivial) hfree
  obtain ⟨p', h1, -, h2⟩ := C55_run_partial (self := massTask) (by decide) (w := startWorld [oneMass]) rfl oneMass_reachable massTask_setUp pythonEnv
  obtain rfl : p' = oneMass := (Option.some.inj h1).symm
  obtain ⟨h3, -⟩ := h2 (lo, up) hb _ rfl
  obtain ⟨_, _, _, _, _, _, g⟩ := h3 oneMass.getFreeValues [[1]] rfl rfl
  have h4 := (g fs hfs rfl).1 rfl he rfl
  have h5 := h.symm.trans h4
  cases h5

end UA
