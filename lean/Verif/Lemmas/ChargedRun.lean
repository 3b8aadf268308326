import Verif.Lemmas.ChargedWitness
import Verif.Lemmas.PipelinesWitness
import Verif.Props.EndToEnd
import Verif.Lemmas.RunsWitness
import Verif.Spec.NoWorse

/-!
# Helper lemmas: a run of the iterative pipeline for kaon form factors that gets worse
-/

namespace UA

theorem rho_release (a : ℝ) : (rhoObject a).releaseAllParameters = rhoObject a := rfl

theorem rho_update (a b : ℝ) : (rhoObject a).updateFreeValues (rhoObject b).getFreeValues = (.ok (), rhoObject b) := rfl

theorem rho_reachable (a : ℝ) : Reachable (rhoObject a) := valueObject_reachable .kaonB (rhoValue a)

/-- A library that tries its starting values and `v` and returns the better ones. -/
noncomputable def offerEnv (v : List ℝ) : Env where
  curve_fit _ problem := .ask problem.p0 fun ys => .ask v fun zs =>
    if weightedSquares problem.ydata problem.sigma zs ≤ weightedSquares problem.ydata problem.sigma ys then
      .done (.ok (v, [])) else .done (.ok (problem.p0, []))
  plot _ := .ok ()
  sample _ names k := names.take k
  strFloat _ := "1"
  strParameters _ := ""
  strNames _ := ""
  strReport _ := ""
  strBestFit _ := ""
  mkdirFails _ := false
  numpy _ := true

theorem offerEnv_outcome {v : List ℝ} {k : ℕ} {problem : FitProblem} {g : List ℝ → Except PyErr (List ℝ)} {ys zs : List ℝ} (h1 : g problem.p0 = .ok ys)
    (h2 : g v = .ok zs) : ((offerEnv v).curve_fit k problem).outcome g =
      if weightedSquares problem.ydata problem.sigma zs ≤ weightedSquares problem.ydata problem.sigma ys then .ok (v, []) else .ok (problem.p0, []) := by
  unfold offerEnv
  dsimp only
  unfold FitProc.outcome
  rw [h1]
  dsimp only
  unfold FitProc.outcome
  rw [h2]
  dsimp only
  split_ifs <;> rfl

theorem offerEnv_neverWorse (v : List ℝ) : (offerEnv v).NeverWorse := by
  intro k problem g opt cov start fs h h1 h2
  rcases h3 : g v with e | zs
  · exfalso
    unfold offerEnv at h
    dsimp only at h
    unfold FitProc.outcome at h
    rw [h1] at h
    dsimp only at h
    unfold FitProc.outcome at h
    rw [h3] at h
    cases h
  · rw [offerEnv_outcome h1 h3] at h
    split_ifs at h with hle
    · injection h with h
      injection h with h _
      rw [← h, h3] at h2
      injection h2 with h2
      rw [← h2]
      exact hle
    · injection h with h
      injection h with h _
      rw [← h, h1] at h2
      injection h2 with h2
      rw [h2]

/-- A charged and a neutral point at the same `t`. -/
noncomputable def twoPointPipeline (t yc yn en : ℝ) : Pipeline where
  kind := .kaonFF
  name := "P"
  parameters := 0
  tasks := []
  ts := [.kaon t true, .kaon t false]
  ys := [yc, yn]
  errors := [1, en]
  reports_dir := "reports/P"
  plot := false
  use_handpicked_bounds := false
  constants := ⟨1, 1, 1⟩
  report := "Report P:\n"
  best_fit := .nothing

/-- The absolute value of the form factor. -/
noncomputable def rhoNorm (a t : ℝ) (ch : Bool) : ℝ := ‖(KaonArgs.ofValues .kaonB (rhoValue a)).formula ch t‖

theorem rho_eval (a : ℝ) {t : ℝ} (h0 : 0 < t) (h1 : t < 1) (chs : List Bool) :
    functionFormFactor (chs.map fun ch => .kaon t ch) (rhoObject a) = .ok (chs.map fun ch => rhoNorm a t ch) := by
  have hne : ¬ ∃ q ∈ (rhoObject a).toList, "t_in_".toList <+: q.name.toList ∧ t = q.value := by
    obtain ⟨-, c2, -, c4⟩ := rho_thresholds a
    rw [← (rho_args a).tin, c2, c4]
    rintro (h | h) <;> linarith
  have := (rho_args a).eval_eq .formFactor (points := chs.map fun ch => (t, ch))
    (fun d hd => by obtain ⟨c, -, rfl⟩ := List.mem_map.mp hd; exact h0.le) (fun hh => absurd rfl hh)
    (fun d hd => by obtain ⟨c, -, rfl⟩ := List.mem_map.mp hd; exact hne)
  rw [List.map_map, List.map_map] at this
  exact this

theorem rho_partial (a b : ℝ) {t : ℝ} (h0 : 0 < t) (h1 : t < 1) (chs : List Bool) (k : ℕ) :
    (TaskF.ofPartial ⟨.formFactor, k⟩).value (rhoObject a) (chs.map fun ch => .kaon t ch) (rhoObject b).getFreeValues =
      .ok (chs.map fun ch => rhoNorm b t ch) ∧
    (TaskF.ofPartial ⟨.formFactor, k⟩).value (rhoObject a) ((chs.map fun ch => Datapoint.kaon t ch).map Datapoint.toRow) (rhoObject b).getFreeValues =
      .ok (chs.map fun ch => rhoNorm b t ch) := by
  unfold TaskF.value
  unfold partialSpec
  dsimp only
  rw [rho_update]
  dsimp only
  rw [C52_rows (rho_reachable b)]
  exact ⟨rho_eval b h0 h1 chs, rho_eval b h0 h1 chs⟩

attribute [local irreducible] rhoObject rhoNorm

/-- The task of the full fit. -/
theorem charged_task {a t yn en : ℝ} (h0 : 0 < t) (h1 : t < 1) {task : Task} {w : World} (hcls : task.cls = .kaonFFFullOnlyCharged)
    (hp : w.heap[task.parameters]? = some (rhoObject (1 / 2))) (hts : task.ts = [.kaon t true, .kaon t false]) (hys : task.ys = [rhoNorm a t true, yn])
    (hes : task.errors = [1, en]) (htf : task.ts_fit = [.kaon t true, .kaon t false]) (hyf : task.ys_fit = [rhoNorm a t true, yn])
    (hef : task.errors_fit = [1, en]) (hb : task.use_handpicked_bounds = false) :
    ∃ task' w', task.run (offerEnv (rhoObject a).getFreeValues) w = (.ok task', w') ∧ task'.parameters = task.parameters ∧
      w'.heap[task.parameters]? = some (rhoObject a) := by
  have hset : task.setUp w = (.ok { task with
      partial_f := some (.ofPartial ⟨.formFactor, w.heap.length⟩)
      ts_fit := [.kaon t true]
      ys_fit := [rhoNorm a t true]
      errors_fit := [1] }, { w with heap := w.heap ++ [rhoObject (1 / 2)] }) := by
    have hwp := withPartial_run hp (rho_reachable (1 / 2)) .formFactor
    have : task.setUp = (do
        mutateParams task.parameters fun p => (.ok (), p.releaseAllParameters)
        let self ← task.withPartial .formFactor
        PyM.lift self.onlyCharged) := by unfold Task.setUp; rw [hcls]
    rw [this, PyM.bind_ok (mutateParams_run hp _), rho_release, set_self hp, PyM.bind_ok hwp, PyM.lift_run,
      onlyCharged_eq (l := [(((t : ℂ), true), rhoNorm a t true, 1), (((t : ℂ), false), yn, en)]) ⟨by exact htf, by exact hyf, by exact hef⟩]
    rfl
  have hl := heap_set_append hp
  obtain ⟨lo, up, hbounds, -⟩ := C80_start (rho_reachable (1 / 2)) (rho_inside (1 / 2))
  have hr := run_cases (p := rhoObject (1 / 2)) hset rfl
    (by show (w.heap ++ [rhoObject (1 / 2)])[task.parameters]? = _; rw [List.getElem?_append_left hl]; exact hp) (rho_reachable _)
    ⟨hl.ne', rhoObject (1 / 2), List.getElem?_concat_length, .refl _⟩
    (by show (rhoObject (1 / 2)).getBoundsForFreeParameters task.use_handpicked_bounds = _; rw [hb]; exact hbounds) (offerEnv (rhoObject a).getFreeValues)
  obtain ⟨-, hr2, -, -, hr3, -⟩ := hr
  obtain ⟨k1, k2⟩ := hr2 (rhoObject a).getFreeValues [] (by
    refine (offerEnv_outcome (ys := [rhoNorm (1 / 2) t true]) (zs := [rhoNorm a t true]) ?_ ?_).trans (if_pos ?_)
    · exact (rho_partial (1 / 2) (1 / 2) h0 h1 [true] _).2
    · exact (rho_partial (1 / 2) a h0 h1 [true] _).2
    show weightedSquares [rhoNorm a t true] [1] [rhoNorm a t true] ≤ weightedSquares [rhoNorm a t true] [1] [rhoNorm (1 / 2) t true]
    unfold weightedSquares
    simp
    positivity)
  obtain ⟨ordered, -, hrun⟩ := k2 () (by rw [rho_update])
  dsimp only at hrun
  rw [hts, show [Datapoint.kaon t true, .kaon t false] = [true, false].map (fun ch => Datapoint.kaon t ch) from rfl, (rho_partial (1 / 2) a h0 h1 [true, false] _).1] at hrun
  dsimp only at hrun
  rw [show (offerEnv (rhoObject a).getFreeValues).numpyAt (.ofPartial ⟨.formFactor, w.heap.length⟩) (w.fits + 1) = true from rfl,
    chiSquared_numpy (by rw [hys]; rfl)] at hrun
  dsimp only at hrun
  rw [show (if task.reports_dir = none ∨ task.reports_dir = some "" then (.ok () : Except PyErr Unit) else (offerEnv (rhoObject a).getFreeValues).plot w.plots) = .ok () from by split_ifs <;> rfl] at hrun
  dsimp only at hrun
  rw [rho_update] at k1
  exact ⟨_, _, Prod.ext hrun rfl, (hr3 _ hrun).1, k1⟩

/-- The whole run. -/
theorem charged_run {a t yn en : ℝ} (h0 : 0 < t) (h1 : t < 1) : ∃ self' w',
    (twoPointPipeline t (rhoNorm a t true) yn en).runIterative (offerEnv (rhoObject a).getFreeValues) ⟨[], 0⟩ (startWorld [rhoObject (1 / 2)]) =
      (.ok self', w') ∧ w'.heap[(0 : ℕ)]? = some (rhoObject a) := by
  generalize hself : twoPointPipeline t (rhoNorm a t true) yn en = self
  generalize henv : offerEnv (rhoObject a).getFreeValues = env
  unfold Pipeline.runIterative
  have hp : (startWorld [rhoObject (1 / 2)]).heap[self.parameters]? = some (rhoObject (1 / 2)) := by rw [← hself]; rfl
  rw [PyM.bind_ok (readParams_run hp)]
  obtain ⟨s₁, w₁, l1⟩ : ∃ s₁ w₁, self.log ("Starting. Initial parameters: " ++ env.strParameters (rhoObject (1 / 2)).toList) (startWorld [rhoObject (1 / 2)]) =
    (.ok s₁, w₁) := ⟨_, _, rfl⟩
  rw [PyM.bind_ok l1]
  obtain ⟨t1, d1, e1⟩ := Traced.log l1
  dsimp only
  rw [PyM.bind_ok (show Pipeline.runRounds env 0 0 [] s₁ w₁ = (.ok s₁, w₁) from rfl)]
  obtain ⟨s₂, w₂, l2⟩ : ∃ s₂ w₂, s₁.log ("Initializing Task#" ++ toString ([] : List ℤ).length ++ ". Full fit.") w₁ = (.ok s₂, w₂) := ⟨_, _, rfl⟩
  rw [PyM.bind_ok l2]
  obtain ⟨t2, d2, e2⟩ := Traced.log l2
  have c2 : s₂.config = self.config := t2.config.trans t1.config
  have hpar : s₂.parameters = self.parameters := by rw [d2, d1]
  have hkind : s₂.kind = .kaonFF := (congrArg Pipeline.kind c2).trans (by rw [← hself]; rfl)
  have hp2 : w₂.heap[s₂.parameters]? = some (rhoObject (1 / 2)) := by rw [e2, e1, hpar]; exact hp
  have g2 : w₂.Good := by
    unfold World.Good
    rw [e2, e1]
    intro p hp
    rw [List.mem_singleton.mp hp]
    exact rho_reachable _
  generalize "Task#" ++ toString ([] : List ℤ).length ++ ":" ++ s₂.kind.fullFit.pyName = name
  obtain ⟨u, hn, q1, q2, q3, q4, q5, q6, q7, q8, q9⟩ : ∃ u, s₂.newTask name s₂.kind.fullFit w₂ = (.ok u, w₂) ∧ u.cls = .kaonFFFullOnlyCharged ∧
      u.parameters = s₂.parameters ∧ u.ts = [.kaon t true, .kaon t false] ∧ u.ys = [rhoNorm a t true, yn] ∧ u.errors = [1, en] ∧
      u.ts_fit = [.kaon t true, .kaon t false] ∧ u.ys_fit = [rhoNorm a t true, yn] ∧ u.errors_fit = [1, en] ∧ u.use_handpicked_bounds = false := by
    unfold Pipeline.newTask Task.init
    rw [PyM.bind_ok (readParams_run hp2)]
    have cts : s₂.ts = [.kaon t true, .kaon t false] := (congrArg Pipeline.ts c2).trans (by rw [← hself]; rfl)
    have cys : s₂.ys = [rhoNorm a t true, yn] := (congrArg Pipeline.ys c2).trans (by rw [← hself]; rfl)
    have cer : s₂.errors = [1, en] := (congrArg Pipeline.errors c2).trans (by rw [← hself]; rfl)
    have chb : s₂.use_handpicked_bounds = false := (congrArg Pipeline.use_handpicked_bounds c2).trans (by rw [← hself]; rfl)
    exact ⟨_, rfl, by rw [hkind]; rfl, rfl, cts, cys, cer, cts, cys, cer, chb⟩
  obtain ⟨u', w₃, hrun, k1, k2⟩ := charged_task (w := { w₂ with stdout := w₂.stdout ++ [printedLine s₂.name ("Running " ++ name)] }) h0 h1 q1
    (by rw [q2]; exact hp2) q3 q4 q5 q6 q7 q8 q9
  rw [henv] at hrun
  obtain ⟨s₄, w₄, l4, e4, p4⟩ := iterativeTask_run g2 hn hrun
  rw [PyM.bind_ok l4]
  dsimp only
  obtain ⟨s₅, w₅, l5⟩ : ∃ s₅ w₅, s₄.log ("Best fit: " ++ env.strBestFit s₄.best_fit) w₄ = (.ok s₅, w₅) := ⟨_, _, rfl⟩
  rw [PyM.bind_ok l5]
  obtain ⟨-, -, e5⟩ := Traced.log l5
  obtain ⟨s₆, w₆, l6⟩ : ∃ s₆ w₆, s₅.flushReport w₅ = (.ok s₆, w₆) := ⟨_, _, rfl⟩
  rw [PyM.bind_ok l6]
  obtain ⟨-, -, e6, -⟩ := Traced.flush l6
  obtain ⟨w₇, l7⟩ : ∃ w₇, s₆.saveReport env (toString ([] : List ℤ).length) u'.report w₆ = (.ok (), w₇) := ⟨_, rfl⟩
  rw [PyM.bind_ok l7]
  obtain ⟨-, e7, -⟩ := Traced.save l7
  refine ⟨_, _, rfl, ?_⟩
  rw [e7, e6, e5, e4]
  have : u.parameters = 0 := by rw [q2, hpar, ← hself]; rfl
  rw [← this]
  exact k2

theorem offerEnv_samples (v : List ℝ) : (offerEnv v).Samples := fun _ names k hk =>
  ⟨names.take k, List.take_sublist k names, by simpa using hk, List.Perm.refl _⟩

/-- The sums of squares of two points. -/
theorem weightedSquares_two (a b c d e f : ℝ) : weightedSquares [a, b] [c, d] [e, f] = ((a - e) / c) ^ 2 + ((b - f) / d) ^ 2 := by
  unfold weightedSquares
  simp [Finset.sum_range_succ]

end UA
