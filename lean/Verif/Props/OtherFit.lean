import Verif.Lemmas.OtherFit
import Verif.Lemmas.RunsWitness

/-!
# C88: fits of the background models
-/

namespace UA

open Complex

/-! ### C88 -/

/-- **C88** a task that fits cross sections (`ETGMRModelTask` and `TwoPolesModelTask` among them) never finishes a fit of one of the
background models, whatever the kind of data: if `run` returns at all, the library has given up, the report says so and contains no chi
squared. -/
theorem C88_task {self : Task} (hc : self.cls.FitsCrossSections) {w : World} {p : ModelParameters ℝ} (h : w.heap[self.parameters]? = some p)
    (hp : Reachable p) (hb : p.cls.IsBackground) (hts : self.ts ≠ []) (hnew : self.report.chi_squared = none) (env : Env) {t' : Task} {w' : World}
    (hrun : self.run env w = (.ok t', w')) :
    t'.report.status = "failed" ∧ (∃ message, t'.report.error_message = some message) ∧ t'.report.chi_squared = none := by
  obtain ⟨⟨msg, h1⟩, -⟩ := background_run hc h hp hb hts env hrun
  rw [h1]
  exact ⟨rfl, ⟨msg, rfl⟩, hnew⟩

/-- The hypotheses can be met: a library that gives up. -/
example : ∃ (self t' : Task) (w w' : World) (env : Env) (p : ModelParameters ℝ), self.cls.FitsCrossSections ∧ w.heap[self.parameters]? = some p ∧ Reachable p ∧
    p.cls.IsBackground ∧ self.ts ≠ [] ∧ self.report.chi_squared = none ∧ self.run env w = (.ok t', w') := by
  obtain ⟨task, -, h2, h3, h4, -, h6⟩ := taskInit_run (ref := 0) (w := startWorld [poles 1]) (p := poles 1) rfl .twoPoles "T" [.nucleon 4 true true] [1] [1] ⟨0, 0, 0⟩
    none false false
  have hp : (startWorld [poles 1]).heap[task.parameters]? = some (poles 1) := by rw [h3]; rfl
  obtain ⟨t', w', ht⟩ := background_run_failed (self := task) (Or.inr (Or.inl h2)) hp (poles_reachable 1) (Or.inr rfl)
    (env := constEnv (fun _ => .error (.runtimeError, "no optimum")) fun _ => "") (message := "no optimum") (fun _ _ => rfl)
  exact ⟨task, t', _, w', _, poles 1, Or.inr (Or.inl h2), hp, poles_reachable 1, Or.inr rfl, by rw [h4]; exact List.cons_ne_nil _ _, h6, ht⟩

/-- **C88** an unknown model: `TypeError`, before anything is done. -/
theorem C88_unknown (env : Env) (random : ℕ → ℝ) (ts ys errors : List ℝ) (path_to_reports name : String) {model : String}
    (h1 : model.toLower ≠ "etgmr") (h2 : model.toLower ≠ "twopoles") (w : World) :
    fitOtherModels env random ts ys errors path_to_reports name model w = (.error .typeError, w) := by
  unfold fitOtherModels makeOtherInitialParameters
  rw [if_neg h1, if_neg h2]
  exact PyM.bind_error (PyM.lift_run _ _)

example : "vmd".toLower ≠ "etgmr" ∧ "vmd".toLower ≠ "twopoles" := by decide +kernel

/-- **C88** the function `f` of the script never returns: for no data, no random numbers, no model name and no fitting library. -/
theorem C88_never (env : Env) (random : ℕ → ℝ) (data : List (ℝ × ℝ × ℝ)) (path_to_reports name model : String) (w w' : World) (r : BestFit) :
    fitOtherModels env random (data.map (·.1)) (data.map (·.2.1)) (data.map (·.2.2)) path_to_reports name model w ≠ (.ok r, w') := by
  intro h
  by_cases hm : model.toLower = "etgmr" ∨ model.toLower = "twopoles"
  · by_cases hdata : data = []
    · subst hdata
      unfold fitOtherModels at h
      obtain ⟨_, _, -, h⟩ := PyM.bind_eq_ok.mp h
      obtain ⟨_, _, -, h⟩ := PyM.bind_eq_ok.mp h
      obtain ⟨_, _, -, h⟩ := PyM.bind_eq_ok.mp h
      obtain ⟨_, _, -, h⟩ := PyM.bind_eq_ok.mp h
      obtain ⟨_, _, h, -⟩ := PyM.bind_eq_ok.mp h
      rw [PyM.lift_run] at h
      injection h with h _
      have he := C58_empty.1
      rw [List.map_nil, List.map_nil, List.map_nil, he] at h
      cases h
    · obtain ⟨p, c, pipeline, h1, h2, h3, h4⟩ := fitOtherModels_run env random hdata path_to_reports name hm w
      rw [h4] at h
      obtain ⟨_, w₁, hd, h⟩ := PyM.bind_eq_ok.mp h
      obtain ⟨s, w₂, hr, -⟩ := PyM.bind_eq_ok.mp h
      have hw : w₁ = { w with heap := w.heap ++ [p], fs := { w.fs with
          dirs := fun q => q == pathJoin path_to_reports (model ++ "_" ++ name) || w.fs.dirs q } } := by
        unfold setUpReportsDirectory at hd
        rw [PyM.bind_ok (PyM.get_run _ _)] at hd
        split_ifs at hd with h5
        · cases hd
        unfold Env.mkdir at hd
        split_ifs at hd with h6
        · cases hd
        injection hd with _ hd
        exact hd.symm
      subst hw
      obtain ⟨e, w₃, he, -⟩ := pipeline_background h3 h1 h2 env
      rw [he] at hr
      cases hr
  · rw [C88_unknown env random _ _ _ path_to_reports name (fun h => hm (Or.inl h)) (fun h => hm (Or.inr h)) w] at h
    cases h

/-- **C88** the exception: with data, a known model, a directory that can be made and a library that keeps to the number of parameters it
is given and raises nothing but `RuntimeError` by itself, it is `IndexError` (the points are read as those of nucleons). If the library
evaluates the function at all, nothing has been written by then. -/
theorem C88_exception {env : Env} (hfit : env.FitsSized) (random : ℕ → ℝ) {data : List (ℝ × ℝ × ℝ)} (hdata : data ≠ [])
    {path_to_reports name model : String} (hm : model.toLower = "etgmr" ∨ model.toLower = "twopoles") {w : World}
    (hdir : w.fs.exists (pathJoin path_to_reports (model ++ "_" ++ name)) = false)
    (hmk : env.mkdirFails (pathJoin path_to_reports (model ++ "_" ++ name)) = false) :
    ∃ w', fitOtherModels env random (data.map (·.1)) (data.map (·.2.1)) (data.map (·.2.2)) path_to_reports name model w =
        (.error .indexError, w') ∧ (env.Evaluates → w'.fs.files = w.fs.files) := by
  obtain ⟨p, c, pipeline, h1, h2, h3, h4⟩ := fitOtherModels_run env random hdata path_to_reports name hm w
  obtain ⟨e, w₃, he, hs⟩ := pipeline_background h3 h1 h2 env
  obtain ⟨rfl, hev⟩ := hs hfit
  refine ⟨w₃, ?_, fun h => ?_⟩
  · rw [h4]
    have hset : setUpReportsDirectory env (pathJoin path_to_reports (model ++ "_" ++ name)) { w with heap := w.heap ++ [p] } =
        (.ok (), { w with heap := w.heap ++ [p], fs := { w.fs with
          dirs := fun q => q == pathJoin path_to_reports (model ++ "_" ++ name) || w.fs.dirs q } }) := by
      unfold setUpReportsDirectory
      rw [PyM.bind_ok (PyM.get_run _ _)]
      dsimp only
      rw [hdir, if_neg (by decide)]
      unfold Env.mkdir
      rw [hmk]
      rfl
    rw [PyM.bind_ok hset, PyM.bind_error he]
  · rw [hev h]

example : (idleEnv ∅).FitsSized ∧ (idleEnv ∅).Evaluates ∧ "ETGMR".toLower = "etgmr" ∧
    (startWorld []).fs.exists (pathJoin "/home/lukas/reports/ff" ("etgmr" ++ "_" ++ "_1_0")) = false ∧
    (idleEnv ∅).mkdirFails (pathJoin "/home/lukas/reports/ff" ("etgmr" ++ "_" ++ "_1_0")) = false := by
  have h : ∀ k problem, (idleEnv ∅).curve_fit k problem = .ask problem.p0 fun _ => .done (.ok (problem.p0, [])) := fun k problem =>
    if_pos fun _ _ h => h
  refine ⟨fun k problem _ => ?_, fun k problem => ⟨_, _, h k problem⟩, by decide +kernel, rfl, rfl⟩
  rw [h]
  exact ⟨rfl, fun _ => rfl⟩

end UA
