import Verif.Lemmas.TasksRun
import Verif.Lemmas.Utils

/-!
# A concrete object for the examples about tasks and pipelines
-/

namespace UA

open Complex

/-- Two poles at 1 with amplitude `a`: the form factor at `t = 2` is `a`. -/
noncomputable def poles (a : ℝ) : ModelParameters ℝ := ⟨.twoPoles, [], [⟨"a", a, false⟩, ⟨"m_1", 1, false⟩, ⟨"m_2", 1, false⟩]⟩

theorem poles_reachable (a : ℝ) : Reachable (poles a) := by
  have h := init_eq .twoPoles (kw := ParamClass.twoPoles.table.initArgs.map fun n => (n, if n = "a" then a else 1))
    (f := fun n => if n = "a" then a else 1) (fun _ hn => lookup_map_self hn) fun p hp => by
      obtain ⟨n, hn, rfl⟩ := List.mem_map.mp hp
      exact hn
  have : poles a = ⟨.twoPoles, ParamClass.twoPoles.table.alwaysFixed, freshData .twoPoles fun n => if n = "a" then a else 1⟩ := by
    have e : freshData .twoPoles (fun n => if n = "a" then a else 1) =
        [⟨"a", if "a" = "a" then a else 1, false⟩, ⟨"m_1", if "m_1" = "a" then a else 1, false⟩, ⟨"m_2", if "m_2" = "a" then a else 1, false⟩] := rfl
    rw [e, if_pos rfl, if_neg (by decide), if_neg (by decide)]
    rfl
  rw [this]; exact .init h

theorem poles_update (a b : ℝ) : (poles a).updateFreeValues [b, 1, 1] = (.ok (), poles b) := rfl

theorem poles_value (a : ℝ) (n : ℕ) (pr el : Bool) :
    functionFormFactor (List.replicate n (.nucleon 2 pr el)) (poles a) = .ok (List.replicate n |a|) := by
  have hv : ∀ q ∈ (poles a).data, q.value = (fun n => if n = "a" then a else 1) q.name := by
    intro q hq
    simp only [poles, List.mem_cons, List.not_mem_nil, or_false] at hq
    rcases hq with rfl | rfl | rfl
    · exact (if_pos rfl).symm
    · exact (if_neg (by decide)).symm
    · exact (if_neg (by decide)).symm
  obtain ⟨-, h1, -⟩ := twoPoles_wiring (v := fun n => if n = "a" then a else 1) (reachable_wellFormed (poles_reachable a)) hv rfl
  rw [h1]
  simp only [if_true, if_neg (show ¬ "m_1" = "a" by decide), if_neg (show ¬ "m_2" = "a" by decide)]
  have hpt : nucleonPoint (fun _ _ t => (TwoPolesModel.init a 1 1).call t) (.nucleon 2 pr el) = .ok |a| := by
    have hc : (TwoPolesModel.init a 1 1).call 2 = .ok (a : ℂ) := by
      unfold TwoPolesModel.call TwoPolesModel.init
      simp only [one_pow, ofReal_one]
      rw [pyDiv_ok one_ne_zero, except_ok_bind, except_ok_bind, pyDiv_ok (by norm_num)]
      norm_num
    show (do let F ← (TwoPolesModel.init a 1 1).call 2; return ‖F‖) = _
    rw [hc, except_ok_bind, norm_real]
    rfl
  induction n with
  | zero => rfl
  | succ n ih => rw [List.replicate_succ, List.mapM_cons, hpt, ih]; rfl

theorem poles_bounds (a : ℝ) (b : Bool) : ∃ bounds, (poles a).getBoundsForFreeParameters b = .ok bounds := by
  cases b <;> exact ⟨_, rfl⟩

/-- Files, output and counters as at the start. -/
noncomputable def startWorld (heap : Heap) : World := ⟨heap, [], ⟨fun _ => false, fun _ => none⟩, 0, 0, 0⟩

/-- An environment in which the fitting library has these outcomes. -/
noncomputable def constEnv (fit : ℕ → Except (PyErr × String) (List ℝ × Cov)) (strFloat : PyFloat → String) : Env where
  curve_fit k _ := .done (fit k)
  plot _ := .ok ()
  sample _ names k := names.take k
  strFloat := strFloat
  strParameters _ := ""
  strNames _ := ""
  strReport _ := ""
  strBestFit _ := ""
  mkdirFails _ := false
  numpy _ := true

/-- A full fit of the amplitude and poles to `n` points at `t = 2`, all zero with error `err`. -/
noncomputable def polesTask (n : ℕ) (err : ℝ) : Task where
  cls := .nucleonFFFull
  name := "Task#0:TaskFullFit"
  parameters := 0
  partial_f := none
  ts := List.replicate n (.nucleon 2 true true)
  ys := List.replicate n 0
  errors := List.replicate n err
  ts_fit := List.replicate n (.nucleon 2 true true)
  ys_fit := List.replicate n 0
  errors_fit := List.replicate n err
  should_plot := false
  use_handpicked_bounds := false
  constants := ⟨1, 1, 1⟩
  reports_dir := none
  report := ⟨"Task#0:TaskFullFit", (poles 1).toList, none, none, none, none, none, "started", none, []⟩

theorem polesTask_setUp (n : ℕ) (err : ℝ) : (polesTask n err).setUp (startWorld [poles 1]) =
    (.ok { polesTask n err with partial_f := some (.ofPartial ⟨.formFactor, 1⟩) }, startWorld [poles 1, poles 1]) := rfl

end UA
