import Verif.Model.Pipelines

/-!
# The script that fits the background models to form factor data

`/repo/kaon_production/fit_ff_other_models.py`.
-/

namespace UA

/-- `make_initial_parameters`, `kaon_production/fit_ff_other_models.py:12-26`. `raise 'Unknown model type'` raises a string: `TypeError`.
`str.lower` is modelled on ASCII letters. -/
noncomputable def makeOtherInitialParameters (model : String) : Except PyErr (ModelParameters ℝ) :=
  if model.toLower = "etgmr" then ParamClass.etgmr.init [("a", 1.0), ("m_a", 1.0), ("m_d", Real.sqrt 0.71)]
  else if model.toLower = "twopoles" then ParamClass.twoPoles.init [("a", 1.0), ("m_1", 0.5), ("m_2", 2.0)]
  else .error .typeError

/-- The list of tasks, `kaon_production/fit_ff_other_models.py:40-48`. -/
def otherModelsTasks (model : String) : Except PyErr (List TaskClass) :=
  if model.toLower = "etgmr" then .ok [.etgmr, .residual]
  else if model.toLower = "twopoles" then .ok [.twoPoles, .residual]
  else .error .typeError

/-- The function `f`, `kaon_production/fit_ff_other_models.py:56-69` with `make_pipeline` (`:35-54`). The lists are the columns of the data
file; there are no neutral points. `random` are the values `random.random()` returns. The result is the `_best_fit` that `run` returns.
The form factor pipeline has no constants (0 here). -/
noncomputable def fitOtherModels (env : Env) (random : ℕ → ℝ) (charged_ts charged_ff_values charged_errors : List ℝ)
    (path_to_reports name model : String) : PyM World BestFit := do
  let p ← PyM.lift (makeOtherInitialParameters model)
  let initial_parameters ← newParams p
  mutateParams initial_parameters fun p => perturbModelParameters p 1.0 (some 0.1) false random
  let task_list ← PyM.lift (otherModelsTasks model)
  let (ts, ys, errors) ← PyM.lift (prepareKaonData charged_ts charged_ff_values charged_errors [] [] [])
  let pipeline ← Pipeline.init env .kaonFF (model ++ "_" ++ name) initial_parameters task_list ts ys errors path_to_reports true false ⟨0, 0, 0⟩
  let pipeline ← pipeline.run env
  return pipeline.best_fit

end UA
