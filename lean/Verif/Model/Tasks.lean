import Verif.Model.World

/-!
# Tasks

`/repo/task`: one fit. A task holds its parameters by reference; the pipeline that made it holds the same reference.
-/

namespace UA

open Complex

/-- The concrete task classes: `task/kaon_cross_section_tasks.py`, `task/kaon_form_factor_tasks.py`,
`task/nucleon_cross_section_tasks.py`, `task/nucleon_form_factor_tasks.py`, `task/ETGMRModelTask.py`,
`task/TwoPolesModelTask.py` and `task/ResidualOscillationsTask.py`. -/
inductive TaskClass
  | kaonCSFull
  | kaonCSFixedCouplings
  | kaonCSFixAccording
  | kaonFFFull
  | kaonFFFullOnlyCharged
  | kaonFFFixAccording
  | kaonFFFixAccordingOnlyCharged
  | nucleonCSFull
  | nucleonCSFixedCouplings
  | nucleonCSFixAccording
  | nucleonFFFull
  | nucleonFFFixAccording
  | etgmr
  | twoPoles
  | residual
  deriving DecidableEq

/-- `__name__` of a class. -/
def TaskClass.pyName : TaskClass → String
  | .kaonCSFull | .kaonFFFull | .nucleonCSFull | .nucleonFFFull => "TaskFullFit"
  | .kaonCSFixedCouplings | .nucleonCSFixedCouplings => "TaskFixedCouplingConstants"
  | .kaonCSFixAccording | .kaonFFFixAccording | .nucleonCSFixAccording | .nucleonFFFixAccording => "TaskFixAccordingToParametersFit"
  | .kaonFFFullOnlyCharged => "TaskFullFitOnlyCharged"
  | .kaonFFFixAccordingOnlyCharged => "TaskFixAccordingToParametersFitOnlyCharged"
  | .etgmr => "ETGMRModelTask"
  | .twoPoles => "TwoPolesModelTask"
  | .residual => "ResidualOscillationsTask"

/-- `product_particle_mass`, `alpha` and `hc_squared` of a task or pipeline; the form factor ones do not have them. -/
structure Constants where
  mass : ℝ
  alpha : ℝ
  hc_squared : ℝ

/-- The function being fitted: one made by `make_partial_..._for_parameters`, or the closure of
`task/ResidualOscillationsTask.py:149-165`, which reads `self.parameters`. -/
inductive TaskF
  | ofPartial (f : PartialF)
  | oscillations (ref : ℕ)

/-- The attributes of a task, `task/Task.py:22-44` and the constructors of the subclasses. -/
structure Task where
  cls : TaskClass
  name : String
  parameters : ℕ
  partial_f : Option TaskF
  ts : List Datapoint
  ys : List ℝ
  errors : List ℝ
  ts_fit : List Datapoint
  ys_fit : List ℝ
  errors_fit : List ℝ
  should_plot : Bool
  use_handpicked_bounds : Bool
  constants : Constants
  reports_dir : Option String
  report : Report

/-- The constructor, `task/Task.py:14-44` (and those of the subclasses, `task/KaonCrossSectionTask.py:12-29`,
`task/KaonFormFactorTask.py:12-23`, `task/NucleonCrossSectionTask.py:12-28`, `task/NucleonFormFactorTask.py:12-22`,
`task/ETGMRModelTask.py:14-30`, `task/ResidualOscillationsTask.py:83-103`; the form factor classes take no constants, which the
model then never reads). -/
def Task.init (cls : TaskClass) (name : String) (parameters : ℕ) (ts : List Datapoint) (ys errors : List ℝ) (constants : Constants)
    (reports_dir : Option String) (plot use_handpicked_bounds : Bool) : PyM World Task := do
  let p ← readParams parameters
  return {
    cls := cls
    name := name
    parameters := parameters
    partial_f := none
    ts := ts
    ys := ys
    errors := errors
    ts_fit := ts
    ys_fit := ys
    errors_fit := errors
    should_plot := plot
    use_handpicked_bounds := use_handpicked_bounds
    constants := constants
    reports_dir := reports_dir
    report := {
      name := name
      initial_parameters := p.toList
      final_parameters := none
      r2 := none
      chi_squared := none
      covariance_matrix := none
      parameter_errors := none
      status := "started"
      error_message := none
      parameter_list := [] } }

/-! ### Calling the fitted function -/

/-- `float(x)` and the implicit conversion by the functions of `math`: `TypeError` for a complex number. -/
noncomputable def pyFloat (z : ℂ) : Except PyErr ℝ := if z.im = 0 then .ok z.re else .error .typeError

/-- `datapoint.t`; a bare row has no such attribute. -/
def Datapoint.attrT : Datapoint → Except PyErr ℂ
  | .kaon t _ => .ok t
  | .nucleon t _ _ => .ok t
  | .row _ => .error .attributeError

/-- The closure `partial` of `task/ResidualOscillationsTask.py:149-165`, `self.parameters` being the object `p`. -/
noncomputable def oscillationsPartial (p : ModelParameters ℝ) (ts : List Datapoint) (pars : List ℝ) : Except PyErr (List ℝ) := do
  let parameters ← ParamClass.oscillations.fromList p.toList
  match parameters.updateFreeValues pars with
  | (.error e, _) => .error e
  | (.ok (), parameters) =>
    let a ← parameters.getItem "a"
    let b ← parameters.getItem "b"
    let c ← parameters.getItem "c"
    let d ← parameters.getItem "d"
    let model : DampedOscillations := ⟨a.value, b.value, c.value, d.value⟩
    ts.mapM fun datapoint => do
      let t ← match datapoint with
        | .kaon t _ => pure t
        | datapoint => datapoint.index 0
      let x ← pyFloat t
      return model.call x

/-- `self.partial_f(ts, *args)`. -/
noncomputable def TaskF.call (f : TaskF) (ts : List Datapoint) (args : List ℝ) : PyM World (List ℝ) :=
  match f with
  | .ofPartial f => callPartialIn f ts args
  | .oscillations ref => do
    let p ← readParams ref
    PyM.lift (oscillationsPartial p ts args)

/-! ### `_set_up` -/

/-- `p.name[:2] == 'a_'`, `task/kaon_cross_section_tasks.py:20`. -/
def isCouplingName (name : String) : Bool := name.toList.take 2 == "a_".toList

/-- `release_all_parameters` and `fix_parameters` of the couplings, `task/kaon_cross_section_tasks.py:19-21` and
`task/nucleon_cross_section_tasks.py:19-21`. -/
def fixCouplings (ref : ℕ) : PyM World Unit := do
  mutateParams ref fun p => (.ok (), p.releaseAllParameters)
  let p ← readParams ref
  let coupling_constants := (p.toList.filter fun q => isCouplingName q.name).map (·.name)
  mutateParams ref fun p => p.fixParameters coupling_constants

/-- Making the function, `task/kaon_cross_section_tasks.py:11-13` and the like. -/
def Task.withPartial (self : Task) (kind : PartialKind) : PyM World Task := do
  let f ← makePartialIn kind self.parameters
  return { self with partial_f := some (.ofPartial f) }

/-- The cross section function of the task. -/
def Task.csKind (self : Task) : PartialKind := .crossSection self.constants.mass self.constants.alpha self.constants.hc_squared

/-- `t[0].is_charged`; the other kinds of points have no such attribute. -/
def Datapoint.isCharged : Datapoint → Except PyErr Bool
  | .kaon _ is_charged => .ok is_charged
  | _ => .error .attributeError

/-- `filter(lambda t: t[0].is_charged, zip(...))`. -/
def filterCharged : List (Datapoint × ℝ × ℝ) → Except PyErr (List (Datapoint × ℝ × ℝ))
  | [] => .ok []
  | q :: qs => do
    let keep ← q.1.isCharged
    let rest ← filterCharged qs
    return if keep then q :: rest else rest

/-- `a, b, c = zip(*l)`: `ValueError` (not enough values to unpack) when `l` is empty. -/
def unzip3 {α β γ : Type} (l : List (α × β × γ)) : Except PyErr (List α × List β × List γ) :=
  if l.isEmpty then .error .valueError else .ok (l.map (·.1), l.map (·.2.1), l.map (·.2.2))

/-- `a, b = zip(*l)`. -/
def unzip2 {α β : Type} (l : List (α × β)) : Except PyErr (List α × List β) :=
  if l.isEmpty then .error .valueError else .ok (l.map (·.1), l.map (·.2))

/-- `zip(a, b, c)`: as long as the shortest. -/
def zip3 {α β γ : Type} (a : List α) (b : List β) (c : List γ) : List (α × β × γ) := a.zip (b.zip c)

/-- `task/kaon_form_factor_tasks.py:18-22` and `:36-40`. -/
def Task.onlyCharged (self : Task) : Except PyErr Task := do
  let l ← filterCharged (zip3 self.ts_fit self.ys_fit self.errors_fit)
  let (ts, ys, errors) ← unzip3 l
  return { self with ts_fit := ts, ys_fit := ys, errors_fit := errors }

/-! ### `ResidualOscillationsTask` -/

/-- The list comprehension at `task/ResidualOscillationsTask.py:129-131` and `:134-136`. -/
noncomputable def transformAll (constants : Constants) (css errors : List ℝ) (ts : List Datapoint) : Except PyErr (List (ℝ × ℝ)) :=
  (zip3 css errors ts).mapM fun q => do
    let z ← q.2.2.attrT
    let t ← pyFloat z
    transformToEffectiveFormFactor constants.mass constants.alpha q.1 q.2.1 t

/-- The momentum for the `t` of a point. -/
noncomputable def laboratoryMomentum (m : ℝ) (t : ℂ) : Except PyErr ℝ := do
  let t ← pyFloat t
  labMomentum m t

/-- `map_ts_to_laboratory_system_momentum`, `task/ResidualOscillationsTask.py:168-186`: the new list. The type of the first point
decides; another kind of point lacks the attribute. `raise f'...'` (`:184`) raises `TypeError`. -/
noncomputable def mapToMomenta (m : ℝ) (ts : List Datapoint) : Except PyErr (List Datapoint) :=
  match ts with
  | [] => .ok []
  | .kaon _ _ :: _ => ts.mapM fun d =>
    match d with
    | .kaon t is_charged => do let p ← laboratoryMomentum m t; return .kaon p is_charged
    | .nucleon t _ _ => do let _ ← laboratoryMomentum m t; .error .attributeError
    | .row _ => .error .attributeError
  | .nucleon _ _ _ :: _ => ts.mapM fun d =>
    match d with
    | .nucleon t proton electric => do let p ← laboratoryMomentum m t; return .nucleon p proton electric
    | .kaon t _ => do let _ ← laboratoryMomentum m t; .error .attributeError
    | .row _ => .error .attributeError
  | .row _ :: _ => .error .typeError

/-- The list comprehension of `drop_large_momenta`, `task/ResidualOscillationsTask.py:190-191`. -/
noncomputable def smallMomenta (threshold : ℝ) : List (Datapoint × ℝ × ℝ) → Except PyErr (List (Datapoint × ℝ × ℝ))
  | [] => .ok []
  | q :: qs => do
    let z ← q.1.attrT
    let t ← pyFloat z
    let rest ← smallMomenta threshold qs
    return if t < threshold then q :: rest else rest

/-- `_set_up`, `task/ResidualOscillationsTask.py:121-166`. The attributes only used for plotting (`ff_ts`, `eff_ffs`,
`background_fit`, `ff_errors`) are left out. -/
noncomputable def Task.setUpResidual (self : Task) : PyM World Task := do
  mutateParams self.parameters fun p => (.ok (), p.fixAllParameters)
  let background_f ← makePartialIn self.csKind self.parameters
  let background_ys ← callPartialIn background_f self.ts []
  let (effective_ff_fit, effective_errs) ← PyM.lift (do unzip2 (← transformAll self.constants background_ys self.errors self.ts))
  let (effective_ff_data, _) ← PyM.lift (do unzip2 (← transformAll self.constants self.ys self.errors self.ts))
  let ys := List.zipWith (fun y b => y - b) effective_ff_data effective_ff_fit
  let errors := effective_errs
  let ts ← PyM.lift (mapToMomenta self.constants.mass self.ts)
  let (ts, ys, errors) ← PyM.lift (do unzip3 (← smallMomenta 5 (zip3 ts ys errors)))
  let parameters ← PyM.lift (ParamClass.oscillations.init [("a", 100), ("b", 2), ("c", 5), ("d", 0)])
  let ref ← newParams parameters
  return { self with
    ts := ts, ys := ys, errors := errors
    ts_fit := ts, ys_fit := ys, errors_fit := errors
    parameters := ref
    partial_f := some (.oscillations ref) }

/-- `_set_up` of the task classes. `task/kaon_cross_section_tasks.py:9-32`, `task/kaon_form_factor_tasks.py:7-40`,
`task/nucleon_cross_section_tasks.py:9-32`, `task/nucleon_form_factor_tasks.py:7-15`, `task/ETGMRModelTask.py:37-40`,
`task/TwoPolesModelTask.py:31-32`. -/
noncomputable def Task.setUp (self : Task) : PyM World Task :=
  match self.cls with
  | .kaonCSFull | .nucleonCSFull => do
    mutateParams self.parameters fun p => (.ok (), p.releaseAllParameters)
    self.withPartial self.csKind
  | .kaonCSFixedCouplings | .nucleonCSFixedCouplings => do
    fixCouplings self.parameters
    self.withPartial self.csKind
  | .kaonCSFixAccording | .nucleonCSFixAccording | .etgmr => self.withPartial self.csKind
  | .kaonFFFull | .nucleonFFFull => do
    mutateParams self.parameters fun p => (.ok (), p.releaseAllParameters)
    self.withPartial .formFactor
  | .kaonFFFullOnlyCharged => do
    mutateParams self.parameters fun p => (.ok (), p.releaseAllParameters)
    let self ← self.withPartial .formFactor
    PyM.lift self.onlyCharged
  | .kaonFFFixAccording | .nucleonFFFixAccording => self.withPartial .formFactor
  | .kaonFFFixAccordingOnlyCharged => do
    let self ← self.withPartial .formFactor
    PyM.lift self.onlyCharged
  | .twoPoles => self.withPartial (.crossSection 0 0 0)
  | .residual => self.setUpResidual

/-! ### `run` -/

/-- The call of `curve_fit`, `task/Task.py:57-66`: outcome of the library. -/
noncomputable def runCurveFit (env : Env) (f : TaskF) (problem : FitProblem) :
    PyM World (Except (PyErr × String) (List ℝ × Cov)) := fun w =>
  let (r, w) := (env.curve_fit w.fits problem).run (fun args => f.call problem.xdata args) w
  (.ok r, { w with fits := w.fits + 1 })

/-- `_fit`, `task/Task.py:55-72`: optimum and covariance matrix, or `none` after a `RuntimeError`. -/
noncomputable def Task.fit (self : Task) (env : Env) : PyM World (Option (List ℝ × Cov) × Task) := do
  let p ← readParams self.parameters
  let bounds ← PyM.lift (p.getBoundsForFreeParameters self.use_handpicked_bounds)
  match self.partial_f with
  | none => PyM.raise .typeError
  | some f =>
    let r ← runCurveFit env f ⟨self.ts_fit.map Datapoint.toRow, self.ys_fit, p.getFreeValues, self.errors_fit, bounds⟩
    match r with
    | .ok r => return (some r, self)
    | .error (e, message) =>
      if e = .runtimeError then
        return (none, { self with report := { self.report with status := "failed", error_message := some message } })
      else PyM.raise e

/-- `np.sqrt(np.diag(covariance_matrix))`; the square root of a negative number (`nan` in NumPy) is not modelled. -/
noncomputable def parameterErrors (cov : Cov) : List (WithTop ℝ) :=
  cov.zipIdx.filterMap fun r => (r.1[r.2]?).map fun x => x.map Real.sqrt

/-- The chi squared of `task/Task.py:76-79`. Divisions by zero raise `ZeroDivisionError` for Python floats; if the squared deviations
are NumPy numbers they give `inf` or `nan` instead. -/
noncomputable def chiSquared (numpy : Bool) (r_squared errors : List ℝ) (nrParameters : ℕ) : Except PyErr PyFloat :=
  if numpy then
    .ok ((((r_squared.zip errors).map fun q => (PyFloat.finite q.1).divBy (q.2 ^ 2)).foldl PyFloat.add (.finite 0)).divBy
      (r_squared.length - nrParameters))
  else do
    let terms ← (r_squared.zip errors).mapM fun q => pyDivR q.1 (q.2 ^ 2)
    let quotient ← pyDivR terms.sum (r_squared.length - nrParameters)
    return .finite quotient

/-- Whether the values of the fitted function at an optimum are NumPy numbers. They always are for the damped oscillation
(`other_models/DampedOscillations.py:13`), whose amplitude is one of the numbers of the optimum; for the other functions it is an oracle. -/
def Env.numpyAt (env : Env) : TaskF → ℕ → Bool
  | .oscillations _, _ => true
  | .ofPartial _, k => env.numpy k

/-- `_update_report`, `task/Task.py:74-90`. -/
noncomputable def Task.updateReport (self : Task) (env : Env) (opt_parameters : List ℝ) (covariance_matrix : Cov) : PyM World Task := do
  match self.partial_f with
  | none => PyM.raise .typeError
  | some f =>
    let fit_ys ← f.call self.ts opt_parameters
    let r_squared := List.zipWith (fun data fit => (data - fit) ^ 2) self.ys fit_ys
    let numpy ← PyM.get fun w : World => env.numpyAt f w.fits
    let chi_squared ← PyM.lift (chiSquared numpy r_squared self.errors opt_parameters.length)
    let p ← readParams self.parameters
    let parameter_list ← PyM.lift p.getOrderedValues
    return { self with report := { self.report with
      final_parameters := some p.toList
      r2 := some (env.strFloat (.finite r_squared.sum))
      chi_squared := some (env.strFloat chi_squared)
      covariance_matrix := some covariance_matrix
      parameter_errors := some (parameterErrors covariance_matrix)
      status := "finished"
      parameter_list := parameter_list } }

/-- `_plot`, `task/KaonCrossSectionTask.py:31-34`, `task/KaonFormFactorTask.py:25-28`, `task/NucleonCrossSectionTask.py:30-33`,
`task/NucleonFormFactorTask.py:24-27`, `task/ETGMRModelTask.py:32-35`, `task/ResidualOscillationsTask.py:105-110`: the plotting functions evaluate the function once and draw (an oracle that
may raise). Pictures are not part of the modelled file system. -/
noncomputable def Task.plot (self : Task) (env : Env) (opt_params : List ℝ) : PyM World Unit :=
  match self.reports_dir, self.partial_f with
  | some dir, some f =>
    if dir = "" then pure ()
    else do
      let _ ← f.call self.ts opt_params
      fun w => (env.plot w.plots, { w with plots := w.plots + 1 })
  | _, _ => pure ()

/-- `run`, `task/Task.py:46-53`. The result is the task itself (its `parameters` are what Python's `run` returns). -/
noncomputable def Task.run (self : Task) (env : Env) : PyM World Task := do
  let self ← self.setUp
  let (r, self) ← self.fit env
  match r with
  | none => return self
  | some (opt_params, covariance_matrix) =>
    mutateParams self.parameters fun p => p.updateFreeValues opt_params
    let self ← self.updateReport env opt_params covariance_matrix
    self.plot env opt_params
    return self

end UA
