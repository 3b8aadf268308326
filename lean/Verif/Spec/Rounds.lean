import Verif.Spec.Pipelines

/-!
# Vocabulary: what the rounds of a pipeline do to the parameters
-/

namespace UA

/-- `after` is `before` after a fit of the parameters `free`: the same names in the same order, exactly `free` are free, and all other
values are kept. -/
def FittedFrom (free : String → Prop) (before after : List (Parameter ℝ)) : Prop :=
  List.Forall₂ (fun q q' => q'.name = q.name ∧ (q'.is_fixed = true ↔ ¬ free q.name) ∧ (¬ free q.name → q'.value = q.value)) before after

/-- What is fitted to which points, and how numbers are written. -/
structure FitData where
  write : PyFloat → String
  f : PartialKind
  ts : List Datapoint
  ys : List ℝ
  errors : List ℝ

/-- The fits of a pipeline are made to all its points. -/
def Pipeline.fitData (self : Pipeline) (env : Env) (f : PartialKind) : FitData := ⟨env.strFloat, f, self.ts, self.ys, self.errors⟩

/-- What the rounds of a pipeline fit: cross sections with the constants of the pipeline, or form factors. -/
def PipelineKind.fitted (kind : PipelineKind) (k : Constants) : PartialKind :=
  if kind = .kaonCS ∨ kind = .nucleonCS then .crossSection k.mass k.alpha k.hc_squared else .formFactor

/-- What a finished report says about the parameters `after`: the list of them, their values in the order of the arguments of the model,
and the reduced chi squared and the sum of squares of the function with these parameters at the points of the data. -/
structure Report.Correct (r : Report) (fit : FitData) (after : ModelParameters ℝ) (chi : PyFloat) : Prop where
  reachable : Reachable after
  status : r.status = "finished"
  final : r.final_parameters = some after.toList
  ordered : after.getOrderedValues = .ok r.parameter_list
  chi_squared : r.chi_squared = some (fit.write chi)
  values : fit.ys.length = fit.ts.length → ∃ fs, fit.f.eval fit.ts after = .ok fs ∧
    chi = reportedChiSquared fit.ys fs fit.errors (after.toList.countP fun q => !q.is_fixed) ∧ r.r2 = some (fit.write (.finite (sumOfSquares fit.ys fs)))

/-- The report of a fit that started from `before` and ended with `after`: it failed and no value has changed, or it finished and what it
says is true of the final parameters. -/
def Report.Tells (r : Report) (fit : FitData) (before : List (Parameter ℝ)) (after : ModelParameters ℝ) : Prop :=
  r.initial_parameters = before ∧
    ((r.status = "failed" ∧ r.final_parameters = none ∧ r.chi_squared = none ∧ after.toList.map (·.value) = before.map (·.value)) ∨
      ∃ chi, r.Correct fit after chi)

/-- The fit behind a report has failed, or it has given the chi squared `chi` for parameters of the class `c`. -/
def Report.Outcome (r : Report) (fit : FitData) (c : ParamClass) : Option PyFloat → Prop
  | none => r.status = "failed" ∧ r.final_parameters = none ∧ r.chi_squared = none
  | some chi => ∃ p : ModelParameters ℝ, p.cls = c ∧ r.Correct fit p chi

/-- A best fit that is none, or is true of some parameters `p` of the class `c`: it has the list of them, their values in the order of the
arguments of the model, and their reduced chi squared on the points of the pipeline. -/
def BestFit.Correct (b : BestFit) (fit : FitData) (c : ParamClass) : Prop :=
  b = .nothing ∨ ∃ (p : ModelParameters ℝ) (l fs : List ℝ), Reachable p ∧ p.cls = c ∧ b.parameters = some p.toList ∧ p.getOrderedValues = .ok l ∧
    b.parameters_list = some l ∧ fit.f.eval fit.ts p = .ok fs ∧
    b.chi_squared = some (fit.write (reportedChiSquared fit.ys fs fit.errors (p.toList.countP fun q => !q.is_fixed)))

/-- The same in terms of the single points `(d, y, error)`, in any order: `g d` is the function at the point `d` alone. -/
def BestFit.TrueOf (b : BestFit) (write : PyFloat → String) (f : PartialKind) (c : ParamClass) (points : List (Datapoint × ℝ × ℝ)) : Prop :=
  b = .nothing ∨ ∃ (p : ModelParameters ℝ) (l : List ℝ) (g : Datapoint → ℝ), Reachable p ∧ p.cls = c ∧ b.parameters = some p.toList ∧
    p.getOrderedValues = .ok l ∧ b.parameters_list = some l ∧ (∀ q ∈ points, f.eval [q.1] p = .ok [g q.1]) ∧
    b.chi_squared = some (write (reportedChiSquared (points.map (·.2.1)) (points.map fun q => g q.1) (points.map (·.2.2))
      (p.toList.countP fun q => !q.is_fixed)))

/-- A round with `k` free parameters from `p` to `p'`: `chosen` are the free ones, `r` is the report. -/
structure Round (kind : PipelineKind) (fit : FitData) (k : ℤ) (fix_resonances : Bool) (p : ModelParameters ℝ) (chosen : List String) (r : Report)
    (p' : ModelParameters ℝ) : Prop where
  cls : p'.cls = p.cls
  number : (chosen.length : ℤ) = if kind = .nucleonCS then min ((p.freezable fix_resonances).length : ℤ) k else k
  distinct : chosen.Nodup
  allowed : ∀ x ∈ chosen, x ∈ p.names ∧ ¬ DeclaredFixed p.cls x ∧ (fix_resonances = true → ¬ IsResonanceName x)
  fitted : FittedFrom (· ∈ chosen) p.toList p'.toList
  report : r.Tells fit (p.toList.map fun q => ⟨q.name, q.value, decide (q.name ∉ chosen)⟩) p'

/-- The rounds numbered from `i`, each starting with what the one before has left; resonances are fixed in the first `nr` ones. -/
inductive Rounds (kind : PipelineKind) (fit : FitData) (nr : ℤ) : ℕ → List ℤ → ModelParameters ℝ → List (List String × Report) → ModelParameters ℝ → Prop
  | nil {i : ℕ} {p : ModelParameters ℝ} : Rounds kind fit nr i [] p [] p
  | cons {i : ℕ} {k : ℤ} {ks : List ℤ} {p p₁ p' : ModelParameters ℝ} {chosen : List String} {r : Report} {rs : List (List String × Report)} :
    Round kind fit k (decide ((i : ℤ) < nr)) p chosen r p₁ → Rounds kind fit nr (i + 1) ks p₁ rs p' →
    Rounds kind fit nr i (k :: ks) p ((chosen, r) :: rs) p'

/-- One task of a plain pipeline from `p` to `p'`: the flags are those its class gives (`TaskClass.flagAfter`), only free values change,
the report tells about this, and afterwards everything is released that is not always fixed. -/
def PlainTask (fit : FitData) (c : TaskClass) (p : ModelParameters ℝ) (r : Report) (p' : ModelParameters ℝ) : Prop :=
  p'.cls = p.cls ∧ ∃ fitted : ModelParameters ℝ, fitted.cls = p.cls ∧
    List.Forall₂ (fun q q' => q'.name = q.name ∧ q'.is_fixed = c.flagAfter p.cls q.name q.is_fixed ∧ (q'.is_fixed = true → q'.value = q.value))
      p.toList fitted.toList ∧
    r.Tells fit p.toList fitted ∧ p'.toList = fitted.toList.map fun q => ⟨q.name, q.value, decide (DeclaredFixed p.cls q.name)⟩

/-- The tasks of a plain pipeline, each starting with what the one before has left. -/
inductive PlainTasks (fit : TaskClass → FitData) : List TaskClass → ModelParameters ℝ → List (ModelParameters ℝ × Report) → ModelParameters ℝ → Prop
  | nil {p : ModelParameters ℝ} : PlainTasks fit [] p [] p
  | cons {c : TaskClass} {cs : List TaskClass} {p p₁ p' : ModelParameters ℝ} {r : Report} {rs : List (ModelParameters ℝ × Report)} :
    PlainTask (fit c) c p r p₁ → PlainTasks fit cs p₁ rs p' → PlainTasks fit (c :: cs) p ((p, r) :: rs) p'

/-- The same names in the same order, and the same values where `kept` holds. -/
def Kept (kept : String → Prop) (before after : List (Parameter ℝ)) : Prop :=
  List.Forall₂ (fun q q' => q'.name = q.name ∧ (kept q.name → q'.value = q.value)) before after

end UA
