import Verif.Spec.Pipelines

/-!
# Vocabulary for whole runs of the kaon pipelines
-/

namespace UA

/-- Arguments strictly between the bounds. -/
def StrictlyInside (bounds : List (WithBot ℝ) × List (WithTop ℝ)) (args : List ℝ) : Prop :=
  List.Forall₂ (fun b (a : ℝ) => b.1 < (a : WithBot ℝ) ∧ (a : WithTop ℝ) < b.2) (bounds.1.zip bounds.2) args

/-- A fitting procedure that only asks for and only returns arguments strictly between the bounds and outside `S`, and that
raises nothing but `RuntimeError` (no optimum found) by itself. -/
def FitProc.Stays (bounds : List (WithBot ℝ) × List (WithTop ℝ)) (S : Set ℝ) : FitProc → Prop
  | .done (.ok (opt, _)) => StrictlyInside bounds opt ∧ ∀ a ∈ opt, a ∉ S
  | .done (.error (e, _)) => e = .runtimeError
  | .ask args next => (StrictlyInside bounds args ∧ ∀ a ∈ args, a ∉ S) ∧ ∀ ys, (next ys).Stays bounds S

/-- The fitting library does so when there are data, at least one parameter is to be fitted and the starting values lie strictly
between the bounds. -/
def Env.FitsInside (env : Env) (S : Set ℝ) : Prop :=
  ∀ k problem, problem.xdata ≠ [] → problem.p0 ≠ [] → StrictlyInside problem.bounds problem.p0 →
    (env.curve_fit k problem).Stays problem.bounds S

/-- The values lie strictly inside the "maximal" bounds, and those of the parameters that may be released also strictly inside the
bounds used in the fit. With the "handpicked" bounds the thresholds `t_0` have to be below 0.54, so that these bounds lie inside
the "maximal" ones (their lowest mass is 0.74). -/
def ModelParameters.InsideFor (p : ModelParameters ℝ) (handpicked : Bool) : Prop :=
  p.InsideMaximal ∧
  (∃ dict, p.bounds handpicked = .ok dict ∧ ∀ q ∈ p.toList, ¬ DeclaredFixed p.cls q.name →
    ∀ b, dict.lookup q.name = some b → b.1 < (q.value : WithBot ℝ) ∧ (q.value : WithTop ℝ) < b.2) ∧
  (handpicked = true → ∀ q ∈ p.toList, "t_0_".toList <+: q.name.toList → q.value ≤ 0.54)

/-- None of the inelastic thresholds lies in `S`. -/
def ModelParameters.Avoids (p : ModelParameters ℝ) (S : Set ℝ) : Prop :=
  ∀ q ∈ p.toList, "t_in_".toList <+: q.name.toList → q.value ∉ S

/-- The task classes that belong to a kaon pipeline. -/
def PipelineKind.kaonTasks : PipelineKind → List TaskClass
  | .kaonCS => [.kaonCSFull, .kaonCSFixedCouplings, .kaonCSFixAccording]
  | .kaonFF => [.kaonFFFull, .kaonFFFullOnlyCharged, .kaonFFFixAccording, .kaonFFFixAccordingOnlyCharged]
  | _ => []

/-- The data of a pipeline: kaon points with positive real `t`, as many values and errors as points, no error zero, more points than
the object has parameters, and a charged one. -/
structure Pipeline.KaonData (pipeline : Pipeline) (p : ModelParameters ℝ) (points : List (ℝ × Bool)) : Prop where
  kind : pipeline.kind = .kaonCS ∨ pipeline.kind = .kaonFF
  ts : pipeline.ts = points.map fun d => .kaon d.1 d.2
  ys : pipeline.ys.length = points.length
  errors : pipeline.errors.length = points.length
  nonzero : ∀ e ∈ pipeline.errors, e ≠ 0
  positive : ∀ d ∈ points, 0 < d.1
  charged : ∃ d ∈ points, d.2 = true
  enough : p.names.length < points.length

end UA
