import Verif.Spec.Runs

/-!
# Vocabulary for whole runs of the nucleon pipelines
-/

namespace UA

/-- Where a fitted nucleon function is defined on the real line apart from divisions by zero: form factors from 0 on, cross sections
from the threshold on. -/
def PartialKind.Above : PartialKind → ℝ → Prop
  | .formFactor, t => 0 ≤ t
  | .crossSection m _ _, t => 0 < t ∧ 4 * m ^ 2 ≤ t

/-- The task classes that belong to a nucleon pipeline. -/
def PipelineKind.nucleonTasks : PipelineKind → List TaskClass
  | .nucleonCS => [.nucleonCSFull, .nucleonCSFixedCouplings, .nucleonCSFixAccording]
  | .nucleonFF => [.nucleonFFFull, .nucleonFFFixAccording]
  | _ => []

/-- The data of a pipeline: nucleon points at real `t`, above the threshold if they are cross sections, as many values and errors as
points, no error zero, more points than the object has parameters. The handpicked bounds are used. -/
structure Pipeline.NucleonData (pipeline : Pipeline) (p : ModelParameters ℝ) (points : List (ℝ × Bool × Bool)) : Prop where
  kind : pipeline.kind = .nucleonCS ∨ pipeline.kind = .nucleonFF
  bounds : pipeline.use_handpicked_bounds = true
  ts : pipeline.ts = points.map fun d => .nucleon d.1 d.2.1 d.2.2
  ys : pipeline.ys.length = points.length
  errors : pipeline.errors.length = points.length
  nonzero : ∀ e ∈ pipeline.errors, e ≠ 0
  above : ∀ d ∈ points, 0 ≤ d.1 ∧ (pipeline.kind = .nucleonCS → 0 < d.1 ∧ 4 * pipeline.constants.mass ^ 2 ≤ d.1)
  enough : p.names.length < points.length

/-- What the final residual task needs in addition: a positive mass, points strictly above the threshold, positive cross sections, and one
point below the momentum 5 (in the laboratory system) above which the task drops points. -/
structure Pipeline.ResidualData (pipeline : Pipeline) (points : List (ℝ × Bool × Bool)) : Prop where
  mass : 0 < pipeline.constants.mass
  alpha : pipeline.constants.alpha ≠ 0
  above : ∀ d ∈ points, 4 * pipeline.constants.mass ^ 2 < d.1
  values : ∀ y ∈ pipeline.ys, 0 < y
  small : ∃ d ∈ points, d.1 / (2 * pipeline.constants.mass) - pipeline.constants.mass < Real.sqrt (25 + pipeline.constants.mass ^ 2)

end UA
