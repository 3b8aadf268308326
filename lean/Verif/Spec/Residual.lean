import Verif.Spec.Tasks
import Verif.Spec.CrossSections

/-!
# Vocabulary for the residual oscillations
-/

namespace UA

open Complex

/-- The point is a named one, at the real number `t`. -/
def Datapoint.At : Datapoint → ℝ → Prop
  | .kaon z _, t => z = t
  | .nucleon z _ _, t => z = t
  | .row _, _ => False

/-- The same point elsewhere. -/
def Datapoint.moved : Datapoint → ℝ → Datapoint
  | .kaon _ c, x => .kaon x c
  | .nucleon _ p e, x => .nucleon x p e
  | .row xs, _ => .row xs

/-- Where the point is. -/
noncomputable def Datapoint.place : Datapoint → ℝ
  | .kaon z _ => z.re
  | .nucleon z _ _ => z.re
  | .row _ => 0

/-- All points are of one kind, at real `t ≥ 0`. -/
def OneKind (ts : List Datapoint) : Prop :=
  (∃ l : List (ℝ × Bool), (∀ q ∈ l, 0 ≤ q.1) ∧ ts = l.map fun q => .kaon q.1 q.2) ∨
    ∃ l : List (ℝ × Bool × Bool), (∀ q ∈ l, 0 ≤ q.1) ∧ ts = l.map fun q => .nucleon q.1 q.2.1 q.2.2

/-- `g` is the effective form factor of the cross section `σ` at `t`: above the threshold, the positive number that, as both form
factors of a nucleon, gives it (in natural units, `ħc = 1`). -/
def EffectiveFF (k : Constants) (t σ g : ℝ) : Prop := 4 * k.mass ^ 2 < t ∧ 0 < g ∧ nucleonSigma k.mass k.alpha 1 t g g = σ

/-- The momentum of the one particle of a pair at `t` when the other one is at rest. -/
noncomputable def momentumOf (m t : ℝ) : ℝ := Real.sqrt (t * (t - 4 * m ^ 2)) / (2 * m)

/-- What becomes of a point with its value and error, given the background cross section `b` there: it is moved to the momentum of
the one particle when the other one is at rest, the value becomes the difference of the effective form factors of the value and of
`b`, and the error is propagated to the effective form factor of the background (`δg / g = δσ / (2 σ)`). -/
def IsResidual (k : Constants) (x : Datapoint × ℝ × ℝ) (b : ℝ) (q : Datapoint × ℝ × ℝ) : Prop :=
  ∃ t momentum g g₀ : ℝ, x.1.At t ∧ 0 ≤ momentum ∧ (t / (2 * k.mass) - k.mass) ^ 2 = momentum ^ 2 + k.mass ^ 2 ∧
    EffectiveFF k t x.2.1 g ∧ EffectiveFF k t b g₀ ∧ q = (x.1.moved momentum, g - g₀, x.2.2 * g₀ / (2 * b))

/-- The task's points, values and errors are those of `l`. -/
def Task.Data (self : Task) (l : List (Datapoint × ℝ × ℝ)) : Prop :=
  self.ts = l.map (·.1) ∧ self.ys = l.map (·.2.1) ∧ self.errors = l.map (·.2.2)

/-- The points, values and errors to be fitted are those of `l`. -/
def Task.FitData (self : Task) (l : List (Datapoint × ℝ × ℝ)) : Prop :=
  self.ts_fit = l.map (·.1) ∧ self.ys_fit = l.map (·.2.1) ∧ self.errors_fit = l.map (·.2.2)

/-- The damped oscillation at the momenta `xs`, as a function of the list of its four parameters. -/
noncomputable def dampedValues (xs : List ℝ) : List ℝ → Except PyErr (List ℝ)
  | [a, b, c, d] => .ok (xs.map fun x => a * Real.exp (-(b * x)) * Real.cos (c * x + d))
  | _ => .error .valueError

end UA
