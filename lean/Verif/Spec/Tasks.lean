import Verif.Model.Tasks
import Verif.Spec.Utils

/-!
# Vocabulary for the task properties
-/

namespace UA

open Complex

/-- The function a task is to fit: cross sections with the task's constants, or form factors; `TwoPolesModelTask` asks for cross
sections with all constants zero; `ResidualOscillationsTask` makes its own function (the entry is not used). -/
noncomputable def TaskClass.fitted (c : TaskClass) (k : Constants) : PartialKind :=
  match c with
  | .kaonCSFull | .kaonCSFixedCouplings | .kaonCSFixAccording | .nucleonCSFull | .nucleonCSFixedCouplings | .nucleonCSFixAccording
  | .etgmr | .residual => .crossSection k.mass k.alpha k.hc_squared
  | .kaonFFFull | .kaonFFFullOnlyCharged | .kaonFFFixAccording | .kaonFFFixAccordingOnlyCharged | .nucleonFFFull
  | .nucleonFFFixAccording => .formFactor
  | .twoPoles => .crossSection 0 0 0

/-- Full fits, by name. -/
def TaskClass.IsFull (c : TaskClass) : Prop := c.pyName = "TaskFullFit" ∨ c.pyName = "TaskFullFitOnlyCharged"

/-- Fits with fixed coupling constants, by name. -/
def TaskClass.IsFixedCouplings (c : TaskClass) : Prop := c.pyName = "TaskFixedCouplingConstants"

/-- Fits of the charged points only, by name. -/
def TaskClass.IsOnlyCharged (c : TaskClass) : Prop := "OnlyCharged".toList <:+ c.pyName.toList

instance (c : TaskClass) : Decidable c.IsFull := by unfold TaskClass.IsFull; infer_instance
instance (c : TaskClass) : Decidable c.IsFixedCouplings := by unfold TaskClass.IsFixedCouplings; infer_instance
instance (c : TaskClass) : Decidable c.IsOnlyCharged := by unfold TaskClass.IsOnlyCharged; infer_instance

/-- The flag a parameter has after the set-up of a task, given its class, name and flag before. -/
def TaskClass.flagAfter (c : TaskClass) (pc : ParamClass) (name : String) (before : Bool) : Bool :=
  if c.IsFull then decide (DeclaredFixed pc name)
  else if c.IsFixedCouplings then decide (DeclaredFixed pc name ∨ "a_".toList <+: name.toList)
  else before

/-- The points a task fits are the ones of `l`: point, value, error. -/
def Task.Fits (self : Task) (l : List ((ℂ × Bool) × ℝ × ℝ)) : Prop :=
  self.ts_fit = l.map (fun q => .kaon q.1.1 q.1.2) ∧ self.ys_fit = l.map (·.2.1) ∧ self.errors_fit = l.map (·.2.2)

/-- The outcome of a fitting procedure run on a function that only depends on the arguments. -/
def FitProc.outcome (g : List ℝ → Except PyErr (List ℝ)) : FitProc → Except (PyErr × String) (List ℝ × Cov)
  | .done r => r
  | .ask args next =>
    match g args with
    | .ok ys => (next ys).outcome g
    | .error e => .error (e, "")

/-- The reduced chi squared: squared deviations in units of the errors, summed, per degree of freedom. -/
noncomputable def reducedChiSquared (ys fs errors : List ℝ) (nrParameters : ℕ) : ℝ :=
  ((ys.zip (fs.zip errors)).map fun q => ((q.1 - q.2.1) / q.2.2) ^ 2).sum / ((ys.length : ℝ) - nrParameters)

open Classical in
/-- The same as a number that can be written: with as many parameters as points it is infinite, or not a number for a perfect fit; points
with error zero likewise make it infinite, or not a number if the fit is perfect at one of them. -/
noncomputable def reportedChiSquared (ys fs errors : List ℝ) (nrParameters : ℕ) : PyFloat :=
  if ∃ q ∈ ys.zip (fs.zip errors), q.2.2 = 0 ∧ q.1 = q.2.1 then .nan
  else if ∃ q ∈ ys.zip (fs.zip errors), q.2.2 = 0 then (if ys.length < nrParameters then .negInf else .inf)
  else if ys.length = nrParameters then (if ∀ q ∈ ys.zip (fs.zip errors), q.1 = q.2.1 then .nan else .inf)
  else reducedChiSquared ys fs errors nrParameters

/-- The sum of the squared deviations. -/
noncomputable def sumOfSquares (ys fs : List ℝ) : ℝ := ((ys.zip fs).map fun q => (q.1 - q.2) ^ 2).sum

/-- The list of the square roots of the diagonal of a matrix; an infinite entry stays infinite. -/
def IsDiagonalRoots (cov : Cov) (errors : List (WithTop ℝ)) : Prop :=
  errors.length = cov.length ∧
  ∀ (i : ℕ) (row : List (WithTop ℝ)), cov[i]? = some row →
    (∀ x : ℝ, row[i]? = some (x : WithTop ℝ) → errors[i]? = some (Real.sqrt x : WithTop ℝ)) ∧ (row[i]? = some (⊤ : WithTop ℝ) → errors[i]? = some (⊤ : WithTop ℝ))

end UA
