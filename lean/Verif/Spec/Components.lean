import Verif.Model.Components
import Verif.Spec.MapsRun

/-!
# Vocabulary for the component properties
-/

namespace UA

open Complex ComplexConjugate

/-- The two `_build_component` texts: kaon-style (also single-component and old nucleon), and new nucleon. -/
inductive Builder
  | massSquared
  | poleRealPart

/-- Run the builder. -/
noncomputable def Builder.build : Builder → ℝ → ℝ → ℝ → ℝ → Except PyErr UAComponent
  | .massSquared => buildComponent
  | .poleRealPart => nucleonBuildComponent

/-- Evaluate a component at the image of `t`, as all the models do. -/
noncomputable def evalAt (t_0 t_in : ℝ) (c : UAComponent) (t : ℂ) : Except PyErr ℂ := do
  let w ← runTtoW t_0 t_in t
  c.call w

/-- The square of the complex resonance mass, written out independently of the model. -/
noncomputable def polePosition (mass decay : ℝ) : ℂ := ⟨mass ^ 2 - decay ^ 2 / 4, -(mass * decay)⟩

/-- The outcome the documentation asks for, by the threshold quantity `r` (mass squared, or real part of the pole). -/
def ThresholdSpec (t_0 t_in r mass decay : ℝ) (res : Except PyErr UAComponent) : Prop :=
  (res = .error .valueError ↔ r < t_0) ∧
  (res = .error .zeroDivisionError ↔ decay = 0 ∧ (mass ^ 2 = t_0 ∨ mass ^ 2 = t_in)) ∧
  ((∃ c, res = .ok c ∧ c.variant = .A) ↔ t_0 ≤ r ∧ r < t_in ∧ ¬ (decay = 0 ∧ mass ^ 2 = t_0)) ∧
  ((∃ c, res = .ok c ∧ c.variant = .B) ↔ t_in ≤ r ∧ ¬ (decay = 0 ∧ mass ^ 2 = t_in))

end UA
