import Verif.Spec.Utils
import Verif.Spec.Components
import Mathlib.Topology.Order.Basic
import Mathlib.Topology.MetricSpace.Basic
import Mathlib.Analysis.Normed.Group.Basic
import Mathlib.Order.Filter.Basic

/-!
# Vocabulary for continuity in the parameters

Limits are stated with tolerances, along an arbitrary filter (a sequence of objects, a family indexed by a real number, …).
-/

namespace UA

open Filter Topology

variable {ι : Type*}

/-- The values of the objects `P i` tend, name by name, to the values of `p`. -/
def ValuesTendTo (P : ι → ModelParameters ℝ) (l : Filter ι) (p : ModelParameters ℝ) : Prop :=
  ∀ q ∈ p.toList, ∀ ε > 0, ∀ᶠ i in l, ∃ q' ∈ (P i).toList, q'.name = q.name ∧ |q'.value - q.value| < ε

/-- The call returns a list, the calls `f i` return lists of the same length for almost all `i`, and the entries come as close to
those of the list as one likes. -/
def ResultsTendTo (f : ι → Except PyErr (List ℝ)) (l : Filter ι) (r : Except PyErr (List ℝ)) : Prop :=
  ∃ ys, r = .ok ys ∧ ∀ ε > 0, ∀ᶠ i in l, ∃ ys', f i = .ok ys' ∧ List.Forall₂ (fun y' y => |y' - y| < ε) ys' ys

/-- No resonance sits exactly at the change of variant of its channel: the square of its mass is not the inelastic threshold. -/
def ModelParameters.OffSwitch (p : ModelParameters ℝ) : Prop :=
  ∀ m ∈ p.toList, ∀ q ∈ p.toList, "mass_".toList <+: m.name.toList →
    q.name = (if IsIsoscalarName m.name then "t_in_isoscalar" else "t_in_isovector") → m.value ^ 2 ≠ q.value

/-- The quantity the two `_build_component` texts compare with the thresholds. -/
noncomputable def Builder.compared : Builder → ℝ → ℝ → ℝ
  | .massSquared, m, _ => m ^ 2
  | .poleRealPart, m, g => m ^ 2 - g ^ 2 / 4

/-- Build a component and evaluate it at the image of `t`. -/
noncomputable def Builder.value (b : Builder) (t_0 t_in m g : ℝ) (t : ℂ) : Except PyErr ℂ := do
  let c ← b.build t_0 t_in m g
  evalAt t_0 t_in c t

end UA
