import Verif.Model.KindsUtils
import Verif.Spec.Utils

/-!
# Python and NumPy numbers in a parameter object
-/

namespace UA.Kinded

/-- The parameter object with the same names, flags and values, the kinds of the values forgotten. -/
def plain (p : ModelParameters (Num ℝ)) : ModelParameters ℝ :=
  { cls := p.cls, always_fixed := p.always_fixed, data := p.data.map fun q => ⟨q.name, q.value.val, q.is_fixed⟩ }

/-- The names of the numbers that multiply the resonance terms. -/
def IsCoupling (n : String) : Prop := "a_".toList <+: n.toList ∨ "magnetic_moment_".toList <+: n.toList

instance : DecidablePred IsCoupling := fun n => by unfold IsCoupling; infer_instance

/-- One of the couplings is a NumPy number. -/
def numpyCoupling (p : ModelParameters (Num ℝ)) : Bool := p.toList.any fun q => decide (IsCoupling q.name) && q.value.np

/-- The outcome of an evaluation when all its numbers are of kind `k`: the same exception, or the same numbers. -/
def outcome (k : Bool) : Except PyErr (List ℝ) → Except Stop (List (Num ℝ))
  | .error e => .error (.raised e)
  | .ok vs => .ok (vs.map fun x => ⟨x, k⟩)

/-- The outcome when all numbers are NumPy numbers: no division by zero raises. -/
def numpyOutcome : Except PyErr (List ℝ) → Except Stop (List (Num ℝ))
  | .error .zeroDivisionError => .error .nonFinite
  | x => outcome true x

end UA.Kinded
