import Verif.Spec.Utils
import Verif.Spec.KaonRun

/-!
# The physical content of a parameter object

Which resonances an object describes, read off the names of its entries alone: every `mass_x` is a resonance `x` with the width
`decay_rate_x` and the coupling `a_x`; the one resonance of each isospin that has no entry `a_x` gets what is missing to one half.
-/

namespace UA

/-- The value of the entry of that name (zero when there is none). -/
def ModelParameters.entry (p : ModelParameters ℝ) (n : String) : ℝ := ((p.toList.find? (·.name == n)).map (·.value)).getD 0

/-- The names beginning with `start` that belong to the isospin. -/
def ModelParameters.isospinNames (p : ModelParameters ℝ) (isoscalar : Bool) (start : String) : List String :=
  p.names.filter fun n => start.toList.isPrefixOf n.toList && decide (IsIsoscalarName n) == isoscalar

/-- The labels of the resonances: what follows `mass_`. -/
def ModelParameters.labels (p : ModelParameters ℝ) (isoscalar : Bool) : List String :=
  (p.isospinNames isoscalar "mass_").map fun n => String.ofList (n.toList.drop 5)

/-- The coupling of a resonance. -/
noncomputable def ModelParameters.couplingOf (p : ModelParameters ℝ) (isoscalar : Bool) (label : String) : ℝ :=
  if "a_" ++ label ∈ p.names then p.entry ("a_" ++ label) else 1 / 2 - ((p.isospinNames isoscalar "a_").map p.entry).sum

/-- Couplings, masses and widths of the resonances. -/
noncomputable def ModelParameters.content (p : ModelParameters ℝ) (isoscalar : Bool) : List Res :=
  (p.labels isoscalar).map fun r => ⟨p.couplingOf isoscalar r, p.entry ("mass_" ++ r), p.entry ("decay_rate_" ++ r)⟩

/-- Two lists hold the same resonances, in any order, apart from those with coupling zero. -/
def SameResonances (l l' : List Res) : Prop := (l.filter fun r => r.a ≠ 0).Perm (l'.filter fun r => r.a ≠ 0)

/-- The four thresholds. -/
def thresholdNames : List String := ["t_0_isoscalar", "t_in_isoscalar", "t_0_isovector", "t_in_isovector"]

/-- Two objects, of one class or of two, describe the same physics. -/
def ModelParameters.SameContent (p p' : ModelParameters ℝ) : Prop :=
  (∀ n ∈ thresholdNames, p.entry n = p'.entry n) ∧ ∀ isoscalar, SameResonances (p.content isoscalar) (p'.content isoscalar)

/-- Mass and width without their signs. -/
noncomputable def Res.unsigned (r : Res) : Res := ⟨r.a, |r.mass|, |r.decay|⟩

/-- Constructor arguments, of one class or of two, with the same thresholds. -/
def KaonArgs.SameThresholds (x x' : KaonArgs) : Prop := x.t0S = x'.t0S ∧ x.tinS = x'.tinS ∧ x.t0V = x'.t0V ∧ x.tinV = x'.tinV

end UA
