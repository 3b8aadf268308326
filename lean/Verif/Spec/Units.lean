import Verif.Spec.Content

/-!
# Vocabulary for property C109: the same quantities in other units
-/

namespace UA

/-- The power of the unit of energy in a parameter: thresholds (`t_…`) are squares of energies; masses (`mass_…`, `nucleon_mass`,
`m_a`, `m_d`, `m_1`, `m_2`) and widths (`decay_rate_…`) are energies; couplings and magnetic moments are pure numbers. -/
def dimension (n : String) : ℕ :=
  if "t_".toList <+: n.toList then 2
  else if "mass_".toList <+: n.toList ∨ "decay_rate_".toList <+: n.toList ∨ "m_".toList <+: n.toList ∨ n = "nucleon_mass" then 1
  else 0

/-- `p'` holds the values of `p` in units of energy `k` times smaller. -/
def ModelParameters.InUnits (k : ℝ) (p p' : ModelParameters ℝ) : Prop :=
  p'.cls = p.cls ∧ ∀ n ∈ p.names, p'.entry n = k ^ dimension n * p.entry n

/-- A data point in units `k` times smaller: its first entry is the square of an energy. -/
noncomputable def Datapoint.inUnits (k : ℝ) : Datapoint → Datapoint
  | .kaon t c => .kaon ((k ^ 2 : ℝ) * t) c
  | .nucleon t p e => .nucleon ((k ^ 2 : ℝ) * t) p e
  | .row [] => .row []
  | .row (t :: xs) => .row ((k ^ 2 : ℝ) * t :: xs)

/-- Bounds (name, lower, upper) in units `k` times smaller; infinite bounds stay infinite. -/
noncomputable def inUnitsBounds (k : ℝ) (dict : BoundsDict) : BoundsDict :=
  dict.map fun e => (e.1, (e.2.1.map (k ^ dimension e.1 * ·), e.2.2.map (k ^ dimension e.1 * ·)))

end UA
