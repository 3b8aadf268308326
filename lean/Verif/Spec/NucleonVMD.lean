import Verif.Spec.Nucleon
import Verif.Model.OtherModels

/-!
# Vector-meson-dominance content of the nucleon models
-/

namespace UA

/-- The mesons of a VMD model satisfy the normalisation `Σ a = norm` and the first `n` superconvergent sum rules
`Σ a m² = 0`, `Σ a m⁴ = 0`, … -/
def SumRules (mesons : List VectorMeson) (norm : ℝ) (n : ℕ) : Prop :=
  (mesons.map fun v => v.coefficient).sum = norm ∧
  ∀ j, 1 ≤ j → j ≤ n → (mesons.map fun v => v.coefficient * v.mass ^ (2 * j)).sum = 0

/-- The isoscalar mesons with the given couplings. -/
def NucleonArgs.isoscalarMesons (x : NucleonArgs) (a_omega a_omega_prime a_omega_double_prime a_phi a_phi_prime a_phi_double_prime : ℝ) :
    List VectorMeson :=
  [⟨a_omega, x.mass_omega⟩, ⟨a_omega_prime, x.mass_omega_prime⟩, ⟨a_omega_double_prime, x.mass_omega_double_prime⟩,
   ⟨a_phi, x.mass_phi⟩, ⟨a_phi_prime, x.mass_phi_prime⟩, ⟨a_phi_double_prime, x.mass_phi_double_prime⟩]

/-- The isovector mesons with the given couplings. -/
def NucleonArgs.isovectorMesons (x : NucleonArgs) (a_rho a_rho_prime a_rho_double_prime : ℝ) : List VectorMeson :=
  [⟨a_rho, x.mass_rho⟩, ⟨a_rho_prime, x.mass_rho_prime⟩, ⟨a_rho_double_prime, x.mass_rho_double_prime⟩]

/-- The resonances whose couplings are eliminated have different masses. -/
structure NucleonArgs.DistinctMasses (x : NucleonArgs) : Prop where
  omega_double_prime : x.mass_omega_double_prime ^ 2 ≠ x.mass_phi_double_prime ^ 2
  omega_prime : x.mass_omega_prime ^ 2 ≠ x.mass_omega_double_prime ^ 2
  phi_double_prime : x.mass_omega_prime ^ 2 ≠ x.mass_phi_double_prime ^ 2
  rho : x.mass_rho ^ 2 ≠ x.mass_rho_prime ^ 2
  rho_prime : x.mass_rho_prime ^ 2 ≠ x.mass_rho_double_prime ^ 2
  rho_double_prime : x.mass_rho ^ 2 ≠ x.mass_rho_double_prime ^ 2

/-- The resonances of the isoscalar and of the isovector contributions. -/
def namesS : List String := ["omega", "omega_prime", "omega_double_prime", "phi", "phi_prime", "phi_double_prime"]
def namesV : List String := ["rho", "rho_prime", "rho_double_prime"]

/-- The two thresholds of one of the four contributions. -/
def NucleonArgs.thresholds (x : NucleonArgs) (scalar dirac : Bool) : ℝ × ℝ :=
  match scalar, dirac with
  | true, true => (x.t_0_dirac_isoscalar, x.t_in_dirac_isoscalar)
  | false, true => (x.t_0_dirac_isovector, x.t_in_dirac_isovector)
  | true, false => (x.t_0_pauli_isoscalar, x.t_in_pauli_isoscalar)
  | false, false => (x.t_0_pauli_isovector, x.t_in_pauli_isovector)

end UA
