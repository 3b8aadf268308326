import Verif.Spec.Nucleon

/-!
# Vocabulary for property C106: different ways of writing down the same nucleon model
-/

namespace UA

/-- The same arguments with all masses and widths replaced by their absolute values. -/
noncomputable def NucleonArgs.unsigned (x : NucleonArgs) : NucleonArgs :=
  { x with
    mass_omega := |x.mass_omega|, decay_rate_omega := |x.decay_rate_omega|
    mass_omega_prime := |x.mass_omega_prime|, decay_rate_omega_prime := |x.decay_rate_omega_prime|
    mass_omega_double_prime := |x.mass_omega_double_prime|, decay_rate_omega_double_prime := |x.decay_rate_omega_double_prime|
    mass_phi := |x.mass_phi|, decay_rate_phi := |x.decay_rate_phi|
    mass_phi_prime := |x.mass_phi_prime|, decay_rate_phi_prime := |x.decay_rate_phi_prime|
    mass_phi_double_prime := |x.mass_phi_double_prime|, decay_rate_phi_double_prime := |x.decay_rate_phi_double_prime|
    mass_rho := |x.mass_rho|, decay_rate_rho := |x.decay_rate_rho|
    mass_rho_prime := |x.mass_rho_prime|, decay_rate_rho_prime := |x.decay_rate_rho_prime|
    mass_rho_double_prime := |x.mass_rho_double_prime|, decay_rate_rho_double_prime := |x.decay_rate_rho_double_prime| }

/-- Changes of the arguments that only write the same resonances down differently. -/
inductive NucleonArgs.Rewritten : NucleonArgs → NucleonArgs → Prop
  | refl (x : NucleonArgs) : x.Rewritten x
  | trans {x y z : NucleonArgs} : x.Rewritten y → y.Rewritten z → x.Rewritten z
  /-- Other signs of masses and widths. -/
  | signs {x y : NucleonArgs} : x.unsigned = y.unsigned → x.Rewritten y
  /-- The omega and the phi change places, together with their couplings. -/
  | omega_phi (x : NucleonArgs) : x.Rewritten { x with
      a_dirac_omega := x.a_dirac_phi, a_pauli_omega := x.a_pauli_phi, mass_omega := x.mass_phi, decay_rate_omega := x.decay_rate_phi
      a_dirac_phi := x.a_dirac_omega, a_pauli_phi := x.a_pauli_omega, mass_phi := x.mass_omega, decay_rate_phi := x.decay_rate_omega }
  /-- The phi and the phi prime change places, together with their couplings. -/
  | phi_phi_prime (x : NucleonArgs) : x.Rewritten { x with
      a_dirac_phi := x.a_dirac_phi_prime, a_pauli_phi := x.a_pauli_phi_prime, mass_phi := x.mass_phi_prime
      decay_rate_phi := x.decay_rate_phi_prime
      a_dirac_phi_prime := x.a_dirac_phi, a_pauli_phi_prime := x.a_pauli_phi, mass_phi_prime := x.mass_phi
      decay_rate_phi_prime := x.decay_rate_phi }
  /-- The two isoscalar resonances without a coupling of their own change places. -/
  | double_primes (x : NucleonArgs) : x.Rewritten { x with
      mass_omega_double_prime := x.mass_phi_double_prime, decay_rate_omega_double_prime := x.decay_rate_phi_double_prime
      mass_phi_double_prime := x.mass_omega_double_prime, decay_rate_phi_double_prime := x.decay_rate_omega_double_prime }
  /-- The two isovector resonances without a coupling of their own change places. -/
  | rho_primes (x : NucleonArgs) : x.Rewritten { x with
      mass_rho_prime := x.mass_rho_double_prime, decay_rate_rho_prime := x.decay_rate_rho_double_prime
      mass_rho_double_prime := x.mass_rho_prime, decay_rate_rho_double_prime := x.decay_rate_rho_prime }

/-- Magnetic moments and couplings. -/
def NucleonArgs.strengths (x : NucleonArgs) : List ℝ :=
  [x.magnetic_moment_proton, x.magnetic_moment_neutron, x.a_dirac_omega, x.a_dirac_omega_prime, x.a_dirac_phi, x.a_dirac_phi_prime,
   x.a_dirac_rho, x.a_pauli_omega, x.a_pauli_phi, x.a_pauli_phi_prime]

/-- Nucleon mass, thresholds, masses and widths of the resonances. -/
def NucleonArgs.positions (x : NucleonArgs) : List ℝ :=
  [x.nucleon_mass, x.t_0_dirac_isoscalar, x.t_in_dirac_isoscalar, x.t_0_dirac_isovector, x.t_in_dirac_isovector, x.t_0_pauli_isoscalar,
   x.t_in_pauli_isoscalar, x.t_0_pauli_isovector, x.t_in_pauli_isovector] ++ (x.resonances.map Prod.fst ++ x.resonances.map Prod.snd)

end UA
