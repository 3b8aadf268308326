import Verif.Model.Kaon

/-!
# The resonance content of the kaon models

Which resonances each model is made of, with their couplings: the free couplings are arguments, and the last isoscalar and
the last isovector coupling are one half minus the others.
-/

namespace UA

/-- One resonance of a model: coupling, mass, decay rate. -/
structure Res where
  a : ℝ
  mass : ℝ
  decay : ℝ

/-- Isoscalar resonances of a `KaonUAModel` argument record, the last coupling being derived. -/
noncomputable def KaonUAModel.Args.resS (x : KaonUAModel.Args) : List Res :=
  [⟨x.a_omega, x.mass_omega, x.decay_rate_omega⟩,
   ⟨x.a_omega_prime, x.mass_omega_prime, x.decay_rate_omega_prime⟩,
   ⟨x.a_omega_double_prime, x.mass_omega_double_prime, x.decay_rate_omega_double_prime⟩,
   ⟨x.a_phi, x.mass_phi, x.decay_rate_phi⟩,
   ⟨x.a_phi_prime, x.mass_phi_prime, x.decay_rate_phi_prime⟩,
   ⟨1/2 - (x.a_omega + x.a_omega_prime + x.a_omega_double_prime + x.a_phi + x.a_phi_prime), x.mass_phi_double_prime, x.decay_rate_phi_double_prime⟩]

/-- Isovector resonances. -/
noncomputable def KaonUAModel.Args.resV (x : KaonUAModel.Args) : List Res :=
  [⟨x.a_rho, x.mass_rho, x.decay_rate_rho⟩,
   ⟨x.a_rho_prime, x.mass_rho_prime, x.decay_rate_rho_prime⟩,
   ⟨x.a_rho_double_prime, x.mass_rho_double_prime, x.decay_rate_rho_double_prime⟩,
   ⟨1/2 - (x.a_rho + x.a_rho_prime + x.a_rho_double_prime), x.mass_rho_triple_prime, x.decay_rate_rho_triple_prime⟩]

/-- Isoscalar resonances of a `KaonUAModelB` argument record, the last coupling being derived. -/
noncomputable def KaonUAModelB.Args.resS (x : KaonUAModelB.Args) : List Res :=
  [⟨x.a_omega, x.mass_omega, x.decay_rate_omega⟩,
   ⟨x.a_omega_double_prime, x.mass_omega_double_prime, x.decay_rate_omega_double_prime⟩,
   ⟨x.a_phi, x.mass_phi, x.decay_rate_phi⟩,
   ⟨x.a_phi_prime, x.mass_phi_prime, x.decay_rate_phi_prime⟩,
   ⟨1/2 - (x.a_omega + x.a_omega_double_prime + x.a_phi + x.a_phi_prime), x.mass_phi_double_prime, x.decay_rate_phi_double_prime⟩]

/-- Isovector resonances. -/
noncomputable def KaonUAModelB.Args.resV (x : KaonUAModelB.Args) : List Res :=
  [⟨x.a_rho, x.mass_rho, x.decay_rate_rho⟩,
   ⟨x.a_rho_prime, x.mass_rho_prime, x.decay_rate_rho_prime⟩,
   ⟨1/2 - (x.a_rho + x.a_rho_prime), x.mass_rho_double_prime, x.decay_rate_rho_double_prime⟩]

/-- Isoscalar resonances of a `KaonUAModelSimplified` argument record, the last coupling being derived. -/
noncomputable def KaonUAModelSimplified.Args.resS (x : KaonUAModelSimplified.Args) : List Res :=
  [⟨x.a_omega_prime, x.mass_omega_prime, x.decay_rate_omega_prime⟩,
   ⟨x.a_omega_double_prime, x.mass_omega_double_prime, x.decay_rate_omega_double_prime⟩,
   ⟨x.a_phi, x.mass_phi, x.decay_rate_phi⟩,
   ⟨x.a_phi_prime, x.mass_phi_prime, x.decay_rate_phi_prime⟩,
   ⟨1/2 - (x.a_omega_prime + x.a_omega_double_prime + x.a_phi + x.a_phi_prime), x.mass_phi_double_prime, x.decay_rate_phi_double_prime⟩]

/-- Isovector resonances. -/
noncomputable def KaonUAModelSimplified.Args.resV (x : KaonUAModelSimplified.Args) : List Res :=
  [⟨x.a_rho_prime, x.mass_rho_prime, x.decay_rate_rho_prime⟩,
   ⟨x.a_rho_double_prime, x.mass_rho_double_prime, x.decay_rate_rho_double_prime⟩,
   ⟨1/2 - (x.a_rho_prime + x.a_rho_double_prime), x.mass_rho_triple_prime, x.decay_rate_rho_triple_prime⟩]

end UA
