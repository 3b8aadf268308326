import Verif.Model.Nucleon
import Verif.Props.Components

/-!
# Vocabulary for the nucleon properties

`NucleonClass` ranges over `NucleonUAModel` and `NucleonUAModelOld`; everything here is a composition of model functions or a
plain statement about the constructor arguments.
-/

namespace UA

open Complex ComplexConjugate Spec Asymptotics Bornology

inductive NucleonClass
  | new
  | old

/-- Build a model of the class and call it. -/
noncomputable def NucleonClass.run (k : NucleonClass) (proton electric : Bool) (x : NucleonArgs) (t : ℂ) : Except PyErr ℂ :=
  match k with
  | .new => do let m ← NucleonUAModel.init proton electric x; (m.call t).1
  | .old => do let m ← NucleonUAModelOld.init proton electric x; NucleonUAModelOld.call m t

/-- Strict threshold order in all four sectors. -/
def NucleonArgs.Proper (x : NucleonArgs) : Prop :=
  x.t_0_dirac_isoscalar < x.t_in_dirac_isoscalar ∧ x.t_0_dirac_isovector < x.t_in_dirac_isovector ∧
  x.t_0_pauli_isoscalar < x.t_in_pauli_isoscalar ∧ x.t_0_pauli_isovector < x.t_in_pauli_isovector

/-- A model of the class can be built. -/
def NucleonClass.Builds (k : NucleonClass) (proton electric : Bool) (x : NucleonArgs) : Prop :=
  match k with
  | .new => ∃ m, NucleonUAModel.init proton electric x = .ok m
  | .old => ∃ m, NucleonUAModelOld.init proton electric x = .ok m

/-- The four contributions, by name. -/
inductive Contribution
  | diracIsoscalar
  | diracIsovector
  | pauliIsoscalar
  | pauliIsovector

/-- Build a (proton, magnetic) model of the class and evaluate one contribution. -/
noncomputable def NucleonClass.part (k : NucleonClass) (p : Contribution) (x : NucleonArgs) (t : ℂ) : Except PyErr ℂ :=
  match k with
  | .new => do
    let m ← NucleonUAModel.init true false x
    match p with
    | .diracIsoscalar => (NucleonUAModel.evalDiracIsoscalar m.toNucleonBase t m.mass_terms_cache).1
    | .diracIsovector => (NucleonUAModel.evalDiracIsovector m.toNucleonBase t m.mass_terms_cache).1
    | .pauliIsoscalar => (NucleonUAModel.evalPauliIsoscalar m.toNucleonBase t m.mass_terms_cache).1
    | .pauliIsovector => (NucleonUAModel.evalPauliIsovector m.toNucleonBase t m.mass_terms_cache).1
  | .old => do
    let m ← NucleonUAModelOld.init true false x
    match p with
    | .diracIsoscalar => NucleonUAModelOld.evalDiracIsoscalar m t
    | .diracIsovector => NucleonUAModelOld.evalDiracIsovector m t
    | .pauliIsoscalar => NucleonUAModelOld.evalPauliIsoscalar m t
    | .pauliIsovector => NucleonUAModelOld.evalPauliIsovector m t

/-- What can be done to a `NucleonUAModel` object between two uses. -/
inductive NucleonOp
  | call (t : ℂ)
  | setProton (b : Bool)
  | setElectric (b : Bool)

/-- The object left behind by one operation (exceptions raised by the call are swallowed by the history). -/
noncomputable def NucleonOp.apply (m : NucleonUAModel) : NucleonOp → NucleonUAModel
  | .call t => (m.call t).2
  | .setProton b => { m with proton := b }
  | .setElectric b => { m with electric := b }

/-- Power of `1/t` promised for a contribution. -/
def Contribution.order : Contribution → ℕ
  | .diracIsoscalar => 2
  | .diracIsovector => 2
  | .pauliIsoscalar => 3
  | .pauliIsovector => 3

/-- Two mass terms that the model divides the difference of coincide. The old class uses squared masses, the new one the mass
terms it computes from the coordinate map. -/
def NucleonClass.Degenerate (k : NucleonClass) (proton electric : Bool) (x : NucleonArgs) : Prop :=
  match k with
  | .old =>
    x.mass_phi_double_prime ^ 2 = x.mass_omega_double_prime ^ 2 ∨ x.mass_rho_prime ^ 2 = x.mass_rho_double_prime ^ 2 ∨
    x.mass_omega_prime ^ 2 = x.mass_omega_double_prime ^ 2 ∨ x.mass_omega_prime ^ 2 = x.mass_phi_double_prime ^ 2
  | .new => ∃ m, NucleonUAModel.init proton electric x = .ok m ∧
    (m.calculateMassTerm true true "phi_double_prime" = m.calculateMassTerm true true "omega_double_prime" ∨
     m.calculateMassTerm false true "rho_prime" = m.calculateMassTerm false true "rho_double_prime" ∨
     m.calculateMassTerm true false "phi_double_prime" = m.calculateMassTerm true false "omega_double_prime" ∨
     m.calculateMassTerm true false "omega_prime" = m.calculateMassTerm true false "omega_double_prime" ∨
     m.calculateMassTerm true false "omega_prime" = m.calculateMassTerm true false "phi_double_prime")

/-- The nine resonances as (mass, width) pairs. -/
def NucleonArgs.resonances (x : NucleonArgs) : List (ℝ × ℝ) :=
  [(x.mass_omega, x.decay_rate_omega), (x.mass_omega_prime, x.decay_rate_omega_prime),
   (x.mass_omega_double_prime, x.decay_rate_omega_double_prime), (x.mass_phi, x.decay_rate_phi),
   (x.mass_phi_prime, x.decay_rate_phi_prime), (x.mass_phi_double_prime, x.decay_rate_phi_double_prime),
   (x.mass_rho, x.decay_rate_rho), (x.mass_rho_prime, x.decay_rate_rho_prime),
   (x.mass_rho_double_prime, x.decay_rate_rho_double_prime)]

/-- The points at which a nucleon model cannot be evaluated. -/
def NucleonClass.Singular (k : NucleonClass) (proton electric : Bool) (x : NucleonArgs) (t : ℂ) : Prop :=
  (t = x.t_in_dirac_isoscalar ∨ t = x.t_in_dirac_isovector ∨ t = x.t_in_pauli_isoscalar ∨ t = x.t_in_pauli_isovector) ∨
  (∃ r ∈ x.resonances, t = polePosition r.1 r.2 ∨ t = conj (polePosition r.1 r.2)) ∨
  k.Degenerate proton electric x ∨ (electric = true ∧ x.nucleon_mass = 0)

/-- Two parameter sets that agree on everything the isoscalar part may use. -/
structure SameIsoscalar (x x' : NucleonArgs) : Prop where
  nucleon_mass : x.nucleon_mass = x'.nucleon_mass
  moments : x.magnetic_moment_proton + x.magnetic_moment_neutron = x'.magnetic_moment_proton + x'.magnetic_moment_neutron
  t_0_dirac : x.t_0_dirac_isoscalar = x'.t_0_dirac_isoscalar
  t_in_dirac : x.t_in_dirac_isoscalar = x'.t_in_dirac_isoscalar
  t_0_pauli : x.t_0_pauli_isoscalar = x'.t_0_pauli_isoscalar
  t_in_pauli : x.t_in_pauli_isoscalar = x'.t_in_pauli_isoscalar
  couplings : [x.a_dirac_omega, x.a_dirac_omega_prime, x.a_dirac_phi, x.a_dirac_phi_prime, x.a_pauli_omega, x.a_pauli_phi,
      x.a_pauli_phi_prime] = [x'.a_dirac_omega, x'.a_dirac_omega_prime, x'.a_dirac_phi, x'.a_dirac_phi_prime,
      x'.a_pauli_omega, x'.a_pauli_phi, x'.a_pauli_phi_prime]
  resonances : x.resonances.take 6 = x'.resonances.take 6

/-- Two parameter sets that agree on everything the isovector part may use. -/
structure SameIsovector (x x' : NucleonArgs) : Prop where
  nucleon_mass : x.nucleon_mass = x'.nucleon_mass
  moments : x.magnetic_moment_proton - x.magnetic_moment_neutron = x'.magnetic_moment_proton - x'.magnetic_moment_neutron
  t_0_dirac : x.t_0_dirac_isovector = x'.t_0_dirac_isovector
  t_in_dirac : x.t_in_dirac_isovector = x'.t_in_dirac_isovector
  t_0_pauli : x.t_0_pauli_isovector = x'.t_0_pauli_isovector
  t_in_pauli : x.t_in_pauli_isovector = x'.t_in_pauli_isovector
  couplings : x.a_dirac_rho = x'.a_dirac_rho
  resonances : x.resonances.drop 6 = x'.resonances.drop 6

/-- All nine widths vanish. -/
def NucleonArgs.ZeroWidth (x : NucleonArgs) : Prop := ∀ r ∈ x.resonances, r.2 = 0

end UA
