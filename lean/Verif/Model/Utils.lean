import Verif.Model.Parameters
import Verif.Model.Kaon
import Verif.Model.Nucleon
import Verif.Model.OtherModels
import Verif.Model.CrossSections

/-!
# `common/utils.py`

Perturbation of starting values, evaluation of a list of data points for a parameter object, and the functions handed to the
fitting library.
-/

namespace UA

open Complex

/-! ### `perturb_model_parameters` -/

/-- `needle in haystack` for strings. -/
def pyIn (needle haystack : String) : Prop := needle.toList <:+: haystack.toList

instance (a b : String) : Decidable (pyIn a b) := by unfold pyIn; infer_instance

/-- `_get_perturbation_size`, `common/utils.py:36-40`. -/
def perturbationSize (perturbation_size perturbation_size_resonances : ℝ) (parameter_name : String) : ℝ :=
  if pyIn "mass" parameter_name ∨ pyIn "decay_rate" parameter_name then perturbation_size_resonances else perturbation_size

/-- `_get_perturbed_value`, `common/utils.py:42-54`; `⊥` is `-np.inf`, `⊤` is `np.inf`. -/
noncomputable def perturbedValue (lower_bound : WithBot ℝ) (old_value : ℝ) (upper_bound : WithTop ℝ) (rnd ps : ℝ) : ℝ :=
  if rnd < 0 then
    match lower_bound with
    | ⊥ => -1 * |old_value| * (1 + ps * |rnd|)
    | (l : ℝ) => old_value + ps * (old_value - l) * rnd
  else if rnd > 0 then
    match upper_bound with
    | ⊤ => |old_value| * (1 + ps * |rnd|)
    | (u : ℝ) => old_value + ps * (u - old_value) * rnd
  else old_value

/-- The loop at `common/utils.py:61-71` over the entries still to be visited; `random k` is the `k`-th value `random.random()`
returns. `set_value` overwrites the first entry of that name, which is never a later one, so iterating over the entries of the
list as it was is the same as iterating over the list while it is being changed. -/
noncomputable def perturbLoop (bounds : BoundsDict) (size : String → ℝ) (random : ℕ → ℝ) :
    ℕ → List (Parameter ℝ) → ModelParameters ℝ → Mutation ℝ
  | _, [], parameters => (.ok (), parameters)
  | k, p :: ps, parameters =>
    if p.is_fixed then perturbLoop bounds size random k ps parameters
    else
      let random_number := 2 * (random k - 0.5)
      match readVar .keyError bounds p.name with
      | .error e => (.error e, parameters)
      | .ok (lower_bound, upper_bound) =>
        let perturbed_value := perturbedValue lower_bound p.value upper_bound random_number (size p.name)
        match parameters.setValue p.name perturbed_value with
        | (.error e, parameters) => (.error e, parameters)
        | (.ok (), parameters) => perturbLoop bounds size random (k + 1) ps parameters

/-- `perturb_model_parameters`, `common/utils.py:27-72`. The returned object is the argument itself, so the result is the
outcome and the object left behind. -/
noncomputable def perturbModelParameters (parameters : ModelParameters ℝ) (perturbation_size : ℝ)
    (perturbation_size_resonances : Option ℝ) (use_handpicked_bounds : Bool) (random : ℕ → ℝ) : Mutation ℝ :=
  let perturbation_size_resonances := perturbation_size_resonances.getD perturbation_size
  match (if use_handpicked_bounds then parameters.boundsHandpicked else parameters.boundsMaximal) with
  | .error e => (.error e, parameters)
  | .ok bounds =>
    perturbLoop bounds (perturbationSize perturbation_size perturbation_size_resonances) random 0 parameters.toList parameters

/-! ### `_get_ff_model` -/

/-- The argument names of `KaonUAModel.__init__` given by keyword, `ua_model/KaonUAModel.py:15-46`. -/
def KaonUAModel.argNames : List String :=
  ["t_0_isoscalar", "t_in_isoscalar", "t_0_isovector", "t_in_isovector", "a_omega", "a_omega_prime",
   "a_omega_double_prime", "a_phi", "a_phi_prime", "a_rho", "a_rho_prime", "a_rho_double_prime", "mass_omega",
   "decay_rate_omega", "mass_omega_prime", "decay_rate_omega_prime", "mass_omega_double_prime",
   "decay_rate_omega_double_prime", "mass_phi", "decay_rate_phi", "mass_phi_prime", "decay_rate_phi_prime",
   "mass_phi_double_prime", "decay_rate_phi_double_prime", "mass_rho", "decay_rate_rho", "mass_rho_prime",
   "decay_rate_rho_prime", "mass_rho_double_prime", "decay_rate_rho_double_prime", "mass_rho_triple_prime",
   "decay_rate_rho_triple_prime"]

/-- The record of arguments once bound, `ua_model/KaonUAModel.py:15-46`. -/
def KaonUAModel.Args.ofEnv (env : List (String × ℝ)) : Except PyErr KaonUAModel.Args := do
  let t_0_isoscalar ← readVar .exception env "t_0_isoscalar"
  let t_in_isoscalar ← readVar .exception env "t_in_isoscalar"
  let t_0_isovector ← readVar .exception env "t_0_isovector"
  let t_in_isovector ← readVar .exception env "t_in_isovector"
  let a_omega ← readVar .exception env "a_omega"
  let a_omega_prime ← readVar .exception env "a_omega_prime"
  let a_omega_double_prime ← readVar .exception env "a_omega_double_prime"
  let a_phi ← readVar .exception env "a_phi"
  let a_phi_prime ← readVar .exception env "a_phi_prime"
  let a_rho ← readVar .exception env "a_rho"
  let a_rho_prime ← readVar .exception env "a_rho_prime"
  let a_rho_double_prime ← readVar .exception env "a_rho_double_prime"
  let mass_omega ← readVar .exception env "mass_omega"
  let decay_rate_omega ← readVar .exception env "decay_rate_omega"
  let mass_omega_prime ← readVar .exception env "mass_omega_prime"
  let decay_rate_omega_prime ← readVar .exception env "decay_rate_omega_prime"
  let mass_omega_double_prime ← readVar .exception env "mass_omega_double_prime"
  let decay_rate_omega_double_prime ← readVar .exception env "decay_rate_omega_double_prime"
  let mass_phi ← readVar .exception env "mass_phi"
  let decay_rate_phi ← readVar .exception env "decay_rate_phi"
  let mass_phi_prime ← readVar .exception env "mass_phi_prime"
  let decay_rate_phi_prime ← readVar .exception env "decay_rate_phi_prime"
  let mass_phi_double_prime ← readVar .exception env "mass_phi_double_prime"
  let decay_rate_phi_double_prime ← readVar .exception env "decay_rate_phi_double_prime"
  let mass_rho ← readVar .exception env "mass_rho"
  let decay_rate_rho ← readVar .exception env "decay_rate_rho"
  let mass_rho_prime ← readVar .exception env "mass_rho_prime"
  let decay_rate_rho_prime ← readVar .exception env "decay_rate_rho_prime"
  let mass_rho_double_prime ← readVar .exception env "mass_rho_double_prime"
  let decay_rate_rho_double_prime ← readVar .exception env "decay_rate_rho_double_prime"
  let mass_rho_triple_prime ← readVar .exception env "mass_rho_triple_prime"
  let decay_rate_rho_triple_prime ← readVar .exception env "decay_rate_rho_triple_prime"
  return {
    t_0_isoscalar := t_0_isoscalar
    t_in_isoscalar := t_in_isoscalar
    t_0_isovector := t_0_isovector
    t_in_isovector := t_in_isovector
    a_omega := a_omega
    a_omega_prime := a_omega_prime
    a_omega_double_prime := a_omega_double_prime
    a_phi := a_phi
    a_phi_prime := a_phi_prime
    a_rho := a_rho
    a_rho_prime := a_rho_prime
    a_rho_double_prime := a_rho_double_prime
    mass_omega := mass_omega
    decay_rate_omega := decay_rate_omega
    mass_omega_prime := mass_omega_prime
    decay_rate_omega_prime := decay_rate_omega_prime
    mass_omega_double_prime := mass_omega_double_prime
    decay_rate_omega_double_prime := decay_rate_omega_double_prime
    mass_phi := mass_phi
    decay_rate_phi := decay_rate_phi
    mass_phi_prime := mass_phi_prime
    decay_rate_phi_prime := decay_rate_phi_prime
    mass_phi_double_prime := mass_phi_double_prime
    decay_rate_phi_double_prime := decay_rate_phi_double_prime
    mass_rho := mass_rho
    decay_rate_rho := decay_rate_rho
    mass_rho_prime := mass_rho_prime
    decay_rate_rho_prime := decay_rate_rho_prime
    mass_rho_double_prime := mass_rho_double_prime
    decay_rate_rho_double_prime := decay_rate_rho_double_prime
    mass_rho_triple_prime := mass_rho_triple_prime
    decay_rate_rho_triple_prime := decay_rate_rho_triple_prime }

/-- The argument names of `KaonUAModelB.__init__` given by keyword, `ua_model/KaonUAModelB.py:18-43`. -/
def KaonUAModelB.argNames : List String :=
  ["t_0_isoscalar", "t_in_isoscalar", "t_0_isovector", "t_in_isovector", "a_omega", "a_omega_double_prime", "a_phi",
   "a_phi_prime", "a_rho", "a_rho_prime", "mass_omega", "decay_rate_omega", "mass_omega_double_prime",
   "decay_rate_omega_double_prime", "mass_phi", "decay_rate_phi", "mass_phi_prime", "decay_rate_phi_prime",
   "mass_phi_double_prime", "decay_rate_phi_double_prime", "mass_rho", "decay_rate_rho", "mass_rho_prime",
   "decay_rate_rho_prime", "mass_rho_double_prime", "decay_rate_rho_double_prime"]

/-- The record of arguments once bound, `ua_model/KaonUAModelB.py:18-43`. -/
def KaonUAModelB.Args.ofEnv (env : List (String × ℝ)) : Except PyErr KaonUAModelB.Args := do
  let t_0_isoscalar ← readVar .exception env "t_0_isoscalar"
  let t_in_isoscalar ← readVar .exception env "t_in_isoscalar"
  let t_0_isovector ← readVar .exception env "t_0_isovector"
  let t_in_isovector ← readVar .exception env "t_in_isovector"
  let a_omega ← readVar .exception env "a_omega"
  let a_omega_double_prime ← readVar .exception env "a_omega_double_prime"
  let a_phi ← readVar .exception env "a_phi"
  let a_phi_prime ← readVar .exception env "a_phi_prime"
  let a_rho ← readVar .exception env "a_rho"
  let a_rho_prime ← readVar .exception env "a_rho_prime"
  let mass_omega ← readVar .exception env "mass_omega"
  let decay_rate_omega ← readVar .exception env "decay_rate_omega"
  let mass_omega_double_prime ← readVar .exception env "mass_omega_double_prime"
  let decay_rate_omega_double_prime ← readVar .exception env "decay_rate_omega_double_prime"
  let mass_phi ← readVar .exception env "mass_phi"
  let decay_rate_phi ← readVar .exception env "decay_rate_phi"
  let mass_phi_prime ← readVar .exception env "mass_phi_prime"
  let decay_rate_phi_prime ← readVar .exception env "decay_rate_phi_prime"
  let mass_phi_double_prime ← readVar .exception env "mass_phi_double_prime"
  let decay_rate_phi_double_prime ← readVar .exception env "decay_rate_phi_double_prime"
  let mass_rho ← readVar .exception env "mass_rho"
  let decay_rate_rho ← readVar .exception env "decay_rate_rho"
  let mass_rho_prime ← readVar .exception env "mass_rho_prime"
  let decay_rate_rho_prime ← readVar .exception env "decay_rate_rho_prime"
  let mass_rho_double_prime ← readVar .exception env "mass_rho_double_prime"
  let decay_rate_rho_double_prime ← readVar .exception env "decay_rate_rho_double_prime"
  return {
    t_0_isoscalar := t_0_isoscalar
    t_in_isoscalar := t_in_isoscalar
    t_0_isovector := t_0_isovector
    t_in_isovector := t_in_isovector
    a_omega := a_omega
    a_omega_double_prime := a_omega_double_prime
    a_phi := a_phi
    a_phi_prime := a_phi_prime
    a_rho := a_rho
    a_rho_prime := a_rho_prime
    mass_omega := mass_omega
    decay_rate_omega := decay_rate_omega
    mass_omega_double_prime := mass_omega_double_prime
    decay_rate_omega_double_prime := decay_rate_omega_double_prime
    mass_phi := mass_phi
    decay_rate_phi := decay_rate_phi
    mass_phi_prime := mass_phi_prime
    decay_rate_phi_prime := decay_rate_phi_prime
    mass_phi_double_prime := mass_phi_double_prime
    decay_rate_phi_double_prime := decay_rate_phi_double_prime
    mass_rho := mass_rho
    decay_rate_rho := decay_rate_rho
    mass_rho_prime := mass_rho_prime
    decay_rate_rho_prime := decay_rate_rho_prime
    mass_rho_double_prime := mass_rho_double_prime
    decay_rate_rho_double_prime := decay_rate_rho_double_prime }

/-- The argument names of `KaonUAModelSimplified.__init__` given by keyword, `ua_model/KaonUAModelSimplified.py:19-44`. -/
def KaonUAModelSimplified.argNames : List String :=
  ["t_0_isoscalar", "t_in_isoscalar", "t_0_isovector", "t_in_isovector", "a_omega_prime", "a_omega_double_prime",
   "a_phi", "a_phi_prime", "a_rho_prime", "a_rho_double_prime", "mass_omega_prime", "decay_rate_omega_prime",
   "mass_omega_double_prime", "decay_rate_omega_double_prime", "mass_phi", "decay_rate_phi", "mass_phi_prime",
   "decay_rate_phi_prime", "mass_phi_double_prime", "decay_rate_phi_double_prime", "mass_rho_prime",
   "decay_rate_rho_prime", "mass_rho_double_prime", "decay_rate_rho_double_prime", "mass_rho_triple_prime",
   "decay_rate_rho_triple_prime"]

/-- The record of arguments once bound, `ua_model/KaonUAModelSimplified.py:19-44`. -/
def KaonUAModelSimplified.Args.ofEnv (env : List (String × ℝ)) : Except PyErr KaonUAModelSimplified.Args := do
  let t_0_isoscalar ← readVar .exception env "t_0_isoscalar"
  let t_in_isoscalar ← readVar .exception env "t_in_isoscalar"
  let t_0_isovector ← readVar .exception env "t_0_isovector"
  let t_in_isovector ← readVar .exception env "t_in_isovector"
  let a_omega_prime ← readVar .exception env "a_omega_prime"
  let a_omega_double_prime ← readVar .exception env "a_omega_double_prime"
  let a_phi ← readVar .exception env "a_phi"
  let a_phi_prime ← readVar .exception env "a_phi_prime"
  let a_rho_prime ← readVar .exception env "a_rho_prime"
  let a_rho_double_prime ← readVar .exception env "a_rho_double_prime"
  let mass_omega_prime ← readVar .exception env "mass_omega_prime"
  let decay_rate_omega_prime ← readVar .exception env "decay_rate_omega_prime"
  let mass_omega_double_prime ← readVar .exception env "mass_omega_double_prime"
  let decay_rate_omega_double_prime ← readVar .exception env "decay_rate_omega_double_prime"
  let mass_phi ← readVar .exception env "mass_phi"
  let decay_rate_phi ← readVar .exception env "decay_rate_phi"
  let mass_phi_prime ← readVar .exception env "mass_phi_prime"
  let decay_rate_phi_prime ← readVar .exception env "decay_rate_phi_prime"
  let mass_phi_double_prime ← readVar .exception env "mass_phi_double_prime"
  let decay_rate_phi_double_prime ← readVar .exception env "decay_rate_phi_double_prime"
  let mass_rho_prime ← readVar .exception env "mass_rho_prime"
  let decay_rate_rho_prime ← readVar .exception env "decay_rate_rho_prime"
  let mass_rho_double_prime ← readVar .exception env "mass_rho_double_prime"
  let decay_rate_rho_double_prime ← readVar .exception env "decay_rate_rho_double_prime"
  let mass_rho_triple_prime ← readVar .exception env "mass_rho_triple_prime"
  let decay_rate_rho_triple_prime ← readVar .exception env "decay_rate_rho_triple_prime"
  return {
    t_0_isoscalar := t_0_isoscalar
    t_in_isoscalar := t_in_isoscalar
    t_0_isovector := t_0_isovector
    t_in_isovector := t_in_isovector
    a_omega_prime := a_omega_prime
    a_omega_double_prime := a_omega_double_prime
    a_phi := a_phi
    a_phi_prime := a_phi_prime
    a_rho_prime := a_rho_prime
    a_rho_double_prime := a_rho_double_prime
    mass_omega_prime := mass_omega_prime
    decay_rate_omega_prime := decay_rate_omega_prime
    mass_omega_double_prime := mass_omega_double_prime
    decay_rate_omega_double_prime := decay_rate_omega_double_prime
    mass_phi := mass_phi
    decay_rate_phi := decay_rate_phi
    mass_phi_prime := mass_phi_prime
    decay_rate_phi_prime := decay_rate_phi_prime
    mass_phi_double_prime := mass_phi_double_prime
    decay_rate_phi_double_prime := decay_rate_phi_double_prime
    mass_rho_prime := mass_rho_prime
    decay_rate_rho_prime := decay_rate_rho_prime
    mass_rho_double_prime := mass_rho_double_prime
    decay_rate_rho_double_prime := decay_rate_rho_double_prime
    mass_rho_triple_prime := mass_rho_triple_prime
    decay_rate_rho_triple_prime := decay_rate_rho_triple_prime }

/-- The argument names of `NucleonUAModel.__init__` given by keyword, `ua_model/NucleonUAModel.py:16-52`. -/
def NucleonUAModel.argNames : List String :=
  ["nucleon_mass", "magnetic_moment_proton", "magnetic_moment_neutron", "t_0_dirac_isoscalar", "t_in_dirac_isoscalar",
   "t_0_dirac_isovector", "t_in_dirac_isovector", "t_0_pauli_isoscalar", "t_in_pauli_isoscalar", "t_0_pauli_isovector",
   "t_in_pauli_isovector", "a_dirac_omega", "a_dirac_omega_prime", "a_dirac_phi", "a_dirac_phi_prime", "a_dirac_rho",
   "a_pauli_omega", "a_pauli_phi", "a_pauli_phi_prime", "mass_omega", "decay_rate_omega", "mass_omega_prime",
   "decay_rate_omega_prime", "mass_omega_double_prime", "decay_rate_omega_double_prime", "mass_phi", "decay_rate_phi",
   "mass_phi_prime", "decay_rate_phi_prime", "mass_phi_double_prime", "decay_rate_phi_double_prime", "mass_rho",
   "decay_rate_rho", "mass_rho_prime", "decay_rate_rho_prime", "mass_rho_double_prime", "decay_rate_rho_double_prime"]

/-- The record of arguments once bound, `ua_model/NucleonUAModel.py:16-52`. -/
def NucleonArgs.ofEnv (env : List (String × ℝ)) : Except PyErr NucleonArgs := do
  let nucleon_mass ← readVar .exception env "nucleon_mass"
  let magnetic_moment_proton ← readVar .exception env "magnetic_moment_proton"
  let magnetic_moment_neutron ← readVar .exception env "magnetic_moment_neutron"
  let t_0_dirac_isoscalar ← readVar .exception env "t_0_dirac_isoscalar"
  let t_in_dirac_isoscalar ← readVar .exception env "t_in_dirac_isoscalar"
  let t_0_dirac_isovector ← readVar .exception env "t_0_dirac_isovector"
  let t_in_dirac_isovector ← readVar .exception env "t_in_dirac_isovector"
  let t_0_pauli_isoscalar ← readVar .exception env "t_0_pauli_isoscalar"
  let t_in_pauli_isoscalar ← readVar .exception env "t_in_pauli_isoscalar"
  let t_0_pauli_isovector ← readVar .exception env "t_0_pauli_isovector"
  let t_in_pauli_isovector ← readVar .exception env "t_in_pauli_isovector"
  let a_dirac_omega ← readVar .exception env "a_dirac_omega"
  let a_dirac_omega_prime ← readVar .exception env "a_dirac_omega_prime"
  let a_dirac_phi ← readVar .exception env "a_dirac_phi"
  let a_dirac_phi_prime ← readVar .exception env "a_dirac_phi_prime"
  let a_dirac_rho ← readVar .exception env "a_dirac_rho"
  let a_pauli_omega ← readVar .exception env "a_pauli_omega"
  let a_pauli_phi ← readVar .exception env "a_pauli_phi"
  let a_pauli_phi_prime ← readVar .exception env "a_pauli_phi_prime"
  let mass_omega ← readVar .exception env "mass_omega"
  let decay_rate_omega ← readVar .exception env "decay_rate_omega"
  let mass_omega_prime ← readVar .exception env "mass_omega_prime"
  let decay_rate_omega_prime ← readVar .exception env "decay_rate_omega_prime"
  let mass_omega_double_prime ← readVar .exception env "mass_omega_double_prime"
  let decay_rate_omega_double_prime ← readVar .exception env "decay_rate_omega_double_prime"
  let mass_phi ← readVar .exception env "mass_phi"
  let decay_rate_phi ← readVar .exception env "decay_rate_phi"
  let mass_phi_prime ← readVar .exception env "mass_phi_prime"
  let decay_rate_phi_prime ← readVar .exception env "decay_rate_phi_prime"
  let mass_phi_double_prime ← readVar .exception env "mass_phi_double_prime"
  let decay_rate_phi_double_prime ← readVar .exception env "decay_rate_phi_double_prime"
  let mass_rho ← readVar .exception env "mass_rho"
  let decay_rate_rho ← readVar .exception env "decay_rate_rho"
  let mass_rho_prime ← readVar .exception env "mass_rho_prime"
  let decay_rate_rho_prime ← readVar .exception env "decay_rate_rho_prime"
  let mass_rho_double_prime ← readVar .exception env "mass_rho_double_prime"
  let decay_rate_rho_double_prime ← readVar .exception env "decay_rate_rho_double_prime"
  return {
    nucleon_mass := nucleon_mass
    magnetic_moment_proton := magnetic_moment_proton
    magnetic_moment_neutron := magnetic_moment_neutron
    t_0_dirac_isoscalar := t_0_dirac_isoscalar
    t_in_dirac_isoscalar := t_in_dirac_isoscalar
    t_0_dirac_isovector := t_0_dirac_isovector
    t_in_dirac_isovector := t_in_dirac_isovector
    t_0_pauli_isoscalar := t_0_pauli_isoscalar
    t_in_pauli_isoscalar := t_in_pauli_isoscalar
    t_0_pauli_isovector := t_0_pauli_isovector
    t_in_pauli_isovector := t_in_pauli_isovector
    a_dirac_omega := a_dirac_omega
    a_dirac_omega_prime := a_dirac_omega_prime
    a_dirac_phi := a_dirac_phi
    a_dirac_phi_prime := a_dirac_phi_prime
    a_dirac_rho := a_dirac_rho
    a_pauli_omega := a_pauli_omega
    a_pauli_phi := a_pauli_phi
    a_pauli_phi_prime := a_pauli_phi_prime
    mass_omega := mass_omega
    decay_rate_omega := decay_rate_omega
    mass_omega_prime := mass_omega_prime
    decay_rate_omega_prime := decay_rate_omega_prime
    mass_omega_double_prime := mass_omega_double_prime
    decay_rate_omega_double_prime := decay_rate_omega_double_prime
    mass_phi := mass_phi
    decay_rate_phi := decay_rate_phi
    mass_phi_prime := mass_phi_prime
    decay_rate_phi_prime := decay_rate_phi_prime
    mass_phi_double_prime := mass_phi_double_prime
    decay_rate_phi_double_prime := decay_rate_phi_double_prime
    mass_rho := mass_rho
    decay_rate_rho := decay_rate_rho
    mass_rho_prime := mass_rho_prime
    decay_rate_rho_prime := decay_rate_rho_prime
    mass_rho_double_prime := mass_rho_double_prime
    decay_rate_rho_double_prime := decay_rate_rho_double_prime }

/-- The objects `_get_ff_model` may return. -/
inductive FFModel
  | kaon (m : KaonUAModel)
  | kaonB (m : KaonUAModelB)
  | kaonSimplified (m : KaonUAModelSimplified)
  | nucleon (m : NucleonUAModel)
  | etgmr (m : ETGMRModel)
  | twoPoles (m : TwoPolesModel)

/-- `{p.name: p.value for p in parameters}`. -/
def ModelParameters.asKwargs (parameters : ModelParameters ℝ) : List (String × ℝ) :=
  pyDict (parameters.toList.map fun p => (p.name, p.value))

/-- `KaonUAModel(charged_variant=True, **kw)`; a `charged_variant` in `kw` would be a repeated keyword, also a `TypeError`. -/
noncomputable def KaonUAModel.initKw (charged_variant : Bool) (kw : List (String × ℝ)) : Except PyErr KaonUAModel := do
  let env ← bindKwargs KaonUAModel.argNames kw
  let x ← KaonUAModel.Args.ofEnv env
  KaonUAModel.init charged_variant x

/-- `KaonUAModelB(charged_variant=True, **kw)`. -/
noncomputable def KaonUAModelB.initKw (charged_variant : Bool) (kw : List (String × ℝ)) : Except PyErr KaonUAModelB := do
  let env ← bindKwargs KaonUAModelB.argNames kw
  let x ← KaonUAModelB.Args.ofEnv env
  KaonUAModelB.init charged_variant x

/-- `KaonUAModelSimplified(charged_variant=True, **kw)`. -/
noncomputable def KaonUAModelSimplified.initKw (charged_variant : Bool) (kw : List (String × ℝ)) : Except PyErr KaonUAModelSimplified := do
  let env ← bindKwargs KaonUAModelSimplified.argNames kw
  let x ← KaonUAModelSimplified.Args.ofEnv env
  KaonUAModelSimplified.init charged_variant x

/-- `NucleonUAModel(proton=True, electric=True, **kw)`. -/
noncomputable def NucleonUAModel.initKw (proton electric : Bool) (kw : List (String × ℝ)) : Except PyErr NucleonUAModel := do
  let env ← bindKwargs NucleonUAModel.argNames kw
  let x ← NucleonArgs.ofEnv env
  NucleonUAModel.init proton electric x

/-- `_get_ff_model`, `common/utils.py:75-95`. The classes do not inherit from one another, so `isinstance` is equality of the
class. The oscillation parameters (`task/ResidualOscillationsTask.py:15`) are the ones that end in the `else` branch. -/
noncomputable def getFFModel (parameters : ModelParameters ℝ) : Except PyErr FFModel :=
  match parameters.cls with
  | .kaon => do let m ← KaonUAModel.initKw true parameters.asKwargs; return .kaon m
  | .kaonB => do let m ← KaonUAModelB.initKw true parameters.asKwargs; return .kaonB m
  | .kaonSimplified => do let m ← KaonUAModelSimplified.initKw true parameters.asKwargs; return .kaonSimplified m
  | .kaonFixedRhoOmega => do let m ← KaonUAModel.initKw true parameters.asKwargs; return .kaon m
  | .kaonFixedSelected => do let m ← KaonUAModel.initKw true parameters.asKwargs; return .kaon m
  | .nucleon => do let m ← NucleonUAModel.initKw true true parameters.asKwargs; return .nucleon m
  | .etgmr => do
    let a ← parameters.getItem "a"
    let m_a ← parameters.getItem "m_a"
    let m_d ← parameters.getItem "m_d"
    return .etgmr (ETGMRModel.init a.value m_a.value m_d.value)
  | .twoPoles => do
    let a ← parameters.getItem "a"
    let m_1 ← parameters.getItem "m_1"
    let m_2 ← parameters.getItem "m_2"
    return .twoPoles (TwoPolesModel.init a.value m_1.value m_2.value)
  | .oscillations => .error .typeError

/-! ### Data points -/

/-- What the lists of data points contain: `KaonDatapoint` (`kaon_production/data.py:7`), `NucleonDatapoint`
(`nucleon_production/data.py:7`), or a bare row of numbers. The `t` of a named tuple is a number and the flags are booleans. -/
inductive Datapoint
  | kaon (t : ℂ) (is_charged : Bool)
  | nucleon (t : ℂ) (proton electric : Bool)
  | row (xs : List ℂ)

/-- `datapoint[i]`; booleans are the numbers 0 and 1. A named tuple is a tuple. -/
noncomputable def Datapoint.index (d : Datapoint) (i : ℕ) : Except PyErr ℂ :=
  let b2c : Bool → ℂ := fun b => if b then 1 else 0
  let xs := match d with
    | .kaon t c => [t, b2c c]
    | .nucleon t p e => [t, b2c p, b2c e]
    | .row xs => xs
  match xs[i]? with
  | some x => .ok x
  | none => .error .indexError

/-- The bare row of numbers the fitting library makes of a data point (`xdata` is converted to an array, `task/Task.py:57-59`): flags
become 0 and 1. -/
noncomputable def Datapoint.toRow : Datapoint → Datapoint
  | .kaon t c => .row [t, if c then 1 else 0]
  | .nucleon t p e => .row [t, if p then 1 else 0, if e then 1 else 0]
  | .row xs => .row xs

/-- `bool(x)` of a number. -/
noncomputable def pyBool (x : ℂ) : Bool := decide (x ≠ 0)

/-- `_read_datapoint_kaon`, `common/utils.py:98-102`. -/
noncomputable def readDatapointKaon (datapoint : Datapoint) : Except PyErr (ℂ × Bool) :=
  match datapoint with
  | .kaon t is_charged => .ok (t, is_charged)
  | d => do
    let x ← d.index 0
    let y ← d.index 1
    return (x, pyBool y)

/-- `_read_datapoint_nucleon`, `common/utils.py:105-111`. -/
noncomputable def readDatapointNucleon (datapoint : Datapoint) : Except PyErr (ℂ × Bool × Bool) :=
  match datapoint with
  | .nucleon t proton electric => .ok (t, proton, electric)
  | d => do
    let x ← d.index 0
    let y ← d.index 1
    let z ← d.index 2
    return (x, pyBool y, pyBool z)

/-! ### `function_form_factor` -/

/-- The loop at `common/utils.py:136-139`, for an object with a `charged_variant` attribute and a pure `__call__`. -/
noncomputable def kaonLoop {σ : Type} (setCharged : Bool → σ → σ) (call : σ → ℂ → Except PyErr ℂ) :
    List Datapoint → σ → Except PyErr (List ℝ)
  | [], _ => .ok []
  | datapoint :: ts, ff_model => do
    let (t, is_charged) ← readDatapointKaon datapoint
    let ff_model := setCharged is_charged ff_model
    let F ← call ff_model t
    let results ← kaonLoop setCharged call ts ff_model
    return ‖F‖ :: results

/-- The loop at `common/utils.py:141-145`, for an object whose `proton` and `electric` attributes are assigned and whose call
may change the object (caches). -/
noncomputable def nucleonLoop {σ : Type} (setSwitches : Bool → Bool → σ → σ) (call : σ → ℂ → Except PyErr ℂ × σ) :
    List Datapoint → σ → Except PyErr (List ℝ)
  | [], _ => .ok []
  | datapoint :: ts, ff_model => do
    let (t, is_proton, is_electric) ← readDatapointNucleon datapoint
    let ff_model := setSwitches is_proton is_electric ff_model
    match call ff_model t with
    | (.error e, _) => .error e
    | (.ok F, ff_model) =>
      let results ← nucleonLoop setSwitches call ts ff_model
      return ‖F‖ :: results

/-- `function_form_factor`, `common/utils.py:123-147`; `_is_kaon_type_model` (`:114-120`) is the case distinction. Assigning
`proton` and `electric` to an `ETGMRModel` or `TwoPolesModel` creates attributes its `__call__` does not read. -/
noncomputable def functionFormFactor (ts : List Datapoint) (parameters : ModelParameters ℝ) : Except PyErr (List ℝ) := do
  let ff_model ← getFFModel parameters
  match ff_model with
  | .kaon m => kaonLoop (fun b m => { m with charged_variant := b }) KaonUAModel.call ts m
  | .kaonB m => kaonLoop (fun b m => { m with charged_variant := b }) KaonUAModelB.call ts m
  | .kaonSimplified m => kaonLoop (fun b m => { m with charged_variant := b }) KaonUAModelSimplified.call ts m
  | .nucleon m => nucleonLoop (fun p e (m : NucleonUAModel) => { m with proton := p, electric := e }) NucleonUAModel.call ts m
  | .etgmr m => nucleonLoop (fun _ _ m => m) (fun (m : ETGMRModel) t => (m.call t, m)) ts m
  | .twoPoles m => nucleonLoop (fun _ _ m => m) (fun (m : TwoPolesModel) t => (m.call t, m)) ts m

/-! ### `function_cross_section` -/

/-- The loop at `common/utils.py:185-188` when `cross_section_model` is an `ETGMRModel` or a `TwoPolesModel`: these objects have
no attribute `form_factor`. -/
noncomputable def noFormFactorLoop : List Datapoint → Except PyErr (List ℝ)
  | [] => .ok []
  | datapoint :: _ => do
    let _ ← readDatapointNucleon datapoint
    .error .attributeError

/-- `function_cross_section`, `common/utils.py:150-190`. The constants pass through a `ConfigParser` as `str(x)` and are read
back with `float`, which is the identity on floats. -/
noncomputable def functionCrossSection (ts : List Datapoint) (product_particle_mass alpha hc_squared : ℝ)
    (parameters : ModelParameters ℝ) : Except PyErr (List ℝ) := do
  let ff_model ← getFFModel parameters
  let scalar := ScalarCS.init product_particle_mass alpha hc_squared
  match ff_model with
  | .kaon m => kaonLoop (fun b m => { m with charged_variant := b }) (fun m t => scalar.call (KaonUAModel.call m) t) ts m
  | .kaonB m => kaonLoop (fun b m => { m with charged_variant := b }) (fun m t => scalar.call (KaonUAModelB.call m) t) ts m
  | .kaonSimplified m =>
    kaonLoop (fun b m => { m with charged_variant := b }) (fun m t => scalar.call (KaonUAModelSimplified.call m) t) ts m
  | .nucleon m =>
    nucleonLoop (fun p _ (m : NucleonUAModel) => { m with proton := p })
      (fun m t => (NucleonCS.init product_particle_mass alpha hc_squared).call nucleonFF m t) ts m
  | .etgmr _ => noFormFactorLoop ts
  | .twoPoles _ => noFormFactorLoop ts

/-! ### Partial functions -/

/-- Which of the two functions a partial function evaluates, with the constants it captured. -/
inductive PartialKind
  | formFactor
  | crossSection (product_particle_mass alpha hc_squared : ℝ)

/-- `common/utils.py:201` and `common/utils.py:214`. -/
noncomputable def PartialKind.eval : PartialKind → List Datapoint → ModelParameters ℝ → Except PyErr (List ℝ)
  | .formFactor, ts, p => functionFormFactor ts p
  | .crossSection m a h, ts, p => functionCrossSection ts m a h p

/-- The parameter objects in existence; a position is a reference. -/
abbrev Heap := List (ModelParameters ℝ)

/-- A function made by `make_partial_..._for_parameters`: what it evaluates, and the reference its captured variable
`parameters` holds. -/
structure PartialF where
  kind : PartialKind
  parameters : ℕ

/-- `make_partial_form_factor_for_parameters`, `common/utils.py:193-203`, and `make_partial_cross_section_for_parameters`,
`common/utils.py:206-216`, called with the object `ref` refers to. The copy is a new object. -/
def makePartial (kind : PartialKind) (heap : Heap) (ref : ℕ) : Except PyErr (PartialF × Heap) :=
  match heap[ref]? with
  | none => .error .exception
  | some p => do
    let q ← p.copy
    return (⟨kind, heap.length⟩, heap ++ [q])

/-- Calling such a function with `(ts, *args)`: `common/utils.py:199-201`, `common/utils.py:212-214`. -/
noncomputable def PartialF.call (f : PartialF) (heap : Heap) (ts : List Datapoint) (args : List ℝ) : Except PyErr (List ℝ) × Heap :=
  match heap[f.parameters]? with
  | none => (.error .exception, heap)
  | some p =>
    match p.updateFreeValues args with
    | (.error e, p) => (.error e, heap.set f.parameters p)
    | (.ok (), p) => (f.kind.eval ts p, heap.set f.parameters p)

end UA
