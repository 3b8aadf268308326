import Verif.Model.KindsNucleon
import Verif.Model.Utils

/-!
# `common/utils.py`, the cross sections and the other models with numbers that carry their kind

The definitions of `Verif/Model/Utils.lean`, `Verif/Model/CrossSections.lean` and `Verif/Model/OtherModels.lean` over `Num`, see
`Verif/Model/Kinds.lean`. The particle mass and the constants of a cross section are Python numbers, read from a file. So is the
`t` of a data point: `common/utils.py:100` and `:107` return the `t` of a named tuple, which the readers made with `float`, and `:102`
and `:111` convert with `complex`.
-/

namespace UA.Kinded

open Complex

/-- Code that computes with no number: the same exceptions. -/
def raises {α : Type} : Except PyErr α → Except Stop α
  | .error e => .error (.raised e)
  | .ok a => .ok a

/-! ### `other_models` -/

/-- The attributes of an `ETGMRModel` (`other_models/ETGMRModel.py:13-16`). -/
structure ETGMRModel where
  a : Num ℝ
  m_a_squared : Num ℝ
  m_d_squared : Num ℝ

/-- `other_models/ETGMRModel.py:13-16` `__init__`. -/
noncomputable def ETGMRModel.init (a m_a m_d : Num ℝ) : ETGMRModel := ⟨a, m_a ^ 2, m_d ^ 2⟩

/-- `other_models/ETGMRModel.py:18-19` `__call__`. -/
noncomputable def ETGMRModel.call (m : ETGMRModel) (s : Num ℂ) : Except Stop (Num ℂ) := do
  let x ← pyDiv s m.m_a_squared
  let y ← pyDiv s m.m_d_squared
  pyDiv m.a ((1 + x) * (1 - y) ^ 2)

/-- The attributes of a `TwoPolesModel` (`other_models/TwoPolesModel.py:10-13`). -/
structure TwoPolesModel where
  a : Num ℝ
  m_1_squared : Num ℝ
  m_2_squared : Num ℝ

/-- `other_models/TwoPolesModel.py:10-13` `__init__`. -/
noncomputable def TwoPolesModel.init (a m_1 m_2 : Num ℝ) : TwoPolesModel := ⟨a, m_1 ^ 2, m_2 ^ 2⟩

/-- `other_models/TwoPolesModel.py:15-16` `__call__`. -/
noncomputable def TwoPolesModel.call (m : TwoPolesModel) (s : Num ℂ) : Except Stop (Num ℂ) := do
  let x ← pyDiv s m.m_1_squared
  let y ← pyDiv s m.m_2_squared
  pyDiv m.a ((1 - x) * (1 - y))

/-! ### Cross sections -/

/-- `cross_section/ScalarMesonProductionTotalCrossSection.py:41-61` (`__call__`). The attributes are Python numbers. -/
noncomputable def scalarCall (self : ScalarCS) (form_factor : Num ℂ → Except Stop (Num ℂ)) (t : Num ℂ) : Except Stop (Num ℂ) := do
  let F ← form_factor t
  let form_factor_modulus : Num ℝ := F.abs
  let q ← pyDiv (py (self.precalculated_coefficient_1 : ℂ)) t
  let r ← pyDiv (py (self.four_mass_squared : ℂ)) t
  let base := 1 - r
  return q * ⟨base.val ^ (3 / 2 : ℂ), base.np⟩ * (form_factor_modulus : Num ℂ) ^ 2

/-- A form-factor object with an `electric` attribute, as in `Verif/Model/CrossSections.lean`. -/
structure FormFactorObject (σ : Type) where
  setElectric : Bool → σ → σ
  call : σ → Num ℂ → Except Stop (Num ℂ) × σ

/-- `NucleonUAModel` as such an object. -/
noncomputable def nucleonFF : FormFactorObject NucleonUAModel where
  setElectric b m := { m with electric := b }
  call m t := m.call t

/-- `cross_section/NucleonPairToElectronPositronTotalCrossSection.py:56-60`: the formula once the two moduli are known. -/
noncomputable def nucleonFormula (self : NucleonCS) (t : Num ℂ) (electric_modulus magnetic_modulus : Num ℝ) :
    Except Stop (Num ℂ) := do
  let r ← pyDiv (py (self.four_mass_squared : ℂ)) (t.abs : Num ℂ)
  let beta ← pySqrt (1 - ⟨r.val.re, r.np⟩)
  let q ← pyDiv (py (self.precalculated_coefficient_1 : ℂ) * (beta : Num ℂ)) t
  let e ← pyDiv (py (self.four_mass_squared : ℂ) * (electric_modulus : Num ℂ) ^ 2) (2 * t)
  return q * ((magnetic_modulus : Num ℂ) ^ 2 + e)

/-- `cross_section/NucleonPairToElectronPositronTotalCrossSection.py:34-60` (`__call__`). -/
noncomputable def nucleonCall {σ : Type} (self : NucleonCS) (ff : FormFactorObject σ) (s : σ) (t : Num ℂ) : Except Stop (Num ℂ) × σ :=
  let s := ff.setElectric true s
  match ff.call s t with
  | (.error e, s) => (.error e, s)
  | (.ok GE, s) =>
    let s := ff.setElectric false s
    match ff.call s t with
    | (.error e, s) => (.error e, s)
    | (.ok GM, s) => (nucleonFormula self t GE.abs GM.abs, s)

/-! ### `common/utils.py` -/

/-- `{p.name: p.value for p in parameters}`. -/
def asKwargs (parameters : ModelParameters (Num ℝ)) : List (String × Num ℝ) :=
  pyDict (parameters.toList.map fun p => (p.name, p.value))

/-- The objects `_get_ff_model` may return (`common/utils.py:75-95`). -/
inductive FFModel
  | kaon (m : KaonUAModel)
  | kaonB (m : KaonUAModelB)
  | kaonSimplified (m : KaonUAModelSimplified)
  | nucleon (m : NucleonUAModel)
  | etgmr (m : ETGMRModel)
  | twoPoles (m : TwoPolesModel)

/-- The record of arguments once bound, `ua_model/KaonUAModel.py:15-46`. -/
def KaonUAModel.Args.ofEnv (env : List (String × Num ℝ)) : Except PyErr KaonUAModel.Args := do
  let t_0_isoscalar ← readVar .exception env "t_0_isoscalar"
  let t_in_isoscalar ← readVar .exception env "t_in_isoscalar"
  let t_0_isovector ← readVar .exception env "t_0_isovector"
  let t_in_isovector ← readVar .exception env "t_in_isovector"
  let a_omega ← readVar .exception env "a_omega"
  let a_omega_prime ← readVar .exception env "a_omega_prime"
  let a_omega_double_prime ← readVar .exception env "a_omega_double_prime"
  let a_phi ← readVar .exception env "a_phi"
  let a_phi_prime ← readVar .exception env "a_phi_prime"
  let a_rho ← readVar .exception env "a_rho"
  let a_rho_prime ← readVar .exception env "a_rho_prime"
  let a_rho_double_prime ← readVar .exception env "a_rho_double_prime"
  let mass_omega ← readVar .exception env "mass_omega"
  let decay_rate_omega ← readVar .exception env "decay_rate_omega"
  let mass_omega_prime ← readVar .exception env "mass_omega_prime"
  let decay_rate_omega_prime ← readVar .exception env "decay_rate_omega_prime"
  let mass_omega_double_prime ← readVar .exception env "mass_omega_double_prime"
  let decay_rate_omega_double_prime ← readVar .exception env "decay_rate_omega_double_prime"
  let mass_phi ← readVar .exception env "mass_phi"
  let decay_rate_phi ← readVar .exception env "decay_rate_phi"
  let mass_phi_prime ← readVar .exception env "mass_phi_prime"
  let decay_rate_phi_prime ← readVar .exception env "decay_rate_phi_prime"
  let mass_phi_double_prime ← readVar .exception env "mass_phi_double_prime"
  let decay_rate_phi_double_prime ← readVar .exception env "decay_rate_phi_double_prime"
  let mass_rho ← readVar .exception env "mass_rho"
  let decay_rate_rho ← readVar .exception env "decay_rate_rho"
  let mass_rho_prime ← readVar .exception env "mass_rho_prime"
  let decay_rate_rho_prime ← readVar .exception env "decay_rate_rho_prime"
  let mass_rho_double_prime ← readVar .exception env "mass_rho_double_prime"
  let decay_rate_rho_double_prime ← readVar .exception env "decay_rate_rho_double_prime"
  let mass_rho_triple_prime ← readVar .exception env "mass_rho_triple_prime"
  let decay_rate_rho_triple_prime ← readVar .exception env "decay_rate_rho_triple_prime"
  return {
    t_0_isoscalar := t_0_isoscalar
    t_in_isoscalar := t_in_isoscalar
    t_0_isovector := t_0_isovector
    t_in_isovector := t_in_isovector
    a_omega := a_omega
    a_omega_prime := a_omega_prime
    a_omega_double_prime := a_omega_double_prime
    a_phi := a_phi
    a_phi_prime := a_phi_prime
    a_rho := a_rho
    a_rho_prime := a_rho_prime
    a_rho_double_prime := a_rho_double_prime
    mass_omega := mass_omega
    decay_rate_omega := decay_rate_omega
    mass_omega_prime := mass_omega_prime
    decay_rate_omega_prime := decay_rate_omega_prime
    mass_omega_double_prime := mass_omega_double_prime
    decay_rate_omega_double_prime := decay_rate_omega_double_prime
    mass_phi := mass_phi
    decay_rate_phi := decay_rate_phi
    mass_phi_prime := mass_phi_prime
    decay_rate_phi_prime := decay_rate_phi_prime
    mass_phi_double_prime := mass_phi_double_prime
    decay_rate_phi_double_prime := decay_rate_phi_double_prime
    mass_rho := mass_rho
    decay_rate_rho := decay_rate_rho
    mass_rho_prime := mass_rho_prime
    decay_rate_rho_prime := decay_rate_rho_prime
    mass_rho_double_prime := mass_rho_double_prime
    decay_rate_rho_double_prime := decay_rate_rho_double_prime
    mass_rho_triple_prime := mass_rho_triple_prime
    decay_rate_rho_triple_prime := decay_rate_rho_triple_prime }

/-- The record of arguments once bound, `ua_model/KaonUAModelB.py:18-43`. -/
def KaonUAModelB.Args.ofEnv (env : List (String × Num ℝ)) : Except PyErr KaonUAModelB.Args := do
  let t_0_isoscalar ← readVar .exception env "t_0_isoscalar"
  let t_in_isoscalar ← readVar .exception env "t_in_isoscalar"
  let t_0_isovector ← readVar .exception env "t_0_isovector"
  let t_in_isovector ← readVar .exception env "t_in_isovector"
  let a_omega ← readVar .exception env "a_omega"
  let a_omega_double_prime ← readVar .exception env "a_omega_double_prime"
  let a_phi ← readVar .exception env "a_phi"
  let a_phi_prime ← readVar .exception env "a_phi_prime"
  let a_rho ← readVar .exception env "a_rho"
  let a_rho_prime ← readVar .exception env "a_rho_prime"
  let mass_omega ← readVar .exception env "mass_omega"
  let decay_rate_omega ← readVar .exception env "decay_rate_omega"
  let mass_omega_double_prime ← readVar .exception env "mass_omega_double_prime"
  let decay_rate_omega_double_prime ← readVar .exception env "decay_rate_omega_double_prime"
  let mass_phi ← readVar .exception env "mass_phi"
  let decay_rate_phi ← readVar .exception env "decay_rate_phi"
  let mass_phi_prime ← readVar .exception env "mass_phi_prime"
  let decay_rate_phi_prime ← readVar .exception env "decay_rate_phi_prime"
  let mass_phi_double_prime ← readVar .exception env "mass_phi_double_prime"
  let decay_rate_phi_double_prime ← readVar .exception env "decay_rate_phi_double_prime"
  let mass_rho ← readVar .exception env "mass_rho"
  let decay_rate_rho ← readVar .exception env "decay_rate_rho"
  let mass_rho_prime ← readVar .exception env "mass_rho_prime"
  let decay_rate_rho_prime ← readVar .exception env "decay_rate_rho_prime"
  let mass_rho_double_prime ← readVar .exception env "mass_rho_double_prime"
  let decay_rate_rho_double_prime ← readVar .exception env "decay_rate_rho_double_prime"
  return {
    t_0_isoscalar := t_0_isoscalar
    t_in_isoscalar := t_in_isoscalar
    t_0_isovector := t_0_isovector
    t_in_isovector := t_in_isovector
    a_omega := a_omega
    a_omega_double_prime := a_omega_double_prime
    a_phi := a_phi
    a_phi_prime := a_phi_prime
    a_rho := a_rho
    a_rho_prime := a_rho_prime
    mass_omega := mass_omega
    decay_rate_omega := decay_rate_omega
    mass_omega_double_prime := mass_omega_double_prime
    decay_rate_omega_double_prime := decay_rate_omega_double_prime
    mass_phi := mass_phi
    decay_rate_phi := decay_rate_phi
    mass_phi_prime := mass_phi_prime
    decay_rate_phi_prime := decay_rate_phi_prime
    mass_phi_double_prime := mass_phi_double_prime
    decay_rate_phi_double_prime := decay_rate_phi_double_prime
    mass_rho := mass_rho
    decay_rate_rho := decay_rate_rho
    mass_rho_prime := mass_rho_prime
    decay_rate_rho_prime := decay_rate_rho_prime
    mass_rho_double_prime := mass_rho_double_prime
    decay_rate_rho_double_prime := decay_rate_rho_double_prime }

/-- The record of arguments once bound, `ua_model/KaonUAModelSimplified.py:19-44`. -/
def KaonUAModelSimplified.Args.ofEnv (env : List (String × Num ℝ)) : Except PyErr KaonUAModelSimplified.Args := do
  let t_0_isoscalar ← readVar .exception env "t_0_isoscalar"
  let t_in_isoscalar ← readVar .exception env "t_in_isoscalar"
  let t_0_isovector ← readVar .exception env "t_0_isovector"
  let t_in_isovector ← readVar .exception env "t_in_isovector"
  let a_omega_prime ← readVar .exception env "a_omega_prime"
  let a_omega_double_prime ← readVar .exception env "a_omega_double_prime"
  let a_phi ← readVar .exception env "a_phi"
  let a_phi_prime ← readVar .exception env "a_phi_prime"
  let a_rho_prime ← readVar .exception env "a_rho_prime"
  let a_rho_double_prime ← readVar .exception env "a_rho_double_prime"
  let mass_omega_prime ← readVar .exception env "mass_omega_prime"
  let decay_rate_omega_prime ← readVar .exception env "decay_rate_omega_prime"
  let mass_omega_double_prime ← readVar .exception env "mass_omega_double_prime"
  let decay_rate_omega_double_prime ← readVar .exception env "decay_rate_omega_double_prime"
  let mass_phi ← readVar .exception env "mass_phi"
  let decay_rate_phi ← readVar .exception env "decay_rate_phi"
  let mass_phi_prime ← readVar .exception env "mass_phi_prime"
  let decay_rate_phi_prime ← readVar .exception env "decay_rate_phi_prime"
  let mass_phi_double_prime ← readVar .exception env "mass_phi_double_prime"
  let decay_rate_phi_double_prime ← readVar .exception env "decay_rate_phi_double_prime"
  let mass_rho_prime ← readVar .exception env "mass_rho_prime"
  let decay_rate_rho_prime ← readVar .exception env "decay_rate_rho_prime"
  let mass_rho_double_prime ← readVar .exception env "mass_rho_double_prime"
  let decay_rate_rho_double_prime ← readVar .exception env "decay_rate_rho_double_prime"
  let mass_rho_triple_prime ← readVar .exception env "mass_rho_triple_prime"
  let decay_rate_rho_triple_prime ← readVar .exception env "decay_rate_rho_triple_prime"
  return {
    t_0_isoscalar := t_0_isoscalar
    t_in_isoscalar := t_in_isoscalar
    t_0_isovector := t_0_isovector
    t_in_isovector := t_in_isovector
    a_omega_prime := a_omega_prime
    a_omega_double_prime := a_omega_double_prime
    a_phi := a_phi
    a_phi_prime := a_phi_prime
    a_rho_prime := a_rho_prime
    a_rho_double_prime := a_rho_double_prime
    mass_omega_prime := mass_omega_prime
    decay_rate_omega_prime := decay_rate_omega_prime
    mass_omega_double_prime := mass_omega_double_prime
    decay_rate_omega_double_prime := decay_rate_omega_double_prime
    mass_phi := mass_phi
    decay_rate_phi := decay_rate_phi
    mass_phi_prime := mass_phi_prime
    decay_rate_phi_prime := decay_rate_phi_prime
    mass_phi_double_prime := mass_phi_double_prime
    decay_rate_phi_double_prime := decay_rate_phi_double_prime
    mass_rho_prime := mass_rho_prime
    decay_rate_rho_prime := decay_rate_rho_prime
    mass_rho_double_prime := mass_rho_double_prime
    decay_rate_rho_double_prime := decay_rate_rho_double_prime
    mass_rho_triple_prime := mass_rho_triple_prime
    decay_rate_rho_triple_prime := decay_rate_rho_triple_prime }

/-- The record of arguments once bound, `ua_model/NucleonUAModel.py:16-52`. -/
def NucleonArgs.ofEnv (env : List (String × Num ℝ)) : Except PyErr NucleonArgs := do
  let nucleon_mass ← readVar .exception env "nucleon_mass"
  let magnetic_moment_proton ← readVar .exception env "magnetic_moment_proton"
  let magnetic_moment_neutron ← readVar .exception env "magnetic_moment_neutron"
  let t_0_dirac_isoscalar ← readVar .exception env "t_0_dirac_isoscalar"
  let t_in_dirac_isoscalar ← readVar .exception env "t_in_dirac_isoscalar"
  let t_0_dirac_isovector ← readVar .exception env "t_0_dirac_isovector"
  let t_in_dirac_isovector ← readVar .exception env "t_in_dirac_isovector"
  let t_0_pauli_isoscalar ← readVar .exception env "t_0_pauli_isoscalar"
  let t_in_pauli_isoscalar ← readVar .exception env "t_in_pauli_isoscalar"
  let t_0_pauli_isovector ← readVar .exception env "t_0_pauli_isovector"
  let t_in_pauli_isovector ← readVar .exception env "t_in_pauli_isovector"
  let a_dirac_omega ← readVar .exception env "a_dirac_omega"
  let a_dirac_omega_prime ← readVar .exception env "a_dirac_omega_prime"
  let a_dirac_phi ← readVar .exception env "a_dirac_phi"
  let a_dirac_phi_prime ← readVar .exception env "a_dirac_phi_prime"
  let a_dirac_rho ← readVar .exception env "a_dirac_rho"
  let a_pauli_omega ← readVar .exception env "a_pauli_omega"
  let a_pauli_phi ← readVar .exception env "a_pauli_phi"
  let a_pauli_phi_prime ← readVar .exception env "a_pauli_phi_prime"
  let mass_omega ← readVar .exception env "mass_omega"
  let decay_rate_omega ← readVar .exception env "decay_rate_omega"
  let mass_omega_prime ← readVar .exception env "mass_omega_prime"
  let decay_rate_omega_prime ← readVar .exception env "decay_rate_omega_prime"
  let mass_omega_double_prime ← readVar .exception env "mass_omega_double_prime"
  let decay_rate_omega_double_prime ← readVar .exception env "decay_rate_omega_double_prime"
  let mass_phi ← readVar .exception env "mass_phi"
  let decay_rate_phi ← readVar .exception env "decay_rate_phi"
  let mass_phi_prime ← readVar .exception env "mass_phi_prime"
  let decay_rate_phi_prime ← readVar .exception env "decay_rate_phi_prime"
  let mass_phi_double_prime ← readVar .exception env "mass_phi_double_prime"
  let decay_rate_phi_double_prime ← readVar .exception env "decay_rate_phi_double_prime"
  let mass_rho ← readVar .exception env "mass_rho"
  let decay_rate_rho ← readVar .exception env "decay_rate_rho"
  let mass_rho_prime ← readVar .exception env "mass_rho_prime"
  let decay_rate_rho_prime ← readVar .exception env "decay_rate_rho_prime"
  let mass_rho_double_prime ← readVar .exception env "mass_rho_double_prime"
  let decay_rate_rho_double_prime ← readVar .exception env "decay_rate_rho_double_prime"
  return {
    nucleon_mass := nucleon_mass
    magnetic_moment_proton := magnetic_moment_proton
    magnetic_moment_neutron := magnetic_moment_neutron
    t_0_dirac_isoscalar := t_0_dirac_isoscalar
    t_in_dirac_isoscalar := t_in_dirac_isoscalar
    t_0_dirac_isovector := t_0_dirac_isovector
    t_in_dirac_isovector := t_in_dirac_isovector
    t_0_pauli_isoscalar := t_0_pauli_isoscalar
    t_in_pauli_isoscalar := t_in_pauli_isoscalar
    t_0_pauli_isovector := t_0_pauli_isovector
    t_in_pauli_isovector := t_in_pauli_isovector
    a_dirac_omega := a_dirac_omega
    a_dirac_omega_prime := a_dirac_omega_prime
    a_dirac_phi := a_dirac_phi
    a_dirac_phi_prime := a_dirac_phi_prime
    a_dirac_rho := a_dirac_rho
    a_pauli_omega := a_pauli_omega
    a_pauli_phi := a_pauli_phi
    a_pauli_phi_prime := a_pauli_phi_prime
    mass_omega := mass_omega
    decay_rate_omega := decay_rate_omega
    mass_omega_prime := mass_omega_prime
    decay_rate_omega_prime := decay_rate_omega_prime
    mass_omega_double_prime := mass_omega_double_prime
    decay_rate_omega_double_prime := decay_rate_omega_double_prime
    mass_phi := mass_phi
    decay_rate_phi := decay_rate_phi
    mass_phi_prime := mass_phi_prime
    decay_rate_phi_prime := decay_rate_phi_prime
    mass_phi_double_prime := mass_phi_double_prime
    decay_rate_phi_double_prime := decay_rate_phi_double_prime
    mass_rho := mass_rho
    decay_rate_rho := decay_rate_rho
    mass_rho_prime := mass_rho_prime
    decay_rate_rho_prime := decay_rate_rho_prime
    mass_rho_double_prime := mass_rho_double_prime
    decay_rate_rho_double_prime := decay_rate_rho_double_prime }

/-- `KaonUAModel(charged_variant=True, **kw)`; a `charged_variant` in `kw` would be a repeated keyword, also a `TypeError`. -/
noncomputable def KaonUAModel.initKw (charged_variant : Bool) (kw : List (String × Num ℝ)) : Except Stop KaonUAModel := do
  let env ← raises (bindKwargs UA.KaonUAModel.argNames kw)
  let x ← raises (KaonUAModel.Args.ofEnv env)
  KaonUAModel.init charged_variant x

/-- `KaonUAModelB(charged_variant=True, **kw)`. -/
noncomputable def KaonUAModelB.initKw (charged_variant : Bool) (kw : List (String × Num ℝ)) : Except Stop KaonUAModelB := do
  let env ← raises (bindKwargs UA.KaonUAModelB.argNames kw)
  let x ← raises (KaonUAModelB.Args.ofEnv env)
  KaonUAModelB.init charged_variant x

/-- `KaonUAModelSimplified(charged_variant=True, **kw)`. -/
noncomputable def KaonUAModelSimplified.initKw (charged_variant : Bool) (kw : List (String × Num ℝ)) : Except Stop KaonUAModelSimplified := do
  let env ← raises (bindKwargs UA.KaonUAModelSimplified.argNames kw)
  let x ← raises (KaonUAModelSimplified.Args.ofEnv env)
  KaonUAModelSimplified.init charged_variant x

/-- `NucleonUAModel(proton=True, electric=True, **kw)`. -/
noncomputable def NucleonUAModel.initKw (proton electric : Bool) (kw : List (String × Num ℝ)) : Except Stop NucleonUAModel := do
  let env ← raises (bindKwargs UA.NucleonUAModel.argNames kw)
  let x ← raises (NucleonArgs.ofEnv env)
  NucleonUAModel.init proton electric x

/-- `_get_ff_model`, `common/utils.py:75-95`. The classes do not inherit from one another, so `isinstance` is equality of the
class. The oscillation parameters (`task/ResidualOscillationsTask.py:15`) are the ones that end in the `else` branch. -/
noncomputable def getFFModel (parameters : ModelParameters (Num ℝ)) : Except Stop FFModel :=
  match parameters.cls with
  | .kaon => do let m ← KaonUAModel.initKw true (asKwargs parameters); return .kaon m
  | .kaonB => do let m ← KaonUAModelB.initKw true (asKwargs parameters); return .kaonB m
  | .kaonSimplified => do let m ← KaonUAModelSimplified.initKw true (asKwargs parameters); return .kaonSimplified m
  | .kaonFixedRhoOmega => do let m ← KaonUAModel.initKw true (asKwargs parameters); return .kaon m
  | .kaonFixedSelected => do let m ← KaonUAModel.initKw true (asKwargs parameters); return .kaon m
  | .nucleon => do let m ← NucleonUAModel.initKw true true (asKwargs parameters); return .nucleon m
  | .etgmr => do
    let a ← raises (parameters.getItem "a")
    let m_a ← raises (parameters.getItem "m_a")
    let m_d ← raises (parameters.getItem "m_d")
    return .etgmr (ETGMRModel.init a.value m_a.value m_d.value)
  | .twoPoles => do
    let a ← raises (parameters.getItem "a")
    let m_1 ← raises (parameters.getItem "m_1")
    let m_2 ← raises (parameters.getItem "m_2")
    return .twoPoles (TwoPolesModel.init a.value m_1.value m_2.value)
  | .oscillations => .error (.raised .typeError)

/-- The loop at `common/utils.py:136-139`, for an object with a `charged_variant` attribute and a pure `__call__`. -/
noncomputable def kaonLoop {σ : Type} (setCharged : Bool → σ → σ) (call : σ → Num ℂ → Except Stop (Num ℂ)) :
    List Datapoint → σ → Except Stop (List (Num ℝ))
  | [], _ => .ok []
  | datapoint :: ts, ff_model => do
    let (t, is_charged) ← raises (readDatapointKaon datapoint)
    let ff_model := setCharged is_charged ff_model
    let F ← call ff_model (py t)
    let results ← kaonLoop setCharged call ts ff_model
    return F.abs :: results

/-- The loop at `common/utils.py:141-145`, for an object whose `proton` and `electric` attributes are assigned and whose call
may change the object (caches). -/
noncomputable def nucleonLoop {σ : Type} (setSwitches : Bool → Bool → σ → σ) (call : σ → Num ℂ → Except Stop (Num ℂ) × σ) :
    List Datapoint → σ → Except Stop (List (Num ℝ))
  | [], _ => .ok []
  | datapoint :: ts, ff_model => do
    let (t, is_proton, is_electric) ← raises (readDatapointNucleon datapoint)
    let ff_model := setSwitches is_proton is_electric ff_model
    match call ff_model (py t) with
    | (.error e, _) => .error e
    | (.ok F, ff_model) =>
      let results ← nucleonLoop setSwitches call ts ff_model
      return F.abs :: results

/-- `function_form_factor`, `common/utils.py:123-147`; `_is_kaon_type_model` (`:114-120`) is the case distinction. Assigning
`proton` and `electric` to an `ETGMRModel` or `TwoPolesModel` creates attributes its `__call__` does not read. -/
noncomputable def functionFormFactor (ts : List Datapoint) (parameters : ModelParameters (Num ℝ)) : Except Stop (List (Num ℝ)) := do
  let ff_model ← getFFModel parameters
  match ff_model with
  | .kaon m => kaonLoop (fun b m => { m with charged_variant := b }) KaonUAModel.call ts m
  | .kaonB m => kaonLoop (fun b m => { m with charged_variant := b }) KaonUAModelB.call ts m
  | .kaonSimplified m => kaonLoop (fun b m => { m with charged_variant := b }) KaonUAModelSimplified.call ts m
  | .nucleon m => nucleonLoop (fun p e (m : NucleonUAModel) => { m with proton := p, electric := e }) NucleonUAModel.call ts m
  | .etgmr m => nucleonLoop (fun _ _ m => m) (fun (m : ETGMRModel) t => (m.call t, m)) ts m
  | .twoPoles m => nucleonLoop (fun _ _ m => m) (fun (m : TwoPolesModel) t => (m.call t, m)) ts m

/-! ### `function_cross_section` -/

/-- The loop at `common/utils.py:185-188` when `cross_section_model` is an `ETGMRModel` or a `TwoPolesModel`: these objects have
no attribute `form_factor`. -/
noncomputable def noFormFactorLoop : List Datapoint → Except Stop (List (Num ℝ))
  | [] => .ok []
  | datapoint :: _ => do
    let _ ← raises (readDatapointNucleon datapoint)
    .error (.raised .attributeError)

/-- `function_cross_section`, `common/utils.py:150-190`. The constants pass through a `ConfigParser` as `str(x)` and are read
back with `float`, which is the identity on floats. -/
noncomputable def functionCrossSection (ts : List Datapoint) (product_particle_mass alpha hc_squared : ℝ)
    (parameters : ModelParameters (Num ℝ)) : Except Stop (List (Num ℝ)) := do
  let ff_model ← getFFModel parameters
  let scalar := ScalarCS.init product_particle_mass alpha hc_squared
  match ff_model with
  | .kaon m => kaonLoop (fun b m => { m with charged_variant := b }) (fun m t => scalarCall scalar (KaonUAModel.call m) t) ts m
  | .kaonB m => kaonLoop (fun b m => { m with charged_variant := b }) (fun m t => scalarCall scalar (KaonUAModelB.call m) t) ts m
  | .kaonSimplified m =>
    kaonLoop (fun b m => { m with charged_variant := b }) (fun m t => scalarCall scalar (KaonUAModelSimplified.call m) t) ts m
  | .nucleon m =>
    nucleonLoop (fun p _ (m : NucleonUAModel) => { m with proton := p })
      (fun m t => nucleonCall (NucleonCS.init product_particle_mass alpha hc_squared) nucleonFF m t) ts m
  | .etgmr _ => noFormFactorLoop ts
  | .twoPoles _ => noFormFactorLoop ts

end UA.Kinded
