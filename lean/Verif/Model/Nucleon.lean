import Verif.Model.Components

/-!
# Model of `ua_model/NucleonUAModel.py` and `ua_model/NucleonUAModelOld.py`

The attributes `_dirac_component_<name>` (and `_pauli_component_<name>`) are the fields of a record indexed by the resonance
name; the loops over resonance names (with `__getattribute__` / `__setattr__`) are unrolled in the order of the list.
`NucleonUAModel` keeps a mutable dictionary of mass terms: its evaluation methods run in `CacheM`, which returns the outcome
(value or exception) together with the dictionary left behind.
-/

namespace UA

open Complex ComplexConjugate

/-- The numeric arguments of `NucleonUAModel.__init__` (`ua_model/NucleonUAModel.py:16-52`, the same list in
`NucleonUAModelOld.py:16-52`); the switches `proton`, `electric` apart. -/
structure NucleonArgs where
  nucleon_mass : ℝ
  magnetic_moment_proton : ℝ
  magnetic_moment_neutron : ℝ
  t_0_dirac_isoscalar : ℝ
  t_in_dirac_isoscalar : ℝ
  t_0_dirac_isovector : ℝ
  t_in_dirac_isovector : ℝ
  t_0_pauli_isoscalar : ℝ
  t_in_pauli_isoscalar : ℝ
  t_0_pauli_isovector : ℝ
  t_in_pauli_isovector : ℝ
  a_dirac_omega : ℝ
  a_dirac_omega_prime : ℝ
  a_dirac_phi : ℝ
  a_dirac_phi_prime : ℝ
  a_dirac_rho : ℝ
  a_pauli_omega : ℝ
  a_pauli_phi : ℝ
  a_pauli_phi_prime : ℝ
  mass_omega : ℝ
  decay_rate_omega : ℝ
  mass_omega_prime : ℝ
  decay_rate_omega_prime : ℝ
  mass_omega_double_prime : ℝ
  decay_rate_omega_double_prime : ℝ
  mass_phi : ℝ
  decay_rate_phi : ℝ
  mass_phi_prime : ℝ
  decay_rate_phi_prime : ℝ
  mass_phi_double_prime : ℝ
  decay_rate_phi_double_prime : ℝ
  mass_rho : ℝ
  decay_rate_rho : ℝ
  mass_rho_prime : ℝ
  decay_rate_rho_prime : ℝ
  mass_rho_double_prime : ℝ
  decay_rate_rho_double_prime : ℝ

/-- One value per isoscalar resonance (the list at `NucleonUAModel.py:328-331`, `NucleonUAModelOld.py:305-308`). -/
structure Six (α : Type) where
  omega : α
  omega_prime : α
  omega_double_prime : α
  phi : α
  phi_prime : α
  phi_double_prime : α

/-- One value per isovector resonance (the list at `NucleonUAModel.py:340`, `NucleonUAModelOld.py:317`). -/
structure Three (α : Type) where
  rho : α
  rho_prime : α
  rho_double_prime : α

/-- The expression returned by `_eval_dirac_isoscalar_contribution` (`NucleonUAModel.py:177-215`).  `K` are the components,
`c` the numbers called `c_<resonance>` there.  `NucleonUAModelOld.py:167-205` is the same expression with
`self.mass_<resonance> ** 2` in place of `c_<resonance>` (compared mechanically). -/
noncomputable def diracIsoscalarExpr (x : NucleonArgs) (K : Six UAComponent) (c : Six ℂ) (w : ℂ) : Except PyErr ℂ := do
  return (
    0.5 * (← K.omega_double_prime.call w) * (← K.phi_double_prime.call w) + x.a_dirac_omega_prime *
    ((← pyDiv ((← K.phi_double_prime.call w) * (← K.omega_prime.call w) * (c.phi_double_prime -
    c.omega_prime)) (c.phi_double_prime - c.omega_double_prime)) + (← pyDiv ((← K.omega_double_prime.call w) *
    (← K.omega_prime.call w) * (c.omega_double_prime - c.omega_prime)) (c.omega_double_prime -
    c.phi_double_prime)) - (← K.omega_double_prime.call w) * (← K.phi_double_prime.call w)) + x.a_dirac_phi_prime *
    ((← pyDiv ((← K.phi_double_prime.call w) * (← K.phi_prime.call w) * (c.phi_double_prime -
    c.phi_prime)) (c.phi_double_prime - c.omega_double_prime)) + (← pyDiv ((← K.omega_double_prime.call w) *
    (← K.phi_prime.call w) * (c.omega_double_prime - c.phi_prime)) (c.omega_double_prime - c.phi_double_prime)) -
    (← K.omega_double_prime.call w) * (← K.phi_double_prime.call w)) + x.a_dirac_omega *
    ((← pyDiv ((← K.phi_double_prime.call w) * (← K.omega.call w) * (c.phi_double_prime -
    c.omega)) (c.phi_double_prime - c.omega_double_prime)) + (← pyDiv ((← K.omega_double_prime.call w) *
    (← K.omega.call w) * (c.omega_double_prime - c.omega)) (c.omega_double_prime - c.phi_double_prime)) -
    (← K.omega_double_prime.call w) * (← K.phi_double_prime.call w)) + x.a_dirac_phi *
    ((← pyDiv ((← K.phi_double_prime.call w) * (← K.phi.call w) * (c.phi_double_prime -
    c.phi)) (c.phi_double_prime - c.omega_double_prime)) + (← pyDiv ((← K.omega_double_prime.call w) *
    (← K.phi.call w) * (c.omega_double_prime - c.phi)) (c.omega_double_prime - c.phi_double_prime)) -
    (← K.omega_double_prime.call w) * (← K.phi_double_prime.call w)))

/-- The expression returned by `_eval_dirac_isovector_contribution` (`NucleonUAModel.py:224-235`;
`NucleonUAModelOld.py:209-220` with squared masses). -/
noncomputable def diracIsovectorExpr (x : NucleonArgs) (K : Three UAComponent) (c : Three ℂ) (w : ℂ) : Except PyErr ℂ := do
  return (
    0.5 * (← K.rho_prime.call w) * (← K.rho_double_prime.call w) + x.a_dirac_rho * ((← pyDiv ((← K.rho.call w) *
    (← K.rho_prime.call w) * (c.rho_prime - c.rho)) (c.rho_prime - c.rho_double_prime)) +
    (← pyDiv ((← K.rho.call w) * (← K.rho_double_prime.call w) * (c.rho_double_prime -
    c.rho)) (c.rho_double_prime - c.rho_prime)) - (← K.rho_prime.call w) * (← K.rho_double_prime.call w)))

/-- `norm` and the expression returned by `_eval_pauli_isoscalar_contribution` (`NucleonUAModel.py:247-317`;
`NucleonUAModelOld.py:224-294` with squared masses). -/
noncomputable def pauliIsoscalarExpr (x : NucleonArgs) (K : Six UAComponent) (c : Six ℂ) (w : ℂ) : Except PyErr ℂ := do
  let norm : ℂ := 0.5 * (x.magnetic_moment_proton + x.magnetic_moment_neutron - 1)
  return (
    norm * (← K.omega_double_prime.call w) * (← K.phi_double_prime.call w) * (← K.omega_prime.call w) +
    x.a_pauli_phi_prime * ((← K.phi_double_prime.call w) * (← K.phi_prime.call w) * (← K.omega_prime.call w) *
    (← pyDiv (c.phi_double_prime - c.phi_prime) (c.phi_double_prime - c.omega_double_prime)) *
    (← pyDiv (c.omega_prime - c.phi_prime) (c.omega_prime - c.omega_double_prime)) +
    (← K.omega_double_prime.call w) * (← K.omega_prime.call w) * (← K.phi_prime.call w) *
    (← pyDiv (c.omega_double_prime - c.phi_prime) (c.omega_double_prime - c.phi_double_prime)) *
    (← pyDiv (c.omega_prime - c.phi_prime) (c.omega_prime - c.phi_double_prime)) +
    (← K.omega_double_prime.call w) * (← K.phi_double_prime.call w) * (← K.phi_prime.call w) *
    (← pyDiv (c.omega_double_prime - c.phi_prime) (c.omega_double_prime - c.omega_prime)) *
    (← pyDiv (c.phi_double_prime - c.phi_prime) (c.phi_double_prime - c.omega_prime)) -
    (← K.omega_double_prime.call w) * (← K.phi_double_prime.call w) * (← K.omega_prime.call w)) + x.a_pauli_omega *
    ((← K.phi_double_prime.call w) * (← K.omega_prime.call w) * (← K.omega.call w) * (← pyDiv (c.phi_double_prime -
    c.omega) (c.phi_double_prime - c.omega_double_prime)) * (← pyDiv (c.omega_prime - c.omega) (c.omega_prime -
    c.omega_double_prime)) + (← K.omega_double_prime.call w) * (← K.omega_prime.call w) * (← K.omega.call w) *
    (← pyDiv (c.omega_double_prime - c.omega) (c.omega_double_prime - c.phi_double_prime)) *
    (← pyDiv (c.omega_prime - c.omega) (c.omega_prime - c.phi_double_prime)) + (← K.omega_double_prime.call w) *
    (← K.phi_double_prime.call w) * (← K.omega.call w) * (← pyDiv (c.omega_double_prime -
    c.omega) (c.omega_double_prime - c.omega_prime)) * (← pyDiv (c.phi_double_prime -
    c.omega) (c.phi_double_prime - c.omega_prime)) - (← K.omega_double_prime.call w) *
    (← K.phi_double_prime.call w) * (← K.omega_prime.call w)) + x.a_pauli_phi * ((← K.phi_double_prime.call w) *
    (← K.omega_prime.call w) * (← K.phi.call w) * (← pyDiv (c.phi_double_prime - c.phi) (c.phi_double_prime -
    c.omega_double_prime)) * (← pyDiv (c.omega_prime - c.phi) (c.omega_prime - c.omega_double_prime)) +
    (← K.omega_double_prime.call w) * (← K.omega_prime.call w) * (← K.phi.call w) *
    (← pyDiv (c.omega_double_prime - c.phi) (c.omega_double_prime - c.phi_double_prime)) *
    (← pyDiv (c.omega_prime - c.phi) (c.omega_prime - c.phi_double_prime)) + (← K.omega_double_prime.call w) *
    (← K.phi_double_prime.call w) * (← K.phi.call w) * (← pyDiv (c.omega_double_prime -
    c.phi) (c.omega_double_prime - c.omega_prime)) * (← pyDiv (c.phi_double_prime - c.phi) (c.phi_double_prime -
    c.omega_prime)) - (← K.omega_double_prime.call w) * (← K.phi_double_prime.call w) * (← K.omega_prime.call w)))

/-- `norm` and the expression returned by `_eval_pauli_isovector_contribution` (`NucleonUAModel.py:321-323`;
`NucleonUAModelOld.py:298-300`). -/
noncomputable def pauliIsovectorExpr (x : NucleonArgs) (K : Three UAComponent) (w : ℂ) : Except PyErr ℂ := do
  let norm : ℂ := 0.5 * (x.magnetic_moment_proton - x.magnetic_moment_neutron - 1)
  return (
    norm * (← K.rho.call w) * (← K.rho_prime.call w) * (← K.rho_double_prime.call w))

/-- `_initialize_isoscalar_components` (`NucleonUAModel.py:325-337`, `NucleonUAModelOld.py:302-314`); `build` is the class's
`_build_component`. -/
noncomputable def initIsoscalarComponents (build : ℝ → ℝ → ℝ → ℝ → Except PyErr UAComponent) (x : NucleonArgs)
    (t_0 t_in : ℝ) : Except PyErr (Six UAComponent) := do
  let omega ← build t_0 t_in x.mass_omega x.decay_rate_omega
  let omega_prime ← build t_0 t_in x.mass_omega_prime x.decay_rate_omega_prime
  let omega_double_prime ← build t_0 t_in x.mass_omega_double_prime x.decay_rate_omega_double_prime
  let phi ← build t_0 t_in x.mass_phi x.decay_rate_phi
  let phi_prime ← build t_0 t_in x.mass_phi_prime x.decay_rate_phi_prime
  let phi_double_prime ← build t_0 t_in x.mass_phi_double_prime x.decay_rate_phi_double_prime
  return ⟨omega, omega_prime, omega_double_prime, phi, phi_prime, phi_double_prime⟩

/-- `_initialize_isovector_components` (`NucleonUAModel.py:339-346`, `NucleonUAModelOld.py:316-323`). -/
noncomputable def initIsovectorComponents (build : ℝ → ℝ → ℝ → ℝ → Except PyErr UAComponent) (x : NucleonArgs)
    (t_0 t_in : ℝ) : Except PyErr (Three UAComponent) := do
  let rho ← build t_0 t_in x.mass_rho x.decay_rate_rho
  let rho_prime ← build t_0 t_in x.mass_rho_prime x.decay_rate_rho_prime
  let rho_double_prime ← build t_0 t_in x.mass_rho_double_prime x.decay_rate_rho_double_prime
  return ⟨rho, rho_prime, rho_double_prime⟩

/-- The attributes both classes share (`NucleonUAModel.py:54-141`, `NucleonUAModelOld.py:54-141`). -/
structure NucleonBase extends NucleonArgs where
  proton : Bool
  electric : Bool
  t_to_W_dirac_isoscalar : MapFromTtoW
  t_to_W_dirac_isovector : MapFromTtoW
  t_to_W_pauli_isoscalar : MapFromTtoW
  t_to_W_pauli_isovector : MapFromTtoW
  diracS : Six UAComponent
  diracV : Three UAComponent
  pauliS : Six UAComponent
  pauliV : Three UAComponent

/-- The common part of the two `__init__` (`NucleonUAModel.py:54-141`, `NucleonUAModelOld.py:54-141`). -/
noncomputable def NucleonBase.init (build : ℝ → ℝ → ℝ → ℝ → Except PyErr UAComponent) (proton electric : Bool)
    (x : NucleonArgs) : Except PyErr NucleonBase := do
  let mapDS ← MapFromTtoW.init x.t_0_dirac_isoscalar x.t_in_dirac_isoscalar
  let mapDV ← MapFromTtoW.init x.t_0_dirac_isovector x.t_in_dirac_isovector
  let mapPS ← MapFromTtoW.init x.t_0_pauli_isoscalar x.t_in_pauli_isoscalar
  let mapPV ← MapFromTtoW.init x.t_0_pauli_isovector x.t_in_pauli_isovector
  let diracS ← initIsoscalarComponents build x x.t_0_dirac_isoscalar x.t_in_dirac_isoscalar
  let diracV ← initIsovectorComponents build x x.t_0_dirac_isovector x.t_in_dirac_isovector
  let pauliS ← initIsoscalarComponents build x x.t_0_pauli_isoscalar x.t_in_pauli_isoscalar
  let pauliV ← initIsovectorComponents build x x.t_0_pauli_isovector x.t_in_pauli_isovector
  return { x with proton := proton, electric := electric, t_to_W_dirac_isoscalar := mapDS,
                  t_to_W_dirac_isovector := mapDV, t_to_W_pauli_isoscalar := mapPS, t_to_W_pauli_isovector := mapPV,
                  diracS := diracS, diracV := diracV, pauliS := pauliS, pauliV := pauliV }

/-- The last part of `__call__` (`NucleonUAModel.py:154-164`, `NucleonUAModelOld.py:152-162`): isospin combination, then
the Sachs combination.  `4 * self.nucleon_mass ** 2` is a float, the division raises `ZeroDivisionError` when it is zero. -/
noncomputable def NucleonBase.combine (m : NucleonBase) (t ds dv ps pv : ℂ) : Except PyErr ℂ :=
  let dirac_form_factor := if m.proton then ds + dv else ds - dv
  let pauli_form_factor := if m.proton then ps + pv else ps - pv
  if m.electric then do
    let k ← pyDiv t (4 * (m.nucleon_mass : ℂ) ^ 2)
    return dirac_form_factor + k * pauli_form_factor
  else
    return dirac_form_factor + pauli_form_factor

/-! ### `NucleonUAModelOld` -/

/-- `NucleonUAModelOld.py:12-141` `__init__`. -/
noncomputable def NucleonUAModelOld.init (proton electric : Bool) (x : NucleonArgs) : Except PyErr NucleonBase :=
  NucleonBase.init buildComponent proton electric x

/-- The squared masses used in `NucleonUAModelOld.py:167-205` and `224-294`. -/
noncomputable def NucleonArgs.squaresS (x : NucleonArgs) : Six ℂ :=
  ⟨(x.mass_omega : ℂ) ^ 2, (x.mass_omega_prime : ℂ) ^ 2, (x.mass_omega_double_prime : ℂ) ^ 2,
   (x.mass_phi : ℂ) ^ 2, (x.mass_phi_prime : ℂ) ^ 2, (x.mass_phi_double_prime : ℂ) ^ 2⟩
/-- The squared masses used in `NucleonUAModelOld.py:209-220`. -/
noncomputable def NucleonArgs.squaresV (x : NucleonArgs) : Three ℂ :=
  ⟨(x.mass_rho : ℂ) ^ 2, (x.mass_rho_prime : ℂ) ^ 2, (x.mass_rho_double_prime : ℂ) ^ 2⟩

/-- `NucleonUAModelOld.py:165-205`. -/
noncomputable def NucleonUAModelOld.evalDiracIsoscalar (m : NucleonBase) (t : ℂ) : Except PyErr ℂ := do
  let w ← m.t_to_W_dirac_isoscalar.call t
  diracIsoscalarExpr m.toNucleonArgs m.diracS m.squaresS w
/-- `NucleonUAModelOld.py:207-220`. -/
noncomputable def NucleonUAModelOld.evalDiracIsovector (m : NucleonBase) (t : ℂ) : Except PyErr ℂ := do
  let w ← m.t_to_W_dirac_isovector.call t
  diracIsovectorExpr m.toNucleonArgs m.diracV m.squaresV w
/-- `NucleonUAModelOld.py:222-294`. -/
noncomputable def NucleonUAModelOld.evalPauliIsoscalar (m : NucleonBase) (t : ℂ) : Except PyErr ℂ := do
  let w ← m.t_to_W_pauli_isoscalar.call t
  pauliIsoscalarExpr m.toNucleonArgs m.pauliS m.squaresS w
/-- `NucleonUAModelOld.py:296-300`. -/
noncomputable def NucleonUAModelOld.evalPauliIsovector (m : NucleonBase) (t : ℂ) : Except PyErr ℂ := do
  let w ← m.t_to_W_pauli_isovector.call t
  pauliIsovectorExpr m.toNucleonArgs m.pauliV w

/-- `NucleonUAModelOld.py:143-162` `__call__`. -/
noncomputable def NucleonUAModelOld.call (m : NucleonBase) (t : ℂ) : Except PyErr ℂ :=
  if t.re < 0 then throw .valueError
  else do
    let ds ← NucleonUAModelOld.evalDiracIsoscalar m t
    let dv ← NucleonUAModelOld.evalDiracIsovector m t
    let ps ← NucleonUAModelOld.evalPauliIsoscalar m t
    let pv ← NucleonUAModelOld.evalPauliIsovector m t
    m.combine t ds dv ps pv

/-! ### `NucleonUAModel` -/

/-- `_mass_terms_cache` (`NucleonUAModel.py:143`): a dictionary, modelled as a partial function because its order is never
used. -/
abbrev MassTermCache := String → Option ℂ

/-- Computations that may raise and that update the mass-term dictionary; the dictionary survives an exception. -/
abbrev CacheM (α : Type) := MassTermCache → Except PyErr α × MassTermCache

/-- Sequencing of cache computations (Python statement order). -/
def CacheM.bind {α β : Type} (x : CacheM α) (f : α → CacheM β) : CacheM β := fun c =>
  match x c with
  | (.error e, c') => (.error e, c')
  | (.ok a, c') => f a c'

/-- A computation that does not touch the cache. -/
def CacheM.lift {α : Type} (x : Except PyErr α) : CacheM α := fun c => (x, c)

/-- A `NucleonUAModel` object (`NucleonUAModel.py:54-143`). -/
structure NucleonUAModel extends NucleonBase where
  mass_terms_cache : MassTermCache

/-- `NucleonUAModel.py:12-143` `__init__`. -/
noncomputable def NucleonUAModel.init (proton electric : Bool) (x : NucleonArgs) : Except PyErr NucleonUAModel := do
  let b ← NucleonBase.init nucleonBuildComponent proton electric x
  return { b with mass_terms_cache := fun _ => none }

/-- `__getattribute__('mass_' + resonance)` (`NucleonUAModel.py:387`); `AttributeError` for an unknown resonance. -/
noncomputable def NucleonArgs.massOf (x : NucleonArgs) (resonance : String) : Except PyErr ℝ :=
  if resonance = "omega" then return x.mass_omega
  else if resonance = "omega_prime" then return x.mass_omega_prime
  else if resonance = "omega_double_prime" then return x.mass_omega_double_prime
  else if resonance = "phi" then return x.mass_phi
  else if resonance = "phi_prime" then return x.mass_phi_prime
  else if resonance = "phi_double_prime" then return x.mass_phi_double_prime
  else if resonance = "rho" then return x.mass_rho
  else if resonance = "rho_prime" then return x.mass_rho_prime
  else if resonance = "rho_double_prime" then return x.mass_rho_double_prime
  else throw .attributeError

/-- `__getattribute__('decay_rate_' + resonance)` (`NucleonUAModel.py:388`). -/
noncomputable def NucleonArgs.decayRateOf (x : NucleonArgs) (resonance : String) : Except PyErr ℝ :=
  if resonance = "omega" then return x.decay_rate_omega
  else if resonance = "omega_prime" then return x.decay_rate_omega_prime
  else if resonance = "omega_double_prime" then return x.decay_rate_omega_double_prime
  else if resonance = "phi" then return x.decay_rate_phi
  else if resonance = "phi_prime" then return x.decay_rate_phi_prime
  else if resonance = "phi_double_prime" then return x.decay_rate_phi_double_prime
  else if resonance = "rho" then return x.decay_rate_rho
  else if resonance = "rho_prime" then return x.decay_rate_rho_prime
  else if resonance = "rho_double_prime" then return x.decay_rate_rho_double_prime
  else throw .attributeError

/-- `NucleonUAModel.py:398-403` `_calculate_mass_term_a`. -/
noncomputable def calculateMassTermA (w_r w_n : ℂ) : Except PyErr ℂ := do
  let r ← pyDiv 1 w_r
  let rc ← pyDiv 1 (conj w_r)
  let numerator := (w_n - w_r) * (w_n - conj w_r) * (w_n - r) * (w_n - rc)
  let denominator : ℂ := - ((‖w_r - r‖ ^ 2 : ℝ) : ℂ)
  pyDiv numerator denominator

/-- `NucleonUAModel.py:405-410` `_calculate_mass_term_b`. -/
noncomputable def calculateMassTermB (w_r w_n : ℂ) : Except PyErr ℂ := do
  let numerator := (w_n - w_r) * (w_n - conj w_r) * (w_n + w_r) * (w_n + conj w_r)
  let r ← pyDiv 1 w_r
  let denominator : ℂ := - ((‖w_r - r‖ ^ 2 : ℝ) : ℂ)
  pyDiv numerator denominator

/-- `NucleonUAModel.py:377-396` `_calculate_mass_term`. -/
noncomputable def NucleonBase.calculateMassTerm (m : NucleonBase) (scalar dirac : Bool) (resonance : String) :
    Except PyErr ℂ := do
  let t_to_w := if scalar && dirac then m.t_to_W_dirac_isoscalar
    else if scalar && !dirac then m.t_to_W_pauli_isoscalar
    else if !scalar && dirac then m.t_to_W_dirac_isovector
    else m.t_to_W_pauli_isovector
  let mass ← m.massOf resonance
  let decay_rate ← m.decayRateOf resonance
  let pole : ℂ := mass - 0.5 * I * decay_rate
  let w_resonance ← t_to_w.call (pole ^ 2)
  let w_norm ← t_to_w.call 0
  if (pole ^ 2).re < t_to_w.t_in then calculateMassTermA w_resonance w_norm
  else calculateMassTermB w_resonance w_norm

/-- `NucleonUAModel.py:371-375` `_build_cache_key`. -/
def buildCacheKey (scalar dirac : Bool) (resonance : String) : String :=
  (if scalar then "isoscalar_" else "isovector_") ++ (if dirac then "dirac_" else "pauli_") ++ resonance

/-- `NucleonUAModel.py:362-369` `_get_mass_term`.  `if cached_val:` is false for a missing entry and for zero. -/
noncomputable def NucleonBase.getMassTerm (m : NucleonBase) (scalar dirac : Bool) (resonance : String) : CacheM ℂ :=
  fun cache =>
    let key := buildCacheKey scalar dirac resonance
    let compute : Except PyErr ℂ × MassTermCache :=
      match m.calculateMassTerm scalar dirac resonance with
      | .error e => (.error e, cache)
      | .ok val => (.ok val, fun k => if k = key then some val else cache k)
    match cache key with
    | none => compute
    | some v => open Classical in if v = 0 then compute else (.ok v, cache)

/-- The six look-ups at `NucleonUAModel.py:170-175` (`dirac = true`) and `240-245` (`dirac = false`). -/
noncomputable def NucleonBase.getMassTermsS (m : NucleonBase) (dirac : Bool) : CacheM (Six ℂ) :=
  (m.getMassTerm true dirac "omega").bind fun c0 =>
  (m.getMassTerm true dirac "omega_prime").bind fun c1 =>
  (m.getMassTerm true dirac "omega_double_prime").bind fun c2 =>
  (m.getMassTerm true dirac "phi").bind fun c3 =>
  (m.getMassTerm true dirac "phi_prime").bind fun c4 =>
  (m.getMassTerm true dirac "phi_double_prime").bind fun c5 =>
  CacheM.lift (.ok ⟨c0, c1, c2, c3, c4, c5⟩)

/-- The three look-ups at `NucleonUAModel.py:220-222`. -/
noncomputable def NucleonBase.getMassTermsV (m : NucleonBase) : CacheM (Three ℂ) :=
  (m.getMassTerm false true "rho").bind fun c0 =>
  (m.getMassTerm false true "rho_prime").bind fun c1 =>
  (m.getMassTerm false true "rho_double_prime").bind fun c2 =>
  CacheM.lift (.ok ⟨c0, c1, c2⟩)

/-- `NucleonUAModel.py:167-215`. -/
noncomputable def NucleonUAModel.evalDiracIsoscalar (m : NucleonBase) (t : ℂ) : CacheM ℂ :=
  (CacheM.lift (m.t_to_W_dirac_isoscalar.call t)).bind fun w =>
  (m.getMassTermsS true).bind fun c =>
  CacheM.lift (diracIsoscalarExpr m.toNucleonArgs m.diracS c w)
/-- `NucleonUAModel.py:217-235`. -/
noncomputable def NucleonUAModel.evalDiracIsovector (m : NucleonBase) (t : ℂ) : CacheM ℂ :=
  (CacheM.lift (m.t_to_W_dirac_isovector.call t)).bind fun w =>
  m.getMassTermsV.bind fun c =>
  CacheM.lift (diracIsovectorExpr m.toNucleonArgs m.diracV c w)
/-- `NucleonUAModel.py:237-317`. -/
noncomputable def NucleonUAModel.evalPauliIsoscalar (m : NucleonBase) (t : ℂ) : CacheM ℂ :=
  (CacheM.lift (m.t_to_W_pauli_isoscalar.call t)).bind fun w =>
  (m.getMassTermsS false).bind fun c =>
  CacheM.lift (pauliIsoscalarExpr m.toNucleonArgs m.pauliS c w)
/-- `NucleonUAModel.py:319-323`. -/
noncomputable def NucleonUAModel.evalPauliIsovector (m : NucleonBase) (t : ℂ) : CacheM ℂ :=
  (CacheM.lift (m.t_to_W_pauli_isovector.call t)).bind fun w =>
  CacheM.lift (pauliIsovectorExpr m.toNucleonArgs m.pauliV w)

/-- `NucleonUAModel.py:145-164` `__call__`: the outcome, and the object (with its updated cache) left behind. -/
noncomputable def NucleonUAModel.call (m : NucleonUAModel) (t : ℂ) : Except PyErr ℂ × NucleonUAModel :=
  let body : CacheM ℂ :=
    if t.re < 0 then CacheM.lift (throw .valueError)
    else
      (NucleonUAModel.evalDiracIsoscalar m.toNucleonBase t).bind fun ds =>
      (NucleonUAModel.evalDiracIsovector m.toNucleonBase t).bind fun dv =>
      (NucleonUAModel.evalPauliIsoscalar m.toNucleonBase t).bind fun ps =>
      (NucleonUAModel.evalPauliIsovector m.toNucleonBase t).bind fun pv =>
      CacheM.lift (m.combine t ds dv ps pv)
  let r := body m.mass_terms_cache
  (r.1, { m with mass_terms_cache := r.2 })

end UA
