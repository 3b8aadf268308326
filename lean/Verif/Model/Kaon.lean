import Verif.Model.Components

/-!
# Model of `ua_model/KaonUAModel.py`, `KaonUAModelB.py`, `KaonUAModelSimplified.py`

For each class: the constructor arguments, the attributes of the object, `__init__`, the two contributions, `__call__`.
The loops `for resonance_name in [...]: ... __getattribute__('mass_' + resonance_name) ... __setattr__(...)` are unrolled
in the order of the list; nothing else is simplified.
-/

namespace UA

open Complex

/-- The numeric arguments of `KaonUAModel.__init__` (`ua_model/KaonUAModel.py:14-46`), `charged_variant` apart. -/
structure KaonUAModel.Args where
  t_0_isoscalar : ℝ
  t_in_isoscalar : ℝ
  t_0_isovector : ℝ
  t_in_isovector : ℝ
  a_omega : ℝ
  a_omega_prime : ℝ
  a_omega_double_prime : ℝ
  a_phi : ℝ
  a_phi_prime : ℝ
  a_rho : ℝ
  a_rho_prime : ℝ
  a_rho_double_prime : ℝ
  mass_omega : ℝ
  decay_rate_omega : ℝ
  mass_omega_prime : ℝ
  decay_rate_omega_prime : ℝ
  mass_omega_double_prime : ℝ
  decay_rate_omega_double_prime : ℝ
  mass_phi : ℝ
  decay_rate_phi : ℝ
  mass_phi_prime : ℝ
  decay_rate_phi_prime : ℝ
  mass_phi_double_prime : ℝ
  decay_rate_phi_double_prime : ℝ
  mass_rho : ℝ
  decay_rate_rho : ℝ
  mass_rho_prime : ℝ
  decay_rate_rho_prime : ℝ
  mass_rho_double_prime : ℝ
  decay_rate_rho_double_prime : ℝ
  mass_rho_triple_prime : ℝ
  decay_rate_rho_triple_prime : ℝ

/-- The attributes of a `KaonUAModel` object (`ua_model/KaonUAModel.py:12-113`). -/
structure KaonUAModel extends KaonUAModel.Args where
  charged_variant : Bool
  a_phi_double_prime : ℝ
  a_rho_triple_prime : ℝ
  t_to_W_isoscalar : MapFromTtoW
  t_to_W_isovector : MapFromTtoW
  component_omega : UAComponent
  component_omega_prime : UAComponent
  component_omega_double_prime : UAComponent
  component_phi : UAComponent
  component_phi_prime : UAComponent
  component_phi_double_prime : UAComponent
  component_rho : UAComponent
  component_rho_prime : UAComponent
  component_rho_double_prime : UAComponent
  component_rho_triple_prime : UAComponent

/-- `ua_model/KaonUAModel.py:12-113` `KaonUAModel.__init__`; derived couplings at 55-69, maps at 93-100, component loops at
147-157 and 159-164. -/
noncomputable def KaonUAModel.init (charged_variant : Bool) (x : KaonUAModel.Args) : Except PyErr KaonUAModel := do
  let a_phi_double_prime := 0.5 - x.a_omega - x.a_omega_prime - x.a_omega_double_prime - x.a_phi - x.a_phi_prime
  let a_rho_triple_prime := 0.5 - x.a_rho - x.a_rho_prime - x.a_rho_double_prime
  let t_to_W_isoscalar ← MapFromTtoW.init x.t_0_isoscalar x.t_in_isoscalar
  let t_to_W_isovector ← MapFromTtoW.init x.t_0_isovector x.t_in_isovector
  let component_omega ← buildComponent x.t_0_isoscalar x.t_in_isoscalar x.mass_omega x.decay_rate_omega
  let component_omega_prime ← buildComponent x.t_0_isoscalar x.t_in_isoscalar x.mass_omega_prime x.decay_rate_omega_prime
  let component_omega_double_prime ← buildComponent x.t_0_isoscalar x.t_in_isoscalar x.mass_omega_double_prime x.decay_rate_omega_double_prime
  let component_phi ← buildComponent x.t_0_isoscalar x.t_in_isoscalar x.mass_phi x.decay_rate_phi
  let component_phi_prime ← buildComponent x.t_0_isoscalar x.t_in_isoscalar x.mass_phi_prime x.decay_rate_phi_prime
  let component_phi_double_prime ← buildComponent x.t_0_isoscalar x.t_in_isoscalar x.mass_phi_double_prime x.decay_rate_phi_double_prime
  let component_rho ← buildComponent x.t_0_isovector x.t_in_isovector x.mass_rho x.decay_rate_rho
  let component_rho_prime ← buildComponent x.t_0_isovector x.t_in_isovector x.mass_rho_prime x.decay_rate_rho_prime
  let component_rho_double_prime ← buildComponent x.t_0_isovector x.t_in_isovector x.mass_rho_double_prime x.decay_rate_rho_double_prime
  let component_rho_triple_prime ← buildComponent x.t_0_isovector x.t_in_isovector x.mass_rho_triple_prime x.decay_rate_rho_triple_prime
  return { x with
    charged_variant := charged_variant, a_phi_double_prime := a_phi_double_prime, a_rho_triple_prime := a_rho_triple_prime,
    t_to_W_isoscalar := t_to_W_isoscalar, t_to_W_isovector := t_to_W_isovector,
    component_omega := component_omega,
    component_omega_prime := component_omega_prime,
    component_omega_double_prime := component_omega_double_prime,
    component_phi := component_phi,
    component_phi_prime := component_phi_prime,
    component_phi_double_prime := component_phi_double_prime,
    component_rho := component_rho,
    component_rho_prime := component_rho_prime,
    component_rho_double_prime := component_rho_double_prime,
    component_rho_triple_prime := component_rho_triple_prime }

/-- `ua_model/KaonUAModel.py:127-136` `_eval_isoscalar_contribution`. -/
noncomputable def KaonUAModel.evalIsoscalarContribution (m : KaonUAModel) (t : ℂ) : Except PyErr ℂ := do
  let w ← m.t_to_W_isoscalar.call t
  let omega ← m.component_omega.call w
  let omega_prime ← m.component_omega_prime.call w
  let omega_double_prime ← m.component_omega_double_prime.call w
  let phi ← m.component_phi.call w
  let phi_prime ← m.component_phi_prime.call w
  let phi_double_prime ← m.component_phi_double_prime.call w
  return (m.a_omega : ℂ) * omega
    + (m.a_omega_prime : ℂ) * omega_prime
    + (m.a_omega_double_prime : ℂ) * omega_double_prime
    + (m.a_phi : ℂ) * phi
    + (m.a_phi_prime : ℂ) * phi_prime
    + (m.a_phi_double_prime : ℂ) * phi_double_prime

/-- `ua_model/KaonUAModel.py:138-145` `_eval_isovector_contribution`. -/
noncomputable def KaonUAModel.evalIsovectorContribution (m : KaonUAModel) (t : ℂ) : Except PyErr ℂ := do
  let w ← m.t_to_W_isovector.call t
  let rho ← m.component_rho.call w
  let rho_prime ← m.component_rho_prime.call w
  let rho_double_prime ← m.component_rho_double_prime.call w
  let rho_triple_prime ← m.component_rho_triple_prime.call w
  return (m.a_rho : ℂ) * rho
    + (m.a_rho_prime : ℂ) * rho_prime
    + (m.a_rho_double_prime : ℂ) * rho_double_prime
    + (m.a_rho_triple_prime : ℂ) * rho_triple_prime

/-- `ua_model/KaonUAModel.py:115-125` `KaonUAModel.__call__`. -/
noncomputable def KaonUAModel.call (m : KaonUAModel) (t : ℂ) : Except PyErr ℂ := do
  if t.re < 0 then throw .valueError
  let isoscalar_contribution ← m.evalIsoscalarContribution t
  let isovector_contribution ← m.evalIsovectorContribution t
  if m.charged_variant then
    return isoscalar_contribution + isovector_contribution
  else
    return isoscalar_contribution - isovector_contribution

/-- The numeric arguments of `KaonUAModelB.__init__` (`ua_model/KaonUAModelB.py:17-43`), `charged_variant` apart. -/
structure KaonUAModelB.Args where
  t_0_isoscalar : ℝ
  t_in_isoscalar : ℝ
  t_0_isovector : ℝ
  t_in_isovector : ℝ
  a_omega : ℝ
  a_omega_double_prime : ℝ
  a_phi : ℝ
  a_phi_prime : ℝ
  a_rho : ℝ
  a_rho_prime : ℝ
  mass_omega : ℝ
  decay_rate_omega : ℝ
  mass_omega_double_prime : ℝ
  decay_rate_omega_double_prime : ℝ
  mass_phi : ℝ
  decay_rate_phi : ℝ
  mass_phi_prime : ℝ
  decay_rate_phi_prime : ℝ
  mass_phi_double_prime : ℝ
  decay_rate_phi_double_prime : ℝ
  mass_rho : ℝ
  decay_rate_rho : ℝ
  mass_rho_prime : ℝ
  decay_rate_rho_prime : ℝ
  mass_rho_double_prime : ℝ
  decay_rate_rho_double_prime : ℝ

/-- The attributes of a `KaonUAModelB` object (`ua_model/KaonUAModelB.py:15-102`). -/
structure KaonUAModelB extends KaonUAModelB.Args where
  charged_variant : Bool
  a_phi_double_prime : ℝ
  a_rho_double_prime : ℝ
  t_to_W_isoscalar : MapFromTtoW
  t_to_W_isovector : MapFromTtoW
  component_omega : UAComponent
  component_omega_double_prime : UAComponent
  component_phi : UAComponent
  component_phi_prime : UAComponent
  component_phi_double_prime : UAComponent
  component_rho : UAComponent
  component_rho_prime : UAComponent
  component_rho_double_prime : UAComponent

/-- `ua_model/KaonUAModelB.py:15-102` `KaonUAModelB.__init__`; derived couplings at 52-64, maps at 84-91, component loops at
134-144 and 146-151. -/
noncomputable def KaonUAModelB.init (charged_variant : Bool) (x : KaonUAModelB.Args) : Except PyErr KaonUAModelB := do
  let a_phi_double_prime := 0.5 - x.a_omega - x.a_omega_double_prime - x.a_phi - x.a_phi_prime
  let a_rho_double_prime := 0.5 - x.a_rho - x.a_rho_prime
  let t_to_W_isoscalar ← MapFromTtoW.init x.t_0_isoscalar x.t_in_isoscalar
  let t_to_W_isovector ← MapFromTtoW.init x.t_0_isovector x.t_in_isovector
  let component_omega ← buildComponent x.t_0_isoscalar x.t_in_isoscalar x.mass_omega x.decay_rate_omega
  let component_omega_double_prime ← buildComponent x.t_0_isoscalar x.t_in_isoscalar x.mass_omega_double_prime x.decay_rate_omega_double_prime
  let component_phi ← buildComponent x.t_0_isoscalar x.t_in_isoscalar x.mass_phi x.decay_rate_phi
  let component_phi_prime ← buildComponent x.t_0_isoscalar x.t_in_isoscalar x.mass_phi_prime x.decay_rate_phi_prime
  let component_phi_double_prime ← buildComponent x.t_0_isoscalar x.t_in_isoscalar x.mass_phi_double_prime x.decay_rate_phi_double_prime
  let component_rho ← buildComponent x.t_0_isovector x.t_in_isovector x.mass_rho x.decay_rate_rho
  let component_rho_prime ← buildComponent x.t_0_isovector x.t_in_isovector x.mass_rho_prime x.decay_rate_rho_prime
  let component_rho_double_prime ← buildComponent x.t_0_isovector x.t_in_isovector x.mass_rho_double_prime x.decay_rate_rho_double_prime
  return { x with
    charged_variant := charged_variant, a_phi_double_prime := a_phi_double_prime, a_rho_double_prime := a_rho_double_prime,
    t_to_W_isoscalar := t_to_W_isoscalar, t_to_W_isovector := t_to_W_isovector,
    component_omega := component_omega,
    component_omega_double_prime := component_omega_double_prime,
    component_phi := component_phi,
    component_phi_prime := component_phi_prime,
    component_phi_double_prime := component_phi_double_prime,
    component_rho := component_rho,
    component_rho_prime := component_rho_prime,
    component_rho_double_prime := component_rho_double_prime }

/-- `ua_model/KaonUAModelB.py:116-124` `_eval_isoscalar_contribution`. -/
noncomputable def KaonUAModelB.evalIsoscalarContribution (m : KaonUAModelB) (t : ℂ) : Except PyErr ℂ := do
  let w ← m.t_to_W_isoscalar.call t
  let omega ← m.component_omega.call w
  let omega_double_prime ← m.component_omega_double_prime.call w
  let phi ← m.component_phi.call w
  let phi_prime ← m.component_phi_prime.call w
  let phi_double_prime ← m.component_phi_double_prime.call w
  return (m.a_omega : ℂ) * omega
    + (m.a_omega_double_prime : ℂ) * omega_double_prime
    + (m.a_phi : ℂ) * phi
    + (m.a_phi_prime : ℂ) * phi_prime
    + (m.a_phi_double_prime : ℂ) * phi_double_prime

/-- `ua_model/KaonUAModelB.py:126-132` `_eval_isovector_contribution`. -/
noncomputable def KaonUAModelB.evalIsovectorContribution (m : KaonUAModelB) (t : ℂ) : Except PyErr ℂ := do
  let w ← m.t_to_W_isovector.call t
  let rho ← m.component_rho.call w
  let rho_prime ← m.component_rho_prime.call w
  let rho_double_prime ← m.component_rho_double_prime.call w
  return (m.a_rho : ℂ) * rho
    + (m.a_rho_prime : ℂ) * rho_prime
    + (m.a_rho_double_prime : ℂ) * rho_double_prime

/-- `ua_model/KaonUAModelB.py:104-114` `KaonUAModelB.__call__`. -/
noncomputable def KaonUAModelB.call (m : KaonUAModelB) (t : ℂ) : Except PyErr ℂ := do
  if t.re < 0 then throw .valueError
  let isoscalar_contribution ← m.evalIsoscalarContribution t
  let isovector_contribution ← m.evalIsovectorContribution t
  if m.charged_variant then
    return isoscalar_contribution + isovector_contribution
  else
    return isoscalar_contribution - isovector_contribution

/-- The numeric arguments of `KaonUAModelSimplified.__init__` (`ua_model/KaonUAModelSimplified.py:18-44`), `charged_variant` apart. -/
structure KaonUAModelSimplified.Args where
  t_0_isoscalar : ℝ
  t_in_isoscalar : ℝ
  t_0_isovector : ℝ
  t_in_isovector : ℝ
  a_omega_prime : ℝ
  a_omega_double_prime : ℝ
  a_phi : ℝ
  a_phi_prime : ℝ
  a_rho_prime : ℝ
  a_rho_double_prime : ℝ
  mass_omega_prime : ℝ
  decay_rate_omega_prime : ℝ
  mass_omega_double_prime : ℝ
  decay_rate_omega_double_prime : ℝ
  mass_phi : ℝ
  decay_rate_phi : ℝ
  mass_phi_prime : ℝ
  decay_rate_phi_prime : ℝ
  mass_phi_double_prime : ℝ
  decay_rate_phi_double_prime : ℝ
  mass_rho_prime : ℝ
  decay_rate_rho_prime : ℝ
  mass_rho_double_prime : ℝ
  decay_rate_rho_double_prime : ℝ
  mass_rho_triple_prime : ℝ
  decay_rate_rho_triple_prime : ℝ

/-- The attributes of a `KaonUAModelSimplified` object (`ua_model/KaonUAModelSimplified.py:16-103`). -/
structure KaonUAModelSimplified extends KaonUAModelSimplified.Args where
  charged_variant : Bool
  a_phi_double_prime : ℝ
  a_rho_triple_prime : ℝ
  t_to_W_isoscalar : MapFromTtoW
  t_to_W_isovector : MapFromTtoW
  component_omega_prime : UAComponent
  component_omega_double_prime : UAComponent
  component_phi : UAComponent
  component_phi_prime : UAComponent
  component_phi_double_prime : UAComponent
  component_rho_prime : UAComponent
  component_rho_double_prime : UAComponent
  component_rho_triple_prime : UAComponent

/-- `ua_model/KaonUAModelSimplified.py:16-103` `KaonUAModelSimplified.__init__`; derived couplings at 53-65, maps at 85-92, component loops at
135-145 and 147-152. -/
noncomputable def KaonUAModelSimplified.init (charged_variant : Bool) (x : KaonUAModelSimplified.Args) : Except PyErr KaonUAModelSimplified := do
  let a_phi_double_prime := 0.5 - x.a_omega_prime - x.a_omega_double_prime - x.a_phi - x.a_phi_prime
  let a_rho_triple_prime := 0.5 - x.a_rho_prime - x.a_rho_double_prime
  let t_to_W_isoscalar ← MapFromTtoW.init x.t_0_isoscalar x.t_in_isoscalar
  let t_to_W_isovector ← MapFromTtoW.init x.t_0_isovector x.t_in_isovector
  let component_omega_prime ← buildComponent x.t_0_isoscalar x.t_in_isoscalar x.mass_omega_prime x.decay_rate_omega_prime
  let component_omega_double_prime ← buildComponent x.t_0_isoscalar x.t_in_isoscalar x.mass_omega_double_prime x.decay_rate_omega_double_prime
  let component_phi ← buildComponent x.t_0_isoscalar x.t_in_isoscalar x.mass_phi x.decay_rate_phi
  let component_phi_prime ← buildComponent x.t_0_isoscalar x.t_in_isoscalar x.mass_phi_prime x.decay_rate_phi_prime
  let component_phi_double_prime ← buildComponent x.t_0_isoscalar x.t_in_isoscalar x.mass_phi_double_prime x.decay_rate_phi_double_prime
  let component_rho_prime ← buildComponent x.t_0_isovector x.t_in_isovector x.mass_rho_prime x.decay_rate_rho_prime
  let component_rho_double_prime ← buildComponent x.t_0_isovector x.t_in_isovector x.mass_rho_double_prime x.decay_rate_rho_double_prime
  let component_rho_triple_prime ← buildComponent x.t_0_isovector x.t_in_isovector x.mass_rho_triple_prime x.decay_rate_rho_triple_prime
  return { x with
    charged_variant := charged_variant, a_phi_double_prime := a_phi_double_prime, a_rho_triple_prime := a_rho_triple_prime,
    t_to_W_isoscalar := t_to_W_isoscalar, t_to_W_isovector := t_to_W_isovector,
    component_omega_prime := component_omega_prime,
    component_omega_double_prime := component_omega_double_prime,
    component_phi := component_phi,
    component_phi_prime := component_phi_prime,
    component_phi_double_prime := component_phi_double_prime,
    component_rho_prime := component_rho_prime,
    component_rho_double_prime := component_rho_double_prime,
    component_rho_triple_prime := component_rho_triple_prime }

/-- `ua_model/KaonUAModelSimplified.py:117-125` `_eval_isoscalar_contribution`. -/
noncomputable def KaonUAModelSimplified.evalIsoscalarContribution (m : KaonUAModelSimplified) (t : ℂ) : Except PyErr ℂ := do
  let w ← m.t_to_W_isoscalar.call t
  let omega_prime ← m.component_omega_prime.call w
  let omega_double_prime ← m.component_omega_double_prime.call w
  let phi ← m.component_phi.call w
  let phi_prime ← m.component_phi_prime.call w
  let phi_double_prime ← m.component_phi_double_prime.call w
  return (m.a_omega_prime : ℂ) * omega_prime
    + (m.a_omega_double_prime : ℂ) * omega_double_prime
    + (m.a_phi : ℂ) * phi
    + (m.a_phi_prime : ℂ) * phi_prime
    + (m.a_phi_double_prime : ℂ) * phi_double_prime

/-- `ua_model/KaonUAModelSimplified.py:127-133` `_eval_isovector_contribution`. -/
noncomputable def KaonUAModelSimplified.evalIsovectorContribution (m : KaonUAModelSimplified) (t : ℂ) : Except PyErr ℂ := do
  let w ← m.t_to_W_isovector.call t
  let rho_prime ← m.component_rho_prime.call w
  let rho_double_prime ← m.component_rho_double_prime.call w
  let rho_triple_prime ← m.component_rho_triple_prime.call w
  return (m.a_rho_prime : ℂ) * rho_prime
    + (m.a_rho_double_prime : ℂ) * rho_double_prime
    + (m.a_rho_triple_prime : ℂ) * rho_triple_prime

/-- `ua_model/KaonUAModelSimplified.py:105-115` `KaonUAModelSimplified.__call__`. -/
noncomputable def KaonUAModelSimplified.call (m : KaonUAModelSimplified) (t : ℂ) : Except PyErr ℂ := do
  if t.re < 0 then throw .valueError
  let isoscalar_contribution ← m.evalIsoscalarContribution t
  let isovector_contribution ← m.evalIsovectorContribution t
  if m.charged_variant then
    return isoscalar_contribution + isovector_contribution
  else
    return isoscalar_contribution - isovector_contribution

end UA
