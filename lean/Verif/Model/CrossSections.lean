import Verif.Py
import Verif.Model.Nucleon
import Mathlib.Analysis.SpecialFunctions.Pow.Real

/-!
# Total cross sections and the conversion formulas

`/repo/cross_section/*.py`, `/repo/kaon_production/convert_cs_data_to_ff_data.py`,
`/repo/kaon_production/undress_measured_cross_section.py` and the formulas of
`/repo/task/ResidualOscillationsTask.py`.

`ConfigParser.getfloat` (reading a float that was written with `str`) is modelled as passing the number itself.
-/

namespace UA

open Complex

/-! ### `ScalarMesonProductionTotalCrossSection` -/

/-- The attributes `__init__` sets, `cross_section/ScalarMesonProductionTotalCrossSection.py:33-39`.
The form factor is an argument of `call` because the caller mutates the form-factor object between calls. -/
structure ScalarCS where
  meson_mass : ℝ
  alpha : ℝ
  hc_squared : ℝ
  precalculated_coefficient_1 : ℝ
  four_mass_squared : ℝ

/-- `cross_section/ScalarMesonProductionTotalCrossSection.py:15-39` (`__init__`). -/
noncomputable def ScalarCS.init (meson_mass alpha hc_squared : ℝ) : ScalarCS where
  meson_mass := meson_mass
  alpha := alpha
  hc_squared := hc_squared
  precalculated_coefficient_1 := hc_squared * Real.pi * alpha ^ 2 / 3
  four_mass_squared := 4 * meson_mass ^ 2

/-- `cross_section/ScalarMesonProductionTotalCrossSection.py:41-61` (`__call__`). Python's `** (3/2)` on a complex number (and
on a negative float) is the principal power; `0 ** 1.5` is `0`. -/
noncomputable def ScalarCS.call (self : ScalarCS) (form_factor : ℂ → Except PyErr ℂ) (t : ℂ) : Except PyErr ℂ := do
  let F ← form_factor t
  let form_factor_modulus : ℝ := ‖F‖
  let q ← pyDiv self.precalculated_coefficient_1 t
  let r ← pyDiv self.four_mass_squared t
  return q * (1 - r) ^ (3 / 2 : ℂ) * (form_factor_modulus : ℂ) ^ 2

/-! ### `NucleonPairToElectronPositronTotalCrossSection` -/

/-- A form-factor object with an `electric` attribute: what `NucleonPairToElectronPositronTotalCrossSection` uses of it.
A call may change the object (caches) and may raise; both are returned. -/
structure FormFactorObject (σ : Type) where
  setElectric : Bool → σ → σ
  call : σ → ℂ → Except PyErr ℂ × σ

/-- `NucleonUAModel` as such an object. -/
noncomputable def nucleonFF : FormFactorObject NucleonUAModel where
  setElectric b m := { m with electric := b }
  call m t := m.call t

/-- The attributes set by `cross_section/NucleonPairToElectronPositronTotalCrossSection.py:26-32`. -/
structure NucleonCS where
  nucleon_mass : ℝ
  alpha : ℝ
  hc_squared : ℝ
  precalculated_coefficient_1 : ℝ
  four_mass_squared : ℝ

/-- `cross_section/NucleonPairToElectronPositronTotalCrossSection.py:8-32` (`__init__`). -/
noncomputable def NucleonCS.init (nucleon_mass alpha hc_squared : ℝ) : NucleonCS where
  nucleon_mass := nucleon_mass
  alpha := alpha
  hc_squared := hc_squared
  precalculated_coefficient_1 := hc_squared * 4 * Real.pi * alpha ^ 2 / 3
  four_mass_squared := 4 * nucleon_mass ^ 2

/-- `cross_section/NucleonPairToElectronPositronTotalCrossSection.py:56-60`: the formula once the two moduli are known. -/
noncomputable def NucleonCS.formula (self : NucleonCS) (t : ℂ) (electric_modulus magnetic_modulus : ℝ) : Except PyErr ℂ := do
  let r ← pyDivR self.four_mass_squared ‖t‖
  let beta ← pySqrt (1 - r)
  let q ← pyDiv (self.precalculated_coefficient_1 * beta : ℝ) t
  let e ← pyDiv (self.four_mass_squared * electric_modulus ^ 2 : ℝ) (2 * t)
  return q * ((magnetic_modulus : ℂ) ^ 2 + e)

/-- `cross_section/NucleonPairToElectronPositronTotalCrossSection.py:34-60` (`__call__`): sets the switch, evaluates, flips the
switch, evaluates again. Returns the outcome and the form-factor object left behind. -/
noncomputable def NucleonCS.call {σ : Type} (self : NucleonCS) (ff : FormFactorObject σ) (s : σ) (t : ℂ) : Except PyErr ℂ × σ :=
  let s := ff.setElectric true s
  match ff.call s t with
  | (.error e, s) => (.error e, s)
  | (.ok GE, s) =>
    let s := ff.setElectric false s
    match ff.call s t with
    | (.error e, s) => (.error e, s)
    | (.ok GM, s) => (self.formula t ‖GE‖ ‖GM‖, s)

/-! ### `convert_cs_data_to_ff_data` -/

/-- A Python number that is a float or a complex. -/
inductive PyNum
  | float (x : ℝ)
  | cplx (z : ℂ)

/-- The function returned by `_get_coefficient_function`, `kaon_production/convert_cs_data_to_ff_data.py:7-17`, on a float `t`:
a negative float to the power 3/2 is a complex number in Python. -/
noncomputable def coefficientFunction (alpha hc_squared kaon_mass t : ℝ) : Except PyErr PyNum := do
  let four_mass_squared := 4 * kaon_mass ^ 2
  let const := hc_squared * Real.pi * alpha ^ 2 / 3
  let q ← pyDivR const t
  let r ← pyDivR four_mass_squared t
  if 1 - r < 0 then
    return .cplx ((q : ℂ) * ((1 - r : ℝ) : ℂ) ^ (3 / 2 : ℂ))
  else
    return .float (q * (1 - r) ^ (3 / 2 : ℝ))

/-- `kaon_production/convert_cs_data_to_ff_data.py:20-21`. -/
noncomputable def errorForSquareRoot (val err : ℝ) : Except PyErr ℝ := do
  let s ← pySqrt val
  let q ← pyDivR 1 (2 * s)
  return q * err

/-- The loop body `kaon_production/convert_cs_data_to_ff_data.py:35-38`. `math.sqrt` of a complex number is a `TypeError`
(the division before it cannot fail unless the coefficient is zero). -/
noncomputable def convertPoint (alpha hc_squared kaon_mass t cs err : ℝ) : Except PyErr (ℝ × ℝ × ℝ) := do
  match ← coefficientFunction alpha hc_squared kaon_mass t with
  | .cplx coeff =>
    let _ ← pyDiv cs coeff
    .error .typeError
  | .float coeff =>
    let q ← pyDivR cs coeff
    let ff ← pySqrt q
    let new_err ← pyDivR err (2 * coeff * ff)
    return (t, ff, new_err)

/-- The loop `kaon_production/convert_cs_data_to_ff_data.py:33-38` over the three columns. -/
noncomputable def convertAll (alpha hc_squared kaon_mass : ℝ) (ts css errs : List ℝ) : Except PyErr (List (ℝ × ℝ × ℝ)) :=
  (ts.zip (css.zip errs)).mapM fun p => convertPoint alpha hc_squared kaon_mass p.1 p.2.1 p.2.2

/-! ### `undress_measured_cross_section` -/

/-- `kaon_production/undress_measured_cross_section.py:5-6`. -/
noncomputable def errorForAddition (err1 err2 : ℝ) : ℝ := Real.sqrt (err1 ^ 2 + err2 ^ 2)

/-- `kaon_production/undress_measured_cross_section.py:9-12`. -/
noncomputable def errorForMultiplication (val1 err1 val2 err2 : ℝ) : Except PyErr ℝ := do
  let rel_err1 ← pyDivR err1 val1
  let rel_err2 ← pyDivR err2 val2
  return val1 * val2 * errorForAddition rel_err1 rel_err2

/-- `kaon_production/undress_measured_cross_section.py:15-24`. -/
noncomputable def undressCrossSectionMeasurement (alpha_0 alpha_s alpha_err cs_val cs_err_stat : ℝ) (cs_err_sys : Option ℝ) :
    Except PyErr (ℝ × ℝ) := do
  let cs_err := match cs_err_sys with
    | none => cs_err_stat
    | some s => errorForAddition cs_err_stat s
  let q ← pyDivR alpha_0 alpha_s
  let factor := q ^ 2
  let r ← pyDivR factor alpha_s
  let factor_err := 2 * r * alpha_err
  let e ← errorForMultiplication factor factor_err cs_val cs_err
  return (cs_val * factor, e)

/-! ### Formulas of `ResidualOscillationsTask` -/

/-- `task/ResidualOscillationsTask.py:112-119`. -/
noncomputable def transformToEffectiveFormFactor (product_particle_mass alpha cs err t : ℝ) : Except PyErr (ℝ × ℝ) := do
  let tau ← pyDivR t (4 * product_particle_mass ^ 2)
  let i ← pyDivR 1 tau
  let beta ← pySqrt (1 - i)
  let i' ← pyDivR 1 tau
  let denominator := 2 * Real.pi * alpha ^ 2 * beta * (2 + i')
  let ff_squared ← pyDivR (3 * t * cs) denominator
  let error_for_ff_squared ← pyDivR (3 * t * err) denominator
  let ff ← pySqrt ff_squared
  let e ← pyDivR (0.5 * error_for_ff_squared) ff
  return (ff, e)

/-- The momentum `task/ResidualOscillationsTask.py:174` and `:179` compute from a `t`. -/
noncomputable def labMomentum (m t : ℝ) : Except PyErr ℝ := do
  let s ← pySqrt (t * (t - 4 * m ^ 2))
  pyDivR s (2 * m)

end UA
