import Verif.Model.Maps

/-!
# Model of `ua_model/ua_components/*.py` and of the `_build_component` static methods
-/

namespace UA

open Complex ComplexConjugate

/-- Which subclass of `UAComponent` an object belongs to
(`ua_model/ua_components/UAComponentVariantA.py:4`, `ua_model/ua_components/UAComponentVariantB.py:4`). -/
inductive Variant
  | A
  | B
deriving DecidableEq

/-- The attributes of a `UAComponent` (`ua_model/ua_components/UAComponent.py:18-24`), and its class. -/
structure UAComponent where
  variant : Variant
  w_n : ℂ
  w_meson : ℂ
  asymptotic_factor_denominator : ℂ
  resonant_factor_numerator : ℂ

/-- `UAComponentVariantA.py:26-32` `_eval_resonant_factor_numerator`. -/
noncomputable def variantANumerator (w_n w_meson : ℂ) : Except PyErr ℂ := do
  let r ← pyDiv 1 w_meson
  let rc ← pyDiv 1 (conj w_meson)
  return (w_n - w_meson) * (w_n - conj w_meson) * (w_n - r) * (w_n - rc)

/-- `ua_model/ua_components/UAComponentVariantB.py:25-31` `_eval_resonant_factor_numerator`. -/
noncomputable def variantBNumerator (w_n w_meson : ℂ) : Except PyErr ℂ :=
  return (w_n - w_meson) * (w_n - conj w_meson) * (w_n + w_meson) * (w_n + conj w_meson)

/-- `UAComponentVariantA.py:17-24` `_eval_resonant_factor`. -/
noncomputable def variantAResonantFactor (c : UAComponent) (w : ℂ) : Except PyErr ℂ := do
  let r ← pyDiv 1 c.w_meson
  let rc ← pyDiv 1 (conj c.w_meson)
  let denominator := (w - c.w_meson) * (w - conj c.w_meson) * (w - r) * (w - rc)
  pyDiv c.resonant_factor_numerator denominator

/-- `ua_model/ua_components/UAComponentVariantB.py:16-23` `_eval_resonant_factor`. -/
noncomputable def variantBResonantFactor (c : UAComponent) (w : ℂ) : Except PyErr ℂ := do
  let denominator := (w - c.w_meson) * (w - conj c.w_meson) * (w + c.w_meson) * (w + conj c.w_meson)
  pyDiv c.resonant_factor_numerator denominator

/-- Dynamic dispatch of `_eval_resonant_factor_numerator` (`UAComponent.py:24`, abstract at 63-74). -/
noncomputable def evalResonantFactorNumerator (v : Variant) (w_n w_meson : ℂ) : Except PyErr ℂ :=
  match v with
  | .A => variantANumerator w_n w_meson
  | .B => variantBNumerator w_n w_meson

/-- Dynamic dispatch of `_eval_resonant_factor` (`UAComponent.py:37`, abstract at 44-60). -/
noncomputable def UAComponent.evalResonantFactor (c : UAComponent) (w : ℂ) : Except PyErr ℂ :=
  match c.variant with
  | .A => variantAResonantFactor c w
  | .B => variantBResonantFactor c w

/-- `UAComponent.py:18-24` `UAComponent.__init__`. -/
noncomputable def UAComponent.init (v : Variant) (w_n w_meson : ℂ) : Except PyErr UAComponent := do
  let num ← evalResonantFactorNumerator v w_n w_meson
  return { variant := v, w_n := w_n, w_meson := w_meson,
           asymptotic_factor_denominator := (1 - w_n ^ 2) ^ 2, resonant_factor_numerator := num }

/-- `UAComponent.py:39-42` `_eval_asymptotic_factor`. -/
noncomputable def UAComponent.evalAsymptoticFactor (c : UAComponent) (w : ℂ) : Except PyErr ℂ :=
  pyDiv ((1 - w ^ 2) ^ 2) c.asymptotic_factor_denominator

/-- `UAComponent.py:26-37` `UAComponent.__call__`. -/
noncomputable def UAComponent.call (c : UAComponent) (w : ℂ) : Except PyErr ℂ := do
  let f ← c.evalAsymptoticFactor w
  let g ← c.evalResonantFactor w
  return f * g

/-- The resonance position `(mass - 1j * decay_rate / 2) ** 2` (`KaonUAModel.py:170`, and the same line of every other
`_build_component`). -/
noncomputable def tMesonPole (mass decay_rate : ℝ) : ℂ := ((mass : ℂ) - I * decay_rate / 2) ^ 2

/-- `_build_component` of `KaonUAModel.py:166-179`; the identical text is `KaonUAModelB.py:153-166`,
`KaonUAModelSimplified.py:154-167`, `SingleComponentModel.py:34-47` and `NucleonUAModelOld.py:325-338`.
The thresholds compare `mass ** 2`. -/
noncomputable def buildComponent (t_0 t_in mass decay_rate : ℝ) : Except PyErr UAComponent := do
  let map_from_t_to_w ← MapFromTtoW.init t_0 t_in
  let w_n ← map_from_t_to_w.call 0
  let t_meson_pole := tMesonPole mass decay_rate
  let w_meson ← map_from_t_to_w.call t_meson_pole
  let mass_squared := mass ^ 2
  if mass_squared < t_0 then throw .valueError
  else if mass_squared < t_in then UAComponent.init .A w_n w_meson
  else UAComponent.init .B w_n w_meson

/-- `NucleonUAModel.py:348-360` `_build_component`: here the thresholds compare the real part of the pole. -/
noncomputable def nucleonBuildComponent (t_0 t_in mass decay_rate : ℝ) : Except PyErr UAComponent := do
  let map_from_t_to_w ← MapFromTtoW.init t_0 t_in
  let w_n ← map_from_t_to_w.call 0
  let t_meson_pole := tMesonPole mass decay_rate
  let w_meson ← map_from_t_to_w.call t_meson_pole
  if t_meson_pole.re < t_0 then throw .valueError
  else if t_meson_pole.re < t_in then UAComponent.init .A w_n w_meson
  else UAComponent.init .B w_n w_meson

end UA
