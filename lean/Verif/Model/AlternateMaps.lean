import Verif.Model.Maps

/-!
# Model of the alternate inverse maps in `plotting/plot_various_coordinate_inverse_maps.py`
-/

namespace UA

open Complex

/-- `cmath.sqrt`, the principal branch, used at `plotting/plot_various_coordinate_inverse_maps.py:48-51`. Signed zeros are not
modelled: a negative real has argument `π`; the negative reals that occur in these functions carry a positive zero. -/
noncomputable def cmathSqrt (z : ℂ) : ℂ := (Real.sqrt ‖z‖ : ℂ) * Complex.exp (I * z.arg / 2)

/-- `plotting/plot_various_coordinate_inverse_maps.py:17-33` `t_to_w_version2`. The module constants `T_0 = 1.0` and
`T_IN = 2.0` (`:11-12`) are arguments here. -/
noncomputable def tToWVersion2 (T_0 T_IN : ℝ) (t : ℂ) : Except PyErr ℂ := do
  let x ← pyDivR (T_IN - T_0) T_0
  let q_in := squareRoot x
  let y ← pyDiv (t - T_0) T_0
  let q := squareRoot y
  let numerator := squareRoot (q_in + q) - squareRoot (q_in - q)
  let denominator := squareRoot (q_in + q) + squareRoot (q_in - q)
  pyDiv (I * numerator) denominator

/-- `plotting/plot_various_coordinate_inverse_maps.py:36-52` `t_to_w_version3`. The module constants `T_0 = 1.0` and
`T_IN = 2.0` (`:11-12`) are arguments here. -/
noncomputable def tToWVersion3 (T_0 T_IN : ℝ) (t : ℂ) : Except PyErr ℂ := do
  let x ← pyDivR (T_IN - T_0) T_0
  let q_in := cmathSqrt x
  let y ← pyDiv (t - T_0) T_0
  let q := cmathSqrt y
  let numerator := cmathSqrt (q_in + q) - cmathSqrt (q_in - q)
  let denominator := cmathSqrt (q_in + q) + cmathSqrt (q_in - q)
  pyDiv (I * numerator) denominator

end UA
