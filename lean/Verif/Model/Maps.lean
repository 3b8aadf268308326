import Verif.Py
import Mathlib.Analysis.SpecialFunctions.Complex.Arg

/-!
# Model of `ua_model/functions.py`, `ua_model/utils.py`, `MapFromTtoW.py`, `MapFromWtoT.py`
-/

namespace UA

open Complex

/-- `ua_model/functions.py:9-25` `z_minus_its_reciprocal`: `z - (1 / z)`. -/
noncomputable def zMinusItsReciprocal (z : ℂ) : Except PyErr ℂ := do
  let r ← pyDiv 1 z
  return z - r

/-- `ua_model/functions.py:28-47` `square_root`.  `cmath.polar` is `(‖z‖, arg z)`; Python's `phi` may be `-pi` for a
negative real with a negative-zero imaginary part, where this function gives the same result, so Mathlib's
`arg ∈ (-π, π]` loses nothing. -/
noncomputable def squareRoot (z : ℂ) : ℂ :=
  let r : ℝ := ‖z‖
  let phi : ℝ := z.arg
  let phi : ℝ := if phi < 0 then 2 * Real.pi + phi else phi
  (Real.sqrt r : ℂ) * Complex.exp (I * phi / 2)

/-- `ua_model/utils.py:3-25` `validate_branch_point_positions`. -/
noncomputable def validateBranchPointPositions (t_0 t_in : ℝ) : Except PyErr Unit := do
  if t_0 < 0 then throw .valueError
  if t_in < t_0 then throw .valueError
  return ()

/-- The attributes of a `MapFromTtoW` object (`ua_model/MapFromTtoW.py:35-38`). -/
structure MapFromTtoW where
  t_0 : ℝ
  t_in : ℝ
  a : ℝ

/-- `ua_model/MapFromTtoW.py:9-38` `MapFromTtoW.__init__`. -/
noncomputable def MapFromTtoW.init (t_0 t_in : ℝ) : Except PyErr MapFromTtoW := do
  validateBranchPointPositions t_0 t_in
  let a ← pySqrt (t_in - t_0)
  return { t_0 := t_0, t_in := t_in, a := a }

/-- `ua_model/MapFromTtoW.py:40-54` `MapFromTtoW.__call__`. -/
noncomputable def MapFromTtoW.call (m : MapFromTtoW) (t : ℂ) : Except PyErr ℂ := do
  let z := squareRoot (t - m.t_0)
  let transformed_z ← pyDiv (z + m.a) (-z + m.a)
  let v := squareRoot transformed_z
  pyDiv (I * (v - 1)) (v + 1)

/-- The attributes of a `MapFromWtoT` object (`ua_model/MapFromWtoT.py:33-36`). -/
structure MapFromWtoT where
  t_0 : ℝ
  t_in : ℝ
  t_in_minus_t_0 : ℝ

/-- `ua_model/MapFromWtoT.py:7-36` `MapFromWtoT.__init__`. -/
noncomputable def MapFromWtoT.init (t_0 t_in : ℝ) : Except PyErr MapFromWtoT := do
  validateBranchPointPositions t_0 t_in
  return { t_0 := t_0, t_in := t_in, t_in_minus_t_0 := t_in - t_0 }

/-- `ua_model/MapFromWtoT.py:38-49` `MapFromWtoT.__call__`. -/
noncomputable def MapFromWtoT.call (m : MapFromWtoT) (w : ℂ) : Except PyErr ℂ := do
  let u ← zMinusItsReciprocal w
  let q ← pyDiv (4 * m.t_in_minus_t_0) (u ^ 2)
  return m.t_0 - q

end UA
