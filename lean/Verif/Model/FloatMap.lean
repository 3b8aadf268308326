import Verif.Model.Maps

/-!
# `square_root` and `MapFromTtoW` in floating-point arithmetic

The rest of the model computes exactly. Here the same two functions are written down operation by operation over an arbitrary
arithmetic `FloatOps`: every addition, multiplication, division, square root and trigonometric function may round, and zeros may
carry a sign. Complex numbers are pairs of floats and their operations are those of CPython (`Objects/complexobject.c`,
`Modules/cmathmodule.c`; not part of the repository): a float operand of a complex operation is first made complex with imaginary
part zero, multiplication is the textbook formula, division divides by the larger component of the divisor first (Smith).
-/

namespace UA

/-- The float operations that `square_root` and `MapFromTtoW` use. `val` is the real number a float stands for (`0.0` and `-0.0` both
stand for zero). Subtraction is the addition of the negative, as in IEEE 754. Overflow and NaN are not represented. -/
structure FloatOps where
  F : Type
  val : F → ℝ
  zero : F
  one : F
  two : F
  pi : F
  neg : F → F
  add : F → F → F
  mul : F → F → F
  div : F → F → F
  sqrt : F → F
  exp : F → F
  cos : F → F
  sin : F → F
  hypot : F → F → F
  atan2 : F → F → F

namespace FloatOps

variable (R : FloatOps)

/-- A Python `complex`. -/
structure Cx where
  re : R.F
  im : R.F

/-- Float subtraction. -/
def sub (a b : R.F) : R.F := R.add a (R.neg b)
/-- A float as an operand of a complex operation. -/
def cx (a : R.F) : R.Cx := ⟨a, R.zero⟩
def cneg (z : R.Cx) : R.Cx := ⟨R.neg z.re, R.neg z.im⟩
def cadd (z w : R.Cx) : R.Cx := ⟨R.add z.re w.re, R.add z.im w.im⟩
def csub (z w : R.Cx) : R.Cx := ⟨R.sub z.re w.re, R.sub z.im w.im⟩
def cmul (z w : R.Cx) : R.Cx :=
  ⟨R.sub (R.mul z.re w.re) (R.mul z.im w.im), R.add (R.mul z.re w.im) (R.mul z.im w.re)⟩

/-- Complex division; `ZeroDivisionError` when both components of the divisor are zero. -/
noncomputable def cdiv (z w : R.Cx) : Except PyErr R.Cx :=
  if |R.val w.im| ≤ |R.val w.re| then
    if R.val w.re = 0 then .error .zeroDivisionError
    else
      let ratio := R.div w.im w.re
      let denom := R.add w.re (R.mul w.im ratio)
      .ok ⟨R.div (R.add z.re (R.mul z.im ratio)) denom, R.div (R.sub z.im (R.mul z.re ratio)) denom⟩
  else
    let ratio := R.div w.re w.im
    let denom := R.add (R.mul w.re ratio) w.im
    .ok ⟨R.div (R.add (R.mul z.re ratio) z.im) denom, R.div (R.sub (R.mul z.im ratio) z.re) denom⟩

/-- `cmath.exp`. -/
def cexp (z : R.Cx) : R.Cx := ⟨R.mul (R.exp z.re) (R.cos z.im), R.mul (R.exp z.re) (R.sin z.im)⟩

/-- `ua_model/functions.py:28-47` `square_root`; `math.sqrt(r)` cannot fail since `r` is an absolute value. The division by `2.0`
cannot fail; its other branches are those of `cdiv`. -/
noncomputable def squareRoot (z : R.Cx) : Except PyErr R.Cx := do
  let r := R.hypot z.re z.im
  let phi := R.atan2 z.im z.re
  let phi := open Classical in if R.val phi < 0 then R.add (R.mul R.two R.pi) phi else phi
  let half ← R.cdiv (R.cmul ⟨R.zero, R.one⟩ (R.cx phi)) (R.cx R.two)
  return R.cmul (R.cx (R.sqrt r)) (R.cexp half)

/-- `ua_model/MapFromTtoW.py:38`, the attribute `_a` (for `t_0 ≤ t_in`). -/
def a (t_0 t_in : R.F) : R.F := R.sqrt (R.sub t_in t_0)

/-- `ua_model/MapFromTtoW.py:51` the first square root. A float `t` is the complex number with imaginary part zero (the subtraction
is then one of floats, with the same real part, and `cmath.polar` makes it complex). -/
noncomputable def mapZ (t_0 : R.F) (t : R.Cx) : Except PyErr R.Cx := R.squareRoot (R.csub t (R.cx t_0))

/-- `ua_model/MapFromTtoW.py:52-53` the second square root. -/
noncomputable def mapV (t_0 t_in : R.F) (z : R.Cx) : Except PyErr R.Cx := do
  let transformed_z ← R.cdiv (R.cadd z (R.cx (R.a t_0 t_in))) (R.cadd (R.cneg z) (R.cx (R.a t_0 t_in)))
  R.squareRoot transformed_z

/-- `ua_model/MapFromTtoW.py:54` the second Möbius transform. -/
noncomputable def mapW (v : R.Cx) : Except PyErr R.Cx :=
  R.cdiv (R.cmul ⟨R.zero, R.one⟩ (R.csub v (R.cx R.one))) (R.cadd v (R.cx R.one))

/-- `ua_model/MapFromTtoW.py:40-54` `MapFromTtoW.__call__`. -/
noncomputable def mapTtoW (t_0 t_in : R.F) (t : R.Cx) : Except PyErr R.Cx := do
  let z ← R.mapZ t_0 t
  let v ← R.mapV t_0 t_in z
  R.mapW v

end FloatOps

end UA
