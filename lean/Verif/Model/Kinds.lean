import Verif.Model.Components

/-!
# Python numbers and NumPy numbers: coordinate maps and components

The optimum `curve_fit` returns is an array of NumPy numbers, so the parameter values of a fitted object are a mixture of Python
numbers and NumPy numbers. The two differ in one respect that matters here: a division by zero raises `ZeroDivisionError` only
when both operands are Python numbers; otherwise NumPy prints a warning and the result is infinite or not a number.

The definitions below repeat the ones of `Verif/Model/Maps.lean` and `Verif/Model/Components.lean`, with numbers that carry their kind.
An evaluation that produces an infinite or undefined number stops with `Stop.nonFinite`: nothing is said about what follows.
-/

namespace UA.Kinded

open Complex ComplexConjugate

/-- A number and whether it is a NumPy number (`numpy.float64`, `numpy.complex128`) and not a Python `float`, `int` or `complex`. -/
@[ext] structure Num (α : Type) where
  val : α
  np : Bool

/-- A Python number. -/
def py {α : Type} (a : α) : Num α := ⟨a, false⟩

/-- Why an evaluation ends without a finite number. -/
inductive Stop
  /-- an exception -/
  | raised (e : PyErr)
  /-- a division by zero with a NumPy operand: `inf` or `nan`, with a warning -/
  | nonFinite
  deriving DecidableEq

section
variable {α : Type}

instance {n : ℕ} [OfNat α n] : OfNat (Num α) n := ⟨py (OfNat.ofNat n)⟩
instance [OfScientific α] : OfScientific (Num α) := ⟨fun m s e => py (OfScientific.ofScientific m s e)⟩
/-- An arithmetic operation with a NumPy operand gives a NumPy number. -/
instance [Add α] : Add (Num α) := ⟨fun a b => ⟨a.val + b.val, a.np || b.np⟩⟩
instance [Sub α] : Sub (Num α) := ⟨fun a b => ⟨a.val - b.val, a.np || b.np⟩⟩
instance [Mul α] : Mul (Num α) := ⟨fun a b => ⟨a.val * b.val, a.np || b.np⟩⟩
instance [Neg α] : Neg (Num α) := ⟨fun a => ⟨-a.val, a.np⟩⟩
instance [Monoid α] : Pow (Num α) ℕ := ⟨fun a n => ⟨a.val ^ n, a.np⟩⟩
end

/-- A real number used where a complex one is expected keeps its kind. -/
noncomputable instance : Coe (Num ℝ) (Num ℂ) := ⟨fun a => ⟨a.val, a.np⟩⟩

/-- `z.conjugate()`. -/
noncomputable def Num.conj (z : Num ℂ) : Num ℂ := ⟨(starRingEnd ℂ) z.val, z.np⟩

/-- `abs(z)`. -/
noncomputable def Num.abs (z : Num ℂ) : Num ℝ := ⟨‖z.val‖, z.np⟩

/-- Division by a nonzero Python literal. -/
noncomputable def Num.over (z : Num ℂ) (d : ℂ) : Num ℂ := ⟨z.val / d, z.np⟩

/-- `a / b`: `ZeroDivisionError` for a zero `b` when both operands are Python numbers, `inf` or `nan` when one is a NumPy number. -/
noncomputable def pyDiv (a b : Num ℂ) : Except Stop (Num ℂ) :=
  open Classical in
  if b.val = 0 then if a.np || b.np then .error .nonFinite else .error (.raised .zeroDivisionError)
  else .ok ⟨a.val / b.val, a.np || b.np⟩

/-- `math.sqrt`: accepts both kinds, returns a Python `float`, raises `ValueError` on a negative argument of either kind. -/
noncomputable def pySqrt (x : Num ℝ) : Except Stop (Num ℝ) :=
  open Classical in if x.val < 0 then .error (.raised .valueError) else .ok (py (Real.sqrt x.val))

/-- `ua_model/functions.py:28-47` `square_root`. `cmath.polar` returns two Python floats for an argument of either kind, so what follows
is computed with Python numbers. -/
noncomputable def squareRoot (z : Num ℂ) : Num ℂ :=
  let r : Num ℝ := py ‖z.val‖
  let phi : Num ℝ := py z.val.arg
  let phi : Num ℝ := if phi.val < 0 then 2 * py Real.pi + phi else phi
  py (Real.sqrt r.val : ℂ) * py (Complex.exp (I * phi.val / 2))

/-- `ua_model/utils.py:3-25` `validate_branch_point_positions`. -/
noncomputable def validateBranchPointPositions (t_0 t_in : Num ℝ) : Except Stop Unit := do
  if t_0.val < 0 then throw (.raised .valueError)
  if t_in.val < t_0.val then throw (.raised .valueError)
  return ()

/-- The attributes of a `MapFromTtoW` object (`ua_model/MapFromTtoW.py:35-38`). -/
structure MapFromTtoW where
  t_0 : Num ℝ
  t_in : Num ℝ
  a : Num ℝ

/-- `ua_model/MapFromTtoW.py:9-38` `MapFromTtoW.__init__`. -/
noncomputable def MapFromTtoW.init (t_0 t_in : Num ℝ) : Except Stop MapFromTtoW := do
  validateBranchPointPositions t_0 t_in
  let a ← pySqrt (t_in - t_0)
  return { t_0 := t_0, t_in := t_in, a := a }

/-- `ua_model/MapFromTtoW.py:40-54` `MapFromTtoW.__call__`. -/
noncomputable def MapFromTtoW.call (m : MapFromTtoW) (t : Num ℂ) : Except Stop (Num ℂ) := do
  let z := squareRoot (t - (m.t_0 : Num ℂ))
  let transformed_z ← pyDiv (z + (m.a : Num ℂ)) (-z + (m.a : Num ℂ))
  let v := squareRoot transformed_z
  pyDiv (py I * (v - 1)) (v + 1)

/-- The attributes of a `UAComponent` (`ua_model/ua_components/UAComponent.py:18-24`), and its class. -/
structure UAComponent where
  variant : Variant
  w_n : Num ℂ
  w_meson : Num ℂ
  asymptotic_factor_denominator : Num ℂ
  resonant_factor_numerator : Num ℂ

/-- `ua_model/ua_components/UAComponentVariantA.py:26-32` `_eval_resonant_factor_numerator`. -/
noncomputable def variantANumerator (w_n w_meson : Num ℂ) : Except Stop (Num ℂ) := do
  let r ← pyDiv 1 w_meson
  let rc ← pyDiv 1 w_meson.conj
  return (w_n - w_meson) * (w_n - w_meson.conj) * (w_n - r) * (w_n - rc)

/-- `ua_model/ua_components/UAComponentVariantB.py:25-31` `_eval_resonant_factor_numerator`. -/
noncomputable def variantBNumerator (w_n w_meson : Num ℂ) : Except Stop (Num ℂ) :=
  return (w_n - w_meson) * (w_n - w_meson.conj) * (w_n + w_meson) * (w_n + w_meson.conj)

/-- `ua_model/ua_components/UAComponentVariantA.py:17-24` `_eval_resonant_factor`. -/
noncomputable def variantAResonantFactor (c : UAComponent) (w : Num ℂ) : Except Stop (Num ℂ) := do
  let r ← pyDiv 1 c.w_meson
  let rc ← pyDiv 1 c.w_meson.conj
  let denominator := (w - c.w_meson) * (w - c.w_meson.conj) * (w - r) * (w - rc)
  pyDiv c.resonant_factor_numerator denominator

/-- `ua_model/ua_components/UAComponentVariantB.py:16-23` `_eval_resonant_factor`. -/
noncomputable def variantBResonantFactor (c : UAComponent) (w : Num ℂ) : Except Stop (Num ℂ) := do
  let denominator := (w - c.w_meson) * (w - c.w_meson.conj) * (w + c.w_meson) * (w + c.w_meson.conj)
  pyDiv c.resonant_factor_numerator denominator

/-- Dynamic dispatch of `_eval_resonant_factor_numerator` (`ua_model/ua_components/UAComponent.py:24`, abstract at 63-74). -/
noncomputable def evalResonantFactorNumerator (v : Variant) (w_n w_meson : Num ℂ) : Except Stop (Num ℂ) :=
  match v with
  | .A => variantANumerator w_n w_meson
  | .B => variantBNumerator w_n w_meson

/-- Dynamic dispatch of `_eval_resonant_factor` (`ua_model/ua_components/UAComponent.py:37`, abstract at 44-60). -/
noncomputable def UAComponent.evalResonantFactor (c : UAComponent) (w : Num ℂ) : Except Stop (Num ℂ) :=
  match c.variant with
  | .A => variantAResonantFactor c w
  | .B => variantBResonantFactor c w

/-- `ua_model/ua_components/UAComponent.py:18-24` `UAComponent.__init__`. -/
noncomputable def UAComponent.init (v : Variant) (w_n w_meson : Num ℂ) : Except Stop UAComponent := do
  let num ← evalResonantFactorNumerator v w_n w_meson
  return { variant := v, w_n := w_n, w_meson := w_meson,
           asymptotic_factor_denominator := (1 - w_n ^ 2) ^ 2, resonant_factor_numerator := num }

/-- `ua_model/ua_components/UAComponent.py:39-42` `_eval_asymptotic_factor`. -/
noncomputable def UAComponent.evalAsymptoticFactor (c : UAComponent) (w : Num ℂ) : Except Stop (Num ℂ) :=
  pyDiv ((1 - w ^ 2) ^ 2) c.asymptotic_factor_denominator

/-- `ua_model/ua_components/UAComponent.py:26-37` `UAComponent.__call__`. -/
noncomputable def UAComponent.call (c : UAComponent) (w : Num ℂ) : Except Stop (Num ℂ) := do
  let f ← c.evalAsymptoticFactor w
  let g ← c.evalResonantFactor w
  return f * g

/-- The resonance position `(mass - 1j * decay_rate / 2) ** 2` (`ua_model/KaonUAModel.py:170`, and the same line of every other
`_build_component`). -/
noncomputable def tMesonPole (mass decay_rate : Num ℝ) : Num ℂ :=
  ((mass : Num ℂ) - (py I * (decay_rate : Num ℂ)).over 2) ^ 2

/-- `_build_component` of `ua_model/KaonUAModel.py:166-179`; the identical text is `ua_model/KaonUAModelB.py:153-166`,
`ua_model/KaonUAModelSimplified.py:154-167` and `ua_model/SingleComponentModel.py:34-47`. -/
noncomputable def buildComponent (t_0 t_in mass decay_rate : Num ℝ) : Except Stop UAComponent := do
  let map_from_t_to_w ← MapFromTtoW.init t_0 t_in
  let w_n ← map_from_t_to_w.call 0
  let t_meson_pole := tMesonPole mass decay_rate
  let w_meson ← map_from_t_to_w.call t_meson_pole
  let mass_squared := mass ^ 2
  if mass_squared.val < t_0.val then throw (.raised .valueError)
  else if mass_squared.val < t_in.val then UAComponent.init .A w_n w_meson
  else UAComponent.init .B w_n w_meson

/-- `ua_model/NucleonUAModel.py:348-360` `_build_component`. -/
noncomputable def nucleonBuildComponent (t_0 t_in mass decay_rate : Num ℝ) : Except Stop UAComponent := do
  let map_from_t_to_w ← MapFromTtoW.init t_0 t_in
  let w_n ← map_from_t_to_w.call 0
  let t_meson_pole := tMesonPole mass decay_rate
  let w_meson ← map_from_t_to_w.call t_meson_pole
  if t_meson_pole.val.re < t_0.val then throw (.raised .valueError)
  else if t_meson_pole.val.re < t_in.val then UAComponent.init .A w_n w_meson
  else UAComponent.init .B w_n w_meson

end UA.Kinded
