import Verif.Model.AlternateMaps
import Mathlib.Analysis.SpecialFunctions.Exp
import Mathlib.Analysis.Real.Pi.Bounds

/-!
# Model of `plotting/plot_complex.py`
-/

namespace UA

open Complex

/-- `range(a, b)`. -/
def pyRange (a b : ℤ) : List ℤ := (List.range (b - a).toNat).map fun k : ℕ => a + (k : ℤ)

/-- One call of `axes.plot(x, y, color=color)`. -/
structure Line where
  x : List ℝ
  y : List ℝ
  color : String

/-- The two axes with their titles and what has been drawn on them. -/
structure TwoAxes where
  domain_title : String
  range_title : String
  ax1 : List Line
  ax2 : List Line

/-- `_plot_curve`, `plotting/plot_complex.py:29-32`. -/
def plotCurve (axes : List Line) (curve : List ℂ) (color : String) : List Line :=
  let x := curve.map fun z => z.re
  let y := curve.map fun z => z.im
  axes ++ [⟨x, y, color⟩]

/-- The loop at `plotting/plot_complex.py:23-25`. -/
def plotCurvesLoop : List (List ℂ × List ℂ × String) → List Line × List Line → List Line × List Line
  | [], axes => axes
  | (curve, mapped, color) :: rest, (ax1, ax2) => plotCurvesLoop rest (plotCurve ax1 curve color, plotCurve ax2 mapped color)

/-- `plot_mapped_curves`, `plotting/plot_complex.py:12-26`: the figure shown. `colors` is what `random.shuffle` makes of the list of
Matplotlib's colour names. -/
def plotMappedCurves (colors : List String) (domain_title range_title : String) (domain_curves mapped_curves : List (List ℂ)) :
    Except PyErr TwoAxes :=
  if domain_curves.length ≠ mapped_curves.length then .error .assertionError
  else
    let colors := colors.take domain_curves.length
    let (ax1, ax2) := plotCurvesLoop (domain_curves.zip (mapped_curves.zip colors)) ([], [])
    .ok ⟨domain_title, range_title, ax1, ax2⟩

/-- `[[f(z) for z in curve] for curve in curves]`, e.g. `plotting/plot_complex.py:44`. -/
def mapCurves (f : ℂ → Except PyErr ℂ) (curves : List (List ℂ)) : Except PyErr (List (List ℂ)) :=
  curves.mapM fun curve => curve.mapM f

/-- The curves at `plotting/plot_complex.py:36-43`. -/
noncomputable def squareRootCurves : List (List ℂ) :=
  let curves_outward := ((pyRange 0 3).map fun k : ℤ => Complex.exp (2 * I * Real.pi * k / 3)).map fun base =>
    (pyRange 1 100).map fun n : ℤ => base * (n : ℂ) / 20
  let curves_circles := [(0.1 : ℝ), 1, 5].map fun r => (pyRange 1 100).map fun k : ℤ => (r : ℂ) * Complex.exp (2 * I * Real.pi * k / 100)
  curves_outward ++ curves_circles

/-- `plot_square_root`, `plotting/plot_complex.py:35-46`. -/
noncomputable def plotSquareRoot (colors : List String) : Except PyErr TwoAxes := do
  let mapped ← mapCurves (fun z => .ok (squareRoot z)) squareRootCurves
  plotMappedCurves colors "z" "sqrt(z)" squareRootCurves mapped

/-- The curves at `plotting/plot_complex.py:50-58`. The divisor `number_of_angles` is not zero when it is used, the range being empty
otherwise. -/
noncomputable def reciprocalCurves (number_of_angles : ℤ) : List (List ℂ) :=
  let bases := (pyRange 0 number_of_angles).map fun k : ℤ => Complex.exp (2 * I * Real.pi * k / number_of_angles)
  let curves_inside := bases.map fun base => (pyRange 10 99).map fun n : ℤ => base * (n : ℂ) / 100
  let curves_outside := bases.map fun base => (pyRange 1 100).map fun n : ℤ => base * ((n : ℂ) + 10) / 10
  curves_inside ++ curves_outside

/-- `plot_z_minus_its_reciprocal`, `plotting/plot_complex.py:49-62`. -/
noncomputable def plotZMinusItsReciprocal (colors : List String) (number_of_angles : ℤ) : Except PyErr TwoAxes := do
  let curves := reciprocalCurves number_of_angles
  let mapped ← mapCurves zMinusItsReciprocal curves
  plotMappedCurves colors "z" "z - 1/z" curves mapped

/-- The curves at `plotting/plot_complex.py:66-73`. -/
noncomputable def wCurves : List (List ℂ) :=
  let bases := [Complex.exp (I * Real.pi * 2 / 3), Complex.exp (I * Real.pi * 5 / 6), Complex.exp (I * Real.pi * 8 / 7)]
  let curves_inside := bases.map fun base => (pyRange 100 990).map fun n : ℤ => base * (n : ℂ) / 1000
  let curves_outside := bases.map fun base => (pyRange 10 1000).map fun n : ℤ => base * ((n : ℂ) + 100) / 100
  curves_inside ++ curves_outside

/-- `plot_w_to_t`, `plotting/plot_complex.py:65-78`. -/
noncomputable def plotWToT (colors : List String) (t_0 t_in : ℝ) : Except PyErr TwoAxes := do
  let f ← MapFromWtoT.init t_0 t_in
  let mapped ← mapCurves f.call wCurves
  plotMappedCurves colors "W-plane" "t-plane" wCurves mapped

/-- The curves at `plotting/plot_complex.py:82-91`. -/
noncomputable def tCurves (t_0 t_in : ℝ) : List (List ℂ) := [
  (pyRange 1 1000).map fun n : ℤ => (n : ℂ) * -0.1 + t_0,
  (pyRange 1 100).map fun n : ℤ => ((t_in : ℂ) - t_0) * n * 0.01 + t_0,
  (pyRange 1 1000).map fun n : ℤ => (n : ℂ) * 0.1 + t_in,
  (pyRange 1 1000).map fun n : ℤ => (n : ℂ) * -0.1 + 54 * I,
  (pyRange 1 1000).map fun n : ℤ => (n : ℂ) * 0.1 + 54 * I,
  ((pyRange (-1000) 0).map fun n : ℤ => (n : ℂ) * 0.1 - 20 * I) ++ (pyRange 1 1000).map fun n : ℤ => (n : ℂ) * 0.1 - 20 * I,
  (pyRange 1 1000).map fun n : ℤ => (n : ℂ) * (0.1 + 0.1 * I),
  (pyRange 1 1000).map fun n : ℤ => (n : ℂ) * (0.1 * I) + 17]

/-- `plot_t_to_w`, `plotting/plot_complex.py:81-96`. -/
noncomputable def plotTToW (colors : List String) (t_0 t_in : ℝ) : Except PyErr TwoAxes := do
  let f ← MapFromTtoW.init t_0 t_in
  let mapped ← mapCurves f.call (tCurves t_0 t_in)
  plotMappedCurves colors "t-plane" "W-plane" (tCurves t_0 t_in) mapped

/-- The curves at `plotting/plot_various_coordinate_inverse_maps.py:56-62`; the module constants `T_0` and `T_IN` (`:11-12`) are
arguments here. -/
noncomputable def variousCurves (T_0 T_IN : ℝ) : List (List ℂ) := [
  (pyRange 1 1000).map fun n : ℤ => (n : ℂ) * -0.1 + T_0,
  (pyRange 1 100).map fun n : ℤ => ((T_IN : ℂ) - T_0) * n * 0.01 + T_0,
  (pyRange 1 1000).map fun n : ℤ => (n : ℂ) * 0.1 + T_IN,
  ((pyRange (-1000) 0).map fun n : ℤ => (n : ℂ) * 0.1 - 20 * I) ++ (pyRange 1 1000).map fun n : ℤ => (n : ℂ) * 0.1 - 20 * I,
  (pyRange 1 1000).map fun n : ℤ => (n : ℂ) * (0.1 + 0.1 * I)]

/-- `plot_t_to_w` of `plotting/plot_various_coordinate_inverse_maps.py:55-66`. -/
noncomputable def plotVariousTToW (colors : List String) (T_0 T_IN : ℝ) (f : ℂ → Except PyErr ℂ) : Except PyErr TwoAxes := do
  let mapped ← mapCurves f (variousCurves T_0 T_IN)
  plotMappedCurves colors "t-plane" "W-plane" (variousCurves T_0 T_IN) mapped

end UA
