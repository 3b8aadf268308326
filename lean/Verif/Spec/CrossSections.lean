import Verif.Py
import Mathlib.Analysis.SpecialFunctions.Sqrt

/-!
# Textbook formulas for the cross sections
-/

namespace UA

open Complex

/-- The textbook formula for `e⁺e⁻ → meson pair`: `ħc² · πα²/(3t) · β³ · |F|²` with `β = √(1 - 4m²/t)`. -/
noncomputable def scalarSigma (m α hc2 t modF : ℝ) : ℝ :=
  hc2 * (Real.pi * α ^ 2 / (3 * t)) * Real.sqrt (1 - 4 * m ^ 2 / t) ^ 3 * modF ^ 2

/-- Textbook formula: `ħc² · 4πα²β/(3t) · (|G_M|² + 2m²/t |G_E|²)`. -/
noncomputable def nucleonSigma (m α hc2 t ge gm : ℝ) : ℝ :=
  hc2 * (4 * Real.pi * α ^ 2 * Real.sqrt (1 - 4 * m ^ 2 / t) / (3 * t)) * (gm ^ 2 + 2 * m ^ 2 / t * ge ^ 2)

end UA
