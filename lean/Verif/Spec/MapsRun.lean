import Verif.Model.Maps

/-!
# Building a coordinate map and calling it
-/

namespace UA

open Complex

/-- Build a `MapFromTtoW` and call it. -/
noncomputable def runTtoW (t_0 t_in : ℝ) (t : ℂ) : Except PyErr ℂ := do
  let m ← MapFromTtoW.init t_0 t_in
  m.call t

/-- Build a `MapFromWtoT` and call it. -/
noncomputable def runWtoT (t_0 t_in : ℝ) (w : ℂ) : Except PyErr ℂ := do
  let m ← MapFromWtoT.init t_0 t_in
  m.call w

end UA
