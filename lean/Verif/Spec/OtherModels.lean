import Verif.Model.OtherModels

/-!
# Building a single-component model and calling it
-/

namespace UA

open Complex

/-- Build a single-component model and call it. -/
noncomputable def runSingle (t_0 t_in a mass decay : ℝ) (t : ℂ) : Except PyErr ℂ := do
  let m ← SingleComponentModel.init t_0 t_in a mass decay
  m.call t

end UA
