import Verif.Model.Components
import Mathlib.Analysis.SpecialFunctions.Trigonometric.Basic

/-!
# Model of `ua_model/SingleComponentModel.py` and of `other_models/*.py`
-/

namespace UA

open Complex

/-- The attributes of a `SingleComponentModel` (`ua_model/SingleComponentModel.py:12-25`). -/
structure SingleComponentModel where
  t_0 : ℝ
  t_in : ℝ
  coupling_constant : ℝ
  mass_resonance : ℝ
  decay_rate_resonance : ℝ
  t_to_W : MapFromTtoW
  component : UAComponent

/-- `ua_model/SingleComponentModel.py:12-25` `__init__`. -/
noncomputable def SingleComponentModel.init (t_0 t_in coupling_constant mass_resonance decay_rate_resonance : ℝ) :
    Except PyErr SingleComponentModel := do
  let t_to_W ← MapFromTtoW.init t_0 t_in
  let component ← buildComponent t_0 t_in mass_resonance decay_rate_resonance
  return { t_0 := t_0, t_in := t_in, coupling_constant := coupling_constant, mass_resonance := mass_resonance,
           decay_rate_resonance := decay_rate_resonance, t_to_W := t_to_W, component := component }

/-- `ua_model/SingleComponentModel.py:27-32` `__call__`. -/
noncomputable def SingleComponentModel.call (m : SingleComponentModel) (t : ℂ) : Except PyErr ℂ := do
  if t.re < 0 then throw .valueError
  let w ← m.t_to_W.call t
  let x ← m.component.call w
  return m.coupling_constant * x

/-- One entry of `VMDModel._vector_mesons` (`other_models/VMDModel.py:20-23`). -/
structure VectorMeson where
  coefficient : ℝ
  mass : ℝ

/-- The state of a `VMDModel` (`other_models/VMDModel.py:10-11`). -/
structure VMDModel where
  vector_mesons : List VectorMeson

/-- `other_models/VMDModel.py:20-23` `add_vector_meson` (`list.append`). -/
def VMDModel.addVectorMeson (m : VMDModel) (coefficient mass : ℝ) : VMDModel :=
  { m with vector_mesons := m.vector_mesons ++ [⟨coefficient, mass⟩] }

/-- `other_models/VMDModel.py:13-18` `create`. -/
def VMDModel.create (vector_mesons : List VectorMeson) : VMDModel :=
  vector_mesons.foldl (fun vmd v => vmd.addVectorMeson v.coefficient v.mass) ⟨[]⟩

/-- `other_models/VMDModel.py:36-39` `_evaluate_meson_contribution`. -/
noncomputable def evaluateMesonContribution (t : ℂ) (coefficient mass : ℝ) : Except PyErr ℂ :=
  let mass_squared : ℂ := (mass : ℂ) ^ 2
  pyDiv (coefficient * mass_squared) (mass_squared - t)

/-- `other_models/VMDModel.py:25-34` `__call__`. -/
noncomputable def VMDModel.call (m : VMDModel) (t : ℂ) : Except PyErr ℂ := do
  if m.vector_mesons.isEmpty then throw .exception
  m.vector_mesons.foldlM (fun result v => do
    let x ← evaluateMesonContribution t v.coefficient v.mass
    return result + x) 0

/-- The attributes of an `ETGMRModel` (`other_models/ETGMRModel.py:13-16`). -/
structure ETGMRModel where
  a : ℝ
  m_a_squared : ℝ
  m_d_squared : ℝ

/-- `other_models/ETGMRModel.py:13-16` `__init__`. -/
def ETGMRModel.init (a m_a m_d : ℝ) : ETGMRModel := ⟨a, m_a ^ 2, m_d ^ 2⟩

/-- `other_models/ETGMRModel.py:18-19` `__call__`. -/
noncomputable def ETGMRModel.call (m : ETGMRModel) (s : ℂ) : Except PyErr ℂ := do
  let x ← pyDiv s m.m_a_squared
  let y ← pyDiv s m.m_d_squared
  pyDiv m.a ((1 + x) * (1 - y) ^ 2)

/-- The attributes of a `TwoPolesModel` (`other_models/TwoPolesModel.py:10-13`). -/
structure TwoPolesModel where
  a : ℝ
  m_1_squared : ℝ
  m_2_squared : ℝ

/-- `other_models/TwoPolesModel.py:10-13` `__init__`. -/
def TwoPolesModel.init (a m_1 m_2 : ℝ) : TwoPolesModel := ⟨a, m_1 ^ 2, m_2 ^ 2⟩

/-- `other_models/TwoPolesModel.py:15-16` `__call__`. -/
noncomputable def TwoPolesModel.call (m : TwoPolesModel) (s : ℂ) : Except PyErr ℂ := do
  let x ← pyDiv s m.m_1_squared
  let y ← pyDiv s m.m_2_squared
  pyDiv m.a ((1 - x) * (1 - y))

/-- The attributes of a `DampedOscillations` object (`other_models/DampedOscillations.py:6-10`). -/
structure DampedOscillations where
  a : ℝ
  b : ℝ
  c : ℝ
  d : ℝ

/-- `other_models/DampedOscillations.py:12-13` `__call__`. -/
noncomputable def DampedOscillations.call (m : DampedOscillations) (x : ℝ) : ℝ :=
  m.a * Real.exp (-1 * m.b * x) * Real.cos (m.c * x + m.d)

end UA
