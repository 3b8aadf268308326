import Verif.Model.Parameters

/-!
# The tests of the parameter classes

`tests/test_KaonParameters.py`, `tests/test_KaonParametersFixedRhoOmega.py`, `tests/test_KaonParametersSimplified.py` and
`tests/test_NucleonParameters.py`, statement by statement, on the model. The values are rational numbers (the decimal
literals read exactly), which the operations only move around. The three tests of the bounds, which need
square roots, are left out (property C44 states the bounds).
-/

namespace UA
namespace Conformance

/-- A mutating call that is expected to succeed. -/
def did (m : Mutation ℚ) : Except PyErr (ModelParameters ℚ) := do
  m.1
  return m.2

/-- `assert…`. -/
def check (b : Bool) : Except PyErr Unit := if b then .ok () else .error .assertionError

/-- `with self.assertRaises(e): …`. -/
def raises {α : Type} (e : PyErr) (x : Except PyErr α) : Except PyErr Unit :=
  match x with
  | .error e' => check (e = e')
  | .ok _ => .error .assertionError

/-- The test ran to its end. -/
def passes (x : Except PyErr Unit) : Bool :=
  match x with
  | .ok () => true
  | .error _ => false

/-- `setUp`, `tests/test_KaonParameters.py:9-22`. -/
def kaonSetUp : Except PyErr (ModelParameters ℚ) :=
  ParamClass.initPositional .kaon [0.5, 0.6, 0.7, 0.8, 0.1, 0.78266, 0.00868, 0.2, 1.41, 0.29, 0.15, 1.67, 0.315, 0.3, 1.019461, 0.004249, 0.35,
      1.68, 0.15, 2.159, 0.137, 0.12, 0.77526, 0.1474, 0.13, 1.465, 0.4, 0.14, 1.72, 0.25, 2.15, 0.3]

/-- `tests/test_KaonParameters.py:24-36` (`test___getitem__`). -/
example : passes (do
    let p ← kaonSetUp
    let par1 ← p.getItem "a_rho_double_prime"
    check (par1.value == 0.14)
    let par2 ← p.getItem "mass_phi_prime"
    check (par2.value == 1.68)
    let par3 ← p.getItem "t_in_isovector"
    check (par3.value == 0.8)
    raises .keyError (p.getItem "non-existent-key")) = true := by decide +kernel

/-- `tests/test_KaonParameters.py:38-50` (`test___setitem__`). -/
example : passes (do
    let p ← kaonSetUp
    raises .typeError (p.setItem "a_omega" .other).1
    let p := (p.setItem "a_omega" .other).2
    raises .valueError (p.setItem "a_omega" (.parameter ⟨"new name", 2, true⟩)).1
    let p := (p.setItem "a_omega" (.parameter ⟨"new name", 2, true⟩)).2
    let p ← did (p.setItem "a_omega" (.parameter ⟨"a_omega", 95.412, true⟩))
    check ((← p.getItem "a_omega").value == 95.412)
    check (← p.getItem "a_omega").is_fixed) = true := by decide +kernel

/-- `tests/test_KaonParameters.py:52-54` (`test_set_value`). -/
example : passes (do
    let p ← kaonSetUp
    let p ← did (p.setValue "a_rho_prime" 0.654321)
    check ((← p.getItem "a_rho_prime").value == 0.654321)) = true := by decide +kernel

/-- `tests/test_KaonParameters.py:56-62` (`test_fix_parameters`). -/
example : passes (do
    let p ← kaonSetUp
    let p := p.releaseAllParameters
    let p ← did (p.fixParameters ["mass_phi", "t_in_isoscalar"])
    check (← p.getItem "mass_phi").is_fixed
    check (← p.getItem "t_in_isoscalar").is_fixed) = true := by decide +kernel

/-- `tests/test_KaonParameters.py:64-67` (`test_release_parameters`). -/
example : passes (do
    let p ← kaonSetUp
    let p ← did (p.fixParameters ["a_rho_double_prime"])
    let p ← did (p.releaseParameters ["a_rho_double_prime"])
    check (!(← p.getItem "a_rho_double_prime").is_fixed)) = true := by decide +kernel

/-- `tests/test_KaonParameters.py:69-74` (`test_release_all_parameters`). -/
example : passes (do
    let p ← kaonSetUp
    let p ← did (p.fixParameters ["a_phi", "mass_omega_prime", "t_in_isovector"])
    let p := p.releaseAllParameters
    check (!(← p.getItem "a_phi").is_fixed)
    check (!(← p.getItem "mass_omega_prime").is_fixed)
    check (!(← p.getItem "t_in_isovector").is_fixed)) = true := by decide +kernel

/-- `tests/test_KaonParameters.py:76-81` (`test_fix_all_parameters`). -/
example : passes (do
    let p ← kaonSetUp
    let p ← did (p.releaseParameters ["a_phi", "mass_omega_prime", "t_in_isovector"])
    let p := p.fixAllParameters
    check (← p.getItem "a_phi").is_fixed
    check (← p.getItem "mass_omega_prime").is_fixed
    check (← p.getItem "t_in_isovector").is_fixed) = true := by decide +kernel

/-- `tests/test_KaonParameters.py:83-89` (`test_get_fixed_values`). -/
example : passes (do
    let p ← kaonSetUp
    let p := p.releaseAllParameters
    let p ← did (p.fixParameters ["a_omega_double_prime", "mass_rho_prime", "t_in_isovector"])
    check (p.getFixedValues == [0.5, 0.6, 0.8, 0.15, 1.465])) = true := by decide +kernel

/-- `tests/test_KaonParameters.py:91-105` (`test_get_free_values`). -/
example : passes (do
    let p ← kaonSetUp
    let p := p.releaseAllParameters
    let p ← did (p.fixParameters ["a_phi", "mass_phi", "decay_rate_phi", "a_phi_prime", "mass_phi_prime", "decay_rate_phi_prime",
      "mass_phi_double_prime", "decay_rate_phi_double_prime", "a_omega", "mass_omega", "decay_rate_omega",
      "a_omega_prime", "mass_omega_prime", "decay_rate_omega_prime", "a_omega_double_prime",
      "mass_omega_double_prime", "decay_rate_omega_double_prime"])
    check (p.getFreeValues == [0.7, 0.8, 0.12, 0.77526, 0.1474, 0.13, 1.465, 0.4, 0.14, 1.72, 0.25, 2.15, 0.3])) = true := by decide +kernel

/-- `tests/test_KaonParameters.py:107-114` (`test_get_all_values`). -/
example : passes (do
    let p ← kaonSetUp
    check (p.getAllValues == [0.5, 0.6, 0.7, 0.8, 0.1, 0.78266, 0.00868, 0.2, 1.41, 0.29, 0.15, 1.67, 0.315, 0.3, 1.019461, 0.004249, 0.35,
      1.68, 0.15, 2.159, 0.137, 0.12, 0.77526, 0.1474, 0.13, 1.465, 0.4, 0.14, 1.72, 0.25, 2.15, 0.3])) = true := by decide +kernel

/-- `tests/test_KaonParameters.py:116-121` (`test_copy`). -/
example : passes (do
    let p ← kaonSetUp
    let p ← did (p.setValue "a_phi" 1)
    let copy ← p.copy
    let copy ← did (copy.setValue "a_phi" 2)
    check ((← p.getItem "a_phi").value == 1)
    check ((← copy.getItem "a_phi").value == 2)) = true := by decide +kernel

/-- `tests/test_KaonParameters.py:123-141` (`test_update_free_values`). -/
example : passes (do
    let p ← kaonSetUp
    let p := p.releaseAllParameters
    let p ← did (p.fixParameters ["a_phi", "mass_phi", "decay_rate_phi", "a_phi_prime", "mass_phi_prime", "decay_rate_phi_prime",
      "mass_phi_double_prime", "decay_rate_phi_double_prime", "a_omega", "mass_omega", "decay_rate_omega",
      "a_omega_prime", "mass_omega_prime", "decay_rate_omega_prime", "a_omega_double_prime",
      "mass_omega_double_prime", "decay_rate_omega_double_prime"])
    let p ← did (p.updateFreeValues [0.7, 0.82, 0.12, 0.7, 0.051, 0, 14.65, 0.4, 0.24, 1.724, 0.25, 0.15, 7.4])
    check (p.getFreeValues == [0.7, 0.82, 0.12, 0.7, 0.051, 0, 14.65, 0.4, 0.24, 1.724, 0.25, 0.15, 7.4])) = true := by decide +kernel

/-- `tests/test_KaonParameters.py:143-146` (`test_update_free_values__length_mismatch`). -/
example : passes (do
    let p ← kaonSetUp
    let p := p.releaseAllParameters
    raises .valueError (p.updateFreeValues [1]).1
    let p := (p.updateFreeValues [1]).2) = true := by decide +kernel

/-- `tests/test_KaonParameters.py:148-152` (`test___iter__`). -/
example : passes (do
    let p ← kaonSetUp
    check (p.data.map (·.value) == p.getAllValues)) = true := by decide +kernel

/-- `tests/test_KaonParameters.py:178-215` (`test_from_list_to_list_consistency`). -/
example : passes (do
    let p ← kaonSetUp
    let list_of_parameters : List (Parameter ℚ) := [⟨"t_0_isoscalar", 0.17531904388276887, true⟩, ⟨"t_0_isovector", 0.07791957505900839, true⟩,
      ⟨"t_in_isoscalar", 1.443968455888137, false⟩, ⟨"t_in_isovector", 2.2187117617810133, false⟩,
      ⟨"a_omega", -0.6250308032982322, false⟩, ⟨"mass_omega", 0.9980285527253926, false⟩,
      ⟨"decay_rate_omega", 0.33979382250306833, false⟩, ⟨"a_omega_prime", 2.5941212472427653, false⟩,
      ⟨"mass_omega_prime", 1.262175646031432, false⟩, ⟨"decay_rate_omega_prime", 0.29325211379153737, false⟩,
      ⟨"a_omega_double_prime", -0.7584476425520864, false⟩, ⟨"mass_omega_double_prime", 1.65208370470636, false⟩,
      ⟨"decay_rate_omega_double_prime", 0.88444489573003, false⟩, ⟨"a_phi", -0.7613717224426919, false⟩,
      ⟨"mass_phi", 1.032465750329927, false⟩, ⟨"decay_rate_phi", 0.007187927884885847, false⟩,
      ⟨"a_phi_prime", 0.049186367861031886, false⟩, ⟨"mass_phi_prime", 1.798584035817393, false⟩,
      ⟨"decay_rate_phi_prime", 0.18684970951346638, true⟩, ⟨"mass_phi_double_prime", 2.1701948878602404, false⟩,
      ⟨"decay_rate_phi_double_prime", 0.018584914300650075, false⟩, ⟨"a_rho", 0.769926083031994, false⟩,
      ⟨"mass_rho", 1.0785537445043378, false⟩, ⟨"decay_rate_rho", 0.1244368079469832, false⟩,
      ⟨"a_rho_prime", -0.26856897443026406, false⟩, ⟨"mass_rho_prime", 1.6384823897203615, false⟩,
      ⟨"decay_rate_rho_prime", 0.13857062014248653, true⟩, ⟨"a_rho_double_prime", -0.004875792606689498, false⟩,
      ⟨"mass_rho_double_prime", 2.245836486713978, false⟩,
      ⟨"decay_rate_rho_double_prime", 0.1035328301790177, false⟩, ⟨"mass_rho_triple_prime", 3.463509700968759, true⟩,
      ⟨"decay_rate_rho_triple_prime", 1.4560004801176234, false⟩]
    let model_parameters ← ParamClass.fromList .kaon list_of_parameters
    check (model_parameters.cls = .kaon)
    check (list_of_parameters == model_parameters.toList)) = true := by decide +kernel

/-- `tests/test_KaonParameters.py:217-230` (`test_to_list_from_list_consistency`). -/
example : passes (do
    let p ← kaonSetUp
    let recreated ← ParamClass.fromList .kaon (p.toList)
    check ((← recreated.getItem "a_rho_double_prime").value == (← p.getItem "a_rho_double_prime").value)
    check ((← recreated.getItem "mass_omega").value == (← p.getItem "mass_omega").value)
    check ((← recreated.getItem "t_0_isovector").value == (← p.getItem "t_0_isovector").value)) = true := by decide +kernel

/-- `setUp`, `tests/test_KaonParametersFixedRhoOmega.py:9-22`. -/
def kaonFixedRhoOmegaSetUp : Except PyErr (ModelParameters ℚ) :=
  ParamClass.initPositional .kaonFixedRhoOmega [0.5, 0.6, 0.7, 0.8, 0.1, 0.78266, 0.00868, 0.2, 1.41, 0.29, 0.15, 1.67, 0.315, 0.3, 1.019461, 0.004249, 0.35,
      1.68, 0.15, 2.159, 0.137, 0.12, 0.77526, 0.1474, 0.13, 1.465, 0.4, 0.14, 1.72, 0.25, 2.15, 0.3]

/-- `tests/test_KaonParametersFixedRhoOmega.py:24-36` (`test___getitem__`). -/
example : passes (do
    let p ← kaonFixedRhoOmegaSetUp
    let par1 ← p.getItem "a_rho_double_prime"
    check (par1.value == 0.14)
    let par2 ← p.getItem "mass_phi_prime"
    check (par2.value == 1.68)
    let par3 ← p.getItem "t_in_isovector"
    check (par3.value == 0.8)
    raises .keyError (p.getItem "non-existent-key")) = true := by decide +kernel

/-- `tests/test_KaonParametersFixedRhoOmega.py:38-50` (`test___setitem__`). -/
example : passes (do
    let p ← kaonFixedRhoOmegaSetUp
    raises .typeError (p.setItem "a_omega" .other).1
    let p := (p.setItem "a_omega" .other).2
    raises .valueError (p.setItem "a_omega" (.parameter ⟨"new name", 2, true⟩)).1
    let p := (p.setItem "a_omega" (.parameter ⟨"new name", 2, true⟩)).2
    let p ← did (p.setItem "a_omega" (.parameter ⟨"a_omega", 95.412, true⟩))
    check ((← p.getItem "a_omega").value == 95.412)
    check (← p.getItem "a_omega").is_fixed) = true := by decide +kernel

/-- `tests/test_KaonParametersFixedRhoOmega.py:52-54` (`test_set_value`). -/
example : passes (do
    let p ← kaonFixedRhoOmegaSetUp
    let p ← did (p.setValue "a_rho_prime" 0.654321)
    check ((← p.getItem "a_rho_prime").value == 0.654321)) = true := by decide +kernel

/-- `tests/test_KaonParametersFixedRhoOmega.py:56-62` (`test_fix_parameters`). -/
example : passes (do
    let p ← kaonFixedRhoOmegaSetUp
    let p := p.releaseAllParameters
    let p ← did (p.fixParameters ["mass_phi_prime", "t_in_isoscalar"])
    check (← p.getItem "mass_phi_prime").is_fixed
    check (← p.getItem "t_in_isoscalar").is_fixed) = true := by decide +kernel

/-- `tests/test_KaonParametersFixedRhoOmega.py:64-67` (`test_release_parameters`). -/
example : passes (do
    let p ← kaonFixedRhoOmegaSetUp
    let p ← did (p.fixParameters ["a_rho_double_prime"])
    let p ← did (p.releaseParameters ["a_rho_double_prime"])
    check (!(← p.getItem "a_rho_double_prime").is_fixed)) = true := by decide +kernel

/-- `tests/test_KaonParametersFixedRhoOmega.py:69-74` (`test_release_all_parameters`). -/
example : passes (do
    let p ← kaonFixedRhoOmegaSetUp
    let p ← did (p.fixParameters ["a_phi", "mass_omega_prime", "t_in_isovector"])
    let p := p.releaseAllParameters
    check (!(← p.getItem "a_phi").is_fixed)
    check (!(← p.getItem "mass_omega_prime").is_fixed)
    check (!(← p.getItem "t_in_isovector").is_fixed)) = true := by decide +kernel

/-- `tests/test_KaonParametersFixedRhoOmega.py:76-81` (`test_fix_all_parameters`). -/
example : passes (do
    let p ← kaonFixedRhoOmegaSetUp
    let p ← did (p.releaseParameters ["a_phi", "mass_omega_prime", "t_in_isovector"])
    let p := p.fixAllParameters
    check (← p.getItem "a_phi").is_fixed
    check (← p.getItem "mass_omega_prime").is_fixed
    check (← p.getItem "t_in_isovector").is_fixed) = true := by decide +kernel

/-- `tests/test_KaonParametersFixedRhoOmega.py:83-89` (`test_get_fixed_values`). -/
example : passes (do
    let p ← kaonFixedRhoOmegaSetUp
    let p := p.releaseAllParameters
    let p ← did (p.fixParameters ["a_omega_double_prime", "mass_rho_prime", "t_in_isovector"])
    check (p.getFixedValues == [0.5, 0.6, 0.8, 0.78266, 0.00868, 0.15, 0.77526, 0.1474, 1.465])) = true := by decide +kernel

/-- `tests/test_KaonParametersFixedRhoOmega.py:91-104` (`test_get_free_values`). -/
example : passes (do
    let p ← kaonFixedRhoOmegaSetUp
    let p := p.releaseAllParameters
    let p ← did (p.fixParameters ["a_phi", "mass_phi", "decay_rate_phi", "a_phi_prime", "mass_phi_prime", "decay_rate_phi_prime",
      "mass_phi_double_prime", "decay_rate_phi_double_prime", "a_omega", "a_omega_prime", "mass_omega_prime",
      "decay_rate_omega_prime", "a_omega_double_prime", "mass_omega_double_prime", "decay_rate_omega_double_prime"])
    check (p.getFreeValues == [0.7, 0.8, 0.12, 0.13, 1.465, 0.4, 0.14, 1.72, 0.25, 2.15, 0.3])) = true := by decide +kernel

/-- `tests/test_KaonParametersFixedRhoOmega.py:106-113` (`test_get_all_values`). -/
example : passes (do
    let p ← kaonFixedRhoOmegaSetUp
    check (p.getAllValues == [0.5, 0.6, 0.7, 0.8, 0.1, 0.78266, 0.00868, 0.2, 1.41, 0.29, 0.15, 1.67, 0.315, 0.3, 1.019461, 0.004249, 0.35,
      1.68, 0.15, 2.159, 0.137, 0.12, 0.77526, 0.1474, 0.13, 1.465, 0.4, 0.14, 1.72, 0.25, 2.15, 0.3])) = true := by decide +kernel

/-- `tests/test_KaonParametersFixedRhoOmega.py:115-130` (`test_update_free_values`). -/
example : passes (do
    let p ← kaonFixedRhoOmegaSetUp
    let p := p.releaseAllParameters
    let p ← did (p.fixParameters ["a_phi", "mass_phi", "decay_rate_phi", "a_phi_prime", "mass_phi_prime", "decay_rate_phi_prime",
      "mass_phi_double_prime", "decay_rate_phi_double_prime", "a_omega", "a_omega_prime", "mass_omega_prime",
      "decay_rate_omega_prime", "a_omega_double_prime", "mass_omega_double_prime", "decay_rate_omega_double_prime"])
    let p ← did (p.updateFreeValues [0.7, 0.82, 0.12, 0, 14.65, 0.4, 0.24, 1.724, 0.25, 0.15, 7.4])
    check (p.getFreeValues == [0.7, 0.82, 0.12, 0, 14.65, 0.4, 0.24, 1.724, 0.25, 0.15, 7.4])) = true := by decide +kernel

/-- `tests/test_KaonParametersFixedRhoOmega.py:132-135` (`test_update_free_values__length_mismatch`). -/
example : passes (do
    let p ← kaonFixedRhoOmegaSetUp
    let p := p.releaseAllParameters
    raises .valueError (p.updateFreeValues [1]).1
    let p := (p.updateFreeValues [1]).2) = true := by decide +kernel

/-- `tests/test_KaonParametersFixedRhoOmega.py:137-141` (`test___iter__`). -/
example : passes (do
    let p ← kaonFixedRhoOmegaSetUp
    check (p.data.map (·.value) == p.getAllValues)) = true := by decide +kernel

/-- `tests/test_KaonParametersFixedRhoOmega.py:165-202` (`test_from_list_to_list_consistency`). -/
example : passes (do
    let p ← kaonFixedRhoOmegaSetUp
    let list_of_parameters : List (Parameter ℚ) := [⟨"t_0_isoscalar", 0.17531904388276887, true⟩, ⟨"t_0_isovector", 0.07791957505900839, true⟩,
      ⟨"t_in_isoscalar", 1.443968455888137, false⟩, ⟨"t_in_isovector", 2.2187117617810133, false⟩,
      ⟨"a_omega", -0.6250308032982322, false⟩, ⟨"mass_omega", 0.9980285527253926, true⟩,
      ⟨"decay_rate_omega", 0.33979382250306833, true⟩, ⟨"a_omega_prime", 2.5941212472427653, false⟩,
      ⟨"mass_omega_prime", 1.262175646031432, false⟩, ⟨"decay_rate_omega_prime", 0.29325211379153737, false⟩,
      ⟨"a_omega_double_prime", -0.7584476425520864, false⟩, ⟨"mass_omega_double_prime", 1.65208370470636, false⟩,
      ⟨"decay_rate_omega_double_prime", 0.88444489573003, false⟩, ⟨"a_phi", -0.7613717224426919, false⟩,
      ⟨"mass_phi", 1.032465750329927, false⟩, ⟨"decay_rate_phi", 0.007187927884885847, false⟩,
      ⟨"a_phi_prime", 0.049186367861031886, false⟩, ⟨"mass_phi_prime", 1.798584035817393, false⟩,
      ⟨"decay_rate_phi_prime", 0.18684970951346638, true⟩, ⟨"mass_phi_double_prime", 2.1701948878602404, false⟩,
      ⟨"decay_rate_phi_double_prime", 0.018584914300650075, false⟩, ⟨"a_rho", 0.769926083031994, false⟩,
      ⟨"mass_rho", 1.0785537445043378, true⟩, ⟨"decay_rate_rho", 0.1244368079469832, true⟩,
      ⟨"a_rho_prime", -0.26856897443026406, false⟩, ⟨"mass_rho_prime", 1.6384823897203615, false⟩,
      ⟨"decay_rate_rho_prime", 0.13857062014248653, true⟩, ⟨"a_rho_double_prime", -0.004875792606689498, false⟩,
      ⟨"mass_rho_double_prime", 2.245836486713978, false⟩,
      ⟨"decay_rate_rho_double_prime", 0.1035328301790177, false⟩, ⟨"mass_rho_triple_prime", 3.463509700968759, true⟩,
      ⟨"decay_rate_rho_triple_prime", 1.4560004801176234, false⟩]
    let model_parameters ← ParamClass.fromList .kaonFixedRhoOmega list_of_parameters
    check (model_parameters.cls = .kaonFixedRhoOmega)
    check (list_of_parameters == model_parameters.toList)) = true := by decide +kernel

/-- `tests/test_KaonParametersFixedRhoOmega.py:204-217` (`test_to_list_from_list_consistency`). -/
example : passes (do
    let p ← kaonFixedRhoOmegaSetUp
    let recreated ← ParamClass.fromList .kaonFixedRhoOmega (p.toList)
    check ((← recreated.getItem "a_rho_double_prime").value == (← p.getItem "a_rho_double_prime").value)
    check ((← recreated.getItem "mass_omega").value == (← p.getItem "mass_omega").value)
    check ((← recreated.getItem "t_0_isovector").value == (← p.getItem "t_0_isovector").value)) = true := by decide +kernel

/-- `setUp`, `tests/test_KaonParametersSimplified.py:9-20`. -/
def kaonSimplifiedSetUp : Except PyErr (ModelParameters ℚ) :=
  ParamClass.initPositional .kaonSimplified [0.5, 0.6, 0.7, 0.8, 0.2, 1.41, 0.29, 0.15, 1.67, 0.315, 0.3, 1.019461, 0.004249, 0.35, 1.68, 0.15, 2.159,
      0.137, 0.13, 1.465, 0.4, 0.14, 1.72, 0.25, 2.15, 0.3]

/-- `tests/test_KaonParametersSimplified.py:22-34` (`test___getitem__`). -/
example : passes (do
    let p ← kaonSimplifiedSetUp
    let par1 ← p.getItem "a_rho_double_prime"
    check (par1.value == 0.14)
    let par2 ← p.getItem "mass_phi_prime"
    check (par2.value == 1.68)
    let par3 ← p.getItem "t_in_isovector"
    check (par3.value == 0.8)
    raises .keyError (p.getItem "non-existent-key")) = true := by decide +kernel

/-- `tests/test_KaonParametersSimplified.py:36-48` (`test___setitem__`). -/
example : passes (do
    let p ← kaonSimplifiedSetUp
    raises .typeError (p.setItem "a_phi" .other).1
    let p := (p.setItem "a_phi" .other).2
    raises .valueError (p.setItem "a_phi" (.parameter ⟨"new name", 2, true⟩)).1
    let p := (p.setItem "a_phi" (.parameter ⟨"new name", 2, true⟩)).2
    let p ← did (p.setItem "a_phi" (.parameter ⟨"a_phi", 95.412, true⟩))
    check ((← p.getItem "a_phi").value == 95.412)
    check (← p.getItem "a_phi").is_fixed) = true := by decide +kernel

/-- `tests/test_KaonParametersSimplified.py:50-52` (`test_set_value`). -/
example : passes (do
    let p ← kaonSimplifiedSetUp
    let p ← did (p.setValue "a_rho_prime" 0.654321)
    check ((← p.getItem "a_rho_prime").value == 0.654321)) = true := by decide +kernel

/-- `tests/test_KaonParametersSimplified.py:54-60` (`test_fix_parameters`). -/
example : passes (do
    let p ← kaonSimplifiedSetUp
    let p := p.releaseAllParameters
    let p ← did (p.fixParameters ["mass_phi", "t_in_isoscalar"])
    check (← p.getItem "mass_phi").is_fixed
    check (← p.getItem "t_in_isoscalar").is_fixed) = true := by decide +kernel

/-- `tests/test_KaonParametersSimplified.py:62-65` (`test_release_parameters`). -/
example : passes (do
    let p ← kaonSimplifiedSetUp
    let p ← did (p.fixParameters ["a_rho_double_prime"])
    let p ← did (p.releaseParameters ["a_rho_double_prime"])
    check (!(← p.getItem "a_rho_double_prime").is_fixed)) = true := by decide +kernel

/-- `tests/test_KaonParametersSimplified.py:67-72` (`test_release_all_parameters`). -/
example : passes (do
    let p ← kaonSimplifiedSetUp
    let p ← did (p.fixParameters ["a_phi", "mass_omega_prime", "t_in_isovector"])
    let p := p.releaseAllParameters
    check (!(← p.getItem "a_phi").is_fixed)
    check (!(← p.getItem "mass_omega_prime").is_fixed)
    check (!(← p.getItem "t_in_isovector").is_fixed)) = true := by decide +kernel

/-- `tests/test_KaonParametersSimplified.py:74-79` (`test_fix_all_parameters`). -/
example : passes (do
    let p ← kaonSimplifiedSetUp
    let p ← did (p.releaseParameters ["a_phi", "mass_omega_prime", "t_in_isovector"])
    let p := p.fixAllParameters
    check (← p.getItem "a_phi").is_fixed
    check (← p.getItem "mass_omega_prime").is_fixed
    check (← p.getItem "t_in_isovector").is_fixed) = true := by decide +kernel

/-- `tests/test_KaonParametersSimplified.py:81-87` (`test_get_fixed_values`). -/
example : passes (do
    let p ← kaonSimplifiedSetUp
    let p := p.releaseAllParameters
    let p ← did (p.fixParameters ["a_omega_double_prime", "mass_rho_prime", "t_in_isovector"])
    check (p.getFixedValues == [0.5, 0.6, 0.8, 0.15, 1.465])) = true := by decide +kernel

/-- `tests/test_KaonParametersSimplified.py:89-101` (`test_get_free_values`). -/
example : passes (do
    let p ← kaonSimplifiedSetUp
    let p := p.releaseAllParameters
    let p ← did (p.fixParameters ["a_phi", "mass_phi", "decay_rate_phi", "a_phi_prime", "mass_phi_prime", "decay_rate_phi_prime",
      "mass_phi_double_prime", "decay_rate_phi_double_prime", "a_omega_prime", "mass_omega_prime",
      "decay_rate_omega_prime", "a_omega_double_prime", "mass_omega_double_prime", "decay_rate_omega_double_prime"])
    check (p.getFreeValues == [0.7, 0.8, 0.13, 1.465, 0.4, 0.14, 1.72, 0.25, 2.15, 0.3])) = true := by decide +kernel

/-- `tests/test_KaonParametersSimplified.py:103-110` (`test_get_all_values`). -/
example : passes (do
    let p ← kaonSimplifiedSetUp
    check (p.getAllValues == [0.5, 0.6, 0.7, 0.8, 0.2, 1.41, 0.29, 0.15, 1.67, 0.315, 0.3, 1.019461, 0.004249, 0.35, 1.68, 0.15, 2.159,
      0.137, 0.13, 1.465, 0.4, 0.14, 1.72, 0.25, 2.15, 0.3])) = true := by decide +kernel

/-- `tests/test_KaonParametersSimplified.py:112-129` (`test_update_free_values`). -/
example : passes (do
    let p ← kaonSimplifiedSetUp
    let p := p.releaseAllParameters
    let p ← did (p.fixParameters ["a_phi", "mass_phi", "decay_rate_phi", "a_phi_prime", "mass_phi_prime", "decay_rate_phi_prime",
      "mass_phi_double_prime", "decay_rate_phi_double_prime", "a_omega_prime", "mass_omega_prime",
      "decay_rate_omega_prime", "a_omega_double_prime", "mass_omega_double_prime", "decay_rate_omega_double_prime"])
    let p ← did (p.updateFreeValues [0.7, 0.82, 0, 14.65, 0.4, 0.24, 1.724, 0.25, 0.15, 7.4])
    check (p.getFreeValues == [0.7, 0.82, 0, 14.65, 0.4, 0.24, 1.724, 0.25, 0.15, 7.4])) = true := by decide +kernel

/-- `tests/test_KaonParametersSimplified.py:131-134` (`test_update_free_values__length_mismatch`). -/
example : passes (do
    let p ← kaonSimplifiedSetUp
    let p := p.releaseAllParameters
    raises .valueError (p.updateFreeValues [1]).1
    let p := (p.updateFreeValues [1]).2) = true := by decide +kernel

/-- `tests/test_KaonParametersSimplified.py:136-140` (`test___iter__`). -/
example : passes (do
    let p ← kaonSimplifiedSetUp
    check (p.data.map (·.value) == p.getAllValues)) = true := by decide +kernel

/-- `tests/test_KaonParametersSimplified.py:164-195` (`test_from_list_to_list_consistency`). -/
example : passes (do
    let p ← kaonSimplifiedSetUp
    let list_of_parameters : List (Parameter ℚ) := [⟨"t_0_isoscalar", 0.17531904388276887, true⟩, ⟨"t_0_isovector", 0.07791957505900839, true⟩,
      ⟨"t_in_isoscalar", 1.443968455888137, false⟩, ⟨"t_in_isovector", 2.2187117617810133, true⟩,
      ⟨"a_omega_prime", 2.5941212472427653, false⟩, ⟨"mass_omega_prime", 1.262175646031432, true⟩,
      ⟨"decay_rate_omega_prime", 0.29325211379153737, false⟩, ⟨"a_omega_double_prime", -0.7584476425520864, false⟩,
      ⟨"mass_omega_double_prime", 1.65208370470636, true⟩,
      ⟨"decay_rate_omega_double_prime", 0.88444489573003, false⟩, ⟨"a_phi", -0.7613717224426919, false⟩,
      ⟨"mass_phi", 1.032465750329927, false⟩, ⟨"decay_rate_phi", 0.007187927884885847, false⟩,
      ⟨"a_phi_prime", 0.049186367861031886, true⟩, ⟨"mass_phi_prime", 1.798584035817393, false⟩,
      ⟨"decay_rate_phi_prime", 0.18684970951346638, false⟩, ⟨"mass_phi_double_prime", 2.1701948878602404, false⟩,
      ⟨"decay_rate_phi_double_prime", 0.018584914300650075, true⟩, ⟨"a_rho_prime", -0.26856897443026406, true⟩,
      ⟨"mass_rho_prime", 1.6384823897203615, false⟩, ⟨"decay_rate_rho_prime", 0.13857062014248653, false⟩,
      ⟨"a_rho_double_prime", -0.004875792606689498, true⟩, ⟨"mass_rho_double_prime", 2.245836486713978, false⟩,
      ⟨"decay_rate_rho_double_prime", 0.1035328301790177, true⟩, ⟨"mass_rho_triple_prime", 3.463509700968759, false⟩,
      ⟨"decay_rate_rho_triple_prime", 1.4560004801176234, false⟩]
    let model_parameters ← ParamClass.fromList .kaonSimplified list_of_parameters
    check (model_parameters.cls = .kaonSimplified)
    check (list_of_parameters == model_parameters.toList)) = true := by decide +kernel

/-- `tests/test_KaonParametersSimplified.py:197-210` (`test_to_list_from_list_consistency`). -/
example : passes (do
    let p ← kaonSimplifiedSetUp
    let recreated ← ParamClass.fromList .kaonSimplified (p.toList)
    check ((← recreated.getItem "a_rho_double_prime").value == (← p.getItem "a_rho_double_prime").value)
    check ((← recreated.getItem "mass_phi_prime").value == (← p.getItem "mass_phi_prime").value)
    check ((← recreated.getItem "t_in_isovector").value == (← p.getItem "t_in_isovector").value)) = true := by decide +kernel

/-- `setUp`, `tests/test_NucleonParameters.py:9-22`. -/
def nucleonSetUp : Except PyErr (ModelParameters ℚ) :=
  ParamClass.initPositional .nucleon [0.938, 2.79, -1.91, 0.5, 0.6, 0.7, 0.8, 1.5, 1.6, 1.7, 1.8, 0.1, -0.1, 0.78266, 0.00868, 0.2, 1.41, 0.29, 1.67,
      0.315, 0.3, -0.3, 1.019461, 0.004249, 0.35, -0.35, 1.68, 0.15, 2.159, 0.137, 0.12, 0.77526, 0.1474, 1.465, 0.4,
      1.72, 0.25]

/-- `tests/test_NucleonParameters.py:24-36` (`test___getitem__`). -/
example : passes (do
    let p ← nucleonSetUp
    let par1 ← p.getItem "a_dirac_rho"
    check (par1.value == 0.12)
    let par2 ← p.getItem "mass_phi_prime"
    check (par2.value == 1.68)
    let par3 ← p.getItem "t_in_pauli_isovector"
    check (par3.value == 1.8)
    raises .keyError (p.getItem "non-existent-key")) = true := by decide +kernel

/-- `tests/test_NucleonParameters.py:38-50` (`test___setitem__`). -/
example : passes (do
    let p ← nucleonSetUp
    raises .typeError (p.setItem "a_pauli_omega" .other).1
    let p := (p.setItem "a_pauli_omega" .other).2
    raises .valueError (p.setItem "a_pauli_omega" (.parameter ⟨"new name", 2, true⟩)).1
    let p := (p.setItem "a_pauli_omega" (.parameter ⟨"new name", 2, true⟩)).2
    let p ← did (p.setItem "a_pauli_omega" (.parameter ⟨"a_pauli_omega", 95.412, true⟩))
    check ((← p.getItem "a_pauli_omega").value == 95.412)
    check (← p.getItem "a_pauli_omega").is_fixed) = true := by decide +kernel

/-- `tests/test_NucleonParameters.py:52-54` (`test_set_value`). -/
example : passes (do
    let p ← nucleonSetUp
    let p ← did (p.setValue "a_pauli_phi_prime" 0.654321)
    check ((← p.getItem "a_pauli_phi_prime").value == 0.654321)) = true := by decide +kernel

/-- `tests/test_NucleonParameters.py:56-62` (`test_fix_parameters`). -/
example : passes (do
    let p ← nucleonSetUp
    let p := p.releaseAllParameters
    let p ← did (p.fixParameters ["mass_phi", "t_in_dirac_isoscalar"])
    check (← p.getItem "mass_phi").is_fixed
    check (← p.getItem "t_in_dirac_isoscalar").is_fixed) = true := by decide +kernel

/-- `tests/test_NucleonParameters.py:64-67` (`test_release_parameters`). -/
example : passes (do
    let p ← nucleonSetUp
    let p ← did (p.fixParameters ["a_dirac_rho"])
    let p ← did (p.releaseParameters ["a_dirac_rho"])
    check (!(← p.getItem "a_dirac_rho").is_fixed)) = true := by decide +kernel

/-- `tests/test_NucleonParameters.py:69-74` (`test_release_all_parameters`). -/
example : passes (do
    let p ← nucleonSetUp
    let p ← did (p.fixParameters ["a_dirac_phi", "mass_omega_prime", "t_in_pauli_isovector"])
    let p := p.releaseAllParameters
    check (!(← p.getItem "a_dirac_phi").is_fixed)
    check (!(← p.getItem "mass_omega_prime").is_fixed)
    check (!(← p.getItem "t_in_pauli_isovector").is_fixed)) = true := by decide +kernel

/-- `tests/test_NucleonParameters.py:76-81` (`test_fix_all_parameters`). -/
example : passes (do
    let p ← nucleonSetUp
    let p ← did (p.releaseParameters ["a_pauli_phi", "mass_omega_prime", "t_in_dirac_isovector"])
    let p := p.fixAllParameters
    check (← p.getItem "a_pauli_phi").is_fixed
    check (← p.getItem "mass_omega_prime").is_fixed
    check (← p.getItem "t_in_dirac_isovector").is_fixed) = true := by decide +kernel

/-- `tests/test_NucleonParameters.py:83-89` (`test_get_fixed_values`). -/
example : passes (do
    let p ← nucleonSetUp
    let p := p.releaseAllParameters
    let p ← did (p.fixParameters ["a_dirac_omega_prime", "mass_rho_prime", "t_in_dirac_isovector"])
    check (p.getFixedValues == [0.938, 2.79, -1.91, 0.5, 0.6, 0.8, 1.5, 1.6, 0.2, 1.465])) = true := by decide +kernel

/-- `tests/test_NucleonParameters.py:91-94` (`test_update_free_values__length_mismatch`). -/
example : passes (do
    let p ← nucleonSetUp
    let p := p.releaseAllParameters
    raises .valueError (p.updateFreeValues [1]).1
    let p := (p.updateFreeValues [1]).2) = true := by decide +kernel

/-- `tests/test_NucleonParameters.py:96-100` (`test___iter__`). -/
example : passes (do
    let p ← nucleonSetUp
    check (p.data.map (·.value) == p.getAllValues)) = true := by decide +kernel

end Conformance
end UA
