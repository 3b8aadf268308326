import Verif.Model.ParameterBasics

/-!
# The nine concrete parameter classes as tables

Transcribed from the class bodies: argument lists, the order in which `__init__` passes them on to `_setup_data`, the entries
`_setup_data` builds, the always-fixed tuple, the two bounds dictionaries, the name lists.
-/

namespace UA

/-- `KaonParameters`, `model_parameters/KaonParameters.py:8-352`: `__init__` 10-54, `_setup_data` 56-123,
`get_model_parameters_bounds_handpicked` 148-184, `..._maximal` 186-226,
`get_ordered_values` 228-297, `from_ordered_values` 300-343, `fix_resonances` 345-352. -/
def kaonTable : ClassTable where
  initArgs := [
    "t_0_isoscalar", "t_0_isovector", "t_in_isoscalar", "t_in_isovector", "a_omega", "mass_omega", "decay_rate_omega",
    "a_omega_prime", "mass_omega_prime", "decay_rate_omega_prime", "a_omega_double_prime", "mass_omega_double_prime",
    "decay_rate_omega_double_prime", "a_phi", "mass_phi", "decay_rate_phi", "a_phi_prime", "mass_phi_prime",
    "decay_rate_phi_prime", "mass_phi_double_prime", "decay_rate_phi_double_prime", "a_rho", "mass_rho",
    "decay_rate_rho", "a_rho_prime", "mass_rho_prime", "decay_rate_rho_prime", "a_rho_double_prime",
    "mass_rho_double_prime", "decay_rate_rho_double_prime", "mass_rho_triple_prime", "decay_rate_rho_triple_prime"]
  superArgs := [
    "t_0_isoscalar", "t_0_isovector", "t_in_isoscalar", "t_in_isovector", "a_omega", "mass_omega", "decay_rate_omega",
    "a_omega_prime", "mass_omega_prime", "decay_rate_omega_prime", "a_omega_double_prime", "mass_omega_double_prime",
    "decay_rate_omega_double_prime", "a_phi", "mass_phi", "decay_rate_phi", "a_phi_prime", "mass_phi_prime",
    "decay_rate_phi_prime", "mass_phi_double_prime", "decay_rate_phi_double_prime", "a_rho", "mass_rho",
    "decay_rate_rho", "a_rho_prime", "mass_rho_prime", "decay_rate_rho_prime", "a_rho_double_prime",
    "mass_rho_double_prime", "decay_rate_rho_double_prime", "mass_rho_triple_prime", "decay_rate_rho_triple_prime"]
  setupArgs := [
    "t_0_isoscalar", "t_0_isovector", "t_in_isoscalar", "t_in_isovector", "a_omega", "mass_omega", "decay_rate_omega",
    "a_omega_prime", "mass_omega_prime", "decay_rate_omega_prime", "a_omega_double_prime", "mass_omega_double_prime",
    "decay_rate_omega_double_prime", "a_phi", "mass_phi", "decay_rate_phi", "a_phi_prime", "mass_phi_prime",
    "decay_rate_phi_prime", "mass_phi_double_prime", "decay_rate_phi_double_prime", "a_rho", "mass_rho",
    "decay_rate_rho", "a_rho_prime", "mass_rho_prime", "decay_rate_rho_prime", "a_rho_double_prime",
    "mass_rho_double_prime", "decay_rate_rho_double_prime", "mass_rho_triple_prime", "decay_rate_rho_triple_prime"]
  alwaysFixed := ["t_0_isoscalar", "t_0_isovector"]
  entries := [
    ("t_0_isoscalar", "t_0_isoscalar", true), ("t_0_isovector", "t_0_isovector", true),
    ("t_in_isoscalar", "t_in_isoscalar", false), ("t_in_isovector", "t_in_isovector", false),
    ("a_omega", "a_omega", false), ("mass_omega", "mass_omega", false),
    ("decay_rate_omega", "decay_rate_omega", false), ("a_omega_prime", "a_omega_prime", false),
    ("mass_omega_prime", "mass_omega_prime", false), ("decay_rate_omega_prime", "decay_rate_omega_prime", false),
    ("a_omega_double_prime", "a_omega_double_prime", false),
    ("mass_omega_double_prime", "mass_omega_double_prime", false),
    ("decay_rate_omega_double_prime", "decay_rate_omega_double_prime", false), ("a_phi", "a_phi", false),
    ("mass_phi", "mass_phi", false), ("decay_rate_phi", "decay_rate_phi", false),
    ("a_phi_prime", "a_phi_prime", false), ("mass_phi_prime", "mass_phi_prime", false),
    ("decay_rate_phi_prime", "decay_rate_phi_prime", false), ("mass_phi_double_prime", "mass_phi_double_prime", false),
    ("decay_rate_phi_double_prime", "decay_rate_phi_double_prime", false), ("a_rho", "a_rho", false),
    ("mass_rho", "mass_rho", false), ("decay_rate_rho", "decay_rate_rho", false),
    ("a_rho_prime", "a_rho_prime", false), ("mass_rho_prime", "mass_rho_prime", false),
    ("decay_rate_rho_prime", "decay_rate_rho_prime", false), ("a_rho_double_prime", "a_rho_double_prime", false),
    ("mass_rho_double_prime", "mass_rho_double_prime", false),
    ("decay_rate_rho_double_prime", "decay_rate_rho_double_prime", false),
    ("mass_rho_triple_prime", "mass_rho_triple_prime", false),
    ("decay_rate_rho_triple_prime", "decay_rate_rho_triple_prime", false)]
  handpicked := [
    ("t_in_isoscalar", .value "t_0_isoscalar", .posInf), ("t_in_isovector", .value "t_0_isovector", .posInf),
    ("a_omega", .negInf, .posInf), ("mass_omega", .const 0.775, .const 0.79),
    ("decay_rate_omega", .const 0.0085, .const 0.0089), ("a_omega_prime", .negInf, .posInf),
    ("mass_omega_prime", .const 1.37, .const 1.45), ("decay_rate_omega_prime", .const 0.25, .const 0.33),
    ("a_omega_double_prime", .negInf, .posInf), ("mass_omega_double_prime", .const 1.665, .const 1.675),
    ("decay_rate_omega_double_prime", .const 0.3, .const 0.33), ("a_phi", .negInf, .posInf),
    ("mass_phi", .const 1.0, .const 1.05), ("decay_rate_phi", .const 0.004, .const 0.0045),
    ("a_phi_prime", .negInf, .posInf), ("mass_phi_prime", .const 1.675, .const 1.685),
    ("decay_rate_phi_prime", .const 0.1, .const 0.2), ("mass_phi_double_prime", .const 2.1, .const 2.2),
    ("decay_rate_phi_double_prime", .const 0.05, .const 0.2), ("a_rho", .negInf, .posInf),
    ("mass_rho", .const 0.75, .const 0.78), ("decay_rate_rho", .const 0.14, .const 0.15),
    ("a_rho_prime", .negInf, .posInf), ("mass_rho_prime", .const 1.28, .const 1.48),
    ("decay_rate_rho_prime", .const 0.15, .const 0.55), ("a_rho_double_prime", .negInf, .posInf),
    ("mass_rho_double_prime", .const 1.68, .const 1.74), ("decay_rate_rho_double_prime", .const 0.1, .const 0.6),
    ("mass_rho_triple_prime", .const 2.0, .const 2.4), ("decay_rate_rho_triple_prime", .const 0.1, .const 0.6)]
  maximalLocals := [
    ("lower_mass_bound_isoscalar", .sqrtValue "t_0_isoscalar"),
    ("lower_mass_bound_isovector", .sqrtValue "t_0_isovector")]
  maximal := [
    ("t_in_isoscalar", .value "t_0_isoscalar", .posInf), ("t_in_isovector", .value "t_0_isovector", .posInf),
    ("a_omega", .negInf, .posInf), ("mass_omega", .loc "lower_mass_bound_isoscalar", .posInf),
    ("decay_rate_omega", .const 0.0, .posInf), ("a_omega_prime", .negInf, .posInf),
    ("mass_omega_prime", .loc "lower_mass_bound_isoscalar", .posInf), ("decay_rate_omega_prime", .const 0.0, .posInf),
    ("a_omega_double_prime", .negInf, .posInf),
    ("mass_omega_double_prime", .loc "lower_mass_bound_isoscalar", .posInf),
    ("decay_rate_omega_double_prime", .const 0.0, .posInf), ("a_phi", .negInf, .posInf),
    ("mass_phi", .loc "lower_mass_bound_isoscalar", .posInf), ("decay_rate_phi", .const 0.0, .posInf),
    ("a_phi_prime", .negInf, .posInf), ("mass_phi_prime", .loc "lower_mass_bound_isoscalar", .posInf),
    ("decay_rate_phi_prime", .const 0.0, .posInf),
    ("mass_phi_double_prime", .loc "lower_mass_bound_isoscalar", .posInf),
    ("decay_rate_phi_double_prime", .const 0.0, .posInf), ("a_rho", .negInf, .posInf),
    ("mass_rho", .loc "lower_mass_bound_isovector", .posInf), ("decay_rate_rho", .const 0.0, .posInf),
    ("a_rho_prime", .negInf, .posInf), ("mass_rho_prime", .loc "lower_mass_bound_isovector", .posInf),
    ("decay_rate_rho_prime", .const 0.0, .posInf), ("a_rho_double_prime", .negInf, .posInf),
    ("mass_rho_double_prime", .loc "lower_mass_bound_isovector", .posInf),
    ("decay_rate_rho_double_prime", .const 0.0, .posInf),
    ("mass_rho_triple_prime", .loc "lower_mass_bound_isovector", .posInf),
    ("decay_rate_rho_triple_prime", .const 0.0, .posInf)]
  orderedNames := [
    "t_in_isoscalar", "t_in_isovector", "mass_rho", "mass_rho_prime", "mass_rho_double_prime", "mass_rho_triple_prime",
    "decay_rate_rho", "decay_rate_rho_prime", "decay_rate_rho_double_prime", "decay_rate_rho_triple_prime", "a_rho",
    "a_rho_prime", "a_rho_double_prime", "mass_omega", "mass_phi", "mass_omega_prime", "mass_omega_double_prime",
    "mass_phi_prime", "mass_phi_double_prime", "decay_rate_omega", "decay_rate_phi", "decay_rate_omega_prime",
    "decay_rate_omega_double_prime", "decay_rate_phi_prime", "decay_rate_phi_double_prime", "a_omega", "a_phi",
    "a_omega_prime", "a_omega_double_prime", "a_phi_prime"]
  fromOrdered := some {
    constantArgs := ["t_0_isoscalar", "t_0_isovector"]
    names := [
      "t_in_isoscalar", "t_in_isovector", "mass_rho", "mass_rho_prime", "mass_rho_double_prime",
      "mass_rho_triple_prime", "decay_rate_rho", "decay_rate_rho_prime", "decay_rate_rho_double_prime",
      "decay_rate_rho_triple_prime", "a_rho", "a_rho_prime", "a_rho_double_prime", "mass_omega", "mass_phi",
      "mass_omega_prime", "mass_omega_double_prime", "mass_phi_prime", "mass_phi_double_prime", "decay_rate_omega",
      "decay_rate_phi", "decay_rate_omega_prime", "decay_rate_omega_double_prime", "decay_rate_phi_prime",
      "decay_rate_phi_double_prime", "a_omega", "a_phi", "a_omega_prime", "a_omega_double_prime", "a_phi_prime"]
    extras := [("t_0_isoscalar", "t_0_isoscalar", true), ("t_0_isovector", "t_0_isovector", true)] }
  fixResonances := some [
    "mass_rho", "mass_rho_prime", "mass_rho_double_prime", "mass_rho_triple_prime", "decay_rate_rho",
    "decay_rate_rho_prime", "decay_rate_rho_double_prime", "decay_rate_rho_triple_prime", "mass_omega", "mass_phi",
    "mass_omega_prime", "mass_omega_double_prime", "mass_phi_prime", "mass_phi_double_prime", "decay_rate_omega",
    "decay_rate_phi", "decay_rate_omega_prime", "decay_rate_omega_double_prime", "decay_rate_phi_prime",
    "decay_rate_phi_double_prime"]

/-- `KaonParametersB`, `model_parameters/KaonParametersB.py:8-313`: `__init__` 10-57, `_setup_data` 59-114,
`get_model_parameters_bounds_handpicked` 139-169, `..._maximal` 171-205,
`get_ordered_values` 207-264, `from_ordered_values` 267-304, `fix_resonances` 306-313. -/
def kaonBTable : ClassTable where
  initArgs := [
    "t_0_isoscalar", "t_0_isovector", "t_in_isoscalar", "t_in_isovector", "a_omega", "mass_omega", "decay_rate_omega",
    "a_omega_double_prime", "mass_omega_double_prime", "decay_rate_omega_double_prime", "a_phi", "mass_phi",
    "decay_rate_phi", "a_phi_prime", "mass_phi_prime", "decay_rate_phi_prime", "mass_phi_double_prime",
    "decay_rate_phi_double_prime", "a_rho", "mass_rho", "decay_rate_rho", "a_rho_prime", "mass_rho_prime",
    "decay_rate_rho_prime", "mass_rho_double_prime", "decay_rate_rho_double_prime"]
  superArgs := [
    "t_0_isoscalar", "t_0_isovector", "t_in_isoscalar", "t_in_isovector", "a_omega", "mass_omega", "decay_rate_omega",
    "a_omega_double_prime", "mass_omega_double_prime", "decay_rate_omega_double_prime", "a_phi", "mass_phi",
    "decay_rate_phi", "a_phi_prime", "mass_phi_prime", "decay_rate_phi_prime", "mass_phi_double_prime",
    "decay_rate_phi_double_prime", "a_rho", "mass_rho", "decay_rate_rho", "a_rho_prime", "mass_rho_prime",
    "decay_rate_rho_prime", "mass_rho_double_prime", "decay_rate_rho_double_prime"]
  setupArgs := [
    "t_0_isoscalar", "t_0_isovector", "t_in_isoscalar", "t_in_isovector", "a_omega", "mass_omega", "decay_rate_omega",
    "a_omega_double_prime", "mass_omega_double_prime", "decay_rate_omega_double_prime", "a_phi", "mass_phi",
    "decay_rate_phi", "a_phi_prime", "mass_phi_prime", "decay_rate_phi_prime", "mass_phi_double_prime",
    "decay_rate_phi_double_prime", "a_rho", "mass_rho", "decay_rate_rho", "a_rho_prime", "mass_rho_prime",
    "decay_rate_rho_prime", "mass_rho_double_prime", "decay_rate_rho_double_prime"]
  alwaysFixed := [
    "t_0_isoscalar", "t_0_isovector", "mass_omega", "decay_rate_omega", "mass_omega_double_prime",
    "decay_rate_omega_double_prime", "mass_rho", "decay_rate_rho", "mass_rho_prime", "decay_rate_rho_prime",
    "mass_rho_double_prime", "decay_rate_rho_double_prime"]
  entries := [
    ("t_0_isoscalar", "t_0_isoscalar", true), ("t_0_isovector", "t_0_isovector", true),
    ("t_in_isoscalar", "t_in_isoscalar", false), ("t_in_isovector", "t_in_isovector", false),
    ("a_omega", "a_omega", false), ("mass_omega", "mass_omega", true), ("decay_rate_omega", "decay_rate_omega", true),
    ("a_omega_double_prime", "a_omega_double_prime", false),
    ("mass_omega_double_prime", "mass_omega_double_prime", true),
    ("decay_rate_omega_double_prime", "decay_rate_omega_double_prime", true), ("a_phi", "a_phi", false),
    ("mass_phi", "mass_phi", false), ("decay_rate_phi", "decay_rate_phi", false),
    ("a_phi_prime", "a_phi_prime", false), ("mass_phi_prime", "mass_phi_prime", false),
    ("decay_rate_phi_prime", "decay_rate_phi_prime", false), ("mass_phi_double_prime", "mass_phi_double_prime", false),
    ("decay_rate_phi_double_prime", "decay_rate_phi_double_prime", false), ("a_rho", "a_rho", false),
    ("mass_rho", "mass_rho", true), ("decay_rate_rho", "decay_rate_rho", true), ("a_rho_prime", "a_rho_prime", false),
    ("mass_rho_prime", "mass_rho_prime", true), ("decay_rate_rho_prime", "decay_rate_rho_prime", true),
    ("mass_rho_double_prime", "mass_rho_double_prime", true),
    ("decay_rate_rho_double_prime", "decay_rate_rho_double_prime", true)]
  handpicked := [
    ("t_in_isoscalar", .value "t_0_isoscalar", .posInf), ("t_in_isovector", .value "t_0_isovector", .posInf),
    ("a_omega", .negInf, .posInf), ("mass_omega", .const 0.78, .const 0.785),
    ("decay_rate_omega", .const 0.0086, .const 0.0088), ("a_omega_double_prime", .negInf, .posInf),
    ("mass_omega_double_prime", .const 1.665, .const 1.675),
    ("decay_rate_omega_double_prime", .const 0.3, .const 0.33), ("a_phi", .negInf, .posInf),
    ("mass_phi", .const 1.0, .const 1.05), ("decay_rate_phi", .const 0.004, .const 0.0045),
    ("a_phi_prime", .negInf, .posInf), ("mass_phi_prime", .const 1.675, .const 1.685),
    ("decay_rate_phi_prime", .const 0.1, .const 0.2), ("mass_phi_double_prime", .const 2.1, .const 2.2),
    ("decay_rate_phi_double_prime", .const 0.05, .const 0.2), ("a_rho", .negInf, .posInf),
    ("mass_rho", .const 0.74, .const 0.79), ("decay_rate_rho", .const 0.143, .const 0.148),
    ("a_rho_prime", .negInf, .posInf), ("mass_rho_prime", .const 1.28, .const 1.48),
    ("decay_rate_rho_prime", .const 0.15, .const 0.55), ("mass_rho_double_prime", .const 1.67, .const 1.79),
    ("decay_rate_rho_double_prime", .const 0.1, .const 0.6)]
  maximalLocals := [
    ("lower_mass_bound_isoscalar", .sqrtValue "t_0_isoscalar"),
    ("lower_mass_bound_isovector", .sqrtValue "t_0_isovector")]
  maximal := [
    ("t_in_isoscalar", .value "t_0_isoscalar", .posInf), ("t_in_isovector", .value "t_0_isovector", .posInf),
    ("a_omega", .negInf, .posInf), ("mass_omega", .loc "lower_mass_bound_isoscalar", .posInf),
    ("decay_rate_omega", .const 0.0, .posInf), ("a_omega_double_prime", .negInf, .posInf),
    ("mass_omega_double_prime", .loc "lower_mass_bound_isoscalar", .posInf),
    ("decay_rate_omega_double_prime", .const 0.0, .posInf), ("a_phi", .negInf, .posInf),
    ("mass_phi", .loc "lower_mass_bound_isoscalar", .posInf), ("decay_rate_phi", .const 0.0, .posInf),
    ("a_phi_prime", .negInf, .posInf), ("mass_phi_prime", .loc "lower_mass_bound_isoscalar", .posInf),
    ("decay_rate_phi_prime", .const 0.0, .posInf),
    ("mass_phi_double_prime", .loc "lower_mass_bound_isoscalar", .posInf),
    ("decay_rate_phi_double_prime", .const 0.0, .posInf), ("a_rho", .negInf, .posInf),
    ("mass_rho", .loc "lower_mass_bound_isovector", .posInf), ("decay_rate_rho", .const 0.0, .posInf),
    ("a_rho_prime", .negInf, .posInf), ("mass_rho_prime", .loc "lower_mass_bound_isovector", .posInf),
    ("decay_rate_rho_prime", .const 0.0, .posInf),
    ("mass_rho_double_prime", .loc "lower_mass_bound_isovector", .posInf),
    ("decay_rate_rho_double_prime", .const 0.0, .posInf)]
  orderedNames := [
    "t_in_isoscalar", "t_in_isovector", "mass_rho", "mass_rho_prime", "mass_rho_double_prime", "decay_rate_rho",
    "decay_rate_rho_prime", "decay_rate_rho_double_prime", "a_rho", "a_rho_prime", "mass_omega", "mass_phi",
    "mass_omega_double_prime", "mass_phi_prime", "mass_phi_double_prime", "decay_rate_omega", "decay_rate_phi",
    "decay_rate_omega_double_prime", "decay_rate_phi_prime", "decay_rate_phi_double_prime", "a_omega", "a_phi",
    "a_omega_double_prime", "a_phi_prime"]
  fromOrdered := some {
    constantArgs := ["t_0_isoscalar", "t_0_isovector"]
    names := [
      "t_in_isoscalar", "t_in_isovector", "mass_rho", "mass_rho_prime", "mass_rho_double_prime", "decay_rate_rho",
      "decay_rate_rho_prime", "decay_rate_rho_double_prime", "a_rho", "a_rho_prime", "mass_omega", "mass_phi",
      "mass_omega_double_prime", "mass_phi_prime", "mass_phi_double_prime", "decay_rate_omega", "decay_rate_phi",
      "decay_rate_omega_double_prime", "decay_rate_phi_prime", "decay_rate_phi_double_prime", "a_omega", "a_phi",
      "a_omega_double_prime", "a_phi_prime"]
    extras := [("t_0_isoscalar", "t_0_isoscalar", true), ("t_0_isovector", "t_0_isovector", true)] }
  fixResonances := some [
    "mass_rho", "mass_rho_prime", "mass_rho_double_prime", "decay_rate_rho", "decay_rate_rho_prime",
    "decay_rate_rho_double_prime", "mass_phi", "mass_omega", "mass_omega_double_prime", "mass_phi_prime",
    "mass_phi_double_prime", "decay_rate_phi", "decay_rate_omega", "decay_rate_omega_double_prime",
    "decay_rate_phi_prime", "decay_rate_phi_double_prime"]

/-- `KaonParametersSimplified`, `model_parameters/KaonParametersSimplified.py:8-304`: `__init__` 10-48, `_setup_data` 50-105,
`get_model_parameters_bounds_handpicked` 130-160, `..._maximal` 162-196,
`get_ordered_values` 198-255, `from_ordered_values` 258-295, `fix_resonances` 297-304. -/
def kaonSimplifiedTable : ClassTable where
  initArgs := [
    "t_0_isoscalar", "t_0_isovector", "t_in_isoscalar", "t_in_isovector", "a_omega_prime", "mass_omega_prime",
    "decay_rate_omega_prime", "a_omega_double_prime", "mass_omega_double_prime", "decay_rate_omega_double_prime",
    "a_phi", "mass_phi", "decay_rate_phi", "a_phi_prime", "mass_phi_prime", "decay_rate_phi_prime",
    "mass_phi_double_prime", "decay_rate_phi_double_prime", "a_rho_prime", "mass_rho_prime", "decay_rate_rho_prime",
    "a_rho_double_prime", "mass_rho_double_prime", "decay_rate_rho_double_prime", "mass_rho_triple_prime",
    "decay_rate_rho_triple_prime"]
  superArgs := [
    "t_0_isoscalar", "t_0_isovector", "t_in_isoscalar", "t_in_isovector", "a_omega_prime", "mass_omega_prime",
    "decay_rate_omega_prime", "a_omega_double_prime", "mass_omega_double_prime", "decay_rate_omega_double_prime",
    "a_phi", "mass_phi", "decay_rate_phi", "a_phi_prime", "mass_phi_prime", "decay_rate_phi_prime",
    "mass_phi_double_prime", "decay_rate_phi_double_prime", "a_rho_prime", "mass_rho_prime", "decay_rate_rho_prime",
    "a_rho_double_prime", "mass_rho_double_prime", "decay_rate_rho_double_prime", "mass_rho_triple_prime",
    "decay_rate_rho_triple_prime"]
  setupArgs := [
    "t_0_isoscalar", "t_0_isovector", "t_in_isoscalar", "t_in_isovector", "a_omega_prime", "mass_omega_prime",
    "decay_rate_omega_prime", "a_omega_double_prime", "mass_omega_double_prime", "decay_rate_omega_double_prime",
    "a_phi", "mass_phi", "decay_rate_phi", "a_phi_prime", "mass_phi_prime", "decay_rate_phi_prime",
    "mass_phi_double_prime", "decay_rate_phi_double_prime", "a_rho_prime", "mass_rho_prime", "decay_rate_rho_prime",
    "a_rho_double_prime", "mass_rho_double_prime", "decay_rate_rho_double_prime", "mass_rho_triple_prime",
    "decay_rate_rho_triple_prime"]
  alwaysFixed := ["t_0_isoscalar", "t_0_isovector"]
  entries := [
    ("t_0_isoscalar", "t_0_isoscalar", true), ("t_0_isovector", "t_0_isovector", true),
    ("t_in_isoscalar", "t_in_isoscalar", false), ("t_in_isovector", "t_in_isovector", false),
    ("a_omega_prime", "a_omega_prime", false), ("mass_omega_prime", "mass_omega_prime", false),
    ("decay_rate_omega_prime", "decay_rate_omega_prime", false),
    ("a_omega_double_prime", "a_omega_double_prime", false),
    ("mass_omega_double_prime", "mass_omega_double_prime", false),
    ("decay_rate_omega_double_prime", "decay_rate_omega_double_prime", false), ("a_phi", "a_phi", false),
    ("mass_phi", "mass_phi", false), ("decay_rate_phi", "decay_rate_phi", false),
    ("a_phi_prime", "a_phi_prime", false), ("mass_phi_prime", "mass_phi_prime", false),
    ("decay_rate_phi_prime", "decay_rate_phi_prime", false), ("mass_phi_double_prime", "mass_phi_double_prime", false),
    ("decay_rate_phi_double_prime", "decay_rate_phi_double_prime", false), ("a_rho_prime", "a_rho_prime", false),
    ("mass_rho_prime", "mass_rho_prime", false), ("decay_rate_rho_prime", "decay_rate_rho_prime", false),
    ("a_rho_double_prime", "a_rho_double_prime", false), ("mass_rho_double_prime", "mass_rho_double_prime", false),
    ("decay_rate_rho_double_prime", "decay_rate_rho_double_prime", false),
    ("mass_rho_triple_prime", "mass_rho_triple_prime", false),
    ("decay_rate_rho_triple_prime", "decay_rate_rho_triple_prime", false)]
  handpicked := [
    ("t_in_isoscalar", .value "t_0_isoscalar", .posInf), ("t_in_isovector", .value "t_0_isovector", .posInf),
    ("a_omega_prime", .negInf, .posInf), ("mass_omega_prime", .const 1.37, .const 1.45),
    ("decay_rate_omega_prime", .const 0.25, .const 0.33), ("a_omega_double_prime", .negInf, .posInf),
    ("mass_omega_double_prime", .const 1.665, .const 1.675),
    ("decay_rate_omega_double_prime", .const 0.3, .const 0.33), ("a_phi", .negInf, .posInf),
    ("mass_phi", .const 1.0, .const 1.05), ("decay_rate_phi", .const 0.004, .const 0.0045),
    ("a_phi_prime", .negInf, .posInf), ("mass_phi_prime", .const 1.675, .const 1.685),
    ("decay_rate_phi_prime", .const 0.1, .const 0.2), ("mass_phi_double_prime", .const 2.1, .const 2.2),
    ("decay_rate_phi_double_prime", .const 0.05, .const 0.2), ("a_rho_prime", .negInf, .posInf),
    ("mass_rho_prime", .const 1.28, .const 1.48), ("decay_rate_rho_prime", .const 0.15, .const 0.55),
    ("a_rho_double_prime", .negInf, .posInf), ("mass_rho_double_prime", .const 1.68, .const 1.74),
    ("decay_rate_rho_double_prime", .const 0.1, .const 0.6), ("mass_rho_triple_prime", .const 2.0, .const 2.4),
    ("decay_rate_rho_triple_prime", .const 0.1, .const 0.6)]
  maximalLocals := [
    ("lower_mass_bound_isoscalar", .sqrtValue "t_0_isoscalar"),
    ("lower_mass_bound_isovector", .sqrtValue "t_0_isovector")]
  maximal := [
    ("t_in_isoscalar", .value "t_0_isoscalar", .posInf), ("t_in_isovector", .value "t_0_isovector", .posInf),
    ("a_omega_prime", .negInf, .posInf), ("mass_omega_prime", .loc "lower_mass_bound_isoscalar", .posInf),
    ("decay_rate_omega_prime", .const 0.0, .posInf), ("a_omega_double_prime", .negInf, .posInf),
    ("mass_omega_double_prime", .loc "lower_mass_bound_isoscalar", .posInf),
    ("decay_rate_omega_double_prime", .const 0.0, .posInf), ("a_phi", .negInf, .posInf),
    ("mass_phi", .loc "lower_mass_bound_isoscalar", .posInf), ("decay_rate_phi", .const 0.0, .posInf),
    ("a_phi_prime", .negInf, .posInf), ("mass_phi_prime", .loc "lower_mass_bound_isoscalar", .posInf),
    ("decay_rate_phi_prime", .const 0.0, .posInf),
    ("mass_phi_double_prime", .loc "lower_mass_bound_isoscalar", .posInf),
    ("decay_rate_phi_double_prime", .const 0.0, .posInf), ("a_rho_prime", .negInf, .posInf),
    ("mass_rho_prime", .loc "lower_mass_bound_isovector", .posInf), ("decay_rate_rho_prime", .const 0.0, .posInf),
    ("a_rho_double_prime", .negInf, .posInf), ("mass_rho_double_prime", .loc "lower_mass_bound_isovector", .posInf),
    ("decay_rate_rho_double_prime", .const 0.0, .posInf),
    ("mass_rho_triple_prime", .loc "lower_mass_bound_isovector", .posInf),
    ("decay_rate_rho_triple_prime", .const 0.0, .posInf)]
  orderedNames := [
    "t_in_isoscalar", "t_in_isovector", "mass_rho_prime", "mass_rho_double_prime", "mass_rho_triple_prime",
    "decay_rate_rho_prime", "decay_rate_rho_double_prime", "decay_rate_rho_triple_prime", "a_rho_prime",
    "a_rho_double_prime", "mass_phi", "mass_omega_prime", "mass_omega_double_prime", "mass_phi_prime",
    "mass_phi_double_prime", "decay_rate_phi", "decay_rate_omega_prime", "decay_rate_omega_double_prime",
    "decay_rate_phi_prime", "decay_rate_phi_double_prime", "a_phi", "a_omega_prime", "a_omega_double_prime",
    "a_phi_prime"]
  fromOrdered := some {
    constantArgs := ["t_0_isoscalar", "t_0_isovector"]
    names := [
      "t_in_isoscalar", "t_in_isovector", "mass_rho_prime", "mass_rho_double_prime", "mass_rho_triple_prime",
      "decay_rate_rho_prime", "decay_rate_rho_double_prime", "decay_rate_rho_triple_prime", "a_rho_prime",
      "a_rho_double_prime", "mass_phi", "mass_omega_prime", "mass_omega_double_prime", "mass_phi_prime",
      "mass_phi_double_prime", "decay_rate_phi", "decay_rate_omega_prime", "decay_rate_omega_double_prime",
      "decay_rate_phi_prime", "decay_rate_phi_double_prime", "a_phi", "a_omega_prime", "a_omega_double_prime",
      "a_phi_prime"]
    extras := [("t_0_isoscalar", "t_0_isoscalar", true), ("t_0_isovector", "t_0_isovector", true)] }
  fixResonances := some [
    "mass_rho_prime", "mass_rho_double_prime", "mass_rho_triple_prime", "decay_rate_rho_prime",
    "decay_rate_rho_double_prime", "decay_rate_rho_triple_prime", "mass_phi", "mass_omega_prime",
    "mass_omega_double_prime", "mass_phi_prime", "mass_phi_double_prime", "decay_rate_phi", "decay_rate_omega_prime",
    "decay_rate_omega_double_prime", "decay_rate_phi_prime", "decay_rate_phi_double_prime"]

/-- `KaonParametersFixedRhoOmega`, `model_parameters/KaonParametersFixedRhoOmega.py:8-349`: `__init__` 10-59, `_setup_data` 61-128,
`get_model_parameters_bounds_handpicked` 153-185, `..._maximal` 187-223,
`get_ordered_values` 225-294, `from_ordered_values` 297-340, `fix_resonances` 342-349. -/
def kaonFixedRhoOmegaTable : ClassTable where
  initArgs := [
    "t_0_isoscalar", "t_0_isovector", "t_in_isoscalar", "t_in_isovector", "a_omega", "mass_omega", "decay_rate_omega",
    "a_omega_prime", "mass_omega_prime", "decay_rate_omega_prime", "a_omega_double_prime", "mass_omega_double_prime",
    "decay_rate_omega_double_prime", "a_phi", "mass_phi", "decay_rate_phi", "a_phi_prime", "mass_phi_prime",
    "decay_rate_phi_prime", "mass_phi_double_prime", "decay_rate_phi_double_prime", "a_rho", "mass_rho",
    "decay_rate_rho", "a_rho_prime", "mass_rho_prime", "decay_rate_rho_prime", "a_rho_double_prime",
    "mass_rho_double_prime", "decay_rate_rho_double_prime", "mass_rho_triple_prime", "decay_rate_rho_triple_prime"]
  superArgs := [
    "t_0_isoscalar", "t_0_isovector", "t_in_isoscalar", "t_in_isovector", "a_omega", "mass_omega", "decay_rate_omega",
    "a_omega_prime", "mass_omega_prime", "decay_rate_omega_prime", "a_omega_double_prime", "mass_omega_double_prime",
    "decay_rate_omega_double_prime", "a_phi", "mass_phi", "decay_rate_phi", "a_phi_prime", "mass_phi_prime",
    "decay_rate_phi_prime", "mass_phi_double_prime", "decay_rate_phi_double_prime", "a_rho", "mass_rho",
    "decay_rate_rho", "a_rho_prime", "mass_rho_prime", "decay_rate_rho_prime", "a_rho_double_prime",
    "mass_rho_double_prime", "decay_rate_rho_double_prime", "mass_rho_triple_prime", "decay_rate_rho_triple_prime"]
  setupArgs := [
    "t_0_isoscalar", "t_0_isovector", "t_in_isoscalar", "t_in_isovector", "a_omega", "mass_omega", "decay_rate_omega",
    "a_omega_prime", "mass_omega_prime", "decay_rate_omega_prime", "a_omega_double_prime", "mass_omega_double_prime",
    "decay_rate_omega_double_prime", "a_phi", "mass_phi", "decay_rate_phi", "a_phi_prime", "mass_phi_prime",
    "decay_rate_phi_prime", "mass_phi_double_prime", "decay_rate_phi_double_prime", "a_rho", "mass_rho",
    "decay_rate_rho", "a_rho_prime", "mass_rho_prime", "decay_rate_rho_prime", "a_rho_double_prime",
    "mass_rho_double_prime", "decay_rate_rho_double_prime", "mass_rho_triple_prime", "decay_rate_rho_triple_prime"]
  alwaysFixed := ["t_0_isoscalar", "t_0_isovector", "mass_omega", "decay_rate_omega", "mass_rho", "decay_rate_rho"]
  entries := [
    ("t_0_isoscalar", "t_0_isoscalar", true), ("t_0_isovector", "t_0_isovector", true),
    ("t_in_isoscalar", "t_in_isoscalar", false), ("t_in_isovector", "t_in_isovector", false),
    ("a_omega", "a_omega", false), ("mass_omega", "mass_omega", true), ("decay_rate_omega", "decay_rate_omega", true),
    ("a_omega_prime", "a_omega_prime", false), ("mass_omega_prime", "mass_omega_prime", false),
    ("decay_rate_omega_prime", "decay_rate_omega_prime", false),
    ("a_omega_double_prime", "a_omega_double_prime", false),
    ("mass_omega_double_prime", "mass_omega_double_prime", false),
    ("decay_rate_omega_double_prime", "decay_rate_omega_double_prime", false), ("a_phi", "a_phi", false),
    ("mass_phi", "mass_phi", false), ("decay_rate_phi", "decay_rate_phi", false),
    ("a_phi_prime", "a_phi_prime", false), ("mass_phi_prime", "mass_phi_prime", false),
    ("decay_rate_phi_prime", "decay_rate_phi_prime", false), ("mass_phi_double_prime", "mass_phi_double_prime", false),
    ("decay_rate_phi_double_prime", "decay_rate_phi_double_prime", false), ("a_rho", "a_rho", false),
    ("mass_rho", "mass_rho", true), ("decay_rate_rho", "decay_rate_rho", true), ("a_rho_prime", "a_rho_prime", false),
    ("mass_rho_prime", "mass_rho_prime", false), ("decay_rate_rho_prime", "decay_rate_rho_prime", false),
    ("a_rho_double_prime", "a_rho_double_prime", false), ("mass_rho_double_prime", "mass_rho_double_prime", false),
    ("decay_rate_rho_double_prime", "decay_rate_rho_double_prime", false),
    ("mass_rho_triple_prime", "mass_rho_triple_prime", false),
    ("decay_rate_rho_triple_prime", "decay_rate_rho_triple_prime", false)]
  handpicked := [
    ("t_in_isoscalar", .value "t_0_isoscalar", .posInf), ("t_in_isovector", .value "t_0_isovector", .posInf),
    ("a_omega", .negInf, .posInf), ("a_omega_prime", .negInf, .posInf), ("mass_omega_prime", .const 1.37, .const 1.45),
    ("decay_rate_omega_prime", .const 0.25, .const 0.33), ("a_omega_double_prime", .negInf, .posInf),
    ("mass_omega_double_prime", .const 1.665, .const 1.675),
    ("decay_rate_omega_double_prime", .const 0.3, .const 0.33), ("a_phi", .negInf, .posInf),
    ("mass_phi", .const 1.0, .const 1.05), ("decay_rate_phi", .const 0.004, .const 0.0045),
    ("a_phi_prime", .negInf, .posInf), ("mass_phi_prime", .const 1.675, .const 1.685),
    ("decay_rate_phi_prime", .const 0.1, .const 0.2), ("mass_phi_double_prime", .const 2.1, .const 2.2),
    ("decay_rate_phi_double_prime", .const 0.05, .const 0.2), ("a_rho", .negInf, .posInf),
    ("a_rho_prime", .negInf, .posInf), ("mass_rho_prime", .const 1.28, .const 1.48),
    ("decay_rate_rho_prime", .const 0.15, .const 0.55), ("a_rho_double_prime", .negInf, .posInf),
    ("mass_rho_double_prime", .const 1.68, .const 1.74), ("decay_rate_rho_double_prime", .const 0.1, .const 0.6),
    ("mass_rho_triple_prime", .const 2.0, .const 2.4), ("decay_rate_rho_triple_prime", .const 0.1, .const 0.6)]
  maximalLocals := [
    ("lower_mass_bound_isoscalar", .sqrtValue "t_0_isoscalar"),
    ("lower_mass_bound_isovector", .sqrtValue "t_0_isovector")]
  maximal := [
    ("t_in_isoscalar", .value "t_0_isoscalar", .posInf), ("t_in_isovector", .value "t_0_isovector", .posInf),
    ("a_omega", .negInf, .posInf), ("a_omega_prime", .negInf, .posInf),
    ("mass_omega_prime", .loc "lower_mass_bound_isoscalar", .posInf), ("decay_rate_omega_prime", .const 0.0, .posInf),
    ("a_omega_double_prime", .negInf, .posInf),
    ("mass_omega_double_prime", .loc "lower_mass_bound_isoscalar", .posInf),
    ("decay_rate_omega_double_prime", .const 0.0, .posInf), ("a_phi", .negInf, .posInf),
    ("mass_phi", .loc "lower_mass_bound_isoscalar", .posInf), ("decay_rate_phi", .const 0.0, .posInf),
    ("a_phi_prime", .negInf, .posInf), ("mass_phi_prime", .loc "lower_mass_bound_isoscalar", .posInf),
    ("decay_rate_phi_prime", .const 0.0, .posInf),
    ("mass_phi_double_prime", .loc "lower_mass_bound_isoscalar", .posInf),
    ("decay_rate_phi_double_prime", .const 0.0, .posInf), ("a_rho", .negInf, .posInf),
    ("a_rho_prime", .negInf, .posInf), ("mass_rho_prime", .loc "lower_mass_bound_isovector", .posInf),
    ("decay_rate_rho_prime", .const 0.0, .posInf), ("a_rho_double_prime", .negInf, .posInf),
    ("mass_rho_double_prime", .loc "lower_mass_bound_isovector", .posInf),
    ("decay_rate_rho_double_prime", .const 0.0, .posInf),
    ("mass_rho_triple_prime", .loc "lower_mass_bound_isovector", .posInf),
    ("decay_rate_rho_triple_prime", .const 0.0, .posInf)]
  orderedNames := [
    "t_in_isoscalar", "t_in_isovector", "mass_rho", "mass_rho_prime", "mass_rho_double_prime", "mass_rho_triple_prime",
    "decay_rate_rho", "decay_rate_rho_prime", "decay_rate_rho_double_prime", "decay_rate_rho_triple_prime", "a_rho",
    "a_rho_prime", "a_rho_double_prime", "mass_omega", "mass_phi", "mass_omega_prime", "mass_omega_double_prime",
    "mass_phi_prime", "mass_phi_double_prime", "decay_rate_omega", "decay_rate_phi", "decay_rate_omega_prime",
    "decay_rate_omega_double_prime", "decay_rate_phi_prime", "decay_rate_phi_double_prime", "a_omega", "a_phi",
    "a_omega_prime", "a_omega_double_prime", "a_phi_prime"]
  fromOrdered := some {
    constantArgs := ["t_0_isoscalar", "t_0_isovector"]
    names := [
      "t_in_isoscalar", "t_in_isovector", "mass_rho", "mass_rho_prime", "mass_rho_double_prime",
      "mass_rho_triple_prime", "decay_rate_rho", "decay_rate_rho_prime", "decay_rate_rho_double_prime",
      "decay_rate_rho_triple_prime", "a_rho", "a_rho_prime", "a_rho_double_prime", "mass_omega", "mass_phi",
      "mass_omega_prime", "mass_omega_double_prime", "mass_phi_prime", "mass_phi_double_prime", "decay_rate_omega",
      "decay_rate_phi", "decay_rate_omega_prime", "decay_rate_omega_double_prime", "decay_rate_phi_prime",
      "decay_rate_phi_double_prime", "a_omega", "a_phi", "a_omega_prime", "a_omega_double_prime", "a_phi_prime"]
    extras := [("t_0_isoscalar", "t_0_isoscalar", true), ("t_0_isovector", "t_0_isovector", true)] }
  fixResonances := some [
    "mass_rho", "mass_rho_prime", "mass_rho_double_prime", "mass_rho_triple_prime", "decay_rate_rho",
    "decay_rate_rho_prime", "decay_rate_rho_double_prime", "decay_rate_rho_triple_prime", "mass_omega", "mass_phi",
    "mass_omega_prime", "mass_omega_double_prime", "mass_phi_prime", "mass_phi_double_prime", "decay_rate_omega",
    "decay_rate_phi", "decay_rate_omega_prime", "decay_rate_omega_double_prime", "decay_rate_phi_prime",
    "decay_rate_phi_double_prime"]

/-- `KaonParametersFixedSelected`, `model_parameters/KaonParametersFixedSelected.py:8-348`: `__init__` 10-61, `_setup_data` 63-130,
`get_model_parameters_bounds_handpicked` 155-185, `..._maximal` 187-222,
`get_ordered_values` 224-293, `from_ordered_values` 296-339, `fix_resonances` 341-348. -/
def kaonFixedSelectedTable : ClassTable where
  initArgs := [
    "t_0_isoscalar", "t_0_isovector", "t_in_isoscalar", "t_in_isovector", "a_omega", "mass_omega", "decay_rate_omega",
    "a_omega_prime", "mass_omega_prime", "decay_rate_omega_prime", "a_omega_double_prime", "mass_omega_double_prime",
    "decay_rate_omega_double_prime", "a_phi", "mass_phi", "decay_rate_phi", "a_phi_prime", "mass_phi_prime",
    "decay_rate_phi_prime", "mass_phi_double_prime", "decay_rate_phi_double_prime", "a_rho", "mass_rho",
    "decay_rate_rho", "a_rho_prime", "mass_rho_prime", "decay_rate_rho_prime", "a_rho_double_prime",
    "mass_rho_double_prime", "decay_rate_rho_double_prime", "mass_rho_triple_prime", "decay_rate_rho_triple_prime"]
  superArgs := [
    "t_0_isoscalar", "t_0_isovector", "t_in_isoscalar", "t_in_isovector", "a_omega", "mass_omega", "decay_rate_omega",
    "a_omega_prime", "mass_omega_prime", "decay_rate_omega_prime", "a_omega_double_prime", "mass_omega_double_prime",
    "decay_rate_omega_double_prime", "a_phi", "mass_phi", "decay_rate_phi", "a_phi_prime", "mass_phi_prime",
    "decay_rate_phi_prime", "mass_phi_double_prime", "decay_rate_phi_double_prime", "a_rho", "mass_rho",
    "decay_rate_rho", "a_rho_prime", "mass_rho_prime", "decay_rate_rho_prime", "a_rho_double_prime",
    "mass_rho_double_prime", "decay_rate_rho_double_prime", "mass_rho_triple_prime", "decay_rate_rho_triple_prime"]
  setupArgs := [
    "t_0_isoscalar", "t_0_isovector", "t_in_isoscalar", "t_in_isovector", "a_omega", "mass_omega", "decay_rate_omega",
    "a_omega_prime", "mass_omega_prime", "decay_rate_omega_prime", "a_omega_double_prime", "mass_omega_double_prime",
    "decay_rate_omega_double_prime", "a_phi", "mass_phi", "decay_rate_phi", "a_phi_prime", "mass_phi_prime",
    "decay_rate_phi_prime", "mass_phi_double_prime", "decay_rate_phi_double_prime", "a_rho", "mass_rho",
    "decay_rate_rho", "a_rho_prime", "mass_rho_prime", "decay_rate_rho_prime", "a_rho_double_prime",
    "mass_rho_double_prime", "decay_rate_rho_double_prime", "mass_rho_triple_prime", "decay_rate_rho_triple_prime"]
  alwaysFixed := [
    "t_0_isoscalar", "t_0_isovector", "mass_omega", "decay_rate_omega", "mass_omega_prime", "mass_omega_double_prime",
    "mass_rho", "decay_rate_rho"]
  entries := [
    ("t_0_isoscalar", "t_0_isoscalar", true), ("t_0_isovector", "t_0_isovector", true),
    ("t_in_isoscalar", "t_in_isoscalar", false), ("t_in_isovector", "t_in_isovector", false),
    ("a_omega", "a_omega", false), ("mass_omega", "mass_omega", true), ("decay_rate_omega", "decay_rate_omega", true),
    ("a_omega_prime", "a_omega_prime", false), ("mass_omega_prime", "mass_omega_prime", true),
    ("decay_rate_omega_prime", "decay_rate_omega_prime", false),
    ("a_omega_double_prime", "a_omega_double_prime", false),
    ("mass_omega_double_prime", "mass_omega_double_prime", true),
    ("decay_rate_omega_double_prime", "decay_rate_omega_double_prime", false), ("a_phi", "a_phi", false),
    ("mass_phi", "mass_phi", false), ("decay_rate_phi", "decay_rate_phi", false),
    ("a_phi_prime", "a_phi_prime", false), ("mass_phi_prime", "mass_phi_prime", false),
    ("decay_rate_phi_prime", "decay_rate_phi_prime", false), ("mass_phi_double_prime", "mass_phi_double_prime", false),
    ("decay_rate_phi_double_prime", "decay_rate_phi_double_prime", false), ("a_rho", "a_rho", false),
    ("mass_rho", "mass_rho", true), ("decay_rate_rho", "decay_rate_rho", true), ("a_rho_prime", "a_rho_prime", false),
    ("mass_rho_prime", "mass_rho_prime", false), ("decay_rate_rho_prime", "decay_rate_rho_prime", false),
    ("a_rho_double_prime", "a_rho_double_prime", false), ("mass_rho_double_prime", "mass_rho_double_prime", false),
    ("decay_rate_rho_double_prime", "decay_rate_rho_double_prime", false),
    ("mass_rho_triple_prime", "mass_rho_triple_prime", false),
    ("decay_rate_rho_triple_prime", "decay_rate_rho_triple_prime", false)]
  handpicked := [
    ("t_in_isoscalar", .value "t_0_isoscalar", .posInf), ("t_in_isovector", .value "t_0_isovector", .posInf),
    ("a_omega", .negInf, .posInf), ("a_omega_prime", .negInf, .posInf),
    ("decay_rate_omega_prime", .const 0.2, .const 0.4), ("a_omega_double_prime", .negInf, .posInf),
    ("decay_rate_omega_double_prime", .const 0.2, .const 0.4), ("a_phi", .negInf, .posInf),
    ("mass_phi", .const 1.0, .const 1.1), ("decay_rate_phi", .const 0.003, .const 0.005),
    ("a_phi_prime", .negInf, .posInf), ("mass_phi_prime", .const 1.6, .const 1.7),
    ("decay_rate_phi_prime", .const 0.1, .const 0.2), ("mass_phi_double_prime", .const 2.0, .const 2.3),
    ("decay_rate_phi_double_prime", .const 0.05, .const 0.3), ("a_rho", .negInf, .posInf),
    ("a_rho_prime", .negInf, .posInf), ("mass_rho_prime", .const 1.2, .const 1.5),
    ("decay_rate_rho_prime", .const 0.15, .const 0.55), ("a_rho_double_prime", .negInf, .posInf),
    ("mass_rho_double_prime", .const 1.6, .const 1.9), ("decay_rate_rho_double_prime", .const 0.1, .const 0.6),
    ("mass_rho_triple_prime", .const 2.0, .const 2.4), ("decay_rate_rho_triple_prime", .const 0.1, .const 0.6)]
  maximalLocals := [
    ("lower_mass_bound_isoscalar", .sqrtValue "t_0_isoscalar"),
    ("lower_mass_bound_isovector", .sqrtValue "t_0_isovector")]
  maximal := [
    ("t_in_isoscalar", .value "t_0_isoscalar", .posInf), ("t_in_isovector", .value "t_0_isovector", .posInf),
    ("a_omega", .negInf, .posInf), ("a_omega_prime", .negInf, .posInf),
    ("decay_rate_omega_prime", .const 0.0, .posInf), ("a_omega_double_prime", .negInf, .posInf),
    ("mass_omega_double_prime", .loc "lower_mass_bound_isoscalar", .posInf),
    ("decay_rate_omega_double_prime", .const 0.0, .posInf), ("a_phi", .negInf, .posInf),
    ("mass_phi", .loc "lower_mass_bound_isoscalar", .posInf), ("decay_rate_phi", .const 0.0, .posInf),
    ("a_phi_prime", .negInf, .posInf), ("mass_phi_prime", .loc "lower_mass_bound_isoscalar", .posInf),
    ("decay_rate_phi_prime", .const 0.0, .posInf),
    ("mass_phi_double_prime", .loc "lower_mass_bound_isoscalar", .posInf),
    ("decay_rate_phi_double_prime", .const 0.0, .posInf), ("a_rho", .negInf, .posInf),
    ("a_rho_prime", .negInf, .posInf), ("mass_rho_prime", .loc "lower_mass_bound_isovector", .posInf),
    ("decay_rate_rho_prime", .const 0.0, .posInf), ("a_rho_double_prime", .negInf, .posInf),
    ("mass_rho_double_prime", .loc "lower_mass_bound_isovector", .posInf),
    ("decay_rate_rho_double_prime", .const 0.0, .posInf),
    ("mass_rho_triple_prime", .loc "lower_mass_bound_isovector", .posInf),
    ("decay_rate_rho_triple_prime", .const 0.0, .posInf)]
  orderedNames := [
    "t_in_isoscalar", "t_in_isovector", "mass_rho", "mass_rho_prime", "mass_rho_double_prime", "mass_rho_triple_prime",
    "decay_rate_rho", "decay_rate_rho_prime", "decay_rate_rho_double_prime", "decay_rate_rho_triple_prime", "a_rho",
    "a_rho_prime", "a_rho_double_prime", "mass_omega", "mass_phi", "mass_omega_prime", "mass_omega_double_prime",
    "mass_phi_prime", "mass_phi_double_prime", "decay_rate_omega", "decay_rate_phi", "decay_rate_omega_prime",
    "decay_rate_omega_double_prime", "decay_rate_phi_prime", "decay_rate_phi_double_prime", "a_omega", "a_phi",
    "a_omega_prime", "a_omega_double_prime", "a_phi_prime"]
  fromOrdered := some {
    constantArgs := ["t_0_isoscalar", "t_0_isovector"]
    names := [
      "t_in_isoscalar", "t_in_isovector", "mass_rho", "mass_rho_prime", "mass_rho_double_prime",
      "mass_rho_triple_prime", "decay_rate_rho", "decay_rate_rho_prime", "decay_rate_rho_double_prime",
      "decay_rate_rho_triple_prime", "a_rho", "a_rho_prime", "a_rho_double_prime", "mass_omega", "mass_phi",
      "mass_omega_prime", "mass_omega_double_prime", "mass_phi_prime", "mass_phi_double_prime", "decay_rate_omega",
      "decay_rate_phi", "decay_rate_omega_prime", "decay_rate_omega_double_prime", "decay_rate_phi_prime",
      "decay_rate_phi_double_prime", "a_omega", "a_phi", "a_omega_prime", "a_omega_double_prime", "a_phi_prime"]
    extras := [("t_0_isoscalar", "t_0_isoscalar", true), ("t_0_isovector", "t_0_isovector", true)] }
  fixResonances := some [
    "mass_rho", "mass_rho_prime", "mass_rho_double_prime", "mass_rho_triple_prime", "decay_rate_rho",
    "decay_rate_rho_prime", "decay_rate_rho_double_prime", "decay_rate_rho_triple_prime", "mass_omega", "mass_phi",
    "mass_omega_prime", "mass_omega_double_prime", "mass_phi_prime", "mass_phi_double_prime", "decay_rate_omega",
    "decay_rate_phi", "decay_rate_omega_prime", "decay_rate_omega_double_prime", "decay_rate_phi_prime",
    "decay_rate_phi_double_prime"]

/-- `NucleonParameters`, `model_parameters/NucleonParameters.py:8-353`: `__init__` 10-66, `_setup_data` 68-145,
`get_model_parameters_bounds_handpicked` 170-206, `..._maximal` 208-252,
`get_ordered_values` 263-296, `from_ordered_values` 299-353, `fix_resonances` 254-261. -/
def nucleonTable : ClassTable where
  initArgs := [
    "nucleon_mass", "magnetic_moment_proton", "magnetic_moment_neutron", "t_0_dirac_isoscalar", "t_0_dirac_isovector",
    "t_in_dirac_isoscalar", "t_in_dirac_isovector", "t_0_pauli_isoscalar", "t_0_pauli_isovector",
    "t_in_pauli_isoscalar", "t_in_pauli_isovector", "a_dirac_omega", "a_pauli_omega", "mass_omega", "decay_rate_omega",
    "a_dirac_omega_prime", "mass_omega_prime", "decay_rate_omega_prime", "mass_omega_double_prime",
    "decay_rate_omega_double_prime", "a_dirac_phi", "a_pauli_phi", "mass_phi", "decay_rate_phi", "a_dirac_phi_prime",
    "a_pauli_phi_prime", "mass_phi_prime", "decay_rate_phi_prime", "mass_phi_double_prime",
    "decay_rate_phi_double_prime", "a_dirac_rho", "mass_rho", "decay_rate_rho", "mass_rho_prime",
    "decay_rate_rho_prime", "mass_rho_double_prime", "decay_rate_rho_double_prime"]
  superArgs := [
    "nucleon_mass", "magnetic_moment_proton", "magnetic_moment_neutron", "t_0_dirac_isoscalar", "t_0_dirac_isovector",
    "t_in_dirac_isoscalar", "t_in_dirac_isovector", "t_0_pauli_isoscalar", "t_0_pauli_isovector",
    "t_in_pauli_isoscalar", "t_in_pauli_isovector", "a_dirac_omega", "a_pauli_omega", "mass_omega", "decay_rate_omega",
    "a_dirac_omega_prime", "mass_omega_prime", "decay_rate_omega_prime", "mass_omega_double_prime",
    "decay_rate_omega_double_prime", "a_dirac_phi", "a_pauli_phi", "mass_phi", "decay_rate_phi", "a_dirac_phi_prime",
    "a_pauli_phi_prime", "mass_phi_prime", "decay_rate_phi_prime", "mass_phi_double_prime",
    "decay_rate_phi_double_prime", "a_dirac_rho", "mass_rho", "decay_rate_rho", "mass_rho_prime",
    "decay_rate_rho_prime", "mass_rho_double_prime", "decay_rate_rho_double_prime"]
  setupArgs := [
    "nucleon_mass", "magnetic_moment_proton", "magnetic_moment_neutron", "t_0_dirac_isoscalar", "t_0_dirac_isovector",
    "t_in_dirac_isoscalar", "t_in_dirac_isovector", "t_0_pauli_isoscalar", "t_0_pauli_isovector",
    "t_in_pauli_isoscalar", "t_in_pauli_isovector", "a_dirac_omega", "a_pauli_omega", "mass_omega", "decay_rate_omega",
    "a_dirac_omega_prime", "mass_omega_prime", "decay_rate_omega_prime", "mass_omega_double_prime",
    "decay_rate_omega_double_prime", "a_dirac_phi", "a_pauli_phi", "mass_phi", "decay_rate_phi", "a_dirac_phi_prime",
    "a_pauli_phi_prime", "mass_phi_prime", "decay_rate_phi_prime", "mass_phi_double_prime",
    "decay_rate_phi_double_prime", "a_dirac_rho", "mass_rho", "decay_rate_rho", "mass_rho_prime",
    "decay_rate_rho_prime", "mass_rho_double_prime", "decay_rate_rho_double_prime"]
  alwaysFixed := [
    "nucleon_mass", "magnetic_moment_proton", "magnetic_moment_neutron", "t_0_dirac_isoscalar", "t_0_dirac_isovector",
    "t_0_pauli_isoscalar", "t_0_pauli_isovector"]
  entries := [
    ("nucleon_mass", "nucleon_mass", true), ("magnetic_moment_proton", "magnetic_moment_proton", true),
    ("magnetic_moment_neutron", "magnetic_moment_neutron", true), ("t_0_dirac_isoscalar", "t_0_dirac_isoscalar", true),
    ("t_0_dirac_isovector", "t_0_dirac_isovector", true), ("t_in_dirac_isoscalar", "t_in_dirac_isoscalar", false),
    ("t_in_dirac_isovector", "t_in_dirac_isovector", false), ("t_0_pauli_isoscalar", "t_0_pauli_isoscalar", true),
    ("t_0_pauli_isovector", "t_0_pauli_isovector", true), ("t_in_pauli_isoscalar", "t_in_pauli_isoscalar", false),
    ("t_in_pauli_isovector", "t_in_pauli_isovector", false), ("a_dirac_omega", "a_dirac_omega", false),
    ("a_pauli_omega", "a_pauli_omega", false), ("mass_omega", "mass_omega", false),
    ("decay_rate_omega", "decay_rate_omega", false), ("a_dirac_omega_prime", "a_dirac_omega_prime", false),
    ("mass_omega_prime", "mass_omega_prime", false), ("decay_rate_omega_prime", "decay_rate_omega_prime", false),
    ("mass_omega_double_prime", "mass_omega_double_prime", false),
    ("decay_rate_omega_double_prime", "decay_rate_omega_double_prime", false), ("a_dirac_phi", "a_dirac_phi", false),
    ("a_pauli_phi", "a_pauli_phi", false), ("mass_phi", "mass_phi", false),
    ("decay_rate_phi", "decay_rate_phi", false), ("a_dirac_phi_prime", "a_dirac_phi_prime", false),
    ("a_pauli_phi_prime", "a_pauli_phi_prime", false), ("mass_phi_prime", "mass_phi_prime", false),
    ("decay_rate_phi_prime", "decay_rate_phi_prime", false), ("mass_phi_double_prime", "mass_phi_double_prime", false),
    ("decay_rate_phi_double_prime", "decay_rate_phi_double_prime", false), ("a_dirac_rho", "a_dirac_rho", false),
    ("mass_rho", "mass_rho", false), ("decay_rate_rho", "decay_rate_rho", false),
    ("mass_rho_prime", "mass_rho_prime", false), ("decay_rate_rho_prime", "decay_rate_rho_prime", false),
    ("mass_rho_double_prime", "mass_rho_double_prime", false),
    ("decay_rate_rho_double_prime", "decay_rate_rho_double_prime", false)]
  handpicked := [
    ("t_in_dirac_isoscalar", .value "t_0_dirac_isoscalar", .posInf),
    ("t_in_dirac_isovector", .value "t_0_dirac_isovector", .posInf),
    ("t_in_pauli_isoscalar", .value "t_0_pauli_isoscalar", .posInf),
    ("t_in_pauli_isovector", .value "t_0_pauli_isovector", .posInf), ("a_dirac_omega", .negInf, .posInf),
    ("a_pauli_omega", .negInf, .posInf), ("mass_omega", .const 0.775, .const 0.79),
    ("decay_rate_omega", .const 0.0085, .const 0.0089), ("a_dirac_omega_prime", .negInf, .posInf),
    ("mass_omega_prime", .const 1.37, .const 1.45), ("decay_rate_omega_prime", .const 0.25, .const 0.33),
    ("mass_omega_double_prime", .const 1.665, .const 1.675),
    ("decay_rate_omega_double_prime", .const 0.3, .const 0.33), ("a_dirac_phi", .negInf, .posInf),
    ("a_pauli_phi", .negInf, .posInf), ("mass_phi", .const 1.0, .const 1.05),
    ("decay_rate_phi", .const 0.004, .const 0.0045), ("a_dirac_phi_prime", .negInf, .posInf),
    ("a_pauli_phi_prime", .negInf, .posInf), ("mass_phi_prime", .const 1.675, .const 1.685),
    ("decay_rate_phi_prime", .const 0.1, .const 0.2), ("mass_phi_double_prime", .const 2.1, .const 2.2),
    ("decay_rate_phi_double_prime", .const 0.05, .const 0.2), ("a_dirac_rho", .negInf, .posInf),
    ("mass_rho", .const 0.75, .const 0.78), ("decay_rate_rho", .const 0.14, .const 0.15),
    ("mass_rho_prime", .const 1.28, .const 1.48), ("decay_rate_rho_prime", .const 0.15, .const 0.55),
    ("mass_rho_double_prime", .const 1.68, .const 1.74), ("decay_rate_rho_double_prime", .const 0.1, .const 0.6)]
  maximalLocals := [
    ("lower_mass_bound_dirac_isoscalar", .sqrtValue "t_0_dirac_isoscalar"),
    ("lower_mass_bound_dirac_isovector", .sqrtValue "t_0_dirac_isovector"),
    ("lower_mass_bound_pauli_isoscalar", .sqrtValue "t_0_pauli_isoscalar"),
    ("lower_mass_bound_pauli_isovector", .sqrtValue "t_0_pauli_isovector"),
    ("lower_mass_bound_isoscalar", .maxOf "lower_mass_bound_dirac_isoscalar" "lower_mass_bound_pauli_isoscalar"),
    ("lower_mass_bound_isovector", .maxOf "lower_mass_bound_dirac_isovector" "lower_mass_bound_pauli_isovector")]
  maximal := [
    ("t_in_dirac_isoscalar", .value "t_0_dirac_isoscalar", .posInf),
    ("t_in_dirac_isovector", .value "t_0_dirac_isovector", .posInf),
    ("t_in_pauli_isoscalar", .value "t_0_pauli_isoscalar", .posInf),
    ("t_in_pauli_isovector", .value "t_0_pauli_isovector", .posInf), ("a_dirac_omega", .negInf, .posInf),
    ("a_pauli_omega", .negInf, .posInf), ("mass_omega", .loc "lower_mass_bound_isoscalar", .posInf),
    ("decay_rate_omega", .const 0.0, .posInf), ("a_dirac_omega_prime", .negInf, .posInf),
    ("mass_omega_prime", .loc "lower_mass_bound_isoscalar", .posInf), ("decay_rate_omega_prime", .const 0.0, .posInf),
    ("mass_omega_double_prime", .loc "lower_mass_bound_isoscalar", .posInf),
    ("decay_rate_omega_double_prime", .const 0.0, .posInf), ("a_dirac_phi", .negInf, .posInf),
    ("a_pauli_phi", .negInf, .posInf), ("mass_phi", .loc "lower_mass_bound_isoscalar", .posInf),
    ("decay_rate_phi", .const 0.0, .posInf), ("a_dirac_phi_prime", .negInf, .posInf),
    ("a_pauli_phi_prime", .negInf, .posInf), ("mass_phi_prime", .loc "lower_mass_bound_isoscalar", .posInf),
    ("decay_rate_phi_prime", .const 0.0, .posInf),
    ("mass_phi_double_prime", .loc "lower_mass_bound_isoscalar", .posInf),
    ("decay_rate_phi_double_prime", .const 0.0, .posInf), ("a_dirac_rho", .negInf, .posInf),
    ("mass_rho", .loc "lower_mass_bound_isovector", .posInf), ("decay_rate_rho", .const 0.0, .posInf),
    ("mass_rho_prime", .loc "lower_mass_bound_isovector", .posInf), ("decay_rate_rho_prime", .const 0.0, .posInf),
    ("mass_rho_double_prime", .loc "lower_mass_bound_isovector", .posInf),
    ("decay_rate_rho_double_prime", .const 0.0, .posInf)]
  orderedNames := [
    "t_in_dirac_isoscalar", "t_in_dirac_isovector", "t_in_pauli_isoscalar", "t_in_pauli_isovector", "a_dirac_omega",
    "a_dirac_phi", "a_dirac_omega_prime", "a_dirac_phi_prime", "a_dirac_rho", "a_pauli_omega", "a_pauli_phi",
    "a_pauli_phi_prime", "mass_omega", "mass_phi", "mass_omega_prime", "mass_omega_double_prime", "mass_phi_prime",
    "mass_phi_double_prime", "decay_rate_omega", "decay_rate_phi", "decay_rate_omega_prime",
    "decay_rate_omega_double_prime", "decay_rate_phi_prime", "decay_rate_phi_double_prime", "mass_rho",
    "mass_rho_prime", "mass_rho_double_prime", "decay_rate_rho", "decay_rate_rho_prime", "decay_rate_rho_double_prime"]
  fromOrdered := some {
    constantArgs := [
      "nucleon_mass", "magnetic_moment_proton", "magnetic_moment_neutron", "t_0_dirac_isoscalar",
      "t_0_dirac_isovector", "t_0_pauli_isoscalar", "t_0_pauli_isovector"]
    names := [
      "t_in_dirac_isoscalar", "t_in_dirac_isovector", "t_in_pauli_isoscalar", "t_in_pauli_isovector", "a_dirac_omega",
      "a_dirac_phi", "a_dirac_omega_prime", "a_dirac_phi_prime", "a_dirac_rho", "a_pauli_omega", "a_pauli_phi",
      "a_pauli_phi_prime", "mass_omega", "mass_phi", "mass_omega_prime", "mass_omega_double_prime", "mass_phi_prime",
      "mass_phi_double_prime", "decay_rate_omega", "decay_rate_phi", "decay_rate_omega_prime",
      "decay_rate_omega_double_prime", "decay_rate_phi_prime", "decay_rate_phi_double_prime", "mass_rho",
      "mass_rho_prime", "mass_rho_double_prime", "decay_rate_rho", "decay_rate_rho_prime", "decay_rate_rho_double_prime"]
    extras := [
      ("nucleon_mass", "nucleon_mass", true), ("magnetic_moment_proton", "magnetic_moment_proton", true),
      ("magnetic_moment_neutron", "magnetic_moment_neutron", true),
      ("t_0_dirac_isoscalar", "t_0_dirac_isoscalar", true), ("t_0_dirac_isovector", "t_0_dirac_isovector", true),
      ("t_0_pauli_isoscalar", "t_0_pauli_isoscalar", true), ("t_0_pauli_isovector", "t_0_pauli_isovector", true)] }
  fixResonances := some [
    "mass_rho", "mass_rho_prime", "mass_rho_double_prime", "decay_rate_rho", "decay_rate_rho_prime",
    "decay_rate_rho_double_prime", "mass_omega", "mass_phi", "mass_omega_prime", "mass_omega_double_prime",
    "mass_phi_prime", "mass_phi_double_prime", "decay_rate_omega", "decay_rate_phi", "decay_rate_omega_prime",
    "decay_rate_omega_double_prime", "decay_rate_phi_prime", "decay_rate_phi_double_prime"]

/-- `ETGMRModelParameters`, `model_parameters/ETGMRModelParameters.py:7-65`: `__init__` 9-11, `_setup_data` 13-19,
`get_model_parameters_bounds_handpicked` 45-54, `..._maximal` 57-62,
`get_ordered_values` 64-65 (no `from_ordered_values`) (no `fix_resonances`). -/
def etgmrTable : ClassTable where
  initArgs := ["a", "m_a", "m_d"]
  superArgs := ["a", "m_a", "m_d"]
  setupArgs := ["a", "m_a", "m_d"]
  alwaysFixed := []
  entries := [("a", "a", false), ("m_a", "m_a", false), ("m_d", "m_d", false)]
  handpicked := [("a", .negInf, .posInf), ("m_a", .const 0.1, .posInf), ("m_d", .const 0.1, .posInf)]
  maximalLocals := []
  maximal := [("a", .negInf, .posInf), ("m_a", .const 0.0, .posInf), ("m_d", .const 0.0, .posInf)]
  orderedNames := ["a", "m_a"]
  fromOrdered := none
  fixResonances := none

/-- `TwoPolesModelParameters`, `model_parameters/TwoPolesModelParameters.py:7-65`: `__init__` 9-11, `_setup_data` 13-19,
`get_model_parameters_bounds_handpicked` 45-54, `..._maximal` 57-62,
`get_ordered_values` 64-65 (no `from_ordered_values`) (no `fix_resonances`). -/
def twoPolesTable : ClassTable where
  initArgs := ["a", "m_1", "m_2"]
  superArgs := ["a", "m_1", "m_2"]
  setupArgs := ["a", "m_1", "m_2"]
  alwaysFixed := []
  entries := [("a", "a", false), ("m_1", "m_1", false), ("m_2", "m_2", false)]
  handpicked := [("a", .negInf, .posInf), ("m_1", .const 0.01, .posInf), ("m_2", .const 0.1, .posInf)]
  maximalLocals := []
  maximal := [("a", .negInf, .posInf), ("m_1", .const 0.0, .posInf), ("m_2", .const 0.0, .posInf)]
  orderedNames := ["a", "m_1", "m_2"]
  fromOrdered := none
  fixResonances := none

/-- `_OscillationsParameters`, `task/ResidualOscillationsTask.py:15-77`: `__init__` 17-19, `_setup_data` 22-29,
`get_model_parameters_bounds_handpicked` 55-65, `..._maximal` 68-74,
`get_ordered_values` 76-77 (no `from_ordered_values`) (no `fix_resonances`). -/
def oscillationsTable : ClassTable where
  initArgs := ["a", "b", "c", "d"]
  superArgs := ["a", "b", "c", "d"]
  setupArgs := ["a", "b", "c", "d"]
  alwaysFixed := []
  entries := [("a", "a", false), ("b", "b", false), ("c", "c", false), ("d", "d", false)]
  handpicked := [
    ("a", .negInf, .posInf), ("b", .const 0.0, .posInf), ("c", .const 0.0, .posInf), ("d", .negInf, .posInf)]
  maximalLocals := []
  maximal := [
    ("a", .negInf, .posInf), ("b", .negInf, .posInf), ("c", .negInf, .posInf), ("d", .negInf, .posInf)]
  orderedNames := ["a", "b", "c", "d"]
  fromOrdered := none
  fixResonances := none

/-- The parameter classes. -/
inductive ParamClass
  | kaon
  | kaonB
  | kaonSimplified
  | kaonFixedRhoOmega
  | kaonFixedSelected
  | nucleon
  | etgmr
  | twoPoles
  | oscillations
  deriving DecidableEq, Repr, Inhabited

/-- The table of a class. -/
def ParamClass.table : ParamClass → ClassTable
  | .kaon => kaonTable
  | .kaonB => kaonBTable
  | .kaonSimplified => kaonSimplifiedTable
  | .kaonFixedRhoOmega => kaonFixedRhoOmegaTable
  | .kaonFixedSelected => kaonFixedSelectedTable
  | .nucleon => nucleonTable
  | .etgmr => etgmrTable
  | .twoPoles => twoPolesTable
  | .oscillations => oscillationsTable

end UA
