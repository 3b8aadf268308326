import Verif.Model.SingleFit
import Verif.Spec.Runs

/-!
# Vocabulary for the scripts that do one fit
-/

namespace UA

/-- The values of `kaon_production/run_single_fit.py` by name, in the order in which they are printed. -/
def kaonSingleFitStart : List (String × ℚ) := [
  ("t_in_isoscalar", 4.104732671275326), ("t_in_isovector", 6.945876504806479),
  ("mass_rho", 0.77526), ("mass_rho_prime", 1.465), ("mass_rho_double_prime", 1.72), ("mass_rho_triple_prime", 2.15),
  ("decay_rate_rho", 0.1474), ("decay_rate_rho_prime", 0.4), ("decay_rate_rho_double_prime", 0.5220413015662677),
  ("decay_rate_rho_triple_prime", 0.9262000511188161),
  ("a_rho", 0.5579553419980545), ("a_rho_prime", -0.06608398477649186), ("a_rho_double_prime", 0.19847722499260162),
  ("mass_omega", 0.78266), ("mass_phi", 1.0190415494118024), ("mass_omega_prime", 1.41), ("mass_omega_double_prime", 1.67),
  ("mass_phi_prime", 1.68), ("mass_phi_double_prime", 2.159),
  ("decay_rate_omega", 0.00868), ("decay_rate_phi", 0.004249), ("decay_rate_omega_prime", 0.9228912480513007),
  ("decay_rate_omega_double_prime", 0.315), ("decay_rate_phi_prime", 0.15), ("decay_rate_phi_double_prime", 0.137),
  ("a_omega", 0.20006026821487782), ("a_phi", 0.3317378089249629), ("a_omega_prime", 0.14633274655460118),
  ("a_omega_double_prime", -0.17367426366140964), ("a_phi_prime", -0.010680398179201966)]

/-- The parameters that are fitted: the inelastic thresholds, the coupling constants, and nine masses and widths. -/
def kaonSingleFitFitted : List String := [
  "t_in_isoscalar", "t_in_isovector", "a_omega", "a_omega_prime", "a_omega_double_prime", "a_phi", "a_phi_prime",
  "a_rho", "a_rho_prime", "a_rho_double_prime",
  "decay_rate_omega_prime", "mass_phi", "decay_rate_phi", "mass_phi_prime", "decay_rate_phi_prime", "mass_phi_double_prime",
  "decay_rate_phi_double_prime", "decay_rate_rho_double_prime", "decay_rate_rho_triple_prime"]

/-- The values of `nucleon_production/run_single_fit.py` by name, in the order in which they are printed. -/
def nucleonSingleFitStart : List (String × ℚ) := [
  ("t_in_dirac_isoscalar", 1.921505175780696), ("t_in_dirac_isovector", 1.5790639230453043),
  ("t_in_pauli_isoscalar", 1.9520233934653979), ("t_in_pauli_isovector", 1.4222095291234824),
  ("a_dirac_omega", 0.5392755402487763), ("a_dirac_phi", 0.008486878507497419), ("a_dirac_omega_prime", 0.19466200713482615),
  ("a_dirac_phi_prime", -0.00875921846784497), ("a_dirac_rho", 0.15592815589971398),
  ("a_pauli_omega", 0.19825369592717146), ("a_pauli_phi", -0.006864173123697644), ("a_pauli_phi_prime", -0.09856559678755873),
  ("mass_omega", 0.78266), ("mass_phi", 1.019461), ("mass_omega_prime", 1.41), ("mass_omega_double_prime", 1.67), ("mass_phi_prime", 1.68),
  ("mass_phi_double_prime", 2.159),
  ("decay_rate_omega", 0.00868), ("decay_rate_phi", 0.004249), ("decay_rate_omega_prime", 0.29), ("decay_rate_omega_double_prime", 0.315),
  ("decay_rate_phi_prime", 0.15), ("decay_rate_phi_double_prime", 0.137),
  ("mass_rho", 0.77526), ("mass_rho_prime", 1.465), ("mass_rho_double_prime", 1.72),
  ("decay_rate_rho", 0.1474), ("decay_rate_rho_prime", 0.4), ("decay_rate_rho_double_prime", 0.25)]

/-- The parameters that are fitted: the inelastic thresholds and the coupling constants. -/
def nucleonSingleFitFitted : List String := [
  "t_in_dirac_isoscalar", "t_in_dirac_isovector", "t_in_pauli_isoscalar", "t_in_pauli_isovector",
  "a_dirac_omega", "a_dirac_phi", "a_dirac_omega_prime", "a_dirac_phi_prime", "a_dirac_rho", "a_pauli_omega", "a_pauli_phi", "a_pauli_phi_prime"]

/-- The printed `values` belong to the parameters of `start`, in its order, and are what `p` holds; those not in `fitted` are as at the
start. -/
def Prints (start : List (String × ℚ)) (fitted : List String) (p : ModelParameters ℝ) (values : List ℝ) : Prop :=
  List.Forall₂ (fun e v => p.Holds e.1 v ∧ (e.1 ∉ fitted → v = (e.2 : ℝ))) start values

end UA
