import Verif.Model.PlotFit
import Verif.Spec.Runs
import Verif.Spec.Scripts

/-!
# Vocabulary for the script that shows one result
-/

namespace UA

/-- The values of `kaon_production/plot_fit.py` by name. -/
def plotFitValues : List (String × ℚ) := [
  ("t_0_isoscalar", 0.17531904388276887), ("t_0_isovector", 0.07791957505900839),
  ("t_in_isoscalar", 3.2291595069331067), ("t_in_isovector", 0.5835126419012053),
  ("a_omega", 0.32729801061391034), ("mass_omega", 0.78266),
  ("decay_rate_omega", 0.00868), ("a_omega_double_prime", -0.1322560747876571),
  ("mass_omega_double_prime", 1.67), ("decay_rate_omega_double_prime", 0.315),
  ("a_phi", 0.33178701236457975), ("mass_phi", 1.0190536833008472),
  ("decay_rate_phi", 0.004229702507790191), ("a_phi_prime", 0.08303027600714324),
  ("mass_phi_prime", 3.0321618703565654), ("decay_rate_phi_prime", 1.7409626508527738),
  ("mass_phi_double_prime", 1.984329537423646), ("decay_rate_phi_double_prime", 0.6816716770166859),
  ("a_rho", 0.5456549089807899), ("mass_rho", 0.76388),
  ("decay_rate_rho", 0.14428), ("a_rho_prime", -0.03127769956987407),
  ("mass_rho_prime", 1.32635), ("decay_rate_rho_prime", 0.32413),
  ("mass_rho_double_prime", 1.77054), ("decay_rate_rho_double_prime", 0.26898)]

/-- The parameters the script declares free before it fixes all of them. -/
def plotFitFree : List String := [
  "t_in_isoscalar", "t_in_isovector", "a_omega", "a_omega_double_prime", "a_phi", "mass_phi", "decay_rate_phi", "a_phi_prime", "mass_phi_prime", "decay_rate_phi_prime", "mass_phi_double_prime", "decay_rate_phi_double_prime", "a_rho", "a_rho_prime"]

end UA
