import Verif.Model.Shipped

/-!
# Statements about files
-/

namespace UA

/-- Reading the file gives the three columns of `data`. -/
def FileHolds (lines : List String) (data : List (ℝ × ℝ × ℝ)) : Prop :=
  readDataFile lines = .ok (data.map (·.1), data.map (·.2.1), data.map (·.2.2))

/-- The values of the parameters in `calculate_deviations.py`. -/
def deviationsValues : List (String × ℚ) := [
  ("t_0_isoscalar", 0.17531904388276887), ("t_0_isovector", 0.07791957505900839), ("t_in_isoscalar", 1.0365569328792128),
  ("t_in_isovector", 1.6795999919783429), ("a_omega", 0.3640295777639465), ("mass_omega", 0.78266),
  ("decay_rate_omega", 0.00868), ("a_omega_prime", -0.04420232725126961), ("mass_omega_prime", 1.4499999999999997),
  ("decay_rate_omega_prime", 0.3299999999995), ("a_omega_double_prime", -0.004446306776718244), ("mass_omega_double_prime", 1.6650000000008336),
  ("decay_rate_omega_double_prime", 0.3000000001), ("a_phi", 0.21515490214604754), ("mass_phi", 1.0174220440395478),
  ("decay_rate_phi", 0.004499999999997257), ("a_phi_prime", -0.04457599206853455), ("mass_phi_prime", 1.6750000000000003),
  ("decay_rate_phi_prime", 0.1512945056878342), ("mass_phi_double_prime", 2.1941336183231037), ("decay_rate_phi_double_prime", 0.19999999999949045),
  ("a_rho", 0.5858562425364882), ("mass_rho", 0.77526), ("decay_rate_rho", 0.1474),
  ("a_rho_prime", -0.14577364351226266), ("mass_rho_prime", 1.4799999999999998), ("decay_rate_rho_prime", 0.39522683844974404),
  ("a_rho_double_prime", 0.02049285609676272), ("mass_rho_double_prime", 1.7399999999999973), ("decay_rate_rho_double_prime", 0.5999999999999913),
  ("mass_rho_triple_prime", 2.0000000002), ("decay_rate_rho_triple_prime", 0.2138095751275945)]

end UA
