import Verif.Spec.Utils
import Verif.Lemmas.ParametersTables

/-!
# Helper lemmas: from a parameter object to the model's arguments
-/

namespace UA

open Complex

theorem asKwargs_lookup {p : ModelParameters ℝ} (h : p.WellFormed) {v : String → ℝ} (hv : ∀ q ∈ p.data, q.value = v q.name)
    {n : String} (hn : n ∈ p.cls.table.initArgs) : p.asKwargs.lookup n = some (v n) := by
  rw [← h.names] at hn
  obtain ⟨q, hq, rfl⟩ := List.mem_map.mp hn
  have := lastValue_of_nodup h.nodup hq
  unfold ModelParameters.asKwargs
  rw [pyDict_lookup, ← hv q hq]
  exact this

theorem asKwargs_keys {p : ModelParameters ℝ} (h : p.WellFormed) : ∀ e ∈ p.asKwargs, e.1 ∈ p.cls.table.initArgs := by
  intro e he
  obtain ⟨r, hr, hre⟩ := pyDict_keys he
  obtain ⟨q, hq, rfl⟩ := List.mem_map.mp hr
  rw [← h.names, ← hre]
  exact List.mem_map_of_mem hq

theorem bind_asKwargs {p : ModelParameters ℝ} (h : p.WellFormed) {v : String → ℝ} (hv : ∀ q ∈ p.data, q.value = v q.name)
    {args : List String} (h1 : ∀ n ∈ args, n ∈ p.cls.table.initArgs) (h2 : ∀ n ∈ p.cls.table.initArgs, n ∈ args) :
    bindKwargs args p.asKwargs = .ok (args.map fun n => (n, v n)) :=
  bindKwargs_ok (fun n hn => asKwargs_lookup h hv (h1 n hn)) fun e he => h2 _ (asKwargs_keys h e he)

/-- The arguments with given values. -/
def KaonUAModel.Args.ofValues (v : String → ℝ) : KaonUAModel.Args where
  t_0_isoscalar := v "t_0_isoscalar"
  t_in_isoscalar := v "t_in_isoscalar"
  t_0_isovector := v "t_0_isovector"
  t_in_isovector := v "t_in_isovector"
  a_omega := v "a_omega"
  a_omega_prime := v "a_omega_prime"
  a_omega_double_prime := v "a_omega_double_prime"
  a_phi := v "a_phi"
  a_phi_prime := v "a_phi_prime"
  a_rho := v "a_rho"
  a_rho_prime := v "a_rho_prime"
  a_rho_double_prime := v "a_rho_double_prime"
  mass_omega := v "mass_omega"
  decay_rate_omega := v "decay_rate_omega"
  mass_omega_prime := v "mass_omega_prime"
  decay_rate_omega_prime := v "decay_rate_omega_prime"
  mass_omega_double_prime := v "mass_omega_double_prime"
  decay_rate_omega_double_prime := v "decay_rate_omega_double_prime"
  mass_phi := v "mass_phi"
  decay_rate_phi := v "decay_rate_phi"
  mass_phi_prime := v "mass_phi_prime"
  decay_rate_phi_prime := v "decay_rate_phi_prime"
  mass_phi_double_prime := v "mass_phi_double_prime"
  decay_rate_phi_double_prime := v "decay_rate_phi_double_prime"
  mass_rho := v "mass_rho"
  decay_rate_rho := v "decay_rate_rho"
  mass_rho_prime := v "mass_rho_prime"
  decay_rate_rho_prime := v "decay_rate_rho_prime"
  mass_rho_double_prime := v "mass_rho_double_prime"
  decay_rate_rho_double_prime := v "decay_rate_rho_double_prime"
  mass_rho_triple_prime := v "mass_rho_triple_prime"
  decay_rate_rho_triple_prime := v "decay_rate_rho_triple_prime"

theorem KaonUAModel.Args.ofEnv_eq (v : String → ℝ) :
    KaonUAModel.Args.ofEnv (KaonUAModel.argNames.map fun n => (n, v n)) = .ok (.ofValues v) := by
  have hr : ∀ n ∈ KaonUAModel.argNames, readVar .exception (KaonUAModel.argNames.map fun n => (n, v n)) n = .ok (v n) :=
    fun n hn => readVar_eq_ok.mpr (lookup_map_self hn)
  generalize (KaonUAModel.argNames.map fun n => (n, v n)) = env at hr
  simp only [KaonUAModel.argNames, List.forall_mem_cons] at hr
  simp only [KaonUAModel.Args.ofEnv, hr, except_ok_bind]
  rfl

theorem KaonUAModel.Args.byName_ofValues (v : String → ℝ) :
    (KaonUAModel.Args.ofValues v).byName = KaonUAModel.argNames.map fun n => (n, v n) := rfl

/-- The arguments with given values. -/
def KaonUAModelB.Args.ofValues (v : String → ℝ) : KaonUAModelB.Args where
  t_0_isoscalar := v "t_0_isoscalar"
  t_in_isoscalar := v "t_in_isoscalar"
  t_0_isovector := v "t_0_isovector"
  t_in_isovector := v "t_in_isovector"
  a_omega := v "a_omega"
  a_omega_double_prime := v "a_omega_double_prime"
  a_phi := v "a_phi"
  a_phi_prime := v "a_phi_prime"
  a_rho := v "a_rho"
  a_rho_prime := v "a_rho_prime"
  mass_omega := v "mass_omega"
  decay_rate_omega := v "decay_rate_omega"
  mass_omega_double_prime := v "mass_omega_double_prime"
  decay_rate_omega_double_prime := v "decay_rate_omega_double_prime"
  mass_phi := v "mass_phi"
  decay_rate_phi := v "decay_rate_phi"
  mass_phi_prime := v "mass_phi_prime"
  decay_rate_phi_prime := v "decay_rate_phi_prime"
  mass_phi_double_prime := v "mass_phi_double_prime"
  decay_rate_phi_double_prime := v "decay_rate_phi_double_prime"
  mass_rho := v "mass_rho"
  decay_rate_rho := v "decay_rate_rho"
  mass_rho_prime := v "mass_rho_prime"
  decay_rate_rho_prime := v "decay_rate_rho_prime"
  mass_rho_double_prime := v "mass_rho_double_prime"
  decay_rate_rho_double_prime := v "decay_rate_rho_double_prime"

theorem KaonUAModelB.Args.ofEnv_eq (v : String → ℝ) :
    KaonUAModelB.Args.ofEnv (KaonUAModelB.argNames.map fun n => (n, v n)) = .ok (.ofValues v) := by
  have hr : ∀ n ∈ KaonUAModelB.argNames, readVar .exception (KaonUAModelB.argNames.map fun n => (n, v n)) n = .ok (v n) :=
    fun n hn => readVar_eq_ok.mpr (lookup_map_self hn)
  generalize (KaonUAModelB.argNames.map fun n => (n, v n)) = env at hr
  simp only [KaonUAModelB.argNames, List.forall_mem_cons] at hr
  simp only [KaonUAModelB.Args.ofEnv, hr, except_ok_bind]
  rfl

theorem KaonUAModelB.Args.byName_ofValues (v : String → ℝ) :
    (KaonUAModelB.Args.ofValues v).byName = KaonUAModelB.argNames.map fun n => (n, v n) := rfl

/-- The arguments with given values. -/
def KaonUAModelSimplified.Args.ofValues (v : String → ℝ) : KaonUAModelSimplified.Args where
  t_0_isoscalar := v "t_0_isoscalar"
  t_in_isoscalar := v "t_in_isoscalar"
  t_0_isovector := v "t_0_isovector"
  t_in_isovector := v "t_in_isovector"
  a_omega_prime := v "a_omega_prime"
  a_omega_double_prime := v "a_omega_double_prime"
  a_phi := v "a_phi"
  a_phi_prime := v "a_phi_prime"
  a_rho_prime := v "a_rho_prime"
  a_rho_double_prime := v "a_rho_double_prime"
  mass_omega_prime := v "mass_omega_prime"
  decay_rate_omega_prime := v "decay_rate_omega_prime"
  mass_omega_double_prime := v "mass_omega_double_prime"
  decay_rate_omega_double_prime := v "decay_rate_omega_double_prime"
  mass_phi := v "mass_phi"
  decay_rate_phi := v "decay_rate_phi"
  mass_phi_prime := v "mass_phi_prime"
  decay_rate_phi_prime := v "decay_rate_phi_prime"
  mass_phi_double_prime := v "mass_phi_double_prime"
  decay_rate_phi_double_prime := v "decay_rate_phi_double_prime"
  mass_rho_prime := v "mass_rho_prime"
  decay_rate_rho_prime := v "decay_rate_rho_prime"
  mass_rho_double_prime := v "mass_rho_double_prime"
  decay_rate_rho_double_prime := v "decay_rate_rho_double_prime"
  mass_rho_triple_prime := v "mass_rho_triple_prime"
  decay_rate_rho_triple_prime := v "decay_rate_rho_triple_prime"

theorem KaonUAModelSimplified.Args.ofEnv_eq (v : String → ℝ) :
    KaonUAModelSimplified.Args.ofEnv (KaonUAModelSimplified.argNames.map fun n => (n, v n)) = .ok (.ofValues v) := by
  have hr : ∀ n ∈ KaonUAModelSimplified.argNames, readVar .exception (KaonUAModelSimplified.argNames.map fun n => (n, v n)) n = .ok (v n) :=
    fun n hn => readVar_eq_ok.mpr (lookup_map_self hn)
  generalize (KaonUAModelSimplified.argNames.map fun n => (n, v n)) = env at hr
  simp only [KaonUAModelSimplified.argNames, List.forall_mem_cons] at hr
  simp only [KaonUAModelSimplified.Args.ofEnv, hr, except_ok_bind]
  rfl

theorem KaonUAModelSimplified.Args.byName_ofValues (v : String → ℝ) :
    (KaonUAModelSimplified.Args.ofValues v).byName = KaonUAModelSimplified.argNames.map fun n => (n, v n) := rfl

/-- The arguments with given values. -/
def NucleonArgs.ofValues (v : String → ℝ) : NucleonArgs where
  nucleon_mass := v "nucleon_mass"
  magnetic_moment_proton := v "magnetic_moment_proton"
  magnetic_moment_neutron := v "magnetic_moment_neutron"
  t_0_dirac_isoscalar := v "t_0_dirac_isoscalar"
  t_in_dirac_isoscalar := v "t_in_dirac_isoscalar"
  t_0_dirac_isovector := v "t_0_dirac_isovector"
  t_in_dirac_isovector := v "t_in_dirac_isovector"
  t_0_pauli_isoscalar := v "t_0_pauli_isoscalar"
  t_in_pauli_isoscalar := v "t_in_pauli_isoscalar"
  t_0_pauli_isovector := v "t_0_pauli_isovector"
  t_in_pauli_isovector := v "t_in_pauli_isovector"
  a_dirac_omega := v "a_dirac_omega"
  a_dirac_omega_prime := v "a_dirac_omega_prime"
  a_dirac_phi := v "a_dirac_phi"
  a_dirac_phi_prime := v "a_dirac_phi_prime"
  a_dirac_rho := v "a_dirac_rho"
  a_pauli_omega := v "a_pauli_omega"
  a_pauli_phi := v "a_pauli_phi"
  a_pauli_phi_prime := v "a_pauli_phi_prime"
  mass_omega := v "mass_omega"
  decay_rate_omega := v "decay_rate_omega"
  mass_omega_prime := v "mass_omega_prime"
  decay_rate_omega_prime := v "decay_rate_omega_prime"
  mass_omega_double_prime := v "mass_omega_double_prime"
  decay_rate_omega_double_prime := v "decay_rate_omega_double_prime"
  mass_phi := v "mass_phi"
  decay_rate_phi := v "decay_rate_phi"
  mass_phi_prime := v "mass_phi_prime"
  decay_rate_phi_prime := v "decay_rate_phi_prime"
  mass_phi_double_prime := v "mass_phi_double_prime"
  decay_rate_phi_double_prime := v "decay_rate_phi_double_prime"
  mass_rho := v "mass_rho"
  decay_rate_rho := v "decay_rate_rho"
  mass_rho_prime := v "mass_rho_prime"
  decay_rate_rho_prime := v "decay_rate_rho_prime"
  mass_rho_double_prime := v "mass_rho_double_prime"
  decay_rate_rho_double_prime := v "decay_rate_rho_double_prime"

theorem NucleonArgs.ofEnv_eq (v : String → ℝ) :
    NucleonArgs.ofEnv (NucleonUAModel.argNames.map fun n => (n, v n)) = .ok (.ofValues v) := by
  have hr : ∀ n ∈ NucleonUAModel.argNames, readVar .exception (NucleonUAModel.argNames.map fun n => (n, v n)) n = .ok (v n) :=
    fun n hn => readVar_eq_ok.mpr (lookup_map_self hn)
  generalize (NucleonUAModel.argNames.map fun n => (n, v n)) = env at hr
  simp only [NucleonUAModel.argNames, List.forall_mem_cons] at hr
  simp only [NucleonArgs.ofEnv, hr, except_ok_bind]
  rfl

theorem NucleonArgs.byName_ofValues (v : String → ℝ) :
    (NucleonArgs.ofValues v).byName = NucleonUAModel.argNames.map fun n => (n, v n) := rfl

end UA
