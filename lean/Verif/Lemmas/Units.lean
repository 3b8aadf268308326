import Verif.Spec.Units
import Verif.Lemmas.ValueObject
import Verif.Lemmas.UtilsEval

/-! Change of units. -/

namespace UA

open Complex

variable {k : ℝ}

theorem squareRoot_scale (hk : 0 < k) (z : ℂ) : squareRoot ((k ^ 2 : ℝ) * z) = k * squareRoot z := by
  simp only [squareRoot]
  rw [Complex.arg_real_mul z (by positivity : (0 : ℝ) < k ^ 2), norm_mul, Complex.norm_real, Real.norm_of_nonneg (by positivity),
    Real.sqrt_mul (by positivity), Real.sqrt_sq hk.le]
  push_cast
  ring

theorem pyDiv_scale {c : ℂ} (hc : c ≠ 0) (a b : ℂ) : pyDiv (c * a) (c * b) = pyDiv a b := by
  by_cases hb : b = 0
  · rw [hb, mul_zero, pyDiv_zero, pyDiv_zero]
  · rw [pyDiv_ok hb, pyDiv_ok (mul_ne_zero hc hb), mul_div_mul_left _ _ hc]

theorem re_scale (hk : 0 < k) (t : ℂ) : ((k ^ 2 : ℝ) * t).re < 0 ↔ t.re < 0 := by
  rw [Complex.re_ofReal_mul]
  have : 0 < k ^ 2 := by positivity
  constructor
  · intro h; by_contra h'; nlinarith [mul_nonneg this.le (not_lt.mp h')]
  · exact fun h => mul_neg_of_pos_of_neg this h

def MapFromTtoW.scale (k : ℝ) (m : MapFromTtoW) : MapFromTtoW := ⟨k ^ 2 * m.t_0, k ^ 2 * m.t_in, k * m.a⟩

theorem sq_lt_scale (hk : 0 < k) (a b : ℝ) : k ^ 2 * a < k ^ 2 * b ↔ a < b := mul_lt_mul_iff_right₀ (by positivity)

theorem mapInit_scale (hk : 0 < k) (t_0 t_in : ℝ) :
    MapFromTtoW.init (k ^ 2 * t_0) (k ^ 2 * t_in) = (do let m ← MapFromTtoW.init t_0 t_in; return m.scale k) := by
  unfold MapFromTtoW.init validateBranchPointPositions
  have h1 : k ^ 2 * t_0 < 0 ↔ t_0 < 0 := by simpa using sq_lt_scale hk t_0 0
  have h2 := sq_lt_scale hk t_in t_0
  have h3 : k ^ 2 * t_in - k ^ 2 * t_0 < 0 ↔ t_in - t_0 < 0 := by
    rw [← mul_sub]; simpa using sq_lt_scale hk (t_in - t_0) 0
  have h4 : Real.sqrt (k ^ 2 * t_in - k ^ 2 * t_0) = k * Real.sqrt (t_in - t_0) := by
    rw [← mul_sub, Real.sqrt_mul (by positivity), Real.sqrt_sq hk.le]
  simp only [h1, h2, pySqrt, h3, h4]
  by_cases a1 : t_0 < 0
  · simp only [a1, if_true]; rfl
  · by_cases a2 : t_in < t_0
    · simp only [a1, a2, if_true, if_false]; rfl
    · by_cases a3 : t_in - t_0 < 0
      · simp only [a1, a2, a3, if_true, if_false]; rfl
      · simp only [a1, a2, a3, if_false]; rfl

theorem mapCall_scale (hk : 0 < k) (m : MapFromTtoW) (t : ℂ) : (m.scale k).call ((k ^ 2 : ℝ) * t) = m.call t := by
  have hk' : (k : ℂ) ≠ 0 := by exact_mod_cast hk.ne'
  unfold MapFromTtoW.call MapFromTtoW.scale
  have e : ((k ^ 2 : ℝ) : ℂ) * t - ((k ^ 2 * m.t_0 : ℝ) : ℂ) = ((k ^ 2 : ℝ) : ℂ) * (t - m.t_0) := by push_cast; ring
  simp only [e, squareRoot_scale hk]
  rw [show (k : ℂ) * squareRoot (t - m.t_0) + ((k * m.a : ℝ) : ℂ) = k * (squareRoot (t - m.t_0) + m.a) by push_cast; ring,
    show -((k : ℂ) * squareRoot (t - m.t_0)) + ((k * m.a : ℝ) : ℂ) = k * (-squareRoot (t - m.t_0) + m.a) by push_cast; ring, pyDiv_scale hk']

theorem mapCall_zero (hk : 0 < k) (m : MapFromTtoW) : (m.scale k).call 0 = m.call 0 := by
  have := mapCall_scale hk m 0
  rwa [mul_zero] at this

theorem pole_scale (mass decay_rate : ℝ) : tMesonPole (k * mass) (k * decay_rate) = (k ^ 2 : ℝ) * tMesonPole mass decay_rate := by
  unfold tMesonPole
  push_cast
  ring

theorem buildComponent_scale (hk : 0 < k) (t_0 t_in mass decay_rate : ℝ) :
    buildComponent (k ^ 2 * t_0) (k ^ 2 * t_in) (k * mass) (k * decay_rate) = buildComponent t_0 t_in mass decay_rate := by
  unfold buildComponent
  rw [mapInit_scale hk]
  rcases MapFromTtoW.init t_0 t_in with e | m
  · rfl
  · simp only [except_ok_bind, except_pure, mapCall_zero hk, pole_scale, mapCall_scale hk, mul_pow, sq_lt_scale hk]

theorem nucleonBuildComponent_scale (hk : 0 < k) (t_0 t_in mass decay_rate : ℝ) :
    nucleonBuildComponent (k ^ 2 * t_0) (k ^ 2 * t_in) (k * mass) (k * decay_rate) = nucleonBuildComponent t_0 t_in mass decay_rate := by
  unfold nucleonBuildComponent
  rw [mapInit_scale hk]
  rcases MapFromTtoW.init t_0 t_in with e | m
  · rfl
  · simp only [except_ok_bind, except_pure, mapCall_zero hk, pole_scale, mapCall_scale hk, Complex.re_ofReal_mul, sq_lt_scale hk]

/-- The values in other units. -/
noncomputable def scaleValues (k : ℝ) (v : String → ℝ) (n : String) : ℝ := k ^ dimension n * v n

theorem scaleValues_two {n : String} (h : dimension n = 2) (v : String → ℝ) : scaleValues k v n = k ^ 2 * v n := by rw [scaleValues, h]
theorem scaleValues_one {n : String} (h : dimension n = 1) (v : String → ℝ) : scaleValues k v n = k * v n := by rw [scaleValues, h, pow_one]
theorem scaleValues_zero {n : String} (h : dimension n = 0) (v : String → ℝ) : scaleValues k v n = v n := by rw [scaleValues, h, pow_zero, one_mul]

/-- The arguments in other units. -/
noncomputable def KaonUAModel.Args.scale (k : ℝ) (x : KaonUAModel.Args) : KaonUAModel.Args where
  t_0_isoscalar := k ^ 2 * x.t_0_isoscalar
  t_in_isoscalar := k ^ 2 * x.t_in_isoscalar
  t_0_isovector := k ^ 2 * x.t_0_isovector
  t_in_isovector := k ^ 2 * x.t_in_isovector
  a_omega := x.a_omega
  a_omega_prime := x.a_omega_prime
  a_omega_double_prime := x.a_omega_double_prime
  a_phi := x.a_phi
  a_phi_prime := x.a_phi_prime
  a_rho := x.a_rho
  a_rho_prime := x.a_rho_prime
  a_rho_double_prime := x.a_rho_double_prime
  mass_omega := k * x.mass_omega
  decay_rate_omega := k * x.decay_rate_omega
  mass_omega_prime := k * x.mass_omega_prime
  decay_rate_omega_prime := k * x.decay_rate_omega_prime
  mass_omega_double_prime := k * x.mass_omega_double_prime
  decay_rate_omega_double_prime := k * x.decay_rate_omega_double_prime
  mass_phi := k * x.mass_phi
  decay_rate_phi := k * x.decay_rate_phi
  mass_phi_prime := k * x.mass_phi_prime
  decay_rate_phi_prime := k * x.decay_rate_phi_prime
  mass_phi_double_prime := k * x.mass_phi_double_prime
  decay_rate_phi_double_prime := k * x.decay_rate_phi_double_prime
  mass_rho := k * x.mass_rho
  decay_rate_rho := k * x.decay_rate_rho
  mass_rho_prime := k * x.mass_rho_prime
  decay_rate_rho_prime := k * x.decay_rate_rho_prime
  mass_rho_double_prime := k * x.mass_rho_double_prime
  decay_rate_rho_double_prime := k * x.decay_rate_rho_double_prime
  mass_rho_triple_prime := k * x.mass_rho_triple_prime
  decay_rate_rho_triple_prime := k * x.decay_rate_rho_triple_prime

theorem KaonUAModel.Args.ofValues_scale (k : ℝ) (v : String → ℝ) : KaonUAModel.Args.ofValues (scaleValues k v) = (KaonUAModel.Args.ofValues v).scale k := by
  have h2 : ∀ n ∈ ["t_0_isoscalar", "t_in_isoscalar", "t_0_isovector", "t_in_isovector"],
      dimension n = 2 := by decide +kernel
  have e2 := fun n hn => scaleValues_two (k := k) (h2 n hn) v
  simp only [List.forall_mem_cons, List.not_mem_nil, false_imp_iff, implies_true, and_true] at e2
  have h1 : ∀ n ∈ ["mass_omega", "decay_rate_omega", "mass_omega_prime", "decay_rate_omega_prime", "mass_omega_double_prime",
      "decay_rate_omega_double_prime", "mass_phi", "decay_rate_phi", "mass_phi_prime", "decay_rate_phi_prime",
      "mass_phi_double_prime", "decay_rate_phi_double_prime", "mass_rho", "decay_rate_rho", "mass_rho_prime",
      "decay_rate_rho_prime", "mass_rho_double_prime", "decay_rate_rho_double_prime", "mass_rho_triple_prime",
      "decay_rate_rho_triple_prime"],
      dimension n = 1 := by decide +kernel
  have e1 := fun n hn => scaleValues_one (k := k) (h1 n hn) v
  simp only [List.forall_mem_cons, List.not_mem_nil, false_imp_iff, implies_true, and_true] at e1
  have h0 : ∀ n ∈ ["a_omega", "a_omega_prime", "a_omega_double_prime", "a_phi", "a_phi_prime", "a_rho", "a_rho_prime",
      "a_rho_double_prime"],
      dimension n = 0 := by decide +kernel
  have e0 := fun n hn => scaleValues_zero (k := k) (h0 n hn) v
  simp only [List.forall_mem_cons, List.not_mem_nil, false_imp_iff, implies_true, and_true] at e0
  simp only [KaonUAModel.Args.ofValues, KaonUAModel.Args.scale, e2, e1, e0]

/-- The arguments in other units. -/
noncomputable def KaonUAModelB.Args.scale (k : ℝ) (x : KaonUAModelB.Args) : KaonUAModelB.Args where
  t_0_isoscalar := k ^ 2 * x.t_0_isoscalar
  t_in_isoscalar := k ^ 2 * x.t_in_isoscalar
  t_0_isovector := k ^ 2 * x.t_0_isovector
  t_in_isovector := k ^ 2 * x.t_in_isovector
  a_omega := x.a_omega
  a_omega_double_prime := x.a_omega_double_prime
  a_phi := x.a_phi
  a_phi_prime := x.a_phi_prime
  a_rho := x.a_rho
  a_rho_prime := x.a_rho_prime
  mass_omega := k * x.mass_omega
  decay_rate_omega := k * x.decay_rate_omega
  mass_omega_double_prime := k * x.mass_omega_double_prime
  decay_rate_omega_double_prime := k * x.decay_rate_omega_double_prime
  mass_phi := k * x.mass_phi
  decay_rate_phi := k * x.decay_rate_phi
  mass_phi_prime := k * x.mass_phi_prime
  decay_rate_phi_prime := k * x.decay_rate_phi_prime
  mass_phi_double_prime := k * x.mass_phi_double_prime
  decay_rate_phi_double_prime := k * x.decay_rate_phi_double_prime
  mass_rho := k * x.mass_rho
  decay_rate_rho := k * x.decay_rate_rho
  mass_rho_prime := k * x.mass_rho_prime
  decay_rate_rho_prime := k * x.decay_rate_rho_prime
  mass_rho_double_prime := k * x.mass_rho_double_prime
  decay_rate_rho_double_prime := k * x.decay_rate_rho_double_prime

theorem KaonUAModelB.Args.ofValues_scale (k : ℝ) (v : String → ℝ) : KaonUAModelB.Args.ofValues (scaleValues k v) = (KaonUAModelB.Args.ofValues v).scale k := by
  have h2 : ∀ n ∈ ["t_0_isoscalar", "t_in_isoscalar", "t_0_isovector", "t_in_isovector"],
      dimension n = 2 := by decide +kernel
  have e2 := fun n hn => scaleValues_two (k := k) (h2 n hn) v
  simp only [List.forall_mem_cons, List.not_mem_nil, false_imp_iff, implies_true, and_true] at e2
  have h1 : ∀ n ∈ ["mass_omega", "decay_rate_omega", "mass_omega_double_prime", "decay_rate_omega_double_prime", "mass_phi",
      "decay_rate_phi", "mass_phi_prime", "decay_rate_phi_prime", "mass_phi_double_prime",
      "decay_rate_phi_double_prime", "mass_rho", "decay_rate_rho", "mass_rho_prime", "decay_rate_rho_prime",
      "mass_rho_double_prime", "decay_rate_rho_double_prime"],
      dimension n = 1 := by decide +kernel
  have e1 := fun n hn => scaleValues_one (k := k) (h1 n hn) v
  simp only [List.forall_mem_cons, List.not_mem_nil, false_imp_iff, implies_true, and_true] at e1
  have h0 : ∀ n ∈ ["a_omega", "a_omega_double_prime", "a_phi", "a_phi_prime", "a_rho", "a_rho_prime"],
      dimension n = 0 := by decide +kernel
  have e0 := fun n hn => scaleValues_zero (k := k) (h0 n hn) v
  simp only [List.forall_mem_cons, List.not_mem_nil, false_imp_iff, implies_true, and_true] at e0
  simp only [KaonUAModelB.Args.ofValues, KaonUAModelB.Args.scale, e2, e1, e0]

/-- The arguments in other units. -/
noncomputable def KaonUAModelSimplified.Args.scale (k : ℝ) (x : KaonUAModelSimplified.Args) : KaonUAModelSimplified.Args where
  t_0_isoscalar := k ^ 2 * x.t_0_isoscalar
  t_in_isoscalar := k ^ 2 * x.t_in_isoscalar
  t_0_isovector := k ^ 2 * x.t_0_isovector
  t_in_isovector := k ^ 2 * x.t_in_isovector
  a_omega_prime := x.a_omega_prime
  a_omega_double_prime := x.a_omega_double_prime
  a_phi := x.a_phi
  a_phi_prime := x.a_phi_prime
  a_rho_prime := x.a_rho_prime
  a_rho_double_prime := x.a_rho_double_prime
  mass_omega_prime := k * x.mass_omega_prime
  decay_rate_omega_prime := k * x.decay_rate_omega_prime
  mass_omega_double_prime := k * x.mass_omega_double_prime
  decay_rate_omega_double_prime := k * x.decay_rate_omega_double_prime
  mass_phi := k * x.mass_phi
  decay_rate_phi := k * x.decay_rate_phi
  mass_phi_prime := k * x.mass_phi_prime
  decay_rate_phi_prime := k * x.decay_rate_phi_prime
  mass_phi_double_prime := k * x.mass_phi_double_prime
  decay_rate_phi_double_prime := k * x.decay_rate_phi_double_prime
  mass_rho_prime := k * x.mass_rho_prime
  decay_rate_rho_prime := k * x.decay_rate_rho_prime
  mass_rho_double_prime := k * x.mass_rho_double_prime
  decay_rate_rho_double_prime := k * x.decay_rate_rho_double_prime
  mass_rho_triple_prime := k * x.mass_rho_triple_prime
  decay_rate_rho_triple_prime := k * x.decay_rate_rho_triple_prime

theorem KaonUAModelSimplified.Args.ofValues_scale (k : ℝ) (v : String → ℝ) : KaonUAModelSimplified.Args.ofValues (scaleValues k v) = (KaonUAModelSimplified.Args.ofValues v).scale k := by
  have h2 : ∀ n ∈ ["t_0_isoscalar", "t_in_isoscalar", "t_0_isovector", "t_in_isovector"],
      dimension n = 2 := by decide +kernel
  have e2 := fun n hn => scaleValues_two (k := k) (h2 n hn) v
  simp only [List.forall_mem_cons, List.not_mem_nil, false_imp_iff, implies_true, and_true] at e2
  have h1 : ∀ n ∈ ["mass_omega_prime", "decay_rate_omega_prime", "mass_omega_double_prime", "decay_rate_omega_double_prime",
      "mass_phi", "decay_rate_phi", "mass_phi_prime", "decay_rate_phi_prime", "mass_phi_double_prime",
      "decay_rate_phi_double_prime", "mass_rho_prime", "decay_rate_rho_prime", "mass_rho_double_prime",
      "decay_rate_rho_double_prime", "mass_rho_triple_prime", "decay_rate_rho_triple_prime"],
      dimension n = 1 := by decide +kernel
  have e1 := fun n hn => scaleValues_one (k := k) (h1 n hn) v
  simp only [List.forall_mem_cons, List.not_mem_nil, false_imp_iff, implies_true, and_true] at e1
  have h0 : ∀ n ∈ ["a_omega_prime", "a_omega_double_prime", "a_phi", "a_phi_prime", "a_rho_prime", "a_rho_double_prime"],
      dimension n = 0 := by decide +kernel
  have e0 := fun n hn => scaleValues_zero (k := k) (h0 n hn) v
  simp only [List.forall_mem_cons, List.not_mem_nil, false_imp_iff, implies_true, and_true] at e0
  simp only [KaonUAModelSimplified.Args.ofValues, KaonUAModelSimplified.Args.scale, e2, e1, e0]

/-- The arguments in other units. -/
noncomputable def NucleonArgs.scale (k : ℝ) (x : NucleonArgs) : NucleonArgs where
  nucleon_mass := k * x.nucleon_mass
  magnetic_moment_proton := x.magnetic_moment_proton
  magnetic_moment_neutron := x.magnetic_moment_neutron
  t_0_dirac_isoscalar := k ^ 2 * x.t_0_dirac_isoscalar
  t_in_dirac_isoscalar := k ^ 2 * x.t_in_dirac_isoscalar
  t_0_dirac_isovector := k ^ 2 * x.t_0_dirac_isovector
  t_in_dirac_isovector := k ^ 2 * x.t_in_dirac_isovector
  t_0_pauli_isoscalar := k ^ 2 * x.t_0_pauli_isoscalar
  t_in_pauli_isoscalar := k ^ 2 * x.t_in_pauli_isoscalar
  t_0_pauli_isovector := k ^ 2 * x.t_0_pauli_isovector
  t_in_pauli_isovector := k ^ 2 * x.t_in_pauli_isovector
  a_dirac_omega := x.a_dirac_omega
  a_dirac_omega_prime := x.a_dirac_omega_prime
  a_dirac_phi := x.a_dirac_phi
  a_dirac_phi_prime := x.a_dirac_phi_prime
  a_dirac_rho := x.a_dirac_rho
  a_pauli_omega := x.a_pauli_omega
  a_pauli_phi := x.a_pauli_phi
  a_pauli_phi_prime := x.a_pauli_phi_prime
  mass_omega := k * x.mass_omega
  decay_rate_omega := k * x.decay_rate_omega
  mass_omega_prime := k * x.mass_omega_prime
  decay_rate_omega_prime := k * x.decay_rate_omega_prime
  mass_omega_double_prime := k * x.mass_omega_double_prime
  decay_rate_omega_double_prime := k * x.decay_rate_omega_double_prime
  mass_phi := k * x.mass_phi
  decay_rate_phi := k * x.decay_rate_phi
  mass_phi_prime := k * x.mass_phi_prime
  decay_rate_phi_prime := k * x.decay_rate_phi_prime
  mass_phi_double_prime := k * x.mass_phi_double_prime
  decay_rate_phi_double_prime := k * x.decay_rate_phi_double_prime
  mass_rho := k * x.mass_rho
  decay_rate_rho := k * x.decay_rate_rho
  mass_rho_prime := k * x.mass_rho_prime
  decay_rate_rho_prime := k * x.decay_rate_rho_prime
  mass_rho_double_prime := k * x.mass_rho_double_prime
  decay_rate_rho_double_prime := k * x.decay_rate_rho_double_prime

theorem NucleonArgs.ofValues_scale (k : ℝ) (v : String → ℝ) : NucleonArgs.ofValues (scaleValues k v) = (NucleonArgs.ofValues v).scale k := by
  have h2 : ∀ n ∈ ["t_0_dirac_isoscalar", "t_in_dirac_isoscalar", "t_0_dirac_isovector", "t_in_dirac_isovector",
      "t_0_pauli_isoscalar", "t_in_pauli_isoscalar", "t_0_pauli_isovector", "t_in_pauli_isovector"],
      dimension n = 2 := by decide +kernel
  have e2 := fun n hn => scaleValues_two (k := k) (h2 n hn) v
  simp only [List.forall_mem_cons, List.not_mem_nil, false_imp_iff, implies_true, and_true] at e2
  have h1 : ∀ n ∈ ["nucleon_mass", "mass_omega", "decay_rate_omega", "mass_omega_prime", "decay_rate_omega_prime",
      "mass_omega_double_prime", "decay_rate_omega_double_prime", "mass_phi", "decay_rate_phi", "mass_phi_prime",
      "decay_rate_phi_prime", "mass_phi_double_prime", "decay_rate_phi_double_prime", "mass_rho", "decay_rate_rho",
      "mass_rho_prime", "decay_rate_rho_prime", "mass_rho_double_prime", "decay_rate_rho_double_prime"],
      dimension n = 1 := by decide +kernel
  have e1 := fun n hn => scaleValues_one (k := k) (h1 n hn) v
  simp only [List.forall_mem_cons, List.not_mem_nil, false_imp_iff, implies_true, and_true] at e1
  have h0 : ∀ n ∈ ["magnetic_moment_proton", "magnetic_moment_neutron", "a_dirac_omega", "a_dirac_omega_prime", "a_dirac_phi",
      "a_dirac_phi_prime", "a_dirac_rho", "a_pauli_omega", "a_pauli_phi", "a_pauli_phi_prime"],
      dimension n = 0 := by decide +kernel
  have e0 := fun n hn => scaleValues_zero (k := k) (h0 n hn) v
  simp only [List.forall_mem_cons, List.not_mem_nil, false_imp_iff, implies_true, and_true] at e0
  simp only [NucleonArgs.ofValues, NucleonArgs.scale, e2, e1, e0]

theorem KaonUAModel.run_scale (hk : 0 < k) (x : KaonUAModel.Args) (ch : Bool) (t : ℂ) :
    (do let m ← KaonUAModel.init ch (x.scale k); m.call ((k ^ 2 : ℝ) * t)) = (do let m ← KaonUAModel.init ch x; m.call t) ∧
    (do let _ ← KaonUAModel.init ch (x.scale k); return ()) = (do let _ ← KaonUAModel.init ch x; return () : Except PyErr Unit) := by
  unfold KaonUAModel.init
  simp only [KaonUAModel.Args.scale, mapInit_scale hk, buildComponent_scale hk, bind_assoc, except_pure, except_ok_bind]
  refine ⟨?_, trivial⟩
  refine bind_congr fun _ => bind_congr fun _ => bind_congr fun _ => bind_congr fun _ => bind_congr fun _ => bind_congr fun _ => bind_congr fun _ => bind_congr fun _ => bind_congr fun _ => bind_congr fun _ => bind_congr fun _ => bind_congr fun _ => ?_
  unfold KaonUAModel.call KaonUAModel.evalIsoscalarContribution KaonUAModel.evalIsovectorContribution
  simp only [re_scale hk, mapCall_scale hk]

theorem KaonUAModelB.run_scale (hk : 0 < k) (x : KaonUAModelB.Args) (ch : Bool) (t : ℂ) :
    (do let m ← KaonUAModelB.init ch (x.scale k); m.call ((k ^ 2 : ℝ) * t)) = (do let m ← KaonUAModelB.init ch x; m.call t) ∧
    (do let _ ← KaonUAModelB.init ch (x.scale k); return ()) = (do let _ ← KaonUAModelB.init ch x; return () : Except PyErr Unit) := by
  unfold KaonUAModelB.init
  simp only [KaonUAModelB.Args.scale, mapInit_scale hk, buildComponent_scale hk, bind_assoc, except_pure, except_ok_bind]
  refine ⟨?_, trivial⟩
  refine bind_congr fun _ => bind_congr fun _ => bind_congr fun _ => bind_congr fun _ => bind_congr fun _ => bind_congr fun _ => bind_congr fun _ => bind_congr fun _ => bind_congr fun _ => bind_congr fun _ => ?_
  unfold KaonUAModelB.call KaonUAModelB.evalIsoscalarContribution KaonUAModelB.evalIsovectorContribution
  simp only [re_scale hk, mapCall_scale hk]

theorem KaonUAModelSimplified.run_scale (hk : 0 < k) (x : KaonUAModelSimplified.Args) (ch : Bool) (t : ℂ) :
    (do let m ← KaonUAModelSimplified.init ch (x.scale k); m.call ((k ^ 2 : ℝ) * t)) = (do let m ← KaonUAModelSimplified.init ch x; m.call t) ∧
    (do let _ ← KaonUAModelSimplified.init ch (x.scale k); return ()) = (do let _ ← KaonUAModelSimplified.init ch x; return () : Except PyErr Unit) := by
  unfold KaonUAModelSimplified.init
  simp only [KaonUAModelSimplified.Args.scale, mapInit_scale hk, buildComponent_scale hk, bind_assoc, except_pure, except_ok_bind]
  refine ⟨?_, trivial⟩
  refine bind_congr fun _ => bind_congr fun _ => bind_congr fun _ => bind_congr fun _ => bind_congr fun _ => bind_congr fun _ => bind_congr fun _ => bind_congr fun _ => bind_congr fun _ => bind_congr fun _ => ?_
  unfold KaonUAModelSimplified.call KaonUAModelSimplified.evalIsoscalarContribution KaonUAModelSimplified.evalIsovectorContribution
  simp only [re_scale hk, mapCall_scale hk]

/-- A nucleon model in other units. -/
noncomputable def NucleonBase.scale (k : ℝ) (m : NucleonBase) : NucleonBase :=
  { m.toNucleonArgs.scale k with
    proton := m.proton, electric := m.electric, t_to_W_dirac_isoscalar := m.t_to_W_dirac_isoscalar.scale k,
    t_to_W_dirac_isovector := m.t_to_W_dirac_isovector.scale k, t_to_W_pauli_isoscalar := m.t_to_W_pauli_isoscalar.scale k,
    t_to_W_pauli_isovector := m.t_to_W_pauli_isovector.scale k, diracS := m.diracS, diracV := m.diracV, pauliS := m.pauliS, pauliV := m.pauliV }

theorem iteBind {c : Prop} [Decidable c] {a a' : ℝ} {X Y : Except PyErr ℝ} (ha : a' = k * a) (h : X = (do let m ← Y; return k * m)) :
    (if c then (pure a' : Except PyErr ℝ) else X) = (do let m ← (if c then (pure a : Except PyErr ℝ) else Y); return k * m) := by
  by_cases hc : c
  · rw [if_pos hc, if_pos hc, ha]; rfl
  · rw [if_neg hc, if_neg hc, h]

theorem massOf_scale (x : NucleonArgs) (r : String) : (x.scale k).massOf r = (do let m ← x.massOf r; return k * m) := by
  unfold NucleonArgs.massOf
  exact iteBind rfl <| iteBind rfl <| iteBind rfl <| iteBind rfl <| iteBind rfl <| iteBind rfl <| iteBind rfl <| iteBind rfl <| iteBind rfl <| rfl

theorem decayRateOf_scale (x : NucleonArgs) (r : String) : (x.scale k).decayRateOf r = (do let m ← x.decayRateOf r; return k * m) := by
  unfold NucleonArgs.decayRateOf
  exact iteBind rfl <| iteBind rfl <| iteBind rfl <| iteBind rfl <| iteBind rfl <| iteBind rfl <| iteBind rfl <| iteBind rfl <| iteBind rfl <| rfl

theorem massTerm_scale (hk : 0 < k) (m : NucleonBase) (scalar dirac : Bool) (r : String) :
    (m.scale k).calculateMassTerm scalar dirac r = m.calculateMassTerm scalar dirac r := by
  have key : ∀ (f : MapFromTtoW) (mass decay : ℝ),
      (do
        let w_resonance ← (f.scale k).call ((((k * mass : ℝ) : ℂ) - 0.5 * I * ((k * decay : ℝ) : ℂ)) ^ 2)
        let w_norm ← (f.scale k).call 0
        if ((((k * mass : ℝ) : ℂ) - 0.5 * I * ((k * decay : ℝ) : ℂ)) ^ 2).re < (f.scale k).t_in then calculateMassTermA w_resonance w_norm
        else calculateMassTermB w_resonance w_norm) =
      (do
        let w_resonance ← f.call (((mass : ℂ) - 0.5 * I * decay) ^ 2)
        let w_norm ← f.call 0
        if (((mass : ℂ) - 0.5 * I * decay) ^ 2).re < f.t_in then calculateMassTermA w_resonance w_norm
        else calculateMassTermB w_resonance w_norm) := by
    intro f mass decay
    have e : (((k * mass : ℝ) : ℂ) - 0.5 * I * ((k * decay : ℝ) : ℂ)) ^ 2 = ((k ^ 2 : ℝ) : ℂ) * ((mass : ℂ) - 0.5 * I * decay) ^ 2 := by
      push_cast; ring
    rw [e, mapCall_scale hk, mapCall_zero hk, Complex.re_ofReal_mul]
    simp only [MapFromTtoW.scale, sq_lt_scale hk]
  have hm : (m.scale k).massOf r = (do let a ← m.massOf r; return k * a) := massOf_scale _ r
  have hd : (m.scale k).decayRateOf r = (do let a ← m.decayRateOf r; return k * a) := decayRateOf_scale _ r
  unfold NucleonBase.calculateMassTerm
  rw [hm, hd]
  simp only [bind_assoc, except_pure, except_ok_bind]
  refine bind_congr fun mass => bind_congr fun decay => ?_
  cases scalar <;> cases dirac <;> exact key _ mass decay

theorem getMassTerm_scale (hk : 0 < k) (m : NucleonBase) (scalar dirac : Bool) (r : String) :
    (m.scale k).getMassTerm scalar dirac r = m.getMassTerm scalar dirac r := by
  unfold NucleonBase.getMassTerm
  rw [massTerm_scale hk]

theorem combine_scale (hk : 0 < k) (m : NucleonBase) (t ds dv ps pv : ℂ) :
    (m.scale k).combine ((k ^ 2 : ℝ) * t) ds dv ps pv = m.combine t ds dv ps pv := by
  have hk' : ((k ^ 2 : ℝ) : ℂ) ≠ 0 := by exact_mod_cast (pow_pos hk 2).ne'
  unfold NucleonBase.combine
  simp only [NucleonBase.scale, NucleonArgs.scale]
  rw [show 4 * ((k * m.nucleon_mass : ℝ) : ℂ) ^ 2 = ((k ^ 2 : ℝ) : ℂ) * (4 * (m.nucleon_mass : ℂ) ^ 2) by push_cast; ring, pyDiv_scale hk']
  rfl

theorem nucleonCall_scale (hk : 0 < k) (m : NucleonBase) (c : MassTermCache) (t : ℂ) :
    (NucleonUAModel.call ⟨m.scale k, c⟩ ((k ^ 2 : ℝ) * t)).1 = (NucleonUAModel.call ⟨m, c⟩ t).1 := by
  have h1 : NucleonUAModel.evalDiracIsoscalar (m.scale k) ((k ^ 2 : ℝ) * t) = NucleonUAModel.evalDiracIsoscalar m t := by
    unfold NucleonUAModel.evalDiracIsoscalar NucleonBase.getMassTermsS
    simp only [getMassTerm_scale hk]
    rw [show (m.scale k).t_to_W_dirac_isoscalar = m.t_to_W_dirac_isoscalar.scale k from rfl, mapCall_scale hk]
    rfl
  have h2 : NucleonUAModel.evalDiracIsovector (m.scale k) ((k ^ 2 : ℝ) * t) = NucleonUAModel.evalDiracIsovector m t := by
    unfold NucleonUAModel.evalDiracIsovector NucleonBase.getMassTermsV
    simp only [getMassTerm_scale hk]
    rw [show (m.scale k).t_to_W_dirac_isovector = m.t_to_W_dirac_isovector.scale k from rfl, mapCall_scale hk]
    rfl
  have h3 : NucleonUAModel.evalPauliIsoscalar (m.scale k) ((k ^ 2 : ℝ) * t) = NucleonUAModel.evalPauliIsoscalar m t := by
    unfold NucleonUAModel.evalPauliIsoscalar NucleonBase.getMassTermsS
    simp only [getMassTerm_scale hk]
    rw [show (m.scale k).t_to_W_pauli_isoscalar = m.t_to_W_pauli_isoscalar.scale k from rfl, mapCall_scale hk]
    rfl
  have h4 : NucleonUAModel.evalPauliIsovector (m.scale k) ((k ^ 2 : ℝ) * t) = NucleonUAModel.evalPauliIsovector m t := by
    unfold NucleonUAModel.evalPauliIsovector
    rw [show (m.scale k).t_to_W_pauli_isovector = m.t_to_W_pauli_isovector.scale k from rfl, mapCall_scale hk]
    rfl
  simp only [NucleonUAModel.call, re_scale hk, h1, h2, h3, h4, combine_scale hk]

theorem nucleonInit_scale (hk : 0 < k) (x : NucleonArgs) (pr el : Bool) :
    NucleonBase.init nucleonBuildComponent pr el (x.scale k) = (do let m ← NucleonBase.init nucleonBuildComponent pr el x; return m.scale k) := by
  unfold NucleonBase.init initIsoscalarComponents initIsovectorComponents
  simp only [NucleonArgs.scale, mapInit_scale hk, nucleonBuildComponent_scale hk, bind_assoc, except_pure, except_ok_bind]
  rfl

theorem nucleonRun_scale (hk : 0 < k) (x : NucleonArgs) (pr el : Bool) (t : ℂ) :
    NucleonClass.new.run pr el (x.scale k) ((k ^ 2 : ℝ) * t) = NucleonClass.new.run pr el x t := by
  simp only [NucleonClass.run, NucleonUAModel.init, nucleonInit_scale hk, bind_assoc, except_pure, except_ok_bind]
  exact bind_congr fun m => nucleonCall_scale hk m _ t

theorem nucleonCheck_scale (hk : 0 < k) (x : NucleonArgs) : (x.scale k).check = x.check := by
  simp only [NucleonArgs.check, NucleonUAModel.init, nucleonInit_scale hk, bind_assoc, except_pure, except_ok_bind]

/-! ### Kaons -/

theorem kaonRun_scale (hk : 0 < k) (c : ParamClass) (v : String → ℝ) (ch : Bool) (t : ℂ) :
    (KaonArgs.ofValues c (scaleValues k v)).run ch ((k ^ 2 : ℝ) * t) = (KaonArgs.ofValues c v).run ch t := by
  unfold KaonArgs.ofValues
  split
  · rw [KaonUAModelB.Args.ofValues_scale]; exact (KaonUAModelB.run_scale hk _ ch t).1
  · rw [KaonUAModelSimplified.Args.ofValues_scale]; exact (KaonUAModelSimplified.run_scale hk _ ch t).1
  · rw [KaonUAModel.Args.ofValues_scale]; exact (KaonUAModel.run_scale hk _ ch t).1

theorem kaonCheck_scale (hk : 0 < k) (c : ParamClass) (v : String → ℝ) :
    (KaonArgs.ofValues c (scaleValues k v)).check = (KaonArgs.ofValues c v).check := by
  unfold KaonArgs.ofValues
  split
  · rw [KaonUAModelB.Args.ofValues_scale]; exact (KaonUAModelB.run_scale hk _ true 0).2
  · rw [KaonUAModelSimplified.Args.ofValues_scale]; exact (KaonUAModelSimplified.run_scale hk _ true 0).2
  · rw [KaonUAModel.Args.ofValues_scale]; exact (KaonUAModel.run_scale hk _ true 0).2

/-! ### Cross sections -/

theorem scalarCS_scale (hk : 0 < k) (m a h : ℝ) {G G' : ℂ → Except PyErr ℂ} {t : ℂ} (hG : G' ((k ^ 2 : ℝ) * t) = G t) :
    (ScalarCS.init (k * m) a h).call G' ((k ^ 2 : ℝ) * t) = (do let σ ← (ScalarCS.init m a h).call G t; return σ / (k ^ 2 : ℝ)) := by
  have hk' : ((k ^ 2 : ℝ) : ℂ) ≠ 0 := by exact_mod_cast (pow_pos hk 2).ne'
  have e2 : pyDiv ((ScalarCS.init (k * m) a h).four_mass_squared : ℂ) ((k ^ 2 : ℝ) * t) = pyDiv ((ScalarCS.init m a h).four_mass_squared : ℂ) t := by
    rw [← pyDiv_scale hk' ((ScalarCS.init m a h).four_mass_squared : ℂ) t]
    congr 1
    simp only [ScalarCS.init]; push_cast; ring
  unfold ScalarCS.call
  rw [hG, e2]
  simp only [bind_assoc, except_pure, except_ok_bind]
  refine bind_congr fun F => ?_
  by_cases ht : t = 0
  · simp only [ht, mul_zero, pyDiv_zero]; rfl
  · rw [pyDiv_ok ht, pyDiv_ok ht, pyDiv_ok (mul_ne_zero hk' ht)]
    simp only [except_ok_bind, ScalarCS.init]
    congr 1
    field_simp

theorem nucleonCS_scale (hk : 0 < k) (m a h : ℝ) (t : ℂ) (GE GM : ℝ) : (NucleonCS.init (k * m) a h).formula ((k ^ 2 : ℝ) * t) GE GM =
    (do let σ ← (NucleonCS.init m a h).formula t GE GM; return σ / (k ^ 2 : ℝ)) := by
  have hk' : ((k ^ 2 : ℝ) : ℂ) ≠ 0 := by exact_mod_cast (pow_pos hk 2).ne'
  have hn : ‖((k ^ 2 : ℝ) : ℂ) * t‖ = k ^ 2 * ‖t‖ := by rw [norm_mul, Complex.norm_real, Real.norm_of_nonneg (by positivity)]
  unfold NucleonCS.formula
  rw [hn]
  by_cases ht : t = 0
  · rw [ht, norm_zero, mul_zero, mul_zero, pyDivR_zero, pyDivR_zero]; rfl
  · have ht' : ‖t‖ ≠ 0 := norm_ne_zero_iff.mpr ht
    have hk2 : (k ^ 2 : ℝ) ≠ 0 := (pow_pos hk 2).ne'
    rw [pyDivR_ok ht', pyDivR_ok (mul_ne_zero hk2 ht')]
    simp only [except_ok_bind, NucleonCS.init]
    rw [show 4 * (k * m) ^ 2 / (k ^ 2 * ‖t‖) = 4 * m ^ 2 / ‖t‖ by field_simp]
    simp only [bind_assoc, except_pure, except_ok_bind]
    refine bind_congr fun β => ?_
    rw [pyDiv_ok (mul_ne_zero hk' ht), pyDiv_ok ht]
    simp only [except_ok_bind]
    rw [pyDiv_ok (mul_ne_zero two_ne_zero (mul_ne_zero hk' ht)), pyDiv_ok (mul_ne_zero two_ne_zero ht)]
    simp only [except_ok_bind]
    congr 1
    push_cast
    have hkc : (k : ℂ) ≠ 0 := by exact_mod_cast hk.ne'
    field_simp

/-! ### Data points -/

theorem index_scale (d : Datapoint) : (d.inUnits k).index 0 = (do let t ← d.index 0; return ((k ^ 2 : ℝ) : ℂ) * t) ∧
    (d.inUnits k).index 1 = d.index 1 ∧ (d.inUnits k).index 2 = d.index 2 := by
  rcases d with ⟨t, c⟩ | ⟨t, pr, el⟩ | ⟨_ | ⟨t, xs⟩⟩ <;> exact ⟨rfl, rfl, rfl⟩

theorem readKaon_scale (d : Datapoint) :
    readDatapointKaon (d.inUnits k) = (do let r ← readDatapointKaon d; return (((k ^ 2 : ℝ) : ℂ) * r.1, r.2)) := by
  obtain ⟨h0, h1, -⟩ := index_scale (k := k) d
  have key : (do let x ← (d.inUnits k).index 0; let y ← (d.inUnits k).index 1; return (x, pyBool y) : Except PyErr (ℂ × Bool)) =
      (do let r ← (do let x ← d.index 0; let y ← d.index 1; return (x, pyBool y) : Except PyErr (ℂ × Bool)); return (((k ^ 2 : ℝ) : ℂ) * r.1, r.2)) := by
    rw [h0, h1]; simp only [bind_assoc, except_pure, except_ok_bind]
  rcases d with ⟨t, c⟩ | ⟨t, pr, el⟩ | ⟨_ | ⟨t, xs⟩⟩
  · rfl
  all_goals exact key

theorem readNucleon_scale (d : Datapoint) :
    readDatapointNucleon (d.inUnits k) = (do let r ← readDatapointNucleon d; return (((k ^ 2 : ℝ) : ℂ) * r.1, r.2)) := by
  obtain ⟨h0, h1, h2⟩ := index_scale (k := k) d
  have key : (do let x ← (d.inUnits k).index 0; let y ← (d.inUnits k).index 1; let z ← (d.inUnits k).index 2; return (x, pyBool y, pyBool z) :
        Except PyErr (ℂ × Bool × Bool)) =
      (do let r ← (do let x ← d.index 0; let y ← d.index 1; let z ← d.index 2; return (x, pyBool y, pyBool z) : Except PyErr (ℂ × Bool × Bool))
          return (((k ^ 2 : ℝ) : ℂ) * r.1, r.2)) := by
    rw [h0, h1, h2]; simp only [bind_assoc, except_pure, except_ok_bind]
  rcases d with ⟨t, c⟩ | ⟨t, pr, el⟩ | ⟨_ | ⟨t, xs⟩⟩
  · exact key
  · rfl
  all_goals exact key

theorem norm_div_sq (k : ℝ) (σ : ℂ) : ‖σ / ((k ^ 2 : ℝ) : ℂ)‖ = ‖σ‖ / k ^ 2 := by
  rw [norm_div, Complex.norm_real, Real.norm_of_nonneg (by positivity)]

theorem kaonPoint_scale {G G' : Bool → ℂ → Except PyErr ℂ} (h : ∀ c t, G' c ((k ^ 2 : ℝ) * t) = G c t) (d : Datapoint) :
    kaonPoint G' (d.inUnits k) = kaonPoint G d := by
  unfold kaonPoint
  rw [readKaon_scale]
  simp only [bind_assoc, except_pure, except_ok_bind, h]

theorem kaonPoint_scale_div {G G' : Bool → ℂ → Except PyErr ℂ} (h : ∀ c t, G' c ((k ^ 2 : ℝ) * t) = (do let σ ← G c t; return σ / (k ^ 2 : ℝ)))
    (d : Datapoint) : kaonPoint G' (d.inUnits k) = (do let r ← kaonPoint G d; return r / k ^ 2) := by
  unfold kaonPoint
  rw [readKaon_scale]
  simp only [bind_assoc, except_pure, except_ok_bind, h, norm_div_sq]

theorem nucleonPoint_scale {G G' : Bool → Bool → ℂ → Except PyErr ℂ} (h : ∀ p e t, G' p e ((k ^ 2 : ℝ) * t) = G p e t) (d : Datapoint) :
    nucleonPoint G' (d.inUnits k) = nucleonPoint G d := by
  unfold nucleonPoint
  rw [readNucleon_scale]
  simp only [bind_assoc, except_pure, except_ok_bind, h]

theorem nucleonPoint_scale_div {G G' : Bool → Bool → ℂ → Except PyErr ℂ}
    (h : ∀ p e t, G' p e ((k ^ 2 : ℝ) * t) = (do let σ ← G p e t; return σ / (k ^ 2 : ℝ))) (d : Datapoint) :
    nucleonPoint G' (d.inUnits k) = (do let r ← nucleonPoint G d; return r / k ^ 2) := by
  unfold nucleonPoint
  rw [readNucleon_scale]
  simp only [bind_assoc, except_pure, except_ok_bind, h, norm_div_sq]

theorem mapM_scale {α : Type} {f g : Datapoint → Except PyErr α} (h : ∀ d, g (d.inUnits k) = f d) (ts : List Datapoint) :
    (ts.map (·.inUnits k)).mapM g = ts.mapM f := by
  induction ts with
  | nil => rfl
  | cons d ts ih => rw [List.map_cons, List.mapM_cons, List.mapM_cons, h, ih]

theorem mapM_scale_div {f g : Datapoint → Except PyErr ℝ} (h : ∀ d, g (d.inUnits k) = (do let r ← f d; return r / k ^ 2)) (ts : List Datapoint) :
    (ts.map (·.inUnits k)).mapM g = (do let rs ← ts.mapM f; return rs.map (· / k ^ 2)) := by
  induction ts with
  | nil => rfl
  | cons d ts ih =>
    rw [List.map_cons, List.mapM_cons, List.mapM_cons, h, ih]
    simp only [bind_assoc, except_pure, except_ok_bind, List.map_cons]

/-! ### Background models -/

theorem etgmr_scale (hk : 0 < k) (a m_a m_d : ℝ) (t : ℂ) :
    (ETGMRModel.init a (k * m_a) (k * m_d)).call ((k ^ 2 : ℝ) * t) = (ETGMRModel.init a m_a m_d).call t := by
  have hk' : ((k ^ 2 : ℝ) : ℂ) ≠ 0 := by exact_mod_cast (pow_pos hk 2).ne'
  unfold ETGMRModel.call ETGMRModel.init
  simp only [mul_pow, Complex.ofReal_mul _ (_ : ℝ), pyDiv_scale hk']

theorem twoPoles_scale (hk : 0 < k) (a m_1 m_2 : ℝ) (t : ℂ) :
    (TwoPolesModel.init a (k * m_1) (k * m_2)).call ((k ^ 2 : ℝ) * t) = (TwoPolesModel.init a m_1 m_2).call t := by
  have hk' : ((k ^ 2 : ℝ) : ℂ) ≠ 0 := by exact_mod_cast (pow_pos hk 2).ne'
  unfold TwoPolesModel.call TwoPolesModel.init
  simp only [mul_pow, Complex.ofReal_mul _ (_ : ℝ), pyDiv_scale hk']

theorem noFormFactorLoop_scale (ts : List Datapoint) :
    noFormFactorLoop (ts.map (·.inUnits k)) = (do let rs ← noFormFactorLoop ts; return rs.map (· / k ^ 2)) := by
  rcases ts with _ | ⟨d, ts⟩
  · rfl
  · simp only [List.map_cons, noFormFactorLoop, readNucleon_scale, bind_assoc, except_pure, except_ok_bind, except_error_bind]

/-! ### Objects -/

theorem values_inUnits {p p' : ModelParameters ℝ} (hw : p.WellFormed) (hw' : p'.WellFormed) {v : String → ℝ} (hv : ∀ q ∈ p.data, q.value = v q.name)
    (h : p.InUnits k p') : ∀ q ∈ p'.data, q.value = scaleValues k v q.name := by
  obtain ⟨v', hv'⟩ := hw'.exists_values
  intro q hq
  have hn' : q.name ∈ p'.cls.table.initArgs := by rw [← hw'.names]; exact List.mem_map_of_mem hq
  have hn : q.name ∈ p.cls.table.initArgs := by rw [← h.1]; exact hn'
  rw [hv' q hq, ← entry_eq hw' hv' hn', h.2 _ (by rw [hw.names]; exact hn), entry_eq hw hv hn]
  rfl

theorem eval_inUnits (hk : 0 < k) {p p' : ModelParameters ℝ} (hp : Reachable p) (hp' : Reachable p') (h : p.InUnits k p') (ts : List Datapoint) :
    functionFormFactor (ts.map (·.inUnits k)) p' = functionFormFactor ts p ∧
    ∀ m a h2, functionCrossSection (ts.map (·.inUnits k)) (k * m) a h2 p' =
      (do let rs ← functionCrossSection ts m a h2 p; return rs.map (· / k ^ 2)) := by
  have hw := reachable_wellFormed hp
  have hw' := reachable_wellFormed hp'
  obtain ⟨v, hv⟩ := hw.exists_values
  have hv' := values_inUnits hw hw' hv h
  by_cases hc : IsKaonClass p.cls
  · have W := kaon_wiring_values hw hv hc
    have W' := kaon_wiring_values hw' hv' (by rw [h.1]; exact hc)
    rw [h.1] at W'
    refine ⟨?_, fun m a h2 => ?_⟩
    · rw [W.ff, W'.ff, kaonCheck_scale hk, mapM_scale (kaonPoint_scale (kaonRun_scale hk _ _))]
    · rw [W.cs, W'.cs, kaonCheck_scale hk, mapM_scale_div (kaonPoint_scale_div fun c t => scalarCS_scale hk m a h2 (kaonRun_scale hk _ v c t))]
      simp only [bind_assoc]
  rcases hcl : p.cls
  case nucleon =>
    have W := nucleon_wiring hw hv hcl
    have W' := nucleon_wiring hw' hv' (by rw [h.1]; exact hcl)
    rw [NucleonArgs.ofValues_scale] at W'
    refine ⟨?_, fun m a h2 => ?_⟩
    · rw [W.ff, W'.ff, nucleonCheck_scale hk, mapM_scale (nucleonPoint_scale (nucleonRun_scale hk _))]
    · rw [W.cs, W'.cs, nucleonCheck_scale hk, mapM_scale_div (nucleonPoint_scale_div (G := fun pr _ t => do
        let GE ← NucleonClass.new.run pr true (.ofValues v) t
        let GM ← NucleonClass.new.run pr false (.ofValues v) t
        (NucleonCS.init m a h2).formula t ‖GE‖ ‖GM‖) fun pr el t => by simp only [nucleonRun_scale hk, nucleonCS_scale hk, bind_assoc])]
      simp only [bind_assoc]
  case etgmr =>
    obtain ⟨-, f, c⟩ := etgmr_wiring hw hv hcl
    obtain ⟨-, f', c'⟩ := etgmr_wiring hw' hv' (h.1.trans hcl)
    rw [scaleValues_zero (n := "a") (by decide), scaleValues_one (n := "m_a") (by decide), scaleValues_one (n := "m_d") (by decide)] at f'
    refine ⟨?_, fun m a h2 => ?_⟩
    · rw [f, f', mapM_scale (nucleonPoint_scale fun _ _ t => etgmr_scale hk _ _ _ t)]
    · rw [c, c', noFormFactorLoop_scale]
  case twoPoles =>
    obtain ⟨-, f, c⟩ := twoPoles_wiring hw hv hcl
    obtain ⟨-, f', c'⟩ := twoPoles_wiring hw' hv' (h.1.trans hcl)
    rw [scaleValues_zero (n := "a") (by decide), scaleValues_one (n := "m_1") (by decide), scaleValues_one (n := "m_2") (by decide)] at f'
    refine ⟨?_, fun m a h2 => ?_⟩
    · rw [f, f', mapM_scale (nucleonPoint_scale fun _ _ t => twoPoles_scale hk _ _ _ t)]
    · rw [c, c', noFormFactorLoop_scale]
  case oscillations =>
    obtain ⟨f, c⟩ := oscillations_wiring hcl ts
    obtain ⟨f', c'⟩ := oscillations_wiring (h.1.trans hcl) (ts.map (·.inUnits k))
    refine ⟨?_, fun m a h2 => ?_⟩
    · rw [f, f']
    · rw [c, c']; rfl
  all_goals exact absurd (by rw [hcl]; trivial) hc

/-! ### Models used elsewhere -/

theorem single_scale (hk : 0 < k) (t_0 t_in a mass decay : ℝ) (t : ℂ) :
    (do let m ← SingleComponentModel.init (k ^ 2 * t_0) (k ^ 2 * t_in) a (k * mass) (k * decay); m.call ((k ^ 2 : ℝ) * t)) =
      (do let m ← SingleComponentModel.init t_0 t_in a mass decay; m.call t) := by
  unfold SingleComponentModel.init
  simp only [mapInit_scale hk, buildComponent_scale hk, bind_assoc, except_pure, except_ok_bind]
  refine bind_congr fun _ => bind_congr fun _ => ?_
  unfold SingleComponentModel.call
  simp only [re_scale hk, mapCall_scale hk]

theorem vmd_scale (hk : 0 < k) (mesons : List VectorMeson) (t : ℂ) :
    (VMDModel.create (mesons.map fun v => ⟨v.coefficient, k * v.mass⟩)).call ((k ^ 2 : ℝ) * t) = (VMDModel.create mesons).call t := by
  have hk' : ((k ^ 2 : ℝ) : ℂ) ≠ 0 := by exact_mod_cast (pow_pos hk 2).ne'
  have hcr : ∀ l : List VectorMeson, VMDModel.create l = ⟨l⟩ := by
    have key : ∀ (l acc : List VectorMeson), l.foldl (fun vmd v => vmd.addVectorMeson v.coefficient v.mass) (⟨acc⟩ : VMDModel) = ⟨acc ++ l⟩ := by
      intro l
      induction l with
      | nil => intro acc; simp
      | cons v l ih => intro acc; rw [List.foldl_cons]; exact (ih (acc ++ [v])).trans (by simp)
    exact fun l => key l []
  have hev : ∀ v : VectorMeson, evaluateMesonContribution ((k ^ 2 : ℝ) * t) v.coefficient (k * v.mass) = evaluateMesonContribution t v.coefficient v.mass := by
    intro v
    simp only [evaluateMesonContribution]
    rw [← pyDiv_scale hk' ((v.coefficient : ℂ) * (v.mass : ℂ) ^ 2)]
    congr 1
    · push_cast; ring
    · push_cast; ring
  rw [hcr, hcr]
  unfold VMDModel.call
  simp only [List.isEmpty_map, List.foldlM_map, hev]

end UA
