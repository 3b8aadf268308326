import Verif.Lemmas.Kinds

/-!
# Helper lemmas: the kaon models with numbers that carry their kind
-/

namespace UA.Kinded

open Complex

/-- The arguments with given values. -/
def KaonUAModel.Args.ofValues (v : String → Num ℝ) : KaonUAModel.Args where
  t_0_isoscalar := v "t_0_isoscalar"
  t_in_isoscalar := v "t_in_isoscalar"
  t_0_isovector := v "t_0_isovector"
  t_in_isovector := v "t_in_isovector"
  a_omega := v "a_omega"
  a_omega_prime := v "a_omega_prime"
  a_omega_double_prime := v "a_omega_double_prime"
  a_phi := v "a_phi"
  a_phi_prime := v "a_phi_prime"
  a_rho := v "a_rho"
  a_rho_prime := v "a_rho_prime"
  a_rho_double_prime := v "a_rho_double_prime"
  mass_omega := v "mass_omega"
  decay_rate_omega := v "decay_rate_omega"
  mass_omega_prime := v "mass_omega_prime"
  decay_rate_omega_prime := v "decay_rate_omega_prime"
  mass_omega_double_prime := v "mass_omega_double_prime"
  decay_rate_omega_double_prime := v "decay_rate_omega_double_prime"
  mass_phi := v "mass_phi"
  decay_rate_phi := v "decay_rate_phi"
  mass_phi_prime := v "mass_phi_prime"
  decay_rate_phi_prime := v "decay_rate_phi_prime"
  mass_phi_double_prime := v "mass_phi_double_prime"
  decay_rate_phi_double_prime := v "decay_rate_phi_double_prime"
  mass_rho := v "mass_rho"
  decay_rate_rho := v "decay_rate_rho"
  mass_rho_prime := v "mass_rho_prime"
  decay_rate_rho_prime := v "decay_rate_rho_prime"
  mass_rho_double_prime := v "mass_rho_double_prime"
  decay_rate_rho_double_prime := v "decay_rate_rho_double_prime"
  mass_rho_triple_prime := v "mass_rho_triple_prime"
  decay_rate_rho_triple_prime := v "decay_rate_rho_triple_prime"

theorem KaonUAModel.Args.ofEnv_eq (v : String → Num ℝ) :
    KaonUAModel.Args.ofEnv (UA.KaonUAModel.argNames.map fun n => (n, v n)) = .ok (.ofValues v) := by
  have hr : ∀ n ∈ UA.KaonUAModel.argNames, readVar .exception (UA.KaonUAModel.argNames.map fun n => (n, v n)) n = .ok (v n) :=
    fun n hn => readVar_eq_ok.mpr (lookup_map_self hn)
  generalize (UA.KaonUAModel.argNames.map fun n => (n, v n)) = env at hr
  simp only [UA.KaonUAModel.argNames, List.forall_mem_cons] at hr
  simp only [KaonUAModel.Args.ofEnv, hr, except_ok_bind]
  rfl

/-- The object with the kinds of the given values. -/
def KaonUAModel.of (v : String → Num ℝ) (m : UA.KaonUAModel) : KaonUAModel where
  t_0_isoscalar := ⟨m.t_0_isoscalar, (v "t_0_isoscalar").np⟩
  t_in_isoscalar := ⟨m.t_in_isoscalar, (v "t_in_isoscalar").np⟩
  t_0_isovector := ⟨m.t_0_isovector, (v "t_0_isovector").np⟩
  t_in_isovector := ⟨m.t_in_isovector, (v "t_in_isovector").np⟩
  a_omega := ⟨m.a_omega, (v "a_omega").np⟩
  a_omega_prime := ⟨m.a_omega_prime, (v "a_omega_prime").np⟩
  a_omega_double_prime := ⟨m.a_omega_double_prime, (v "a_omega_double_prime").np⟩
  a_phi := ⟨m.a_phi, (v "a_phi").np⟩
  a_phi_prime := ⟨m.a_phi_prime, (v "a_phi_prime").np⟩
  a_rho := ⟨m.a_rho, (v "a_rho").np⟩
  a_rho_prime := ⟨m.a_rho_prime, (v "a_rho_prime").np⟩
  a_rho_double_prime := ⟨m.a_rho_double_prime, (v "a_rho_double_prime").np⟩
  mass_omega := ⟨m.mass_omega, (v "mass_omega").np⟩
  decay_rate_omega := ⟨m.decay_rate_omega, (v "decay_rate_omega").np⟩
  mass_omega_prime := ⟨m.mass_omega_prime, (v "mass_omega_prime").np⟩
  decay_rate_omega_prime := ⟨m.decay_rate_omega_prime, (v "decay_rate_omega_prime").np⟩
  mass_omega_double_prime := ⟨m.mass_omega_double_prime, (v "mass_omega_double_prime").np⟩
  decay_rate_omega_double_prime := ⟨m.decay_rate_omega_double_prime, (v "decay_rate_omega_double_prime").np⟩
  mass_phi := ⟨m.mass_phi, (v "mass_phi").np⟩
  decay_rate_phi := ⟨m.decay_rate_phi, (v "decay_rate_phi").np⟩
  mass_phi_prime := ⟨m.mass_phi_prime, (v "mass_phi_prime").np⟩
  decay_rate_phi_prime := ⟨m.decay_rate_phi_prime, (v "decay_rate_phi_prime").np⟩
  mass_phi_double_prime := ⟨m.mass_phi_double_prime, (v "mass_phi_double_prime").np⟩
  decay_rate_phi_double_prime := ⟨m.decay_rate_phi_double_prime, (v "decay_rate_phi_double_prime").np⟩
  mass_rho := ⟨m.mass_rho, (v "mass_rho").np⟩
  decay_rate_rho := ⟨m.decay_rate_rho, (v "decay_rate_rho").np⟩
  mass_rho_prime := ⟨m.mass_rho_prime, (v "mass_rho_prime").np⟩
  decay_rate_rho_prime := ⟨m.decay_rate_rho_prime, (v "decay_rate_rho_prime").np⟩
  mass_rho_double_prime := ⟨m.mass_rho_double_prime, (v "mass_rho_double_prime").np⟩
  decay_rate_rho_double_prime := ⟨m.decay_rate_rho_double_prime, (v "decay_rate_rho_double_prime").np⟩
  mass_rho_triple_prime := ⟨m.mass_rho_triple_prime, (v "mass_rho_triple_prime").np⟩
  decay_rate_rho_triple_prime := ⟨m.decay_rate_rho_triple_prime, (v "decay_rate_rho_triple_prime").np⟩
  charged_variant := m.charged_variant
  a_phi_double_prime := ⟨m.a_phi_double_prime, (v "a_omega").np || (v "a_omega_prime").np || (v "a_omega_double_prime").np || (v "a_phi").np || (v "a_phi_prime").np⟩
  a_rho_triple_prime := ⟨m.a_rho_triple_prime, (v "a_rho").np || (v "a_rho_prime").np || (v "a_rho_double_prime").np⟩
  t_to_W_isoscalar := mapOf (v "t_0_isoscalar").np (v "t_in_isoscalar").np m.t_to_W_isoscalar
  t_to_W_isovector := mapOf (v "t_0_isovector").np (v "t_in_isovector").np m.t_to_W_isovector
  component_omega := componentOf m.component_omega
  component_omega_prime := componentOf m.component_omega_prime
  component_omega_double_prime := componentOf m.component_omega_double_prime
  component_phi := componentOf m.component_phi
  component_phi_prime := componentOf m.component_phi_prime
  component_phi_double_prime := componentOf m.component_phi_double_prime
  component_rho := componentOf m.component_rho
  component_rho_prime := componentOf m.component_rho_prime
  component_rho_double_prime := componentOf m.component_rho_double_prime
  component_rho_triple_prime := componentOf m.component_rho_triple_prime

theorem KaonUAModel.init_of (c : Bool) (v : String → Num ℝ) :
    KaonUAModel.init c (.ofValues v) = lift (KaonUAModel.of v) (UA.KaonUAModel.init c (.ofValues fun n => (v n).val)) := by
  unfold KaonUAModel.init UA.KaonUAModel.init
  exact lift_bind (map_init' _ _) fun _ _ => lift_bind (map_init' _ _) fun _ _ => lift_bind (build _ _ _ _) fun _ _ => lift_bind (build _ _ _ _) fun _ _ => lift_bind (build _ _ _ _) fun _ _ => lift_bind (build _ _ _ _) fun _ _ => lift_bind (build _ _ _ _) fun _ _ => lift_bind (build _ _ _ _) fun _ _ => lift_bind (build _ _ _ _) fun _ _ => lift_bind (build _ _ _ _) fun _ _ => lift_bind (build _ _ _ _) fun _ _ => lift_bind (build _ _ _ _) fun _ _ => by
    simp only [lift, except_pure, KaonUAModel.of, KaonUAModel.Args.ofValues, UA.KaonUAModel.Args.ofValues]
    rfl

theorem KaonUAModel.evalIsoscalar_of (v : String → Num ℝ) (m : UA.KaonUAModel) (t : ℂ) :
    (KaonUAModel.of v m).evalIsoscalarContribution (py t) =
      lift (fun z => ⟨z, (v "a_omega").np || (v "a_omega_prime").np || (v "a_omega_double_prime").np || (v "a_phi").np || (v "a_phi_prime").np⟩) (m.evalIsoscalarContribution t) := by
  unfold KaonUAModel.evalIsoscalarContribution UA.KaonUAModel.evalIsoscalarContribution
  refine lift_bind (map_call _ _ _ _) fun _ _ => lift_bind (component_call _ _) fun _ _ => lift_bind (component_call _ _) fun _ _ => lift_bind (component_call _ _) fun _ _ => lift_bind (component_call _ _) fun _ _ => lift_bind (component_call _ _) fun _ _ => lift_bind (component_call _ _) fun _ _ => ?_
  refine congrArg Except.ok (Num.ext rfl ?_)
  simp only [KaonUAModel.of, add_np, mul_np, coe_np, py_np, Bool.or_false]
  generalize (v "a_omega").np = b0
  generalize (v "a_omega_prime").np = b1
  generalize (v "a_omega_double_prime").np = b2
  generalize (v "a_phi").np = b3
  generalize (v "a_phi_prime").np = b4
  revert b0 b1 b2 b3 b4
  decide

theorem KaonUAModel.evalIsovector_of (v : String → Num ℝ) (m : UA.KaonUAModel) (t : ℂ) :
    (KaonUAModel.of v m).evalIsovectorContribution (py t) =
      lift (fun z => ⟨z, (v "a_rho").np || (v "a_rho_prime").np || (v "a_rho_double_prime").np⟩) (m.evalIsovectorContribution t) := by
  unfold KaonUAModel.evalIsovectorContribution UA.KaonUAModel.evalIsovectorContribution
  refine lift_bind (map_call _ _ _ _) fun _ _ => lift_bind (component_call _ _) fun _ _ => lift_bind (component_call _ _) fun _ _ => lift_bind (component_call _ _) fun _ _ => lift_bind (component_call _ _) fun _ _ => ?_
  refine congrArg Except.ok (Num.ext rfl ?_)
  simp only [KaonUAModel.of, add_np, mul_np, coe_np, py_np, Bool.or_false]
  generalize (v "a_rho").np = b0
  generalize (v "a_rho_prime").np = b1
  generalize (v "a_rho_double_prime").np = b2
  revert b0 b1 b2
  decide

/-- Whether one of the couplings is a NumPy number. -/
def KaonUAModel.coupling (v : String → Num ℝ) : Bool := ((v "a_omega").np || (v "a_omega_prime").np || (v "a_omega_double_prime").np || (v "a_phi").np || (v "a_phi_prime").np) || ((v "a_rho").np || (v "a_rho_prime").np || (v "a_rho_double_prime").np)

theorem KaonUAModel.call_of (v : String → Num ℝ) (m : UA.KaonUAModel) (t : ℂ) :
    (KaonUAModel.of v m).call (py t) = lift (fun z => ⟨z, KaonUAModel.coupling v⟩) (m.call t) := by
  unfold KaonUAModel.call UA.KaonUAModel.call
  simp only [py_val]
  by_cases h : t.re < 0
  · simp only [h, if_true]; rfl
  · simp only [h, if_false]
    refine lift_bind (KaonUAModel.evalIsoscalar_of v m t) fun _ _ => lift_bind (KaonUAModel.evalIsovector_of v m t) fun _ _ => ?_
    have hc : (KaonUAModel.of v m).charged_variant = m.charged_variant := rfl
    rw [hc]
    cases m.charged_variant <;> rfl

/-- The arguments with given values. -/
def KaonUAModelB.Args.ofValues (v : String → Num ℝ) : KaonUAModelB.Args where
  t_0_isoscalar := v "t_0_isoscalar"
  t_in_isoscalar := v "t_in_isoscalar"
  t_0_isovector := v "t_0_isovector"
  t_in_isovector := v "t_in_isovector"
  a_omega := v "a_omega"
  a_omega_double_prime := v "a_omega_double_prime"
  a_phi := v "a_phi"
  a_phi_prime := v "a_phi_prime"
  a_rho := v "a_rho"
  a_rho_prime := v "a_rho_prime"
  mass_omega := v "mass_omega"
  decay_rate_omega := v "decay_rate_omega"
  mass_omega_double_prime := v "mass_omega_double_prime"
  decay_rate_omega_double_prime := v "decay_rate_omega_double_prime"
  mass_phi := v "mass_phi"
  decay_rate_phi := v "decay_rate_phi"
  mass_phi_prime := v "mass_phi_prime"
  decay_rate_phi_prime := v "decay_rate_phi_prime"
  mass_phi_double_prime := v "mass_phi_double_prime"
  decay_rate_phi_double_prime := v "decay_rate_phi_double_prime"
  mass_rho := v "mass_rho"
  decay_rate_rho := v "decay_rate_rho"
  mass_rho_prime := v "mass_rho_prime"
  decay_rate_rho_prime := v "decay_rate_rho_prime"
  mass_rho_double_prime := v "mass_rho_double_prime"
  decay_rate_rho_double_prime := v "decay_rate_rho_double_prime"

theorem KaonUAModelB.Args.ofEnv_eq (v : String → Num ℝ) :
    KaonUAModelB.Args.ofEnv (UA.KaonUAModelB.argNames.map fun n => (n, v n)) = .ok (.ofValues v) := by
  have hr : ∀ n ∈ UA.KaonUAModelB.argNames, readVar .exception (UA.KaonUAModelB.argNames.map fun n => (n, v n)) n = .ok (v n) :=
    fun n hn => readVar_eq_ok.mpr (lookup_map_self hn)
  generalize (UA.KaonUAModelB.argNames.map fun n => (n, v n)) = env at hr
  simp only [UA.KaonUAModelB.argNames, List.forall_mem_cons] at hr
  simp only [KaonUAModelB.Args.ofEnv, hr, except_ok_bind]
  rfl

/-- The object with the kinds of the given values. -/
def KaonUAModelB.of (v : String → Num ℝ) (m : UA.KaonUAModelB) : KaonUAModelB where
  t_0_isoscalar := ⟨m.t_0_isoscalar, (v "t_0_isoscalar").np⟩
  t_in_isoscalar := ⟨m.t_in_isoscalar, (v "t_in_isoscalar").np⟩
  t_0_isovector := ⟨m.t_0_isovector, (v "t_0_isovector").np⟩
  t_in_isovector := ⟨m.t_in_isovector, (v "t_in_isovector").np⟩
  a_omega := ⟨m.a_omega, (v "a_omega").np⟩
  a_omega_double_prime := ⟨m.a_omega_double_prime, (v "a_omega_double_prime").np⟩
  a_phi := ⟨m.a_phi, (v "a_phi").np⟩
  a_phi_prime := ⟨m.a_phi_prime, (v "a_phi_prime").np⟩
  a_rho := ⟨m.a_rho, (v "a_rho").np⟩
  a_rho_prime := ⟨m.a_rho_prime, (v "a_rho_prime").np⟩
  mass_omega := ⟨m.mass_omega, (v "mass_omega").np⟩
  decay_rate_omega := ⟨m.decay_rate_omega, (v "decay_rate_omega").np⟩
  mass_omega_double_prime := ⟨m.mass_omega_double_prime, (v "mass_omega_double_prime").np⟩
  decay_rate_omega_double_prime := ⟨m.decay_rate_omega_double_prime, (v "decay_rate_omega_double_prime").np⟩
  mass_phi := ⟨m.mass_phi, (v "mass_phi").np⟩
  decay_rate_phi := ⟨m.decay_rate_phi, (v "decay_rate_phi").np⟩
  mass_phi_prime := ⟨m.mass_phi_prime, (v "mass_phi_prime").np⟩
  decay_rate_phi_prime := ⟨m.decay_rate_phi_prime, (v "decay_rate_phi_prime").np⟩
  mass_phi_double_prime := ⟨m.mass_phi_double_prime, (v "mass_phi_double_prime").np⟩
  decay_rate_phi_double_prime := ⟨m.decay_rate_phi_double_prime, (v "decay_rate_phi_double_prime").np⟩
  mass_rho := ⟨m.mass_rho, (v "mass_rho").np⟩
  decay_rate_rho := ⟨m.decay_rate_rho, (v "decay_rate_rho").np⟩
  mass_rho_prime := ⟨m.mass_rho_prime, (v "mass_rho_prime").np⟩
  decay_rate_rho_prime := ⟨m.decay_rate_rho_prime, (v "decay_rate_rho_prime").np⟩
  mass_rho_double_prime := ⟨m.mass_rho_double_prime, (v "mass_rho_double_prime").np⟩
  decay_rate_rho_double_prime := ⟨m.decay_rate_rho_double_prime, (v "decay_rate_rho_double_prime").np⟩
  charged_variant := m.charged_variant
  a_phi_double_prime := ⟨m.a_phi_double_prime, (v "a_omega").np || (v "a_omega_double_prime").np || (v "a_phi").np || (v "a_phi_prime").np⟩
  a_rho_double_prime := ⟨m.a_rho_double_prime, (v "a_rho").np || (v "a_rho_prime").np⟩
  t_to_W_isoscalar := mapOf (v "t_0_isoscalar").np (v "t_in_isoscalar").np m.t_to_W_isoscalar
  t_to_W_isovector := mapOf (v "t_0_isovector").np (v "t_in_isovector").np m.t_to_W_isovector
  component_omega := componentOf m.component_omega
  component_omega_double_prime := componentOf m.component_omega_double_prime
  component_phi := componentOf m.component_phi
  component_phi_prime := componentOf m.component_phi_prime
  component_phi_double_prime := componentOf m.component_phi_double_prime
  component_rho := componentOf m.component_rho
  component_rho_prime := componentOf m.component_rho_prime
  component_rho_double_prime := componentOf m.component_rho_double_prime

theorem KaonUAModelB.init_of (c : Bool) (v : String → Num ℝ) :
    KaonUAModelB.init c (.ofValues v) = lift (KaonUAModelB.of v) (UA.KaonUAModelB.init c (.ofValues fun n => (v n).val)) := by
  unfold KaonUAModelB.init UA.KaonUAModelB.init
  exact lift_bind (map_init' _ _) fun _ _ => lift_bind (map_init' _ _) fun _ _ => lift_bind (build _ _ _ _) fun _ _ => lift_bind (build _ _ _ _) fun _ _ => lift_bind (build _ _ _ _) fun _ _ => lift_bind (build _ _ _ _) fun _ _ => lift_bind (build _ _ _ _) fun _ _ => lift_bind (build _ _ _ _) fun _ _ => lift_bind (build _ _ _ _) fun _ _ => lift_bind (build _ _ _ _) fun _ _ => by
    simp only [lift, except_pure, KaonUAModelB.of, KaonUAModelB.Args.ofValues, UA.KaonUAModelB.Args.ofValues]
    rfl

theorem KaonUAModelB.evalIsoscalar_of (v : String → Num ℝ) (m : UA.KaonUAModelB) (t : ℂ) :
    (KaonUAModelB.of v m).evalIsoscalarContribution (py t) =
      lift (fun z => ⟨z, (v "a_omega").np || (v "a_omega_double_prime").np || (v "a_phi").np || (v "a_phi_prime").np⟩) (m.evalIsoscalarContribution t) := by
  unfold KaonUAModelB.evalIsoscalarContribution UA.KaonUAModelB.evalIsoscalarContribution
  refine lift_bind (map_call _ _ _ _) fun _ _ => lift_bind (component_call _ _) fun _ _ => lift_bind (component_call _ _) fun _ _ => lift_bind (component_call _ _) fun _ _ => lift_bind (component_call _ _) fun _ _ => lift_bind (component_call _ _) fun _ _ => ?_
  refine congrArg Except.ok (Num.ext rfl ?_)
  simp only [KaonUAModelB.of, add_np, mul_np, coe_np, py_np, Bool.or_false]
  generalize (v "a_omega").np = b0
  generalize (v "a_omega_double_prime").np = b1
  generalize (v "a_phi").np = b2
  generalize (v "a_phi_prime").np = b3
  revert b0 b1 b2 b3
  decide

theorem KaonUAModelB.evalIsovector_of (v : String → Num ℝ) (m : UA.KaonUAModelB) (t : ℂ) :
    (KaonUAModelB.of v m).evalIsovectorContribution (py t) =
      lift (fun z => ⟨z, (v "a_rho").np || (v "a_rho_prime").np⟩) (m.evalIsovectorContribution t) := by
  unfold KaonUAModelB.evalIsovectorContribution UA.KaonUAModelB.evalIsovectorContribution
  refine lift_bind (map_call _ _ _ _) fun _ _ => lift_bind (component_call _ _) fun _ _ => lift_bind (component_call _ _) fun _ _ => lift_bind (component_call _ _) fun _ _ => ?_
  refine congrArg Except.ok (Num.ext rfl ?_)
  simp only [KaonUAModelB.of, add_np, mul_np, coe_np, py_np, Bool.or_false]
  generalize (v "a_rho").np = b0
  generalize (v "a_rho_prime").np = b1
  revert b0 b1
  decide

/-- Whether one of the couplings is a NumPy number. -/
def KaonUAModelB.coupling (v : String → Num ℝ) : Bool := ((v "a_omega").np || (v "a_omega_double_prime").np || (v "a_phi").np || (v "a_phi_prime").np) || ((v "a_rho").np || (v "a_rho_prime").np)

theorem KaonUAModelB.call_of (v : String → Num ℝ) (m : UA.KaonUAModelB) (t : ℂ) :
    (KaonUAModelB.of v m).call (py t) = lift (fun z => ⟨z, KaonUAModelB.coupling v⟩) (m.call t) := by
  unfold KaonUAModelB.call UA.KaonUAModelB.call
  simp only [py_val]
  by_cases h : t.re < 0
  · simp only [h, if_true]; rfl
  · simp only [h, if_false]
    refine lift_bind (KaonUAModelB.evalIsoscalar_of v m t) fun _ _ => lift_bind (KaonUAModelB.evalIsovector_of v m t) fun _ _ => ?_
    have hc : (KaonUAModelB.of v m).charged_variant = m.charged_variant := rfl
    rw [hc]
    cases m.charged_variant <;> rfl

/-- The arguments with given values. -/
def KaonUAModelSimplified.Args.ofValues (v : String → Num ℝ) : KaonUAModelSimplified.Args where
  t_0_isoscalar := v "t_0_isoscalar"
  t_in_isoscalar := v "t_in_isoscalar"
  t_0_isovector := v "t_0_isovector"
  t_in_isovector := v "t_in_isovector"
  a_omega_prime := v "a_omega_prime"
  a_omega_double_prime := v "a_omega_double_prime"
  a_phi := v "a_phi"
  a_phi_prime := v "a_phi_prime"
  a_rho_prime := v "a_rho_prime"
  a_rho_double_prime := v "a_rho_double_prime"
  mass_omega_prime := v "mass_omega_prime"
  decay_rate_omega_prime := v "decay_rate_omega_prime"
  mass_omega_double_prime := v "mass_omega_double_prime"
  decay_rate_omega_double_prime := v "decay_rate_omega_double_prime"
  mass_phi := v "mass_phi"
  decay_rate_phi := v "decay_rate_phi"
  mass_phi_prime := v "mass_phi_prime"
  decay_rate_phi_prime := v "decay_rate_phi_prime"
  mass_phi_double_prime := v "mass_phi_double_prime"
  decay_rate_phi_double_prime := v "decay_rate_phi_double_prime"
  mass_rho_prime := v "mass_rho_prime"
  decay_rate_rho_prime := v "decay_rate_rho_prime"
  mass_rho_double_prime := v "mass_rho_double_prime"
  decay_rate_rho_double_prime := v "decay_rate_rho_double_prime"
  mass_rho_triple_prime := v "mass_rho_triple_prime"
  decay_rate_rho_triple_prime := v "decay_rate_rho_triple_prime"

theorem KaonUAModelSimplified.Args.ofEnv_eq (v : String → Num ℝ) :
    KaonUAModelSimplified.Args.ofEnv (UA.KaonUAModelSimplified.argNames.map fun n => (n, v n)) = .ok (.ofValues v) := by
  have hr : ∀ n ∈ UA.KaonUAModelSimplified.argNames, readVar .exception (UA.KaonUAModelSimplified.argNames.map fun n => (n, v n)) n = .ok (v n) :=
    fun n hn => readVar_eq_ok.mpr (lookup_map_self hn)
  generalize (UA.KaonUAModelSimplified.argNames.map fun n => (n, v n)) = env at hr
  simp only [UA.KaonUAModelSimplified.argNames, List.forall_mem_cons] at hr
  simp only [KaonUAModelSimplified.Args.ofEnv, hr, except_ok_bind]
  rfl

/-- The object with the kinds of the given values. -/
def KaonUAModelSimplified.of (v : String → Num ℝ) (m : UA.KaonUAModelSimplified) : KaonUAModelSimplified where
  t_0_isoscalar := ⟨m.t_0_isoscalar, (v "t_0_isoscalar").np⟩
  t_in_isoscalar := ⟨m.t_in_isoscalar, (v "t_in_isoscalar").np⟩
  t_0_isovector := ⟨m.t_0_isovector, (v "t_0_isovector").np⟩
  t_in_isovector := ⟨m.t_in_isovector, (v "t_in_isovector").np⟩
  a_omega_prime := ⟨m.a_omega_prime, (v "a_omega_prime").np⟩
  a_omega_double_prime := ⟨m.a_omega_double_prime, (v "a_omega_double_prime").np⟩
  a_phi := ⟨m.a_phi, (v "a_phi").np⟩
  a_phi_prime := ⟨m.a_phi_prime, (v "a_phi_prime").np⟩
  a_rho_prime := ⟨m.a_rho_prime, (v "a_rho_prime").np⟩
  a_rho_double_prime := ⟨m.a_rho_double_prime, (v "a_rho_double_prime").np⟩
  mass_omega_prime := ⟨m.mass_omega_prime, (v "mass_omega_prime").np⟩
  decay_rate_omega_prime := ⟨m.decay_rate_omega_prime, (v "decay_rate_omega_prime").np⟩
  mass_omega_double_prime := ⟨m.mass_omega_double_prime, (v "mass_omega_double_prime").np⟩
  decay_rate_omega_double_prime := ⟨m.decay_rate_omega_double_prime, (v "decay_rate_omega_double_prime").np⟩
  mass_phi := ⟨m.mass_phi, (v "mass_phi").np⟩
  decay_rate_phi := ⟨m.decay_rate_phi, (v "decay_rate_phi").np⟩
  mass_phi_prime := ⟨m.mass_phi_prime, (v "mass_phi_prime").np⟩
  decay_rate_phi_prime := ⟨m.decay_rate_phi_prime, (v "decay_rate_phi_prime").np⟩
  mass_phi_double_prime := ⟨m.mass_phi_double_prime, (v "mass_phi_double_prime").np⟩
  decay_rate_phi_double_prime := ⟨m.decay_rate_phi_double_prime, (v "decay_rate_phi_double_prime").np⟩
  mass_rho_prime := ⟨m.mass_rho_prime, (v "mass_rho_prime").np⟩
  decay_rate_rho_prime := ⟨m.decay_rate_rho_prime, (v "decay_rate_rho_prime").np⟩
  mass_rho_double_prime := ⟨m.mass_rho_double_prime, (v "mass_rho_double_prime").np⟩
  decay_rate_rho_double_prime := ⟨m.decay_rate_rho_double_prime, (v "decay_rate_rho_double_prime").np⟩
  mass_rho_triple_prime := ⟨m.mass_rho_triple_prime, (v "mass_rho_triple_prime").np⟩
  decay_rate_rho_triple_prime := ⟨m.decay_rate_rho_triple_prime, (v "decay_rate_rho_triple_prime").np⟩
  charged_variant := m.charged_variant
  a_phi_double_prime := ⟨m.a_phi_double_prime, (v "a_omega_prime").np || (v "a_omega_double_prime").np || (v "a_phi").np || (v "a_phi_prime").np⟩
  a_rho_triple_prime := ⟨m.a_rho_triple_prime, (v "a_rho_prime").np || (v "a_rho_double_prime").np⟩
  t_to_W_isoscalar := mapOf (v "t_0_isoscalar").np (v "t_in_isoscalar").np m.t_to_W_isoscalar
  t_to_W_isovector := mapOf (v "t_0_isovector").np (v "t_in_isovector").np m.t_to_W_isovector
  component_omega_prime := componentOf m.component_omega_prime
  component_omega_double_prime := componentOf m.component_omega_double_prime
  component_phi := componentOf m.component_phi
  component_phi_prime := componentOf m.component_phi_prime
  component_phi_double_prime := componentOf m.component_phi_double_prime
  component_rho_prime := componentOf m.component_rho_prime
  component_rho_double_prime := componentOf m.component_rho_double_prime
  component_rho_triple_prime := componentOf m.component_rho_triple_prime

theorem KaonUAModelSimplified.init_of (c : Bool) (v : String → Num ℝ) :
    KaonUAModelSimplified.init c (.ofValues v) = lift (KaonUAModelSimplified.of v) (UA.KaonUAModelSimplified.init c (.ofValues fun n => (v n).val)) := by
  unfold KaonUAModelSimplified.init UA.KaonUAModelSimplified.init
  exact lift_bind (map_init' _ _) fun _ _ => lift_bind (map_init' _ _) fun _ _ => lift_bind (build _ _ _ _) fun _ _ => lift_bind (build _ _ _ _) fun _ _ => lift_bind (build _ _ _ _) fun _ _ => lift_bind (build _ _ _ _) fun _ _ => lift_bind (build _ _ _ _) fun _ _ => lift_bind (build _ _ _ _) fun _ _ => lift_bind (build _ _ _ _) fun _ _ => lift_bind (build _ _ _ _) fun _ _ => by
    simp only [lift, except_pure, KaonUAModelSimplified.of, KaonUAModelSimplified.Args.ofValues, UA.KaonUAModelSimplified.Args.ofValues]
    rfl

theorem KaonUAModelSimplified.evalIsoscalar_of (v : String → Num ℝ) (m : UA.KaonUAModelSimplified) (t : ℂ) :
    (KaonUAModelSimplified.of v m).evalIsoscalarContribution (py t) =
      lift (fun z => ⟨z, (v "a_omega_prime").np || (v "a_omega_double_prime").np || (v "a_phi").np || (v "a_phi_prime").np⟩) (m.evalIsoscalarContribution t) := by
  unfold KaonUAModelSimplified.evalIsoscalarContribution UA.KaonUAModelSimplified.evalIsoscalarContribution
  refine lift_bind (map_call _ _ _ _) fun _ _ => lift_bind (component_call _ _) fun _ _ => lift_bind (component_call _ _) fun _ _ => lift_bind (component_call _ _) fun _ _ => lift_bind (component_call _ _) fun _ _ => lift_bind (component_call _ _) fun _ _ => ?_
  refine congrArg Except.ok (Num.ext rfl ?_)
  simp only [KaonUAModelSimplified.of, add_np, mul_np, coe_np, py_np, Bool.or_false]
  generalize (v "a_omega_prime").np = b0
  generalize (v "a_omega_double_prime").np = b1
  generalize (v "a_phi").np = b2
  generalize (v "a_phi_prime").np = b3
  revert b0 b1 b2 b3
  decide

theorem KaonUAModelSimplified.evalIsovector_of (v : String → Num ℝ) (m : UA.KaonUAModelSimplified) (t : ℂ) :
    (KaonUAModelSimplified.of v m).evalIsovectorContribution (py t) =
      lift (fun z => ⟨z, (v "a_rho_prime").np || (v "a_rho_double_prime").np⟩) (m.evalIsovectorContribution t) := by
  unfold KaonUAModelSimplified.evalIsovectorContribution UA.KaonUAModelSimplified.evalIsovectorContribution
  refine lift_bind (map_call _ _ _ _) fun _ _ => lift_bind (component_call _ _) fun _ _ => lift_bind (component_call _ _) fun _ _ => lift_bind (component_call _ _) fun _ _ => ?_
  refine congrArg Except.ok (Num.ext rfl ?_)
  simp only [KaonUAModelSimplified.of, add_np, mul_np, coe_np, py_np, Bool.or_false]
  generalize (v "a_rho_prime").np = b0
  generalize (v "a_rho_double_prime").np = b1
  revert b0 b1
  decide

/-- Whether one of the couplings is a NumPy number. -/
def KaonUAModelSimplified.coupling (v : String → Num ℝ) : Bool := ((v "a_omega_prime").np || (v "a_omega_double_prime").np || (v "a_phi").np || (v "a_phi_prime").np) || ((v "a_rho_prime").np || (v "a_rho_double_prime").np)

theorem KaonUAModelSimplified.call_of (v : String → Num ℝ) (m : UA.KaonUAModelSimplified) (t : ℂ) :
    (KaonUAModelSimplified.of v m).call (py t) = lift (fun z => ⟨z, KaonUAModelSimplified.coupling v⟩) (m.call t) := by
  unfold KaonUAModelSimplified.call UA.KaonUAModelSimplified.call
  simp only [py_val]
  by_cases h : t.re < 0
  · simp only [h, if_true]; rfl
  · simp only [h, if_false]
    refine lift_bind (KaonUAModelSimplified.evalIsoscalar_of v m t) fun _ _ => lift_bind (KaonUAModelSimplified.evalIsovector_of v m t) fun _ _ => ?_
    have hc : (KaonUAModelSimplified.of v m).charged_variant = m.charged_variant := rfl
    rw [hc]
    cases m.charged_variant <;> rfl

end UA.Kinded
