import Verif.Lemmas.KindsKaon

/-!
# Helper lemmas: the nucleon model with numbers that carry their kind
-/

namespace UA.Kinded

open Complex

/-- The arguments without their kinds. -/
def NucleonArgs.plain (x : NucleonArgs) : UA.NucleonArgs where
  nucleon_mass := x.nucleon_mass.val
  magnetic_moment_proton := x.magnetic_moment_proton.val
  magnetic_moment_neutron := x.magnetic_moment_neutron.val
  t_0_dirac_isoscalar := x.t_0_dirac_isoscalar.val
  t_in_dirac_isoscalar := x.t_in_dirac_isoscalar.val
  t_0_dirac_isovector := x.t_0_dirac_isovector.val
  t_in_dirac_isovector := x.t_in_dirac_isovector.val
  t_0_pauli_isoscalar := x.t_0_pauli_isoscalar.val
  t_in_pauli_isoscalar := x.t_in_pauli_isoscalar.val
  t_0_pauli_isovector := x.t_0_pauli_isovector.val
  t_in_pauli_isovector := x.t_in_pauli_isovector.val
  a_dirac_omega := x.a_dirac_omega.val
  a_dirac_omega_prime := x.a_dirac_omega_prime.val
  a_dirac_phi := x.a_dirac_phi.val
  a_dirac_phi_prime := x.a_dirac_phi_prime.val
  a_dirac_rho := x.a_dirac_rho.val
  a_pauli_omega := x.a_pauli_omega.val
  a_pauli_phi := x.a_pauli_phi.val
  a_pauli_phi_prime := x.a_pauli_phi_prime.val
  mass_omega := x.mass_omega.val
  decay_rate_omega := x.decay_rate_omega.val
  mass_omega_prime := x.mass_omega_prime.val
  decay_rate_omega_prime := x.decay_rate_omega_prime.val
  mass_omega_double_prime := x.mass_omega_double_prime.val
  decay_rate_omega_double_prime := x.decay_rate_omega_double_prime.val
  mass_phi := x.mass_phi.val
  decay_rate_phi := x.decay_rate_phi.val
  mass_phi_prime := x.mass_phi_prime.val
  decay_rate_phi_prime := x.decay_rate_phi_prime.val
  mass_phi_double_prime := x.mass_phi_double_prime.val
  decay_rate_phi_double_prime := x.decay_rate_phi_double_prime.val
  mass_rho := x.mass_rho.val
  decay_rate_rho := x.decay_rate_rho.val
  mass_rho_prime := x.mass_rho_prime.val
  decay_rate_rho_prime := x.decay_rate_rho_prime.val
  mass_rho_double_prime := x.mass_rho_double_prime.val
  decay_rate_rho_double_prime := x.decay_rate_rho_double_prime.val

/-- The arguments with given kinds. -/
def NucleonArgs.of (k : NucleonArgs) (x : UA.NucleonArgs) : NucleonArgs where
  nucleon_mass := ⟨x.nucleon_mass, k.nucleon_mass.np⟩
  magnetic_moment_proton := ⟨x.magnetic_moment_proton, k.magnetic_moment_proton.np⟩
  magnetic_moment_neutron := ⟨x.magnetic_moment_neutron, k.magnetic_moment_neutron.np⟩
  t_0_dirac_isoscalar := ⟨x.t_0_dirac_isoscalar, k.t_0_dirac_isoscalar.np⟩
  t_in_dirac_isoscalar := ⟨x.t_in_dirac_isoscalar, k.t_in_dirac_isoscalar.np⟩
  t_0_dirac_isovector := ⟨x.t_0_dirac_isovector, k.t_0_dirac_isovector.np⟩
  t_in_dirac_isovector := ⟨x.t_in_dirac_isovector, k.t_in_dirac_isovector.np⟩
  t_0_pauli_isoscalar := ⟨x.t_0_pauli_isoscalar, k.t_0_pauli_isoscalar.np⟩
  t_in_pauli_isoscalar := ⟨x.t_in_pauli_isoscalar, k.t_in_pauli_isoscalar.np⟩
  t_0_pauli_isovector := ⟨x.t_0_pauli_isovector, k.t_0_pauli_isovector.np⟩
  t_in_pauli_isovector := ⟨x.t_in_pauli_isovector, k.t_in_pauli_isovector.np⟩
  a_dirac_omega := ⟨x.a_dirac_omega, k.a_dirac_omega.np⟩
  a_dirac_omega_prime := ⟨x.a_dirac_omega_prime, k.a_dirac_omega_prime.np⟩
  a_dirac_phi := ⟨x.a_dirac_phi, k.a_dirac_phi.np⟩
  a_dirac_phi_prime := ⟨x.a_dirac_phi_prime, k.a_dirac_phi_prime.np⟩
  a_dirac_rho := ⟨x.a_dirac_rho, k.a_dirac_rho.np⟩
  a_pauli_omega := ⟨x.a_pauli_omega, k.a_pauli_omega.np⟩
  a_pauli_phi := ⟨x.a_pauli_phi, k.a_pauli_phi.np⟩
  a_pauli_phi_prime := ⟨x.a_pauli_phi_prime, k.a_pauli_phi_prime.np⟩
  mass_omega := ⟨x.mass_omega, k.mass_omega.np⟩
  decay_rate_omega := ⟨x.decay_rate_omega, k.decay_rate_omega.np⟩
  mass_omega_prime := ⟨x.mass_omega_prime, k.mass_omega_prime.np⟩
  decay_rate_omega_prime := ⟨x.decay_rate_omega_prime, k.decay_rate_omega_prime.np⟩
  mass_omega_double_prime := ⟨x.mass_omega_double_prime, k.mass_omega_double_prime.np⟩
  decay_rate_omega_double_prime := ⟨x.decay_rate_omega_double_prime, k.decay_rate_omega_double_prime.np⟩
  mass_phi := ⟨x.mass_phi, k.mass_phi.np⟩
  decay_rate_phi := ⟨x.decay_rate_phi, k.decay_rate_phi.np⟩
  mass_phi_prime := ⟨x.mass_phi_prime, k.mass_phi_prime.np⟩
  decay_rate_phi_prime := ⟨x.decay_rate_phi_prime, k.decay_rate_phi_prime.np⟩
  mass_phi_double_prime := ⟨x.mass_phi_double_prime, k.mass_phi_double_prime.np⟩
  decay_rate_phi_double_prime := ⟨x.decay_rate_phi_double_prime, k.decay_rate_phi_double_prime.np⟩
  mass_rho := ⟨x.mass_rho, k.mass_rho.np⟩
  decay_rate_rho := ⟨x.decay_rate_rho, k.decay_rate_rho.np⟩
  mass_rho_prime := ⟨x.mass_rho_prime, k.mass_rho_prime.np⟩
  decay_rate_rho_prime := ⟨x.decay_rate_rho_prime, k.decay_rate_rho_prime.np⟩
  mass_rho_double_prime := ⟨x.mass_rho_double_prime, k.mass_rho_double_prime.np⟩
  decay_rate_rho_double_prime := ⟨x.decay_rate_rho_double_prime, k.decay_rate_rho_double_prime.np⟩

/-- Six components computed with Python numbers. -/
def sixOf (K : Six UA.UAComponent) : Six UAComponent :=
  ⟨componentOf K.omega, componentOf K.omega_prime, componentOf K.omega_double_prime, componentOf K.phi, componentOf K.phi_prime,
    componentOf K.phi_double_prime⟩

/-- Three components computed with Python numbers. -/
def threeOf (K : Three UA.UAComponent) : Three UAComponent := ⟨componentOf K.rho, componentOf K.rho_prime, componentOf K.rho_double_prime⟩

/-- Six Python numbers. -/
def sixPy (c : Six ℂ) : Six (Num ℂ) :=
  ⟨py c.omega, py c.omega_prime, py c.omega_double_prime, py c.phi, py c.phi_prime, py c.phi_double_prime⟩

/-- Three Python numbers. -/
def threePy (c : Three ℂ) : Three (Num ℂ) := ⟨py c.rho, py c.rho_prime, py c.rho_double_prime⟩

theorem bind_component {β γ δ : Type} (c : UA.UAComponent) (w : ℂ) {g : Num ℂ → Except Stop γ} {h : δ → γ} {k : ℂ → Except PyErr δ}
    (hg : ∀ a, g (py a) = lift h (k a)) : ((componentOf c).call (py w) >>= g) = lift h (c.call w >>= k) :=
  lift_bind (component_call c w) fun a _ => hg a

theorem bind_div {γ δ : Type} (a b : ℂ) {g : Num ℂ → Except Stop γ} {h : δ → γ} {k : ℂ → Except PyErr δ}
    (hg : ∀ a, g (py a) = lift h (k a)) : (pyDiv (py a) (py b) >>= g) = lift h (UA.pyDiv a b >>= k) :=
  lift_bind (div_py a b) fun a _ => hg a

theorem diracIsoscalarExpr_of (k : NucleonArgs) (x : UA.NucleonArgs) (K : Six UA.UAComponent) (c : Six ℂ) (w : ℂ) :
    diracIsoscalarExpr (k.of x) (sixOf K) (sixPy c) (py w) = lift (fun z => ⟨z, k.a_dirac_omega.np || k.a_dirac_omega_prime.np || k.a_dirac_phi.np || k.a_dirac_phi_prime.np⟩) (UA.diracIsoscalarExpr x K c w) := by
  unfold diracIsoscalarExpr UA.diracIsoscalarExpr
  repeat' first
    | refine bind_component (β := ℂ) _ _ fun _ => ?_
    | refine bind_div _ _ fun _ => ?_
  refine congrArg Except.ok (Num.ext rfl ?_)
  simp only [NucleonArgs.of, add_np, sub_np, mul_np, py_np, py_half, Bool.or_false, Bool.false_or]
  simp only [Bool.or_assoc, Bool.or_comm, Bool.or_left_comm]

theorem diracIsovectorExpr_of (k : NucleonArgs) (x : UA.NucleonArgs) (K : Three UA.UAComponent) (c : Three ℂ) (w : ℂ) :
    diracIsovectorExpr (k.of x) (threeOf K) (threePy c) (py w) = lift (fun z => ⟨z, k.a_dirac_rho.np⟩) (UA.diracIsovectorExpr x K c w) := by
  unfold diracIsovectorExpr UA.diracIsovectorExpr
  repeat' first
    | refine bind_component (β := ℂ) _ _ fun _ => ?_
    | refine bind_div _ _ fun _ => ?_
  refine congrArg Except.ok (Num.ext rfl ?_)
  simp only [NucleonArgs.of, add_np, sub_np, mul_np, py_np, py_half, Bool.or_false, Bool.false_or]

theorem pauliIsoscalarExpr_of (k : NucleonArgs) (x : UA.NucleonArgs) (K : Six UA.UAComponent) (c : Six ℂ) (w : ℂ) :
    pauliIsoscalarExpr (k.of x) (sixOf K) (sixPy c) (py w) = lift (fun z => ⟨z, k.magnetic_moment_proton.np || k.magnetic_moment_neutron.np || k.a_pauli_omega.np || k.a_pauli_phi.np || k.a_pauli_phi_prime.np⟩) (UA.pauliIsoscalarExpr x K c w) := by
  unfold pauliIsoscalarExpr UA.pauliIsoscalarExpr
  repeat' first
    | refine bind_component (β := ℂ) _ _ fun _ => ?_
    | refine bind_div _ _ fun _ => ?_
  refine congrArg Except.ok (Num.ext rfl ?_)
  simp only [NucleonArgs.of, add_np, sub_np, mul_np, py_np, py_one, py_half, Bool.or_false, Bool.false_or]
  simp only [Bool.or_assoc, Bool.or_comm, Bool.or_left_comm]

theorem pauliIsovectorExpr_of (k : NucleonArgs) (x : UA.NucleonArgs) (K : Three UA.UAComponent) (w : ℂ) :
    pauliIsovectorExpr (k.of x) (threeOf K) (py w) = lift (fun z => ⟨z, k.magnetic_moment_proton.np || k.magnetic_moment_neutron.np⟩) (UA.pauliIsovectorExpr x K w) := by
  unfold pauliIsovectorExpr UA.pauliIsovectorExpr
  repeat' first
    | refine bind_component (β := ℂ) _ _ fun _ => ?_
    | refine bind_div _ _ fun _ => ?_
  refine congrArg Except.ok (Num.ext rfl ?_)
  simp only [NucleonArgs.of, sub_np, mul_np, py_np, py_one, py_half, Bool.or_false, Bool.false_or]


theorem isoscalar_of {build' : Num ℝ → Num ℝ → Num ℝ → Num ℝ → Except Stop UAComponent} {build : ℝ → ℝ → ℝ → ℝ → Except PyErr UA.UAComponent}
    (hb : ∀ a b c d, build' a b c d = lift componentOf (build a.val b.val c.val d.val)) (x : NucleonArgs) (t_0 t_in : Num ℝ) :
    initIsoscalarComponents build' x t_0 t_in = lift sixOf (UA.initIsoscalarComponents build x.plain t_0.val t_in.val) := by
  unfold initIsoscalarComponents UA.initIsoscalarComponents
  exact lift_bind (hb _ _ _ _) fun _ _ => lift_bind (hb _ _ _ _) fun _ _ => lift_bind (hb _ _ _ _) fun _ _ =>
    lift_bind (hb _ _ _ _) fun _ _ => lift_bind (hb _ _ _ _) fun _ _ => lift_bind (hb _ _ _ _) fun _ _ => rfl

theorem isovector_of {build' : Num ℝ → Num ℝ → Num ℝ → Num ℝ → Except Stop UAComponent} {build : ℝ → ℝ → ℝ → ℝ → Except PyErr UA.UAComponent}
    (hb : ∀ a b c d, build' a b c d = lift componentOf (build a.val b.val c.val d.val)) (x : NucleonArgs) (t_0 t_in : Num ℝ) :
    initIsovectorComponents build' x t_0 t_in = lift threeOf (UA.initIsovectorComponents build x.plain t_0.val t_in.val) := by
  unfold initIsovectorComponents UA.initIsovectorComponents
  exact lift_bind (hb _ _ _ _) fun _ _ => lift_bind (hb _ _ _ _) fun _ _ => lift_bind (hb _ _ _ _) fun _ _ => rfl

/-- The object with given kinds. -/
def NucleonBase.of (k : NucleonArgs) (m : UA.NucleonBase) : NucleonBase :=
  { k.of m.toNucleonArgs with
    proton := m.proton, electric := m.electric
    t_to_W_dirac_isoscalar := mapOf k.t_0_dirac_isoscalar.np k.t_in_dirac_isoscalar.np m.t_to_W_dirac_isoscalar
    t_to_W_dirac_isovector := mapOf k.t_0_dirac_isovector.np k.t_in_dirac_isovector.np m.t_to_W_dirac_isovector
    t_to_W_pauli_isoscalar := mapOf k.t_0_pauli_isoscalar.np k.t_in_pauli_isoscalar.np m.t_to_W_pauli_isoscalar
    t_to_W_pauli_isovector := mapOf k.t_0_pauli_isovector.np k.t_in_pauli_isovector.np m.t_to_W_pauli_isovector
    diracS := sixOf m.diracS, diracV := threeOf m.diracV, pauliS := sixOf m.pauliS, pauliV := threeOf m.pauliV }

theorem NucleonBase.init_of {build' : Num ℝ → Num ℝ → Num ℝ → Num ℝ → Except Stop UAComponent}
    {build : ℝ → ℝ → ℝ → ℝ → Except PyErr UA.UAComponent}
    (hb : ∀ a b c d, build' a b c d = lift componentOf (build a.val b.val c.val d.val)) (proton electric : Bool) (x : NucleonArgs) :
    NucleonBase.init build' proton electric x = lift (NucleonBase.of x) (UA.NucleonBase.init build proton electric x.plain) := by
  unfold NucleonBase.init UA.NucleonBase.init
  exact lift_bind (map_init' _ _) fun _ _ => lift_bind (map_init' _ _) fun _ _ => lift_bind (map_init' _ _) fun _ _ =>
    lift_bind (map_init' _ _) fun _ _ => lift_bind (isoscalar_of hb _ _ _) fun _ _ => lift_bind (isovector_of hb _ _ _) fun _ _ =>
    lift_bind (isoscalar_of hb _ _ _) fun _ _ => lift_bind (isovector_of hb _ _ _) fun _ _ => rfl

/-- A cache of Python numbers. -/
def cacheOf (c : UA.MassTermCache) : MassTermCache := fun key => (c key).map py

/-- The object with given kinds. -/
def NucleonUAModel.of (k : NucleonArgs) (m : UA.NucleonUAModel) : NucleonUAModel :=
  { NucleonBase.of k m.toNucleonBase with mass_terms_cache := cacheOf m.mass_terms_cache }

theorem NucleonUAModel.init_of (proton electric : Bool) (x : NucleonArgs) :
    NucleonUAModel.init proton electric x = lift (NucleonUAModel.of x) (UA.NucleonUAModel.init proton electric x.plain) := by
  unfold NucleonUAModel.init UA.NucleonUAModel.init
  exact lift_bind (NucleonBase.init_of nucleonBuild proton electric x) fun _ _ => rfl

/-- The same computation on a cache of Python numbers. -/
def Sim {α β : Type} (f : α → β) (x' : CacheM β) (x : UA.CacheM α) : Prop := ∀ c, x' (cacheOf c) = (lift f (x c).1, cacheOf (x c).2)

theorem Sim.bind {α β γ δ : Type} {f : α → β} {x' : CacheM β} {x : UA.CacheM α} {g : β → CacheM γ} {k : α → UA.CacheM δ} {h : δ → γ}
    (hx : Sim f x' x) (hg : ∀ a, Sim h (g (f a)) (k a)) : Sim h (x'.bind g) (x.bind k) := by
  intro c
  unfold CacheM.bind UA.CacheM.bind
  rw [hx c]
  rcases hc : x c with ⟨r, c'⟩
  cases r with
  | error e => rfl
  | ok a => exact hg a c'

theorem Sim.lift {α β : Type} {f : α → β} {x' : Except Stop β} {x : Except PyErr α} (h : x' = Kinded.lift f x) :
    Sim f (CacheM.lift x') (UA.CacheM.lift x) := by
  subst h
  exact fun c => rfl

theorem massOf_of (k : NucleonArgs) (x : UA.NucleonArgs) (r : String) :
    ∃ f : ℝ → Num ℝ, (∀ a, (f a).val = a) ∧ (k.of x).massOf r = Kinded.lift f (x.massOf r) := by
  unfold NucleonArgs.massOf UA.NucleonArgs.massOf
  split_ifs
  · exact ⟨fun a => ⟨a, k.mass_omega.np⟩, fun _ => rfl, rfl⟩
  · exact ⟨fun a => ⟨a, k.mass_omega_prime.np⟩, fun _ => rfl, rfl⟩
  · exact ⟨fun a => ⟨a, k.mass_omega_double_prime.np⟩, fun _ => rfl, rfl⟩
  · exact ⟨fun a => ⟨a, k.mass_phi.np⟩, fun _ => rfl, rfl⟩
  · exact ⟨fun a => ⟨a, k.mass_phi_prime.np⟩, fun _ => rfl, rfl⟩
  · exact ⟨fun a => ⟨a, k.mass_phi_double_prime.np⟩, fun _ => rfl, rfl⟩
  · exact ⟨fun a => ⟨a, k.mass_rho.np⟩, fun _ => rfl, rfl⟩
  · exact ⟨fun a => ⟨a, k.mass_rho_prime.np⟩, fun _ => rfl, rfl⟩
  · exact ⟨fun a => ⟨a, k.mass_rho_double_prime.np⟩, fun _ => rfl, rfl⟩
  · exact ⟨py, fun _ => rfl, rfl⟩

theorem decayRateOf_of (k : NucleonArgs) (x : UA.NucleonArgs) (r : String) :
    ∃ f : ℝ → Num ℝ, (∀ a, (f a).val = a) ∧ (k.of x).decayRateOf r = Kinded.lift f (x.decayRateOf r) := by
  unfold NucleonArgs.decayRateOf UA.NucleonArgs.decayRateOf
  split_ifs
  · exact ⟨fun a => ⟨a, k.decay_rate_omega.np⟩, fun _ => rfl, rfl⟩
  · exact ⟨fun a => ⟨a, k.decay_rate_omega_prime.np⟩, fun _ => rfl, rfl⟩
  · exact ⟨fun a => ⟨a, k.decay_rate_omega_double_prime.np⟩, fun _ => rfl, rfl⟩
  · exact ⟨fun a => ⟨a, k.decay_rate_phi.np⟩, fun _ => rfl, rfl⟩
  · exact ⟨fun a => ⟨a, k.decay_rate_phi_prime.np⟩, fun _ => rfl, rfl⟩
  · exact ⟨fun a => ⟨a, k.decay_rate_phi_double_prime.np⟩, fun _ => rfl, rfl⟩
  · exact ⟨fun a => ⟨a, k.decay_rate_rho.np⟩, fun _ => rfl, rfl⟩
  · exact ⟨fun a => ⟨a, k.decay_rate_rho_prime.np⟩, fun _ => rfl, rfl⟩
  · exact ⟨fun a => ⟨a, k.decay_rate_rho_double_prime.np⟩, fun _ => rfl, rfl⟩
  · exact ⟨py, fun _ => rfl, rfl⟩

theorem massTermA_of (w_r w_n : ℂ) : calculateMassTermA (py w_r) (py w_n) = Kinded.lift py (UA.calculateMassTermA w_r w_n) := by
  unfold calculateMassTermA UA.calculateMassTermA
  exact lift_bind (div_py _ _) fun r _ => lift_bind (f := py) (div_py _ _) fun rc _ => div_py _ _

theorem massTermB_of (w_r w_n : ℂ) : calculateMassTermB (py w_r) (py w_n) = Kinded.lift py (UA.calculateMassTermB w_r w_n) := by
  unfold calculateMassTermB UA.calculateMassTermB
  exact lift_bind (div_py _ _) fun r _ => div_py _ _

theorem massTerm_of (k : NucleonArgs) (m : UA.NucleonBase) (scalar dirac : Bool) (resonance : String) :
    (NucleonBase.of k m).calculateMassTerm scalar dirac resonance = Kinded.lift py (m.calculateMassTerm scalar dirac resonance) := by
  unfold NucleonBase.calculateMassTerm UA.NucleonBase.calculateMassTerm
  obtain ⟨f, hf, hm⟩ := massOf_of k m.toNucleonArgs resonance
  obtain ⟨g, hg, hd⟩ := decayRateOf_of k m.toNucleonArgs resonance
  have key : ∀ (k₀ k₁ : Bool) (M : UA.MapFromTtoW),
      (do
        let mass ← (k.of m.toNucleonArgs).massOf resonance
        let decay_rate ← (k.of m.toNucleonArgs).decayRateOf resonance
        let pole : Num ℂ := (mass : Num ℂ) - py (0.5 * I) * (decay_rate : Num ℂ)
        let w_resonance ← (mapOf k₀ k₁ M).call (pole ^ 2)
        let w_norm ← (mapOf k₀ k₁ M).call 0
        if (pole ^ 2).val.re < (mapOf k₀ k₁ M).t_in.val then calculateMassTermA w_resonance w_norm
        else calculateMassTermB w_resonance w_norm) =
      Kinded.lift py (do
        let mass ← m.massOf resonance
        let decay_rate ← m.decayRateOf resonance
        let pole : ℂ := mass - 0.5 * I * decay_rate
        let w_resonance ← M.call (pole ^ 2)
        let w_norm ← M.call 0
        if (pole ^ 2).re < M.t_in then UA.calculateMassTermA w_resonance w_norm
        else UA.calculateMassTermB w_resonance w_norm) := by
    intro k₀ k₁ M
    refine lift_bind hm fun mass _ => lift_bind hd fun decay_rate _ => ?_
    have hp : ((((f mass : Num ℝ) : Num ℂ) - py (0.5 * I) * ((g decay_rate : Num ℝ) : Num ℂ)) ^ 2).val =
        ((mass : ℂ) - 0.5 * I * decay_rate) ^ 2 := by
      show ((((f mass).val : ℝ) : ℂ) - 0.5 * I * (((g decay_rate).val : ℝ) : ℂ)) ^ 2 = _
      rw [hf, hg]
    refine lift_bind ((map_call k₀ k₁ M _).trans (by rw [hp])) fun w_resonance _ => lift_bind (map_call k₀ k₁ M 0) fun w_norm _ => ?_
    simp only [hp]
    have ht : (mapOf k₀ k₁ M).t_in.val = M.t_in := rfl
    rw [ht]
    by_cases h : (((mass : ℂ) - 0.5 * I * decay_rate) ^ 2).re < M.t_in
    · rw [if_pos h, if_pos h]; exact massTermA_of _ _
    · rw [if_neg h, if_neg h]; exact massTermB_of _ _
  cases scalar <;> cases dirac
  · exact key _ _ m.t_to_W_pauli_isovector
  · exact key _ _ m.t_to_W_dirac_isovector
  · exact key _ _ m.t_to_W_pauli_isoscalar
  · exact key _ _ m.t_to_W_dirac_isoscalar

theorem getMassTerm_of (k : NucleonArgs) (m : UA.NucleonBase) (scalar dirac : Bool) (resonance : String) :
    Sim py ((NucleonBase.of k m).getMassTerm scalar dirac resonance) (m.getMassTerm scalar dirac resonance) := by
  intro c
  have compute : (match (NucleonBase.of k m).calculateMassTerm scalar dirac resonance with
      | .error e => ((.error e, cacheOf c) : Except Stop (Num ℂ) × MassTermCache)
      | .ok val => (.ok val, fun key => if key = buildCacheKey scalar dirac resonance then some val else cacheOf c key)) =
      (Kinded.lift py (match m.calculateMassTerm scalar dirac resonance with
      | .error e => ((.error e, c) : Except PyErr ℂ × UA.MassTermCache)
      | .ok val => (.ok val, fun key => if key = UA.buildCacheKey scalar dirac resonance then some val else c key)).1,
        cacheOf (match m.calculateMassTerm scalar dirac resonance with
      | .error e => ((.error e, c) : Except PyErr ℂ × UA.MassTermCache)
      | .ok val => (.ok val, fun key => if key = UA.buildCacheKey scalar dirac resonance then some val else c key)).2) := by
    rw [massTerm_of]
    cases m.calculateMassTerm scalar dirac resonance with
    | error e => rfl
    | ok v =>
      refine Prod.ext rfl (funext fun key => ?_)
      have hk : buildCacheKey scalar dirac resonance = UA.buildCacheKey scalar dirac resonance := rfl
      show (if key = buildCacheKey scalar dirac resonance then some (py v) else (c key).map py) =
        Option.map py (if key = UA.buildCacheKey scalar dirac resonance then some v else c key)
      rw [hk]
      split_ifs <;> rfl
  unfold NucleonBase.getMassTerm UA.NucleonBase.getMassTerm
  have hk : buildCacheKey scalar dirac resonance = UA.buildCacheKey scalar dirac resonance := rfl
  simp only [hk] at compute ⊢
  have hc : cacheOf c (UA.buildCacheKey scalar dirac resonance) = (c (UA.buildCacheKey scalar dirac resonance)).map py := rfl
  rw [hc]
  cases c (UA.buildCacheKey scalar dirac resonance) with
  | none => exact compute
  | some v =>
    by_cases hv : v = 0
    · simp only [Option.map_some, py_val, hv, if_true]
      exact compute
    · simp only [Option.map_some, py_val, hv, if_false]
      rfl

theorem massTermsS_of (k : NucleonArgs) (m : UA.NucleonBase) (dirac : Bool) :
    Sim sixPy ((NucleonBase.of k m).getMassTermsS dirac) (m.getMassTermsS dirac) := by
  unfold NucleonBase.getMassTermsS UA.NucleonBase.getMassTermsS
  exact (getMassTerm_of k m _ _ _).bind fun _ => (getMassTerm_of k m _ _ _).bind fun _ => (getMassTerm_of k m _ _ _).bind fun _ =>
    (getMassTerm_of k m _ _ _).bind fun _ => (getMassTerm_of k m _ _ _).bind fun _ => (getMassTerm_of k m _ _ _).bind fun _ =>
    Sim.lift rfl

theorem massTermsV_of (k : NucleonArgs) (m : UA.NucleonBase) : Sim threePy (NucleonBase.of k m).getMassTermsV m.getMassTermsV := by
  unfold NucleonBase.getMassTermsV UA.NucleonBase.getMassTermsV
  exact (getMassTerm_of k m _ _ _).bind fun _ => (getMassTerm_of k m _ _ _).bind fun _ => (getMassTerm_of k m _ _ _).bind fun _ =>
    Sim.lift rfl

theorem NucleonBase.combine_of (k : NucleonArgs) (hk : k.nucleon_mass.np = false) (m : UA.NucleonBase) (t ds dv ps pv : ℂ)
    (a b c d : Bool) :
    (NucleonBase.of k m).combine (py t) ⟨ds, a⟩ ⟨dv, b⟩ ⟨ps, c⟩ ⟨pv, d⟩ =
      Kinded.lift (fun z => ⟨z, a || b || (c || d)⟩) (m.combine t ds dv ps pv) := by
  unfold NucleonBase.combine UA.NucleonBase.combine
  have hp : (NucleonBase.of k m).proton = m.proton := rfl
  have he : (NucleonBase.of k m).electric = m.electric := rfl
  have hm : ((NucleonBase.of k m).nucleon_mass : Num ℂ) = py (m.nucleon_mass : ℂ) := by
    show (⟨(m.nucleon_mass : ℂ), k.nucleon_mass.np⟩ : Num ℂ) = _
    rw [hk]; rfl
  rw [hp, he, hm]
  cases m.proton <;> cases m.electric
  · rfl
  · exact lift_bind (div_py _ _) fun q _ => rfl
  · rfl
  · exact lift_bind (div_py _ _) fun q _ => rfl

/-- Whether one of the couplings or magnetic moments is a NumPy number. -/
def NucleonArgs.coupling (k : NucleonArgs) : Bool :=
  k.a_dirac_omega.np || k.a_dirac_omega_prime.np || k.a_dirac_phi.np || k.a_dirac_phi_prime.np || k.a_dirac_rho.np || (k.magnetic_moment_proton.np || k.magnetic_moment_neutron.np || k.a_pauli_omega.np || k.a_pauli_phi.np || k.a_pauli_phi_prime.np || (k.magnetic_moment_proton.np || k.magnetic_moment_neutron.np))

theorem NucleonUAModel.call_of (k : NucleonArgs) (hk : k.nucleon_mass.np = false) (m : UA.NucleonUAModel) (t : ℂ) :
    (NucleonUAModel.of k m).call (py t) = (Kinded.lift (fun z => ⟨z, k.coupling⟩) (m.call t).1, NucleonUAModel.of k (m.call t).2) := by
  have hbody : Sim (fun z => (⟨z, k.coupling⟩ : Num ℂ))
      (if (py t).val.re < 0 then CacheM.lift (throw (.raised .valueError))
      else
        (NucleonUAModel.evalDiracIsoscalar (NucleonBase.of k m.toNucleonBase) (py t)).bind fun ds =>
        (NucleonUAModel.evalDiracIsovector (NucleonBase.of k m.toNucleonBase) (py t)).bind fun dv =>
        (NucleonUAModel.evalPauliIsoscalar (NucleonBase.of k m.toNucleonBase) (py t)).bind fun ps =>
        (NucleonUAModel.evalPauliIsovector (NucleonBase.of k m.toNucleonBase) (py t)).bind fun pv =>
        CacheM.lift ((NucleonBase.of k m.toNucleonBase).combine (py t) ds dv ps pv))
      (if t.re < 0 then UA.CacheM.lift (throw .valueError)
      else
        (UA.NucleonUAModel.evalDiracIsoscalar m.toNucleonBase t).bind fun ds =>
        (UA.NucleonUAModel.evalDiracIsovector m.toNucleonBase t).bind fun dv =>
        (UA.NucleonUAModel.evalPauliIsoscalar m.toNucleonBase t).bind fun ps =>
        (UA.NucleonUAModel.evalPauliIsovector m.toNucleonBase t).bind fun pv =>
        UA.CacheM.lift (m.combine t ds dv ps pv)) := by
    by_cases h : t.re < 0
    · rw [if_pos (show (py t).val.re < 0 from h), if_pos h]; exact Sim.lift rfl
    · rw [if_neg (show ¬ (py t).val.re < 0 from h), if_neg h]
      refine Sim.bind (f := fun z => ⟨z, k.a_dirac_omega.np || k.a_dirac_omega_prime.np || k.a_dirac_phi.np || k.a_dirac_phi_prime.np⟩) ?_ fun ds => Sim.bind (f := fun z => ⟨z, k.a_dirac_rho.np⟩) ?_ fun dv =>
        Sim.bind (f := fun z => ⟨z, k.magnetic_moment_proton.np || k.magnetic_moment_neutron.np || k.a_pauli_omega.np || k.a_pauli_phi.np || k.a_pauli_phi_prime.np⟩) ?_ fun ps => Sim.bind (f := fun z => ⟨z, k.magnetic_moment_proton.np || k.magnetic_moment_neutron.np⟩) ?_ fun pv =>
        Sim.lift (NucleonBase.combine_of k hk m.toNucleonBase t ds dv ps pv _ _ _ _)
      · exact (Sim.lift (map_call _ _ _ _)).bind fun w => (massTermsS_of k m.toNucleonBase true).bind fun c =>
          Sim.lift (diracIsoscalarExpr_of k _ _ _ _)
      · exact (Sim.lift (map_call _ _ _ _)).bind fun w => (massTermsV_of k m.toNucleonBase).bind fun c =>
          Sim.lift (diracIsovectorExpr_of k _ _ _ _)
      · exact (Sim.lift (map_call _ _ _ _)).bind fun w => (massTermsS_of k m.toNucleonBase false).bind fun c =>
          Sim.lift (pauliIsoscalarExpr_of k _ _ _ _)
      · exact (Sim.lift (map_call _ _ _ _)).bind fun w => Sim.lift (pauliIsovectorExpr_of k _ _ _)
  have := hbody m.mass_terms_cache
  unfold NucleonUAModel.call UA.NucleonUAModel.call
  have h1 := congrArg Prod.fst this
  have h2 := congrArg Prod.snd this
  refine Prod.ext h1 ?_
  exact congrArg (fun c => ({ NucleonBase.of k m.toNucleonBase with mass_terms_cache := c } : NucleonUAModel)) h2

end UA.Kinded
