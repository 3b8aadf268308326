import Verif.Spec.Kinds
import Verif.Lemmas.KindsNucleon
import Verif.Lemmas.Utils

/-!
# Helper lemmas: `common/utils.py` with numbers that carry their kind
-/

namespace UA.Kinded

open Complex

/-- The arguments with given values. -/
def NucleonArgs.ofValues (v : String → Num ℝ) : NucleonArgs where
  nucleon_mass := v "nucleon_mass"
  magnetic_moment_proton := v "magnetic_moment_proton"
  magnetic_moment_neutron := v "magnetic_moment_neutron"
  t_0_dirac_isoscalar := v "t_0_dirac_isoscalar"
  t_in_dirac_isoscalar := v "t_in_dirac_isoscalar"
  t_0_dirac_isovector := v "t_0_dirac_isovector"
  t_in_dirac_isovector := v "t_in_dirac_isovector"
  t_0_pauli_isoscalar := v "t_0_pauli_isoscalar"
  t_in_pauli_isoscalar := v "t_in_pauli_isoscalar"
  t_0_pauli_isovector := v "t_0_pauli_isovector"
  t_in_pauli_isovector := v "t_in_pauli_isovector"
  a_dirac_omega := v "a_dirac_omega"
  a_dirac_omega_prime := v "a_dirac_omega_prime"
  a_dirac_phi := v "a_dirac_phi"
  a_dirac_phi_prime := v "a_dirac_phi_prime"
  a_dirac_rho := v "a_dirac_rho"
  a_pauli_omega := v "a_pauli_omega"
  a_pauli_phi := v "a_pauli_phi"
  a_pauli_phi_prime := v "a_pauli_phi_prime"
  mass_omega := v "mass_omega"
  decay_rate_omega := v "decay_rate_omega"
  mass_omega_prime := v "mass_omega_prime"
  decay_rate_omega_prime := v "decay_rate_omega_prime"
  mass_omega_double_prime := v "mass_omega_double_prime"
  decay_rate_omega_double_prime := v "decay_rate_omega_double_prime"
  mass_phi := v "mass_phi"
  decay_rate_phi := v "decay_rate_phi"
  mass_phi_prime := v "mass_phi_prime"
  decay_rate_phi_prime := v "decay_rate_phi_prime"
  mass_phi_double_prime := v "mass_phi_double_prime"
  decay_rate_phi_double_prime := v "decay_rate_phi_double_prime"
  mass_rho := v "mass_rho"
  decay_rate_rho := v "decay_rate_rho"
  mass_rho_prime := v "mass_rho_prime"
  decay_rate_rho_prime := v "decay_rate_rho_prime"
  mass_rho_double_prime := v "mass_rho_double_prime"
  decay_rate_rho_double_prime := v "decay_rate_rho_double_prime"

theorem NucleonArgs.ofEnv_eq (v : String → Num ℝ) :
    NucleonArgs.ofEnv (UA.NucleonUAModel.argNames.map fun n => (n, v n)) = .ok (.ofValues v) := by
  have hr : ∀ n ∈ UA.NucleonUAModel.argNames, readVar .exception (UA.NucleonUAModel.argNames.map fun n => (n, v n)) n = .ok (v n) :=
    fun n hn => readVar_eq_ok.mpr (lookup_map_self hn)
  generalize (UA.NucleonUAModel.argNames.map fun n => (n, v n)) = env at hr
  simp only [UA.NucleonUAModel.argNames, List.forall_mem_cons] at hr
  simp only [NucleonArgs.ofEnv, hr, except_ok_bind]
  rfl

/-! ### Cross sections -/

theorem divR_py (a b : ℝ) : pyDiv (py (a : ℂ)) (py (b : ℂ)) = lift (fun r : ℝ => py (r : ℂ)) (UA.pyDivR a b) := by
  unfold pyDiv UA.pyDivR
  by_cases h : b = 0 <;> simp [h, lift, py]

theorem scalar_of (cs : ScalarCS) {k : Bool} {ff' : Num ℂ → Except Stop (Num ℂ)} {ff : ℂ → Except PyErr ℂ} {t : ℂ}
    (h : ff' (py t) = lift (fun z => ⟨z, k⟩) (ff t)) : scalarCall cs ff' (py t) = lift (fun z => ⟨z, k⟩) (cs.call ff t) := by
  unfold scalarCall ScalarCS.call
  refine lift_bind h fun F _ => lift_bind (div_py _ _) fun q _ => lift_bind (div_py _ _) fun r _ => ?_
  rfl

theorem formula_of (cs : NucleonCS) (k : Bool) (t : ℂ) (ge gm : ℝ) :
    nucleonFormula cs (py t) ⟨ge, k⟩ ⟨gm, k⟩ = lift (fun z => ⟨z, k⟩) (cs.formula t ge gm) := by
  unfold nucleonFormula NucleonCS.formula
  refine lift_bind (divR_py _ _) fun r _ => lift_bind (sqrt_lift _) fun beta _ => ?_
  have hq : pyDiv (py (cs.precalculated_coefficient_1 : ℂ) * ((py beta : Num ℝ) : Num ℂ)) (py t) =
      lift py (UA.pyDiv ((cs.precalculated_coefficient_1 * beta : ℝ) : ℂ) t) := by
    rw [← div_py]; congr 1; push_cast; rfl
  refine lift_bind hq fun q hqt => ?_
  have ht : t ≠ 0 := (pyDiv_eq_ok_iff.mp hqt).1
  have h2 : 2 * t ≠ 0 := mul_ne_zero two_ne_zero ht
  have he : pyDiv (py (cs.four_mass_squared : ℂ) * (((⟨ge, k⟩ : Num ℝ) : Num ℂ)) ^ 2) (2 * py t) =
      lift (fun z => ⟨z, k⟩) (UA.pyDiv ((cs.four_mass_squared * ge ^ 2 : ℝ) : ℂ) (2 * t)) := by
    rw [UA.pyDiv_ok h2]
    unfold pyDiv
    have hv : (2 * py t : Num ℂ).val = 2 * t := rfl
    rw [hv, if_neg h2]
    refine congrArg Except.ok (Num.ext ?_ ?_)
    · show ((cs.four_mass_squared : ℂ) * (ge : ℂ) ^ 2) / (2 * t) = _
      push_cast; rfl
    · show ((false || k) || (false || false)) = k
      cases k <;> rfl
  refine lift_bind he fun e _ => congrArg Except.ok (Num.ext rfl ?_)
  show (false || (k || k)) = k
  cases k <;> rfl

theorem nucleonCS_of (cs : NucleonCS) (k : NucleonArgs) (hk : k.nucleon_mass.np = false) (m : UA.NucleonUAModel) (t : ℂ) :
    nucleonCall cs nucleonFF (NucleonUAModel.of k m) (py t) =
      (lift (fun z => ⟨z, k.coupling⟩) (cs.call UA.nucleonFF m t).1, NucleonUAModel.of k (cs.call UA.nucleonFF m t).2) := by
  unfold nucleonCall NucleonCS.call
  have h1 := NucleonUAModel.call_of k hk (UA.nucleonFF.setElectric true m) t
  rcases hc : (UA.nucleonFF.setElectric true m).call t with ⟨r, m₁⟩
  rw [hc] at h1
  have e1 : nucleonFF.call (nucleonFF.setElectric true (NucleonUAModel.of k m)) (py t) = _ := h1
  have e1' : UA.nucleonFF.call (UA.nucleonFF.setElectric true m) t = _ := hc
  simp only [e1, e1']
  cases r with
  | error e => rfl
  | ok GE =>
    have h2 := NucleonUAModel.call_of k hk (UA.nucleonFF.setElectric false m₁) t
    rcases hd : (UA.nucleonFF.setElectric false m₁).call t with ⟨s, m₂⟩
    rw [hd] at h2
    have e2 : nucleonFF.call (nucleonFF.setElectric false (NucleonUAModel.of k m₁)) (py t) = _ := h2
    have e2' : UA.nucleonFF.call (UA.nucleonFF.setElectric false m₁) t = _ := hd
    simp only [lift, e2, e2']
    cases s with
    | error e => rfl
    | ok GM => exact Prod.ext (formula_of cs k.coupling t ‖GE‖ ‖GM‖) rfl

/-! ### Loops -/

theorem kaonLoop_of {σ τ : Type} {of : τ → σ} {k : Bool} {set' : Bool → σ → σ} {set : Bool → τ → τ}
    {call' : σ → Num ℂ → Except Stop (Num ℂ)} {call : τ → ℂ → Except PyErr ℂ} (hs : ∀ b m, set' b (of m) = of (set b m))
    (hc : ∀ m t, call' (of m) (py t) = lift (fun z => ⟨z, k⟩) (call m t)) (ts : List Datapoint) (m : τ) :
    kaonLoop set' call' ts (of m) = outcome k (UA.kaonLoop set call ts m) := by
  induction ts generalizing m with
  | nil => rfl
  | cons d ts ih =>
    unfold kaonLoop UA.kaonLoop
    cases readDatapointKaon d with
    | error e => rfl
    | ok x =>
      obtain ⟨t, c⟩ := x
      show (do
        let F ← call' (set' c (of m)) (py t)
        let results ← kaonLoop set' call' ts (set' c (of m))
        return F.abs :: results) = outcome k (do
        let F ← call (set c m) t
        let results ← UA.kaonLoop set call ts (set c m)
        return ‖F‖ :: results)
      rw [hs, hc, ih]
      cases call (set c m) t with
      | error e => rfl
      | ok F =>
        cases UA.kaonLoop set call ts (set c m) <;> rfl

theorem nucleonLoop_of {σ τ : Type} {of : τ → σ} {k : Bool} {set' : Bool → Bool → σ → σ} {set : Bool → Bool → τ → τ}
    {call' : σ → Num ℂ → Except Stop (Num ℂ) × σ} {call : τ → ℂ → Except PyErr ℂ × τ} (hs : ∀ b c m, set' b c (of m) = of (set b c m))
    (hc : ∀ m t, call' (of m) (py t) = (lift (fun z => ⟨z, k⟩) (call m t).1, of (call m t).2)) (ts : List Datapoint) (m : τ) :
    nucleonLoop set' call' ts (of m) = outcome k (UA.nucleonLoop set call ts m) := by
  induction ts generalizing m with
  | nil => rfl
  | cons d ts ih =>
    unfold nucleonLoop UA.nucleonLoop
    cases readDatapointNucleon d with
    | error e => rfl
    | ok x =>
      obtain ⟨t, b, c⟩ := x
      simp only [raises, except_ok_bind, hs, hc]
      rcases call (set b c m) t with ⟨r, m₁⟩
      cases r with
      | error e => rfl
      | ok F =>
        simp only [lift, ih]
        cases UA.nucleonLoop set call ts m₁ <;> rfl

/-! ### Arguments -/

theorem plain_wellFormed {p : ModelParameters (Num ℝ)} (h : p.WellFormed) : (plain p).WellFormed where
  always := h.always
  names := by
    refine Eq.trans ?_ h.names
    show (p.data.map _).map _ = p.data.map _
    rw [List.map_map]; rfl
  fixed := by
    intro q hq ha
    obtain ⟨r, hr, rfl⟩ := List.mem_map.mp hq
    exact h.fixed r hr ha

theorem plain_values {p : ModelParameters (Num ℝ)} {v : String → Num ℝ} (hv : ∀ q ∈ p.data, q.value = v q.name) :
    ∀ q ∈ (plain p).data, q.value = (fun n => (v n).val) q.name := by
  intro q hq
  obtain ⟨r, hr, rfl⟩ := List.mem_map.mp hq
  show r.value.val = (v r.name).val
  rw [hv r hr]

theorem asKwargs_lookup {p : ModelParameters (Num ℝ)} (h : p.WellFormed) {v : String → Num ℝ} (hv : ∀ q ∈ p.data, q.value = v q.name)
    {n : String} (hn : n ∈ p.cls.table.initArgs) : (asKwargs p).lookup n = some (v n) := by
  rw [← h.names] at hn
  obtain ⟨q, hq, rfl⟩ := List.mem_map.mp hn
  have := lastValue_of_nodup h.nodup hq
  unfold asKwargs
  rw [pyDict_lookup, ← hv q hq]
  exact this

theorem bind_asKwargs {p : ModelParameters (Num ℝ)} (h : p.WellFormed) {v : String → Num ℝ} (hv : ∀ q ∈ p.data, q.value = v q.name)
    {args : List String} (h1 : ∀ n ∈ args, n ∈ p.cls.table.initArgs) (h2 : ∀ n ∈ p.cls.table.initArgs, n ∈ args) :
    bindKwargs args (asKwargs p) = .ok (args.map fun n => (n, v n)) :=
  bindKwargs_ok (fun n hn => asKwargs_lookup h hv (h1 n hn)) fun e he => h2 _ (by
    obtain ⟨r, hr, hre⟩ := pyDict_keys he
    obtain ⟨q, hq, rfl⟩ := List.mem_map.mp hr
    rw [← h.names, ← hre]
    exact List.mem_map_of_mem hq)

theorem numpyCoupling_eq {p : ModelParameters (Num ℝ)} (h : p.WellFormed) {v : String → Num ℝ} (hv : ∀ q ∈ p.data, q.value = v q.name)
    {l : List String} (hl : p.cls.table.initArgs.filter (fun n => decide (IsCoupling n)) = l) :
    numpyCoupling p = l.any fun n => (v n).np := by
  rw [← hl, List.any_filter, ← h.names]
  show p.data.any _ = (p.data.map _).any _
  rw [List.any_map]
  refine Bool.eq_iff_iff.mpr ?_
  simp only [List.any_eq_true, Function.comp]
  exact exists_congr fun q => and_congr_right fun hq => by rw [hv q hq]

theorem kaon_of {p : ModelParameters (Num ℝ)} (h : p.WellFormed) (hc : p.cls = .kaon ∨ p.cls = .kaonFixedRhoOmega ∨ p.cls = .kaonFixedSelected) :
    ∃ (v : String → Num ℝ) (r : Except PyErr UA.KaonUAModel), KaonUAModel.coupling v = numpyCoupling p ∧
      getFFModel p = lift (fun m => .kaon (KaonUAModel.of v m)) r ∧ UA.getFFModel (plain p) = (do let m ← r; return .kaon m) := by
  obtain ⟨v, hv⟩ := h.exists_values
  have h1 : ∀ n ∈ UA.KaonUAModel.argNames, n ∈ p.cls.table.initArgs := by rcases hc with hc | hc | hc <;> rw [hc] <;> decide +kernel
  have h2 : ∀ n ∈ p.cls.table.initArgs, n ∈ UA.KaonUAModel.argNames := by rcases hc with hc | hc | hc <;> rw [hc] <;> decide +kernel
  have h3 : (p.cls.table.initArgs.filter fun n => decide (IsCoupling n)).Perm ["a_omega", "a_omega_prime", "a_omega_double_prime", "a_phi", "a_phi_prime", "a_rho", "a_rho_prime", "a_rho_double_prime"] := by
    rcases hc with hc | hc | hc <;> rw [hc] <;> decide +kernel
  refine ⟨v, UA.KaonUAModel.init true (.ofValues fun n => (v n).val), ?_, ?_, ?_⟩
  · rw [numpyCoupling_eq h hv rfl, h3.any_eq]
    simp only [KaonUAModel.coupling, List.any_cons, List.any_nil, Bool.or_false, Bool.or_assoc]
  · have hi : KaonUAModel.initKw true (asKwargs p) = lift (KaonUAModel.of v) (UA.KaonUAModel.init true (.ofValues fun n => (v n).val)) := by
      unfold KaonUAModel.initKw
      rw [bind_asKwargs h hv h1 h2]
      simp only [raises, except_ok_bind, KaonUAModel.Args.ofEnv_eq]
      exact KaonUAModel.init_of true v
    have hg : getFFModel p = (do let m ← KaonUAModel.initKw true (asKwargs p); return .kaon m) := by
      unfold getFFModel
      rcases hc with hc | hc | hc <;> rw [hc]
    rw [hg, hi]
    cases UA.KaonUAModel.init true (.ofValues fun n => (v n).val) <;> rfl
  · have hc' : (plain p).cls = .kaon ∨ (plain p).cls = .kaonFixedRhoOmega ∨ (plain p).cls = .kaonFixedSelected := hc
    rw [← initKw_kaon (plain_wellFormed h) (plain_values hv) hc']
    unfold UA.getFFModel
    rcases hc' with hc | hc | hc <;> rw [hc]

theorem kaonB_of {p : ModelParameters (Num ℝ)} (h : p.WellFormed) (hc : p.cls = .kaonB) :
    ∃ (v : String → Num ℝ) (r : Except PyErr UA.KaonUAModelB), KaonUAModelB.coupling v = numpyCoupling p ∧
      getFFModel p = lift (fun m => .kaonB (KaonUAModelB.of v m)) r ∧ UA.getFFModel (plain p) = (do let m ← r; return .kaonB m) := by
  obtain ⟨v, hv⟩ := h.exists_values
  have h1 : ∀ n ∈ UA.KaonUAModelB.argNames, n ∈ p.cls.table.initArgs := by rw [hc]; decide +kernel
  have h2 : ∀ n ∈ p.cls.table.initArgs, n ∈ UA.KaonUAModelB.argNames := by rw [hc]; decide +kernel
  have h3 : (p.cls.table.initArgs.filter fun n => decide (IsCoupling n)).Perm ["a_omega", "a_omega_double_prime", "a_phi", "a_phi_prime", "a_rho", "a_rho_prime"] := by
    rw [hc]; decide +kernel
  refine ⟨v, UA.KaonUAModelB.init true (.ofValues fun n => (v n).val), ?_, ?_, ?_⟩
  · rw [numpyCoupling_eq h hv rfl, h3.any_eq]
    simp only [KaonUAModelB.coupling, List.any_cons, List.any_nil, Bool.or_false, Bool.or_assoc]
  · have hi : KaonUAModelB.initKw true (asKwargs p) = lift (KaonUAModelB.of v) (UA.KaonUAModelB.init true (.ofValues fun n => (v n).val)) := by
      unfold KaonUAModelB.initKw
      rw [bind_asKwargs h hv h1 h2]
      simp only [raises, except_ok_bind, KaonUAModelB.Args.ofEnv_eq]
      exact KaonUAModelB.init_of true v
    have hg : getFFModel p = (do let m ← KaonUAModelB.initKw true (asKwargs p); return .kaonB m) := by
      unfold getFFModel
      rw [hc]
    rw [hg, hi]
    cases UA.KaonUAModelB.init true (.ofValues fun n => (v n).val) <;> rfl
  · have hc' : (plain p).cls = .kaonB := hc
    rw [← initKw_kaonB (plain_wellFormed h) (plain_values hv) hc']
    unfold UA.getFFModel
    rw [hc']

theorem kaonSimplified_of {p : ModelParameters (Num ℝ)} (h : p.WellFormed) (hc : p.cls = .kaonSimplified) :
    ∃ (v : String → Num ℝ) (r : Except PyErr UA.KaonUAModelSimplified), KaonUAModelSimplified.coupling v = numpyCoupling p ∧
      getFFModel p = lift (fun m => .kaonSimplified (KaonUAModelSimplified.of v m)) r ∧ UA.getFFModel (plain p) = (do let m ← r; return .kaonSimplified m) := by
  obtain ⟨v, hv⟩ := h.exists_values
  have h1 : ∀ n ∈ UA.KaonUAModelSimplified.argNames, n ∈ p.cls.table.initArgs := by rw [hc]; decide +kernel
  have h2 : ∀ n ∈ p.cls.table.initArgs, n ∈ UA.KaonUAModelSimplified.argNames := by rw [hc]; decide +kernel
  have h3 : (p.cls.table.initArgs.filter fun n => decide (IsCoupling n)).Perm ["a_omega_prime", "a_omega_double_prime", "a_phi", "a_phi_prime", "a_rho_prime", "a_rho_double_prime"] := by
    rw [hc]; decide +kernel
  refine ⟨v, UA.KaonUAModelSimplified.init true (.ofValues fun n => (v n).val), ?_, ?_, ?_⟩
  · rw [numpyCoupling_eq h hv rfl, h3.any_eq]
    simp only [KaonUAModelSimplified.coupling, List.any_cons, List.any_nil, Bool.or_false, Bool.or_assoc]
  · have hi : KaonUAModelSimplified.initKw true (asKwargs p) = lift (KaonUAModelSimplified.of v) (UA.KaonUAModelSimplified.init true (.ofValues fun n => (v n).val)) := by
      unfold KaonUAModelSimplified.initKw
      rw [bind_asKwargs h hv h1 h2]
      simp only [raises, except_ok_bind, KaonUAModelSimplified.Args.ofEnv_eq]
      exact KaonUAModelSimplified.init_of true v
    have hg : getFFModel p = (do let m ← KaonUAModelSimplified.initKw true (asKwargs p); return .kaonSimplified m) := by
      unfold getFFModel
      rw [hc]
    rw [hg, hi]
    cases UA.KaonUAModelSimplified.init true (.ofValues fun n => (v n).val) <;> rfl
  · have hc' : (plain p).cls = .kaonSimplified := hc
    rw [← initKw_kaonSimplified (plain_wellFormed h) (plain_values hv) hc']
    unfold UA.getFFModel
    rw [hc']

theorem nucleon_of {p : ModelParameters (Num ℝ)} (h : p.WellFormed) (hc : p.cls = .nucleon)
    (hm : ∀ q ∈ p.toList, q.name = "nucleon_mass" → q.value.np = false) :
    ∃ (k : NucleonArgs) (r : Except PyErr UA.NucleonUAModel), k.coupling = numpyCoupling p ∧ k.nucleon_mass.np = false ∧
      getFFModel p = lift (fun m => .nucleon (NucleonUAModel.of k m)) r ∧ UA.getFFModel (plain p) = (do let m ← r; return .nucleon m) := by
  obtain ⟨v, hv⟩ := h.exists_values
  have h1 : ∀ n ∈ UA.NucleonUAModel.argNames, n ∈ p.cls.table.initArgs := by rw [hc]; decide +kernel
  have h2 : ∀ n ∈ p.cls.table.initArgs, n ∈ UA.NucleonUAModel.argNames := by rw [hc]; decide +kernel
  have h3 : (p.cls.table.initArgs.filter fun n => decide (IsCoupling n)).Perm ["magnetic_moment_proton", "magnetic_moment_neutron", "a_dirac_omega", "a_dirac_omega_prime", "a_dirac_phi", "a_dirac_phi_prime", "a_dirac_rho", "a_pauli_omega", "a_pauli_phi", "a_pauli_phi_prime"] := by
    rw [hc]; decide +kernel
  have h4 : "nucleon_mass" ∈ p.names := by rw [h.names, hc]; decide +kernel
  refine ⟨.ofValues v, UA.NucleonUAModel.init true true (.ofValues fun n => (v n).val), ?_, ?_, ?_, ?_⟩
  · rw [numpyCoupling_eq h hv rfl, h3.any_eq]
    simp only [NucleonArgs.coupling, NucleonArgs.ofValues, List.any_cons, List.any_nil, Bool.or_false]
    generalize (v "magnetic_moment_proton").np = b0
    generalize (v "magnetic_moment_neutron").np = b1
    generalize (v "a_dirac_omega").np = b2
    generalize (v "a_dirac_omega_prime").np = b3
    generalize (v "a_dirac_phi").np = b4
    generalize (v "a_dirac_phi_prime").np = b5
    generalize (v "a_dirac_rho").np = b6
    generalize (v "a_pauli_omega").np = b7
    generalize (v "a_pauli_phi").np = b8
    generalize (v "a_pauli_phi_prime").np = b9
    revert b0 b1 b2 b3 b4 b5 b6 b7 b8 b9
    decide
  · obtain ⟨q, hq, hn⟩ := List.mem_map.mp h4
    have := hm q hq hn
    rw [hv q hq, hn] at this
    exact this
  · have hi : NucleonUAModel.initKw true true (asKwargs p) =
        lift (NucleonUAModel.of (.ofValues v)) (UA.NucleonUAModel.init true true (.ofValues fun n => (v n).val)) := by
      unfold NucleonUAModel.initKw
      rw [bind_asKwargs h hv h1 h2]
      simp only [raises, except_ok_bind, NucleonArgs.ofEnv_eq]
      exact NucleonUAModel.init_of true true (.ofValues v)
    have hg : getFFModel p = (do let m ← NucleonUAModel.initKw true true (asKwargs p); return .nucleon m) := by
      unfold getFFModel
      rw [hc]
    rw [hg, hi]
    cases UA.NucleonUAModel.init true true (.ofValues fun n => (v n).val) <;> rfl
  · have hc' : (plain p).cls = .nucleon := hc
    rw [← initKw_nucleon (plain_wellFormed h) (plain_values hv) hc']
    unfold UA.getFFModel
    rw [hc']

/-! ### The two functions -/

theorem formFactor_of {p : ModelParameters (Num ℝ)} (h : p.WellFormed)
    (hc : IsKaonClass p.cls ∨ p.cls = .nucleon ∧ ∀ q ∈ p.toList, q.name = "nucleon_mass" → q.value.np = false) (ts : List Datapoint) :
    functionFormFactor ts p = outcome (numpyCoupling p) (UA.functionFormFactor ts (plain p)) := by
  unfold functionFormFactor UA.functionFormFactor
  have hcls : (p.cls = .kaon ∨ p.cls = .kaonFixedRhoOmega ∨ p.cls = .kaonFixedSelected) ∨ p.cls = .kaonB ∨ p.cls = .kaonSimplified ∨
      p.cls = .nucleon ∧ ∀ q ∈ p.toList, q.name = "nucleon_mass" → q.value.np = false := by
    rcases hc with hc | hc
    · cases hp : p.cls <;> simp [hp, IsKaonClass] at hc ⊢
    · exact .inr (.inr (.inr hc))
  rcases hcls with hc | hc | hc | ⟨hc, hm⟩
  · obtain ⟨v, r, hk, h1, h2⟩ := kaon_of h hc
    rw [h1, h2, ← hk]
    cases r with
    | error e => rfl
    | ok m => exact kaonLoop_of (of := KaonUAModel.of v) (fun _ _ => rfl) (fun m t => KaonUAModel.call_of v m t) ts m
  · obtain ⟨v, r, hk, h1, h2⟩ := kaonB_of h hc
    rw [h1, h2, ← hk]
    cases r with
    | error e => rfl
    | ok m => exact kaonLoop_of (of := KaonUAModelB.of v) (fun _ _ => rfl) (fun m t => KaonUAModelB.call_of v m t) ts m
  · obtain ⟨v, r, hk, h1, h2⟩ := kaonSimplified_of h hc
    rw [h1, h2, ← hk]
    cases r with
    | error e => rfl
    | ok m => exact kaonLoop_of (of := KaonUAModelSimplified.of v) (fun _ _ => rfl) (fun m t => KaonUAModelSimplified.call_of v m t) ts m
  · obtain ⟨k, r, hk, hkm, h1, h2⟩ := nucleon_of h hc hm
    rw [h1, h2, ← hk]
    cases r with
    | error e => rfl
    | ok m => exact nucleonLoop_of (of := NucleonUAModel.of k) (fun _ _ _ => rfl) (fun m t => NucleonUAModel.call_of k hkm m t) ts m

theorem crossSection_of {p : ModelParameters (Num ℝ)} (h : p.WellFormed)
    (hc : IsKaonClass p.cls ∨ p.cls = .nucleon ∧ ∀ q ∈ p.toList, q.name = "nucleon_mass" → q.value.np = false) (ts : List Datapoint)
    (mass alpha hc_squared : ℝ) :
    functionCrossSection ts mass alpha hc_squared p = outcome (numpyCoupling p) (UA.functionCrossSection ts mass alpha hc_squared (plain p)) := by
  unfold functionCrossSection UA.functionCrossSection
  have hcls : (p.cls = .kaon ∨ p.cls = .kaonFixedRhoOmega ∨ p.cls = .kaonFixedSelected) ∨ p.cls = .kaonB ∨ p.cls = .kaonSimplified ∨
      p.cls = .nucleon ∧ ∀ q ∈ p.toList, q.name = "nucleon_mass" → q.value.np = false := by
    rcases hc with hc | hc
    · cases hp : p.cls <;> simp [hp, IsKaonClass] at hc ⊢
    · exact .inr (.inr (.inr hc))
  rcases hcls with hc | hc | hc | ⟨hc, hm⟩
  · obtain ⟨v, r, hk, h1, h2⟩ := kaon_of h hc
    rw [h1, h2, ← hk]
    cases r with
    | error e => rfl
    | ok m => exact kaonLoop_of (of := KaonUAModel.of v) (fun _ _ => rfl) (fun m t => scalar_of _ (KaonUAModel.call_of v m t)) ts m
  · obtain ⟨v, r, hk, h1, h2⟩ := kaonB_of h hc
    rw [h1, h2, ← hk]
    cases r with
    | error e => rfl
    | ok m => exact kaonLoop_of (of := KaonUAModelB.of v) (fun _ _ => rfl) (fun m t => scalar_of _ (KaonUAModelB.call_of v m t)) ts m
  · obtain ⟨v, r, hk, h1, h2⟩ := kaonSimplified_of h hc
    rw [h1, h2, ← hk]
    cases r with
    | error e => rfl
    | ok m => exact kaonLoop_of (of := KaonUAModelSimplified.of v) (fun _ _ => rfl) (fun m t => scalar_of _ (KaonUAModelSimplified.call_of v m t)) ts m
  · obtain ⟨k, r, hk, hkm, h1, h2⟩ := nucleon_of h hc hm
    rw [h1, h2, ← hk]
    cases r with
    | error e => rfl
    | ok m => exact nucleonLoop_of (of := NucleonUAModel.of k) (fun _ _ _ => rfl) (fun m t => nucleonCS_of _ k hkm m t) ts m

/-! ### The other models -/

theorem div_ok (a b : Num ℂ) {z : ℂ} (h : UA.pyDiv a.val b.val = .ok z) : pyDiv a b = .ok ⟨z, a.np || b.np⟩ := by
  obtain ⟨hb, rfl⟩ := pyDiv_eq_ok_iff.mp h
  unfold pyDiv
  rw [if_neg hb]

theorem div_error (a b : Num ℂ) (hb : b.np = true) {e : PyErr} (h : UA.pyDiv a.val b.val = .error e) :
    e = .zeroDivisionError ∧ pyDiv a b = .error .nonFinite := by
  unfold UA.pyDiv at h
  by_cases h0 : b.val = 0
  · rw [if_pos h0] at h
    cases h
    refine ⟨rfl, ?_⟩
    unfold pyDiv
    rw [if_pos h0, hb, Bool.or_true, if_pos rfl]
  · rw [if_neg h0] at h; cases h

/-- The outcome of one call when all numbers are NumPy numbers. -/
def numpyCall : Except PyErr ℂ → Except Stop (Num ℂ)
  | .error .zeroDivisionError => .error .nonFinite
  | .error e => .error (.raised e)
  | .ok z => .ok ⟨z, true⟩

theorem div_numpy (a b : Num ℂ) (hb : b.np = true) : pyDiv a b = numpyCall (UA.pyDiv a.val b.val) := by
  rcases h : UA.pyDiv a.val b.val with e | z
  · obtain ⟨rfl, h2⟩ := div_error a b hb h
    exact h2
  · rw [div_ok a b h, hb, Bool.or_true]; rfl

theorem numpyCall_bind {x' : Except Stop (Num ℂ)} {x : Except PyErr ℂ} {g : Num ℂ → Except Stop (Num ℂ)} {k : ℂ → Except PyErr ℂ}
    (hx : x' = numpyCall x) (hg : ∀ a, g ⟨a, true⟩ = numpyCall (k a)) : (x' >>= g) = numpyCall (x >>= k) := by
  subst hx
  cases x with
  | error e => cases e <;> rfl
  | ok a => exact hg a

theorem etgmr_numpy (a m_a m_d : Num ℝ) (h1 : m_a.np = true) (h2 : m_d.np = true) (t : ℂ) :
    (ETGMRModel.init a m_a m_d).call (py t) = numpyCall ((UA.ETGMRModel.init a.val m_a.val m_d.val).call t) := by
  unfold ETGMRModel.call UA.ETGMRModel.call ETGMRModel.init UA.ETGMRModel.init
  refine numpyCall_bind (div_numpy _ _ h1) fun x => numpyCall_bind (div_numpy _ _ h2) fun y => ?_
  exact div_numpy _ _ rfl

theorem twoPoles_numpy (a m_1 m_2 : Num ℝ) (h1 : m_1.np = true) (h2 : m_2.np = true) (t : ℂ) :
    (TwoPolesModel.init a m_1 m_2).call (py t) = numpyCall ((UA.TwoPolesModel.init a.val m_1.val m_2.val).call t) := by
  unfold TwoPolesModel.call UA.TwoPolesModel.call TwoPolesModel.init UA.TwoPolesModel.init
  refine numpyCall_bind (div_numpy _ _ h1) fun x => numpyCall_bind (div_numpy _ _ h2) fun y => ?_
  exact div_numpy _ _ rfl

theorem etgmr_ok (a m_a m_d : Num ℝ) (t : ℂ) {z : ℂ} (h : (UA.ETGMRModel.init a.val m_a.val m_d.val).call t = .ok z) :
    (ETGMRModel.init a m_a m_d).call (py t) = .ok ⟨z, a.np || m_a.np || m_d.np⟩ := by
  unfold UA.ETGMRModel.call UA.ETGMRModel.init at h
  unfold ETGMRModel.call ETGMRModel.init
  obtain ⟨x, hx, h⟩ := except_bind_eq_ok.mp h
  obtain ⟨y, hy, h⟩ := except_bind_eq_ok.mp h
  rw [div_ok _ _ (z := x) hx, except_ok_bind, div_ok _ _ (z := y) hy, except_ok_bind, div_ok _ _ (z := z) h]
  refine congrArg Except.ok (Num.ext rfl ?_)
  show (a.np || ((false || (false || m_a.np)) || (false || (false || m_d.np)))) = _
  cases a.np <;> cases m_a.np <;> cases m_d.np <;> rfl

theorem twoPoles_ok (a m_1 m_2 : Num ℝ) (t : ℂ) {z : ℂ} (h : (UA.TwoPolesModel.init a.val m_1.val m_2.val).call t = .ok z) :
    (TwoPolesModel.init a m_1 m_2).call (py t) = .ok ⟨z, a.np || m_1.np || m_2.np⟩ := by
  unfold UA.TwoPolesModel.call UA.TwoPolesModel.init at h
  unfold TwoPolesModel.call TwoPolesModel.init
  obtain ⟨x, hx, h⟩ := except_bind_eq_ok.mp h
  obtain ⟨y, hy, h⟩ := except_bind_eq_ok.mp h
  rw [div_ok _ _ (z := x) hx, except_ok_bind, div_ok _ _ (z := y) hy, except_ok_bind, div_ok _ _ (z := z) h]
  refine congrArg Except.ok (Num.ext rfl ?_)
  show (a.np || ((false || (false || m_1.np)) || (false || (false || m_2.np)))) = _
  cases a.np <;> cases m_1.np <;> cases m_2.np <;> rfl

theorem index_error {d : Datapoint} {i : ℕ} {e : PyErr} (h : d.index i = .error e) : e = .indexError := by
  unfold Datapoint.index at h
  simp only at h
  split at h
  · cases h
  · cases h; rfl

theorem readNucleon_error {d : Datapoint} {e : PyErr} (h : readDatapointNucleon d = .error e) : e ≠ .zeroDivisionError := by
  have key : (do
      let x ← d.index 0
      let y ← d.index 1
      let z ← d.index 2
      return (x, pyBool y, pyBool z) : Except PyErr (ℂ × Bool × Bool)) = .error e → e ≠ .zeroDivisionError := by
    intro h he
    subst he
    rcases h0 : d.index 0 with e | x
    · rw [h0] at h; cases h; cases index_error h0
    · rcases h1 : d.index 1 with e | y
      · rw [h0, h1] at h; cases h; cases index_error h1
      · rcases h2 : d.index 2 with e | z
        · rw [h0, h1, h2] at h; cases h; cases index_error h2
        · rw [h0, h1, h2] at h; cases h
  cases d with
  | nucleon t p e => cases h
  | kaon t c => exact key h
  | row xs => exact key h

theorem otherLoop_numpy {σ τ : Type} {m' : σ} {m : τ} {call' : σ → Num ℂ → Except Stop (Num ℂ)} {call : τ → ℂ → Except PyErr ℂ}
    (hc : ∀ t, call' m' (py t) = numpyCall (call m t)) (ts : List Datapoint) :
    nucleonLoop (fun _ _ m => m) (fun m t => (call' m t, m)) ts m' =
      numpyOutcome (UA.nucleonLoop (fun _ _ m => m) (fun m t => (call m t, m)) ts m) := by
  induction ts with
  | nil => rfl
  | cons d ts ih =>
    unfold nucleonLoop UA.nucleonLoop
    cases hd : readDatapointNucleon d with
    | error e =>
      have : e ≠ .zeroDivisionError := by rintro rfl; exact readNucleon_error hd rfl
      cases e <;> first | rfl | exact absurd rfl this
    | ok x =>
      obtain ⟨t, b, c⟩ := x
      simp only [raises, except_ok_bind, hc]
      cases call m t with
      | error e => cases e <;> rfl
      | ok F =>
        simp only [numpyCall, ih]
        cases UA.nucleonLoop (fun _ _ m => m) (fun m t => (call m t, m)) ts m with
        | error e => cases e <;> rfl
        | ok vs => rfl

theorem otherLoop_ok {σ τ : Type} {m' : σ} {m : τ} {k : Bool} {call' : σ → Num ℂ → Except Stop (Num ℂ)} {call : τ → ℂ → Except PyErr ℂ}
    (hc : ∀ t z, call m t = .ok z → call' m' (py t) = .ok ⟨z, k⟩) (ts : List Datapoint) {vs : List ℝ}
    (h : UA.nucleonLoop (fun _ _ m => m) (fun m t => (call m t, m)) ts m = .ok vs) :
    nucleonLoop (fun _ _ m => m) (fun m t => (call' m t, m)) ts m' = .ok (vs.map fun x => ⟨x, k⟩) := by
  induction ts generalizing vs with
  | nil => cases h; rfl
  | cons d ts ih =>
    unfold UA.nucleonLoop at h
    unfold nucleonLoop
    obtain ⟨⟨t, b, c⟩, hd, h⟩ := except_bind_eq_ok.mp h
    rcases hF : call m t with e | F
    · simp only [hF] at h; cases h
    · simp only [hF] at h
      obtain ⟨ws, hw, h⟩ := except_bind_eq_ok.mp h
      cases h
      simp only [hd, raises, except_ok_bind, hc t F hF, ih hw]
      rfl

theorem getFF_etgmr {p : ModelParameters (Num ℝ)} (h : p.WellFormed) {v : String → Num ℝ} (hv : ∀ q ∈ p.data, q.value = v q.name)
    (hc : p.cls = .etgmr) : getFFModel p = .ok (.etgmr (ETGMRModel.init (v "a") (v "m_a") (v "m_d"))) ∧
      UA.getFFModel (plain p) = .ok (.etgmr (UA.ETGMRModel.init (v "a").val (v "m_a").val (v "m_d").val)) := by
  have hn : p.cls.table.initArgs = ["a", "m_a", "m_d"] := by rw [hc]; rfl
  have hn' : (plain p).cls.table.initArgs = ["a", "m_a", "m_d"] := hn
  have hc' : (plain p).cls = .etgmr := hc
  have h' := plain_wellFormed h
  have hv' := plain_values hv
  constructor
  · obtain ⟨f1, e1, -⟩ := h.getItem hv (n := "a") (by simp [hn])
    obtain ⟨f2, e2, -⟩ := h.getItem hv (n := "m_a") (by simp [hn])
    obtain ⟨f3, e3, -⟩ := h.getItem hv (n := "m_d") (by simp [hn])
    unfold getFFModel; rw [hc]; simp only [e1, e2, e3, raises, except_ok_bind]; rfl
  · obtain ⟨f1, e1, -⟩ := h'.getItem (v := fun n => (v n).val) hv' (n := "a") (by simp [hn'])
    obtain ⟨f2, e2, -⟩ := h'.getItem (v := fun n => (v n).val) hv' (n := "m_a") (by simp [hn'])
    obtain ⟨f3, e3, -⟩ := h'.getItem (v := fun n => (v n).val) hv' (n := "m_d") (by simp [hn'])
    unfold UA.getFFModel; rw [hc']; simp only [e1, e2, e3, except_ok_bind]; rfl

theorem getFF_twoPoles {p : ModelParameters (Num ℝ)} (h : p.WellFormed) {v : String → Num ℝ} (hv : ∀ q ∈ p.data, q.value = v q.name)
    (hc : p.cls = .twoPoles) : getFFModel p = .ok (.twoPoles (TwoPolesModel.init (v "a") (v "m_1") (v "m_2"))) ∧
      UA.getFFModel (plain p) = .ok (.twoPoles (UA.TwoPolesModel.init (v "a").val (v "m_1").val (v "m_2").val)) := by
  have hn : p.cls.table.initArgs = ["a", "m_1", "m_2"] := by rw [hc]; rfl
  have hn' : (plain p).cls.table.initArgs = ["a", "m_1", "m_2"] := hn
  have hc' : (plain p).cls = .twoPoles := hc
  have h' := plain_wellFormed h
  have hv' := plain_values hv
  constructor
  · obtain ⟨f1, e1, -⟩ := h.getItem hv (n := "a") (by simp [hn])
    obtain ⟨f2, e2, -⟩ := h.getItem hv (n := "m_1") (by simp [hn])
    obtain ⟨f3, e3, -⟩ := h.getItem hv (n := "m_2") (by simp [hn])
    unfold getFFModel; rw [hc]; simp only [e1, e2, e3, raises, except_ok_bind]; rfl
  · obtain ⟨f1, e1, -⟩ := h'.getItem (v := fun n => (v n).val) hv' (n := "a") (by simp [hn'])
    obtain ⟨f2, e2, -⟩ := h'.getItem (v := fun n => (v n).val) hv' (n := "m_1") (by simp [hn'])
    obtain ⟨f3, e3, -⟩ := h'.getItem (v := fun n => (v n).val) hv' (n := "m_2") (by simp [hn'])
    unfold UA.getFFModel; rw [hc']; simp only [e1, e2, e3, except_ok_bind]; rfl

end UA.Kinded
