import Verif.Lemmas.FitScriptsWitness

/-!
# Property C79: the fit scripts

The starting values, the perturbation and the whole call of `f` in the scripts in `kaon_production` and `nucleon_production`.
-/

namespace UA

open Complex

/-! ### The starting values -/

/-- **C79** for every script: the constructor is given exactly the arguments it has, the object holds exactly these values, they lie
strictly inside the bounds used in the fit, and the form factor model accepts them. -/
theorem C79_initial {script : FitScript} (hs : script ∈ fitScripts) {constants : List (String × ℝ)} (hk : ScriptConstants script.cls constants) :
    ∃ p m, script.makeInitialParameters constants = .ok p ∧ Reachable p ∧ p.cls = script.cls ∧
      p.HoldsExactly (constants ++ script.literals.map fun q => (q.1, (q.2 : ℝ))) ∧ (∀ q ∈ p.toList, q.is_fixed = true ↔ DeclaredFixed p.cls q.name) ∧
      p.InsideFor script.use_handpicked_bounds ∧ getFFModel p = .ok m := by
  obtain ⟨p, h1, h2, h3, h4⟩ := script_make hs hk
  obtain ⟨m, hm⟩ := h2.accepted hs
  obtain ⟨k1, k2, k3, -⟩ := (goodObject_iff (fitScripts_resonance hs)).mp h2
  exact ⟨p, m, h1, k1, k2, h3, by rw [k2]; exact h4, k3, hm⟩

/-- **C79** in the nucleon model the handpicked bounds, with thresholds up to 0.54, exclude the rejected combinations of C26. -/
theorem C79_nucleon_accepted {p : ModelParameters ℝ} (h : Reachable p) (hc : p.cls = .nucleon) (hi : p.InsideFor true) :
    ∃ m, getFFModel p = .ok m :=
  GoodObject.nucleon (S := ∅) ((goodObject_iff (c := .nucleon) trivial).mpr ⟨h, hc, hi, fun _ _ _ => id⟩)

/-! ### The perturbed values -/

/-- **C79** whatever of the parameters has been fixed or released before, perturbing values inside the bounds by the amounts of a script keeps
them strictly inside and accepted by the model, for all draws strictly between 0 and 1. Names and flags are kept, and so are the
values of the fixed parameters. -/
theorem C79_perturbed {script : FitScript} (hs : script ∈ fitScripts) {p : ModelParameters ℝ} (h : Reachable p) (hc : p.cls = script.cls)
    (hin : p.InsideFor script.use_handpicked_bounds) {random : ℕ → ℝ} (hr : ∀ k, 0 < random k ∧ random k < 1) :
    ∃ p' m, perturbModelParameters p script.perturbation_size (some script.perturbation_size_resonances) script.use_handpicked_bounds random =
        (.ok (), p') ∧ Reachable p' ∧ p'.cls = script.cls ∧ p'.InsideFor script.use_handpicked_bounds ∧ getFFModel p' = .ok m ∧
      List.Forall₂ (fun q q' => q'.name = q.name ∧ q'.is_fixed = q.is_fixed ∧ (q.is_fixed = true → q'.value = q.value)) p.toList p'.toList := by
  have hres := fitScripts_resonance hs
  obtain ⟨p', h1, h2, -⟩ := script_perturb hs ((goodObject_iff hres).mpr ⟨h, hc, hin, fun _ _ _ => id⟩) hr
  obtain ⟨m, hm⟩ := h2.accepted hs
  obtain ⟨k1, k2, k3, -⟩ := (goodObject_iff hres).mp h2
  have h3 := (C48_only_free h script.use_handpicked_bounds script.perturbation_size (some script.perturbation_size_resonances) random).2.2.1
  rw [h1] at h3
  exact ⟨p', m, h1, k1, k2, k3, hm, h3⟩

/-- **C79** the draw 0, which `random.random()` can return, has to be excluded: it puts the inelastic thresholds of the form factor script
exactly on `t_0`, its perturbation size being 1. -/
theorem C79_boundary {pion_mass : ℝ} (hp : 0 ≤ pion_mass ∧ pion_mass ≤ 0.24) :
    ∃ p p', fitFFIterative.makeInitialParameters [("t_0_isoscalar", (3 * pion_mass) ^ 2), ("t_0_isovector", (2 * pion_mass) ^ 2)] = .ok p ∧
      perturbModelParameters p fitFFIterative.perturbation_size (some fitFFIterative.perturbation_size_resonances)
        fitFFIterative.use_handpicked_bounds (fun _ => 0) = (.ok (), p') ∧
      p'.Holds "t_0_isoscalar" ((3 * pion_mass) ^ 2) ∧ p'.Holds "t_in_isoscalar" ((3 * pion_mass) ^ 2) ∧ ¬ p'.InsideMaximal := by
  have hsk : fitFFIterative ∈ kaonIterativeScripts := by simp [kaonIterativeScripts]
  have hk := scriptConstants_kaon hsk hp
  obtain ⟨x, h1, h2, h3⟩ := FitScript.Fits.make (script := fitFFIterative)
    (consts := [("t_0_isoscalar", (3 * pion_mass) ^ 2), ("t_0_isovector", (2 * pion_mass) ^ 2)]) (show IsResonanceClass .kaonB from trivial)
    fitFFIterative_fits hk.2
  obtain ⟨p, hpdef⟩ : ∃ p : ModelParameters ℝ, p = ⟨.kaonB, ParamClass.kaonB.table.alwaysFixed, freshData .kaonB x⟩ := ⟨_, rfl⟩
  have hreach : Reachable p := by rw [hpdef]; exact h3.1
  have hw := reachable_wellFormed hreach
  have hx : ∀ q ∈ p.data, q.value = x q.name := by
    rw [hpdef]
    intro q hq
    obtain ⟨e, -, rfl⟩ := List.mem_map.mp hq
    rfl
  have x0 : x "t_0_isoscalar" = (3 * pion_mass) ^ 2 := by
    have := h2 "t_0_isoscalar" (by decide +kernel)
    injection this with this; exact this.symm
  have x1 : x "t_in_isoscalar" = 1 := by
    have := h2 "t_in_isoscalar" (by decide +kernel)
    have h : ((fitFFIterative.literals.map fun q => (q.1, (q.2 : ℝ))).lookup "t_in_isoscalar") = some ((1.0 : ℚ) : ℝ) := rfl
    rw [List.lookup_append, h] at this
    injection this with this
    rw [← this]; norm_num
  have x2 : 0 ≤ x "t_0_isoscalar" ∧ 0 ≤ x "t_0_isovector" := by
    have := h2 "t_0_isovector" (by decide +kernel)
    injection this with this
    rw [x0, ← this]; constructor <;> positivity
  have hd := bounds_eq hw hx false fun _ n hn ht => by
    rw [hpdef] at hn
    have : ∀ n ∈ ParamClass.kaonB.table.initArgs, "t_0_".toList <+: n.toList → n = "t_0_isoscalar" ∨ n = "t_0_isovector" := by decide +kernel
    have := this n hn ht
    rcases this with rfl | rfl
    · exact x2.1
    · exact x2.2
  rw [hpdef] at hd
  dsimp only at hd
  rw [← hpdef] at hd
  obtain ⟨B, hB, heq⟩ := perturb_eq hw hd fitFFIterative.perturbation_size (some fitFFIterative.perturbation_size_resonances) (fun _ => 0)
  have hr' := perturb_reachable hreach fitFFIterative.perturbation_size (some fitFFIterative.perturbation_size_resonances) false (fun _ => 0)
  rw [heq] at hr'
  have hf := perturbedData_forall₂ B (perturbationSize fitFFIterative.perturbation_size
    ((some (fitFFIterative.perturbation_size_resonances : ℝ)).getD fitFFIterative.perturbation_size)) (fun _ => 0) p.data 0
  have m0 : (⟨"t_0_isoscalar", (3 * pion_mass) ^ 2, true⟩ : Parameter ℝ) ∈ p.data := by
    have : ("t_0_isoscalar", "t_0_isoscalar", true) ∈ ParamClass.kaonB.table.entries := by decide +kernel
    rw [hpdef, ← x0]; exact List.mem_map_of_mem (f := fun e : String × String × Bool => (⟨e.1, x e.1, e.2.2⟩ : Parameter ℝ)) this
  have m1 : (⟨"t_in_isoscalar", 1, false⟩ : Parameter ℝ) ∈ p.data := by
    have : ("t_in_isoscalar", "t_in_isoscalar", false) ∈ ParamClass.kaonB.table.entries := by decide +kernel
    rw [hpdef, ← x1]; exact List.mem_map_of_mem (f := fun e : String × String × Bool => (⟨e.1, x e.1, e.2.2⟩ : Parameter ℝ)) this
  have hb : (boundsV .kaonB x false).lookup "t_in_isoscalar" = some ((((3 * pion_mass) ^ 2 : ℝ) : WithBot ℝ), (⊤ : WithTop ℝ)) := by
    rw [← x0]
    have : ("t_in_isoscalar", LowerExpr.value "t_0_isoscalar", UpperExpr.posInf) ∈ boundsTable .kaonB false := by decide +kernel
    refine lookup_of_mem (List.mem_map.mpr ⟨_, this, rfl⟩) ?_
    unfold boundsV
    rw [List.map_map]; exact (boundsGood .kaonB false).nodup
  have hB1 : B "t_in_isoscalar" = ((((3 * pion_mass) ^ 2 : ℝ) : WithBot ℝ), (⊤ : WithTop ℝ)) := by
    have := hB _ m1 rfl
    rw [hb] at this
    injection this with this; exact this.symm
  have left := forall₂_mem_right hf.flip
  obtain ⟨q0, hq0, he0⟩ := left _ m0
  obtain ⟨q1, hq1, he1⟩ := left _ m1
  rcases he0 with ⟨-, rfl⟩ | ⟨h, -⟩
  swap
  · cases h
  rcases he1 with ⟨h, -⟩ | ⟨-, k, rfl⟩
  · cases h
  have hw' := reachable_wellFormed hr'
  have holds : ∀ q ∈ perturbedData B (perturbationSize fitFFIterative.perturbation_size
    ((some (fitFFIterative.perturbation_size_resonances : ℝ)).getD fitFFIterative.perturbation_size)) (fun _ => 0) 0 p.data,
      ModelParameters.Holds ({ p with data := perturbedData B (perturbationSize fitFFIterative.perturbation_size
        ((some (fitFFIterative.perturbation_size_resonances : ℝ)).getD fitFFIterative.perturbation_size)) (fun _ => 0) 0 p.data } : ModelParameters ℝ)
        q.name q.value := fun q hq => ⟨q.is_fixed, (getItem_eq_ok hw'.nodup).mpr ⟨hq, rfl⟩⟩
  have hval : perturbedValue (B "t_in_isoscalar").1 1 (B "t_in_isoscalar").2 (2 * ((0 : ℝ) - 0.5)) (perturbationSize fitFFIterative.perturbation_size
      ((some (fitFFIterative.perturbation_size_resonances : ℝ)).getD fitFFIterative.perturbation_size) "t_in_isoscalar") = (3 * pion_mass) ^ 2 := by
    have hsize : perturbationSize (fitFFIterative.perturbation_size : ℝ)
        ((some (fitFFIterative.perturbation_size_resonances : ℝ)).getD fitFFIterative.perturbation_size) "t_in_isoscalar" = 1 := by
      unfold perturbationSize
      rw [if_neg (by decide +kernel)]
      show ((1.0 : ℚ) : ℝ) = 1
      norm_num
    rw [hsize, hB1]
    unfold perturbedValue
    rw [if_pos (by norm_num)]
    dsimp only
    ring
  have hin := holds _ hq1
  dsimp only at hin
  rw [hval] at hin
  refine ⟨p, _, by rw [hpdef]; exact h1, heq, holds _ hq0, hin, fun hi => ?_⟩
  obtain ⟨y, hy⟩ := hw'.exists_values
  have hcls : p.cls = .kaonB := by rw [hpdef]
  have hv := inside_values hr' (show IsResonanceClass p.cls by rw [hcls]; trivial) hy hi
  have h4 := hv.tin "t_in_isoscalar" (show _ ∈ p.cls.table.initArgs by rw [hcls]; decide +kernel) "t_0_isoscalar" "isoscalar".toList (by decide) (by decide)
  rw [← ((hw'.holds_iff hy).mp (holds _ hq0)).2, ← ((hw'.holds_iff hy).mp hin).2] at h4
  exact lt_irrefl _ h4

/-! ### Scripts that fix parameters before -/

/-- **C79** the starting object of the nucleon script: the resonances are fixed and keep the values of the script, everything lies strictly
inside the handpicked bounds and is accepted by the model. -/
theorem C79_nucleon_start {random : ℕ → ℝ} (hr : ∀ k, 0 < random k ∧ random k < 1) {pion_mass : ℝ} (hp : 0 ≤ pion_mass ∧ pion_mass ≤ 0.24)
    (proton_mass proton_magnetic_moment neutron_magnetic_moment : ℝ) (w : World) :
    ∃ p m, fitNucleonStart random pion_mass proton_mass proton_magnetic_moment neutron_magnetic_moment w =
        (.ok w.heap.length, { w with heap := w.heap ++ [p] }) ∧ Reachable p ∧ p.cls = .nucleon ∧ p.InsideFor true ∧ getFFModel p = .ok m ∧
      (∀ q ∈ p.toList, q.is_fixed = true ↔ DeclaredFixed .nucleon q.name ∨ IsResonanceName q.name) ∧
      (∀ e ∈ nucleonScriptConstants pion_mass proton_mass proton_magnetic_moment neutron_magnetic_moment, p.Holds e.1 e.2) ∧
      (∀ e ∈ fitNucleonCSIterative.literals, IsResonanceName e.1 → p.Holds e.1 (e.2 : ℝ)) := by
  have hs : fitNucleonCSIterative ∈ fitScripts := by simp [fitScripts]
  have hk : ScriptConstants fitNucleonCSIterative.cls
      (nucleonScriptConstants pion_mass proton_mass proton_magnetic_moment neutron_magnetic_moment) := by
    refine ⟨rfl, fun q hq ht => ?_⟩
    have h9 : 0 ≤ (3 * pion_mass) ^ 2 ∧ (3 * pion_mass) ^ 2 ≤ 0.54 := ⟨by positivity, by nlinarith [hp.1, hp.2]⟩
    have h4 : 0 ≤ (2 * pion_mass) ^ 2 ∧ (2 * pion_mass) ^ 2 ≤ 0.54 := ⟨by positivity, by nlinarith [hp.1, hp.2]⟩
    simp only [nucleonScriptConstants, List.mem_cons, List.not_mem_nil, or_false] at hq
    rcases hq with rfl | rfl | rfl | rfl | rfl | rfl | rfl
    · exact absurd ht (by show ¬ "t_0_".toList <+: "nucleon_mass".toList; decide)
    · exact absurd ht (by show ¬ "t_0_".toList <+: "magnetic_moment_proton".toList; decide)
    · exact absurd ht (by show ¬ "t_0_".toList <+: "magnetic_moment_neutron".toList; decide)
    · exact h9
    · exact h4
    · exact h9
    · exact h4
  obtain ⟨p, h1, h2, h3, h4⟩ := script_start hs hk (fix := fun p => p.fixResonances) (N := IsResonanceName) (fun p hr hc => by
    obtain ⟨p', k1, k2, k3⟩ := C47_fix_resonances_any hr (by rw [hc]; trivial)
    refine ⟨p', k1, ?_, k2, k3⟩
    have := Reachable.step .fixResonances hr
    exact (congrArg (fun x : Mutation ℝ => Reachable x.2) k1).mp this) hr w
  obtain ⟨m, hm⟩ := h2.accepted hs
  obtain ⟨k1, k2, k3, -⟩ := (goodObject_iff (fitScripts_resonance hs)).mp h2
  refine ⟨p, m, h1, k1, k2, k3, hm, h3, fun e he => h4 e (List.mem_append_left _ he) (Or.inl ?_), fun e he hN =>
    h4 (e.1, (e.2 : ℝ)) (List.mem_append_right _ (List.mem_map.mpr ⟨e, he, rfl⟩)) (Or.inr hN)⟩
  have : ∀ n ∈ constantNames .nucleon, DeclaredFixed .nucleon n := by decide +kernel
  refine this _ ?_
  rw [← show fitNucleonCSIterative.cls = .nucleon from rfl, ← hk.1]
  exact List.mem_map_of_mem he

/-- **C79** the starting object of the pipeline script for the simplified kaon model: the eight parameters named in it are fixed and keep
the values of the script, everything lies strictly inside the handpicked bounds and is accepted by the model. -/
theorem C79_simplified_start {random : ℕ → ℝ} (hr : ∀ k, 0 < random k ∧ random k < 1) {pion_mass : ℝ} (hp : 0 ≤ pion_mass ∧ pion_mass ≤ 0.24)
    (w : World) :
    ∃ p m, fitCSPipelineStart random pion_mass w = (.ok w.heap.length, { w with heap := w.heap ++ [p] }) ∧ Reachable p ∧
      p.cls = .kaonSimplified ∧ p.InsideFor true ∧ getFFModel p = .ok m ∧
      (∀ q ∈ p.toList, q.is_fixed = true ↔ DeclaredFixed .kaonSimplified q.name ∨ q.name ∈
        ["mass_omega_prime", "decay_rate_omega_prime", "mass_phi", "decay_rate_phi",
        "mass_phi_prime", "decay_rate_phi_prime", "mass_rho_prime", "decay_rate_rho_prime"]) ∧
      p.Holds "mass_omega_prime" 1.410 ∧ p.Holds "decay_rate_omega_prime" 0.29 ∧ p.Holds "mass_phi" 1.019461 ∧ p.Holds "decay_rate_phi" 0.004249 ∧
      p.Holds "mass_phi_prime" 1.680 ∧ p.Holds "decay_rate_phi_prime" 0.150 ∧ p.Holds "mass_rho_prime" 1.34231 ∧
      p.Holds "decay_rate_rho_prime" 0.49217 := by
  have hs : fitCSPipelineSimplified ∈ fitScripts := by simp [fitScripts]
  have hk : ScriptConstants fitCSPipelineSimplified.cls [("t_0_isoscalar", (3 * pion_mass) ^ 2), ("t_0_isovector", (2 * pion_mass) ^ 2)] :=
    scriptConstants_kaon (script := fitCSIterativeSimplified) (by simp [kaonIterativeScripts]) hp
  obtain ⟨p, h1, h2, h3, h4⟩ := script_start hs hk (fix := fun p => p.fixParameters fitCSPipelineFixedNames) (N := (· ∈ fitCSPipelineFixedNames))
    (fun p hr hc => by
      obtain ⟨p', k1, k2, k3⟩ := C42_fix hr (ns := fitCSPipelineFixedNames) (fun n hn => by
        rw [(reachable_wellFormed hr).names, hc]
        have : ∀ n ∈ fitCSPipelineFixedNames, n ∈ ParamClass.kaonSimplified.table.initArgs := by decide +kernel
        exact this n hn)
      refine ⟨p', k1, ?_, k2, k3⟩
      have := Reachable.step (.fixParameters fitCSPipelineFixedNames) hr
      exact (congrArg (fun x : Mutation ℝ => Reachable x.2) k1).mp this) hr w
  obtain ⟨m, hm⟩ := h2.accepted hs
  obtain ⟨k1, k2, k3, -⟩ := (goodObject_iff (fitScripts_resonance hs)).mp h2
  have hh : ∀ (n : String) (x : ℚ), (n, x) ∈ fitCSPipelineSimplified.literals → n ∈ fitCSPipelineFixedNames → p.Holds n (x : ℝ) :=
    fun n x he hN => h4 (n, (x : ℝ)) (List.mem_append_right _ (List.mem_map.mpr ⟨(n, x), he, rfl⟩)) (Or.inr hN)
  refine ⟨p, m, h1, k1, k2, k3, hm, h3, ?_⟩
  have g := hh "mass_omega_prime" 1.410 (by decide +kernel) (by decide +kernel)
  have g2 := hh "decay_rate_omega_prime" 0.29 (by decide +kernel) (by decide +kernel)
  have g3 := hh "mass_phi" 1.019461 (by decide +kernel) (by decide +kernel)
  have g4 := hh "decay_rate_phi" 0.004249 (by decide +kernel) (by decide +kernel)
  have g5 := hh "mass_phi_prime" 1.680 (by decide +kernel) (by decide +kernel)
  have g6 := hh "decay_rate_phi_prime" 0.150 (by decide +kernel) (by decide +kernel)
  have g7 := hh "mass_rho_prime" 1.34231 (by decide +kernel) (by decide +kernel)
  have g8 := hh "decay_rate_rho_prime" 0.49217 (by decide +kernel) (by decide +kernel)
  norm_num at g g2 g3 g4 g5 g6 g7 g8 ⊢
  exact ⟨g, g2, g3, g4, g5, g6, g7, g8⟩

/-! ### Whole calls -/

/-- **C79** a whole call of `f` in the iterative kaon scripts: all rounds of the schedule and the final full fit. If it raises at all, it is
a `ZeroDivisionError` and some data point has its `t` outside `S`, the set of values neither the start nor the fitting library uses; if it
completes, the object it created is again inside the bounds. -/
theorem C79_run {script : FitScript} (hs : script ∈ kaonIterativeScripts) {env : Env} {random : ℕ → ℝ} (hr : ∀ k, 0 < random k ∧ random k < 1)
    {pion_mass : ℝ} (hp : 0 ≤ pion_mass ∧ pion_mass ≤ 0.24) {S : Set ℝ} {p₀ p : ModelParameters ℝ}
    (h0 : script.makeInitialParameters [("t_0_isoscalar", (3 * pion_mass) ^ 2), ("t_0_isovector", (2 * pion_mass) ^ 2)] = .ok p₀)
    (h1 : perturbModelParameters p₀ script.perturbation_size (some script.perturbation_size_resonances) script.use_handpicked_bounds random = (.ok (), p))
    (hav : p.Avoids S) (constants : Constants) {charged neutral : List (ℝ × ℝ × ℝ)} (hch : charged ≠ [])
    (hpos : ∀ d ∈ charged ++ neutral, 0 < d.1 ∧ d.2.2 ≠ 0) (hlen : script.literals.length + 2 < (charged ++ neutral).length)
    {path_to_reports name : String} {w : World} (hdir : w.fs.exists (pathJoin path_to_reports name) = false)
    (hmk : env.mkdirFails (pathJoin path_to_reports name) = false)
    (hfit : env.FitsInside S) (hplot : ∀ k, env.plot k = .ok ()) (hsamp : env.Samples) :
    (∀ e w', script.f env random pion_mass constants (charged.map (·.1)) (charged.map (·.2.1)) (charged.map (·.2.2)) (neutral.map (·.1))
        (neutral.map (·.2.1)) (neutral.map (·.2.2)) path_to_reports name w = (.error e, w') →
      e = .zeroDivisionError ∧ ∃ d ∈ charged ++ neutral, d.1 ∉ S) ∧
    (∀ best w', script.f env random pion_mass constants (charged.map (·.1)) (charged.map (·.2.1)) (charged.map (·.2.2)) (neutral.map (·.1))
        (neutral.map (·.2.1)) (neutral.map (·.2.2)) path_to_reports name w = (.ok best, w') →
      ∃ p', w'.heap[w.heap.length]? = some p' ∧ Reachable p' ∧ p'.cls = script.cls ∧ p'.InsideFor script.use_handpicked_bounds ∧ p'.Avoids S) := by
  have hres := fitScripts_resonance (kaonIterative_mem hs)
  obtain ⟨p₀', h0', hg, -⟩ := script_make (kaonIterative_mem hs) (scriptConstants_kaon hs hp)
  rw [h0] at h0'
  injection h0' with h0'
  subst h0'
  obtain ⟨p', h1', hg', -⟩ := script_perturb (kaonIterative_mem hs) hg hr
  rw [h1] at h1'
  injection h1' with _ h1'
  subst h1'
  have := f_sat hs h0 h1 (hg'.avoid hres hav) constants hch hpos hlen hdir hmk hfit hplot hsamp
  unfold PyM.Sat at this
  constructor
  · intro e w' h
    rw [h] at this; exact this
  · intro best w' h
    rw [h] at this
    obtain ⟨p', hp', hg''⟩ := this
    obtain ⟨a1, a2, a3, a4⟩ := (goodObject_iff hres).mp hg''
    exact ⟨p', hp', a1, a2, a3, a4⟩

/-- **C79** if neither the start nor the fitting library uses one of the `t` of the data, the call completes. -/
theorem C79_completes {script : FitScript} (hs : script ∈ kaonIterativeScripts) {env : Env} {random : ℕ → ℝ} (hr : ∀ k, 0 < random k ∧ random k < 1)
    {pion_mass : ℝ} (hp : 0 ≤ pion_mass ∧ pion_mass ≤ 0.24) {p₀ p : ModelParameters ℝ}
    (h0 : script.makeInitialParameters [("t_0_isoscalar", (3 * pion_mass) ^ 2), ("t_0_isovector", (2 * pion_mass) ^ 2)] = .ok p₀)
    (h1 : perturbModelParameters p₀ script.perturbation_size (some script.perturbation_size_resonances) script.use_handpicked_bounds random = (.ok (), p))
    (constants : Constants) {charged neutral : List (ℝ × ℝ × ℝ)} (hav : p.Avoids {t | ∃ d ∈ charged ++ neutral, t = d.1}) (hch : charged ≠ [])
    (hpos : ∀ d ∈ charged ++ neutral, 0 < d.1 ∧ d.2.2 ≠ 0) (hlen : script.literals.length + 2 < (charged ++ neutral).length)
    {path_to_reports name : String} {w : World} (hdir : w.fs.exists (pathJoin path_to_reports name) = false)
    (hmk : env.mkdirFails (pathJoin path_to_reports name) = false)
    (hfit : env.FitsInside {t | ∃ d ∈ charged ++ neutral, t = d.1}) (hplot : ∀ k, env.plot k = .ok ()) (hsamp : env.Samples) :
    ∃ best w', script.f env random pion_mass constants (charged.map (·.1)) (charged.map (·.2.1)) (charged.map (·.2.2)) (neutral.map (·.1))
        (neutral.map (·.2.1)) (neutral.map (·.2.2)) path_to_reports name w = (.ok best, w') := by
  rcases h : script.f env random pion_mass constants (charged.map (·.1)) (charged.map (·.2.1)) (charged.map (·.2.2)) (neutral.map (·.1))
        (neutral.map (·.2.1)) (neutral.map (·.2.2)) path_to_reports name w with ⟨e | best, w'⟩
  · obtain ⟨-, d, hd, hS⟩ := (C79_run hs hr hp h0 h1 hav constants hch hpos hlen hdir hmk hfit hplot hsamp).1 e w' h
    exact absurd ⟨d, hd, rfl⟩ hS
  · exact ⟨best, w', h⟩

/-- All hypotheses are met: with draws of 1/2, fifty charged and ten neutral points, and a library that returns its starting values, the
calls of all three scripts complete. -/
example {script : FitScript} (hs : script ∈ kaonIterativeScripts) :
    ∃ best w', script.f (idleEnv {t | ∃ d ∈ fiftyCharged ++ tenNeutral, t = d.1}) (fun _ => 1 / 2) 0.13957 ⟨1, 1, 1⟩ (fiftyCharged.map (·.1))
      (fiftyCharged.map (·.2.1)) (fiftyCharged.map (·.2.2)) (tenNeutral.map (·.1)) (tenNeutral.map (·.2.1)) (tenNeutral.map (·.2.2))
      "reports" "P" (startWorld []) = (.ok best, w') := by
  obtain ⟨p₀, p, h0, h1, h2⟩ := half_start hs (pion_mass := 0.13957) (by norm_num)
  exact C79_completes hs (fun _ => by norm_num) (by norm_num) h0 h1 ⟨1, 1, 1⟩ h2 (by simp [fiftyCharged, List.range_succ])
    (fun d hd => ⟨by linarith [(sixty_from_ten d hd).1], (sixty_from_ten d hd).2⟩)
    (by simpa [fiftyCharged, tenNeutral] using (literals_small hs).2) rfl rfl (idleEnv_fits _) (fun _ => rfl) (idleEnv_samples _)

/-- Constants as the scripts compute them, for C79_initial. -/
example : ScriptConstants fitFFIterative.cls [("t_0_isoscalar", (3 * 0.13957) ^ 2), ("t_0_isovector", (2 * 0.13957) ^ 2)] :=
  scriptConstants_kaon (by simp [kaonIterativeScripts]) (by norm_num)

end UA
