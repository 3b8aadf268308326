import Verif.Spec.Nucleon
import Verif.Lemmas.NucleonMore

/-!
# Helper facts for the nucleon properties
-/

namespace UA

open Complex ComplexConjugate Spec Asymptotics Bornology

noncomputable def NucleonClass.thr : NucleonClass → ℝ → ℝ → ℝ
  | .new => thrNew
  | .old => fun m _ => m ^ 2
noncomputable def NucleonClass.cDS : NucleonClass → NucleonArgs → Six ℂ
  | .new, x => x.cDS
  | .old, x => x.squaresS
noncomputable def NucleonClass.cDV : NucleonClass → NucleonArgs → Three ℂ
  | .new, x => x.cDV
  | .old, x => x.squaresV
noncomputable def NucleonClass.cPS : NucleonClass → NucleonArgs → Six ℂ
  | .new, x => x.cPS
  | .old, x => x.squaresS

theorem cacheInv_empty (m : NucleonBase) : CacheInv m (fun _ => none) := by intro s d r v h; cases h

theorem NucleonClass.run_built {k : NucleonClass} {proton electric : Bool} {x : NucleonArgs} (hx : x.Proper)
    (hb : k.Builds proton electric x) :
    ∃ m, NBuilt k.thr proton electric x m ∧ ∀ t, k.run proton electric x t = evalC m (k.cDS x) (k.cDV x) (k.cPS x) t := by
  cases k with
  | new =>
    obtain ⟨m, hm⟩ := hb
    obtain ⟨b, hcache⟩ := new_init_built hx hm
    refine ⟨m.toNucleonBase, b, fun t => ?_⟩
    show (do let m ← NucleonUAModel.init proton electric x; (m.call t).1) = _
    rw [hm, except_ok_bind, (m.call_sim t (by rw [hcache]; exact cacheInv_empty _)).1, b.callPure_eq]
    rfl
  | old =>
    obtain ⟨m, hm⟩ := hb
    have b := old_init_built hx hm
    refine ⟨m, b, fun t => ?_⟩
    show (do let m ← NucleonUAModelOld.init proton electric x; NucleonUAModelOld.call m t) = _
    rw [hm, except_ok_bind]
    simp only [NucleonClass.cDS, NucleonClass.cDV, NucleonClass.cPS, ← b.args]
    rfl

theorem NucleonClass.builds_of_run {k : NucleonClass} {proton electric : Bool} {x : NucleonArgs} {t y : ℂ}
    (h : k.run proton electric x t = .ok y) : k.Builds proton electric x := by
  cases k with
  | new => obtain ⟨m, hm, _⟩ := except_bind_eq_ok.mp h; exact ⟨m, hm⟩
  | old => obtain ⟨m, hm, _⟩ := except_bind_eq_ok.mp h; exact ⟨m, hm⟩

/-- Conditions for every component to be accepted by either class. -/
theorem NucleonBase.init_ok {build : ℝ → ℝ → ℝ → ℝ → Except PyErr UAComponent} {proton electric : Bool} {x : NucleonArgs}
    (h1 : 0 ≤ x.t_0_dirac_isoscalar) (h2 : 0 ≤ x.t_0_dirac_isovector) (h3 : 0 ≤ x.t_0_pauli_isoscalar)
    (h4 : 0 ≤ x.t_0_pauli_isovector) (hx : x.Proper)
    (e1 : ∃ c, initIsoscalarComponents build x x.t_0_dirac_isoscalar x.t_in_dirac_isoscalar = .ok c)
    (e2 : ∃ c, initIsovectorComponents build x x.t_0_dirac_isovector x.t_in_dirac_isovector = .ok c)
    (e3 : ∃ c, initIsoscalarComponents build x x.t_0_pauli_isoscalar x.t_in_pauli_isoscalar = .ok c)
    (e4 : ∃ c, initIsovectorComponents build x x.t_0_pauli_isovector x.t_in_pauli_isovector = .ok c) :
    ∃ m, NucleonBase.init build proton electric x = .ok m := by
  obtain ⟨c1, e1⟩ := e1
  obtain ⟨c2, e2⟩ := e2
  obtain ⟨c3, e3⟩ := e3
  obtain ⟨c4, e4⟩ := e4
  unfold NucleonBase.init
  rw [TtoW_init_ok h1 hx.1.le, TtoW_init_ok h2 hx.2.1.le, TtoW_init_ok h3 hx.2.2.1.le, TtoW_init_ok h4 hx.2.2.2.le, e1, e2, e3, e4]
  exact ⟨_, rfl⟩

noncomputable def exampleNucleon : NucleonArgs where
  nucleon_mass := 1
  magnetic_moment_proton := 3
  magnetic_moment_neutron := -2
  t_0_dirac_isoscalar := 1
  t_in_dirac_isoscalar := 2
  t_0_dirac_isovector := 1
  t_in_dirac_isovector := 2
  t_0_pauli_isoscalar := 1
  t_in_pauli_isoscalar := 2
  t_0_pauli_isovector := 1
  t_in_pauli_isovector := 2
  a_dirac_omega := 1
  a_dirac_omega_prime := 2
  a_dirac_phi := 3
  a_dirac_phi_prime := 4
  a_dirac_rho := 5
  a_pauli_omega := 6
  a_pauli_phi := 7
  a_pauli_phi_prime := 8
  mass_omega := 2
  decay_rate_omega := 1
  mass_omega_prime := 3
  decay_rate_omega_prime := 0
  mass_omega_double_prime := 4
  decay_rate_omega_double_prime := 0
  mass_phi := 5
  decay_rate_phi := 1
  mass_phi_prime := 6
  decay_rate_phi_prime := 1
  mass_phi_double_prime := 7
  decay_rate_phi_double_prime := 0
  mass_rho := 2
  decay_rate_rho := 1
  mass_rho_prime := 3
  decay_rate_rho_prime := 0
  mass_rho_double_prime := 4
  decay_rate_rho_double_prime := 0

theorem exampleNucleon_proper : exampleNucleon.Proper := by
  refine ⟨?_, ?_, ?_, ?_⟩ <;> norm_num [exampleNucleon]

theorem ex_build {m g : ℝ} (h : 2 < m ^ 2) (h' : 2 < m ^ 2 - g ^ 2 / 4) (b : Builder) : ∃ c, b.build 1 2 m g = .ok c := by
  cases b
  · obtain ⟨c, hc, _⟩ := (C12_thresholds 1 2 m g (by norm_num) (by norm_num)).2.2.2.mpr ⟨by linarith, fun h'' => by linarith [h''.2]⟩
    exact ⟨c, hc⟩
  · obtain ⟨c, hc, _⟩ := (C12_thresholds_nucleon 1 2 m g (by norm_num) (by norm_num)).2.2.2.mpr ⟨by linarith, fun h'' => by linarith [h''.2]⟩
    exact ⟨c, hc⟩

theorem initSix_ok {build : ℝ → ℝ → ℝ → ℝ → Except PyErr UAComponent} {x : NucleonArgs} {t_0 t_in : ℝ}
    (h1 : ∃ c, build t_0 t_in x.mass_omega x.decay_rate_omega = .ok c)
    (h2 : ∃ c, build t_0 t_in x.mass_omega_prime x.decay_rate_omega_prime = .ok c)
    (h3 : ∃ c, build t_0 t_in x.mass_omega_double_prime x.decay_rate_omega_double_prime = .ok c)
    (h4 : ∃ c, build t_0 t_in x.mass_phi x.decay_rate_phi = .ok c)
    (h5 : ∃ c, build t_0 t_in x.mass_phi_prime x.decay_rate_phi_prime = .ok c)
    (h6 : ∃ c, build t_0 t_in x.mass_phi_double_prime x.decay_rate_phi_double_prime = .ok c) :
    ∃ c, initIsoscalarComponents build x t_0 t_in = .ok c := by
  obtain ⟨c1, h1⟩ := h1
  obtain ⟨c2, h2⟩ := h2
  obtain ⟨c3, h3⟩ := h3
  obtain ⟨c4, h4⟩ := h4
  obtain ⟨c5, h5⟩ := h5
  obtain ⟨c6, h6⟩ := h6
  unfold initIsoscalarComponents
  rw [h1, h2, h3, h4, h5, h6]
  exact ⟨_, rfl⟩

theorem initThree_ok {build : ℝ → ℝ → ℝ → ℝ → Except PyErr UAComponent} {x : NucleonArgs} {t_0 t_in : ℝ}
    (h1 : ∃ c, build t_0 t_in x.mass_rho x.decay_rate_rho = .ok c)
    (h2 : ∃ c, build t_0 t_in x.mass_rho_prime x.decay_rate_rho_prime = .ok c)
    (h3 : ∃ c, build t_0 t_in x.mass_rho_double_prime x.decay_rate_rho_double_prime = .ok c) :
    ∃ c, initIsovectorComponents build x t_0 t_in = .ok c := by
  obtain ⟨c1, h1⟩ := h1
  obtain ⟨c2, h2⟩ := h2
  obtain ⟨c3, h3⟩ := h3
  unfold initIsovectorComponents
  rw [h1, h2, h3]
  exact ⟨_, rfl⟩

theorem exampleNucleon_base (b : Builder) (proton electric : Bool) :
    ∃ m, NucleonBase.init b.build proton electric exampleNucleon = .ok m := by
  apply NucleonBase.init_ok _ _ _ _ exampleNucleon_proper
  · apply initSix_ok <;> apply ex_build <;> norm_num [exampleNucleon]
  · apply initThree_ok <;> apply ex_build <;> norm_num [exampleNucleon]
  · apply initSix_ok <;> apply ex_build <;> norm_num [exampleNucleon]
  · apply initThree_ok <;> apply ex_build <;> norm_num [exampleNucleon]
  all_goals norm_num [exampleNucleon]

theorem exampleNucleon_builds (k : NucleonClass) (proton electric : Bool) : k.Builds proton electric exampleNucleon := by
  cases k with
  | new =>
    obtain ⟨m, hm⟩ := exampleNucleon_base .poleRealPart proton electric
    refine ⟨{ m with mass_terms_cache := fun _ => none }, ?_⟩
    · unfold NucleonUAModel.init
      rw [show NucleonBase.init nucleonBuildComponent proton electric exampleNucleon = .ok m from hm]
      rfl
  | old => exact exampleNucleon_base .massSquared proton electric

theorem exampleNucleon_terms (k : NucleonClass) :
    DSok (k.cDS exampleNucleon) ∧ DVok (k.cDV exampleNucleon) ∧ PSok (k.cPS exampleNucleon) := by
  have key : ∀ m : ℝ, 2 < m ^ 2 → massTerm (if (tMesonPole m 0).re < 2 then .A else .B) 1 2 (tMesonPole m 0) = kFac 1 2 * (m : ℂ) ^ 2 := by
    intro m hm
    obtain ⟨c, hc⟩ := ex_build (m := m) (g := 0) hm (by linarith) .poleRealPart
    obtain ⟨b, hm⟩ := nucleonBuildComponent_built (t_0 := 1) (t_in := 2) (by norm_num) (by norm_num) hc
    exact b.massTerm_zero rfl hm
  have hk : kFac 1 2 ≠ 0 := kFac_ne (by norm_num) (by norm_num)
  cases k with
  | old =>
    refine ⟨?_, ?_, ?_, ?_, ?_⟩ <;>
      norm_num [NucleonClass.cDS, NucleonClass.cDV, NucleonClass.cPS, NucleonArgs.squaresS, NucleonArgs.squaresV, exampleNucleon,
        DSok, DVok]
  | new =>
    have k3 := key 3 (by norm_num)
    have k4 := key 4 (by norm_num)
    have k7 := key 7 (by norm_num)
    have n1 : kFac 1 2 * ((7 : ℝ) : ℂ) ^ 2 ≠ kFac 1 2 * ((4 : ℝ) : ℂ) ^ 2 := by rw [Ne, mul_right_inj' hk]; norm_num
    have n2 : kFac 1 2 * ((3 : ℝ) : ℂ) ^ 2 ≠ kFac 1 2 * ((4 : ℝ) : ℂ) ^ 2 := by rw [Ne, mul_right_inj' hk]; norm_num
    have n3 : kFac 1 2 * ((3 : ℝ) : ℂ) ^ 2 ≠ kFac 1 2 * ((7 : ℝ) : ℂ) ^ 2 := by rw [Ne, mul_right_inj' hk]; norm_num
    rw [← k3, ← k4] at n2
    rw [← k7, ← k4] at n1
    rw [← k3, ← k7] at n3
    exact ⟨n1, n2, n1, n2, n3⟩

theorem exampleNucleon_evaluates (k : NucleonClass) (proton electric : Bool) : ∃ y, k.run proton electric exampleNucleon 0 = .ok y := by
  obtain ⟨m, b, h⟩ := NucleonClass.run_built exampleNucleon_proper (exampleNucleon_builds k proton electric)
  rw [h, b.evalC_ok (le_refl _)]
  · exact ⟨_, rfl⟩
  · rintro (hs | ⟨p, hp, hs⟩ | hs | hs)
    · norm_num [exampleNucleon] at hs
    · have hz : p = 0 := by
        rcases hs with hs | hs
        · exact hs.symm
        · rw [eq_comm, map_eq_zero] at hs; exact hs
      subst hz
      have : ∀ m g : ℝ, m ≠ 0 → (0 : ℂ) ≠ tMesonPole m g := by
        intro m g hm h
        have := (tMesonPole_eq_real (m := m) (g := g) (le_refl 0)).mp (by simpa using h.symm)
        exact hm (by simpa using this.2)
      simp only [NucleonArgs.poleS, NucleonArgs.poleT, Six.toList, Three.toList, List.mem_append, List.mem_cons,
        List.not_mem_nil, or_false] at hp
      rcases hp with (hp | hp | hp | hp | hp | hp) | (hp | hp | hp) <;> revert hp <;> apply this <;> norm_num [exampleNucleon]
    · exact hs (exampleNucleon_terms k)
    · norm_num [exampleNucleon] at hs

theorem nucleon_history {base : NucleonBase} (hist : List NucleonOp) :
    ∀ m : NucleonUAModel, CacheInv m.toNucleonBase m.mass_terms_cache →
      (∃ p e, m.toNucleonBase = { base with proton := p, electric := e }) →
      CacheInv (hist.foldl NucleonOp.apply m).toNucleonBase (hist.foldl NucleonOp.apply m).mass_terms_cache ∧
      ∃ p e, (hist.foldl NucleonOp.apply m).toNucleonBase = { base with proton := p, electric := e } := by
  induction hist with
  | nil => intro m h1 h2; exact ⟨h1, h2⟩
  | cons op hist ih =>
    intro m h1 h2
    obtain ⟨p, e, h2⟩ := h2
    rw [List.foldl_cons]
    apply ih
    · cases op with
      | call t => exact (m.call_sim t h1).2
      | setProton b => exact h1
      | setElectric b => exact h1
    · cases op with
      | call t => exact ⟨p, e, h2⟩
      | setProton b => exact ⟨b, e, by show ({ m.toNucleonBase with proton := b } : NucleonBase) = _; rw [h2]⟩
      | setElectric b => exact ⟨p, b, by show ({ m.toNucleonBase with electric := b } : NucleonBase) = _; rw [h2]⟩

theorem SixBuilt.eventually {t_0 t_in : ℝ} {P : Six ℂ} {V : Six Variant} {K : Six UAComponent} (b : SixBuilt t_0 t_in P V K) :
    ∀ᶠ t : ℂ in cobounded ℂ, t ≠ t_in ∧ ∀ p ∈ P.toList, t ≠ p ∧ t ≠ conj p := by
  filter_upwards [b.omega.eventually, b.omega_prime.eventually, b.omega_double_prime.eventually, b.phi.eventually,
    b.phi_prime.eventually, b.phi_double_prime.eventually] with t h1 h2 h3 h4 h5 h6
  refine ⟨h1.1, fun p hp => ?_⟩
  simp only [Six.toList, List.mem_cons, List.not_mem_nil, or_false] at hp
  rcases hp with rfl | rfl | rfl | rfl | rfl | rfl
  · exact h1.2
  · exact h2.2
  · exact h3.2
  · exact h4.2
  · exact h5.2
  · exact h6.2
theorem ThreeBuilt.eventually {t_0 t_in : ℝ} {P : Three ℂ} {V : Three Variant} {K : Three UAComponent} (b : ThreeBuilt t_0 t_in P V K) :
    ∀ᶠ t : ℂ in cobounded ℂ, t ≠ t_in ∧ ∀ p ∈ P.toList, t ≠ p ∧ t ≠ conj p := by
  filter_upwards [b.rho.eventually, b.rho_prime.eventually, b.rho_double_prime.eventually] with t h1 h2 h3
  refine ⟨h1.1, fun p hp => ?_⟩
  simp only [Three.toList, List.mem_cons, List.not_mem_nil, or_false] at hp
  rcases hp with rfl | rfl | rfl
  · exact h1.2
  · exact h2.2
  · exact h3.2

/-- Closed form of a contribution. -/
noncomputable def NucleonClass.partAt (k : NucleonClass) (p : Contribution) (x : NucleonArgs) (t : ℂ) : ℂ :=
  match p with
  | .diracIsoscalar => dsAt k.thr x (k.cDS x) t
  | .diracIsovector => dvAt k.thr x (k.cDV x) t
  | .pauliIsoscalar => psAt k.thr x (k.cPS x) t
  | .pauliIsovector => pvAt k.thr x t

noncomputable def partC (m : NucleonBase) (cDS : Six ℂ) (cDV : Three ℂ) (cPS : Six ℂ) (p : Contribution) (t : ℂ) : Except PyErr ℂ :=
  match p with
  | .diracIsoscalar => do let w ← m.t_to_W_dirac_isoscalar.call t; diracIsoscalarExpr m.toNucleonArgs m.diracS cDS w
  | .diracIsovector => do let w ← m.t_to_W_dirac_isovector.call t; diracIsovectorExpr m.toNucleonArgs m.diracV cDV w
  | .pauliIsoscalar => do let w ← m.t_to_W_pauli_isoscalar.call t; pauliIsoscalarExpr m.toNucleonArgs m.pauliS cPS w
  | .pauliIsovector => do let w ← m.t_to_W_pauli_isovector.call t; pauliIsovectorExpr m.toNucleonArgs m.pauliV w

theorem NucleonClass.part_built {k : NucleonClass} {p : Contribution} {x : NucleonArgs} (hx : x.Proper)
    (h : k.Builds true false x) : ∃ m, NBuilt k.thr true false x m ∧
      ∀ t, k.part p x t = partC m (k.cDS x) (k.cDV x) (k.cPS x) p t := by
  cases k with
  | new =>
    obtain ⟨m, hm⟩ := h
    obtain ⟨b, hcache⟩ := new_init_built hx hm
    refine ⟨m.toNucleonBase, b, fun t => ?_⟩
    show (do let m ← NucleonUAModel.init true false x; _) = _
    rw [hm, except_ok_bind]
    have hinv : CacheInv m.toNucleonBase m.mass_terms_cache := by rw [hcache]; exact cacheInv_empty _
    have cds := b.calcDS
    have cdv := b.calcDV
    have cps := b.calcPS
    cases p with
    | diracIsoscalar =>
      show (NucleonUAModel.evalDiracIsoscalar m.toNucleonBase t m.mass_terms_cache).1 = _
      unfold NucleonUAModel.evalDiracIsoscalar
      rw [(Sim.bind (Sim.lift _ _) (fun w => Sim.bind (Sim.getS _ _) fun c => Sim.lift _ _) _ hinv).1, cds]; rfl
    | diracIsovector =>
      show (NucleonUAModel.evalDiracIsovector m.toNucleonBase t m.mass_terms_cache).1 = _
      unfold NucleonUAModel.evalDiracIsovector
      rw [(Sim.bind (Sim.lift _ _) (fun w => Sim.bind (Sim.getV _) fun c => Sim.lift _ _) _ hinv).1, cdv]; rfl
    | pauliIsoscalar =>
      show (NucleonUAModel.evalPauliIsoscalar m.toNucleonBase t m.mass_terms_cache).1 = _
      unfold NucleonUAModel.evalPauliIsoscalar
      rw [(Sim.bind (Sim.lift _ _) (fun w => Sim.bind (Sim.getS _ _) fun c => Sim.lift _ _) _ hinv).1, cps]; rfl
    | pauliIsovector =>
      show (NucleonUAModel.evalPauliIsovector m.toNucleonBase t m.mass_terms_cache).1 = _
      unfold NucleonUAModel.evalPauliIsovector
      rw [(Sim.bind (Sim.lift _ _) (fun w => Sim.lift _ _) _ hinv).1]; rfl
  | old =>
    obtain ⟨m, hm⟩ := h
    have b := old_init_built hx hm
    refine ⟨m, b, fun t => ?_⟩
    show (do let m ← NucleonUAModelOld.init true false x; _) = _
    rw [hm, except_ok_bind]
    cases p <;> simp only [NucleonClass.cDS, NucleonClass.cDV, NucleonClass.cPS, ← b.args] <;> rfl

theorem NBuilt.part_bigO {k : NucleonClass} {x : NucleonArgs} {proton electric : Bool} {m : NucleonBase}
    (b : NBuilt k.thr proton electric x m) (p : Contribution) :
    (fun t => k.partAt p x t) =O[cobounded ℂ] (fun t : ℂ => t⁻¹ ^ p.order) := by
  cases p with
  | diracIsoscalar => exact (b.ds.ds_bigO x (k.cDS x)).congr_right fun t => by simp [Contribution.order]; ring
  | diracIsovector => exact (b.dv.dv_bigO x (k.cDV x)).congr_right fun t => by simp [Contribution.order]; ring
  | pauliIsoscalar => exact (b.ps.ps_bigO x (k.cPS x)).congr_right fun t => by simp [Contribution.order]; ring
  | pauliIsovector => exact (b.pv.pv_bigO x).congr_right fun t => by simp [Contribution.order]; ring

theorem NBuilt.part_eventually {k : NucleonClass} {x : NucleonArgs} {proton electric : Bool} {m : NucleonBase}
    (b : NBuilt k.thr proton electric x m) (p : Contribution) {s y : ℂ}
    (hs : partC m (k.cDS x) (k.cDV x) (k.cPS x) p s = .ok y) :
    ∀ᶠ t : ℂ in cobounded ℂ, partC m (k.cDS x) (k.cDV x) (k.cPS x) p t = .ok (k.partAt p x t) := by
  cases p with
  | diracIsoscalar =>
    have hc := (b.ds_inv hs).2.2
    filter_upwards [b.ds.eventually] with t ht
    exact b.ds_ok ht.1 ht.2 hc
  | diracIsovector =>
    have hc := (b.dv_inv hs).2.2
    filter_upwards [b.dv.eventually] with t ht
    exact b.dv_ok ht.1 ht.2 hc
  | pauliIsoscalar =>
    have hc := (b.ps_inv hs).2.2
    filter_upwards [b.ps.eventually] with t ht
    exact b.ps_ok ht.1 ht.2 hc
  | pauliIsovector =>
    filter_upwards [b.pv.eventually] with t ht
    exact b.pv_ok ht.1 ht.2

theorem NucleonClass.builds_of_part {k : NucleonClass} {p : Contribution} {x : NucleonArgs} {t y : ℂ}
    (h : k.part p x t = .ok y) : k.Builds true false x := by
  cases k with
  | new => obtain ⟨m, hm, _⟩ := except_bind_eq_ok.mp h; exact ⟨m, hm⟩
  | old => obtain ⟨m, hm, _⟩ := except_bind_eq_ok.mp h; exact ⟨m, hm⟩

theorem NBuilt.evalC_iff {thr : ℝ → ℝ → ℝ} {proton electric : Bool} {x : NucleonArgs} {m : NucleonBase}
    (b : NBuilt thr proton electric x m) {cDS : Six ℂ} {cDV : Three ℂ} {cPS : Six ℂ} {t : ℂ} (hre : 0 ≤ t.re) :
    (∃ y, evalC m cDS cDV cPS t = .ok y) ↔ ¬ NSingular x electric cDS cDV cPS t := by
  constructor
  · rintro ⟨y, hy⟩ hs
    rw [b.evalC_zde hre hs] at hy; cases hy
  · intro hs; exact ⟨_, b.evalC_ok hre hs⟩

theorem evalC_re {m : NucleonBase} {cDS : Six ℂ} {cDV : Three ℂ} {cPS : Six ℂ} {t y : ℂ}
    (h : evalC m cDS cDV cPS t = .ok y) : 0 ≤ t.re := by
  by_contra hre
  rw [not_le] at hre
  unfold evalC at h
  rw [if_pos hre] at h
  cases h

theorem exampleNucleon_part (k : NucleonClass) (p : Contribution) : ∃ z, k.part p exampleNucleon 0 = .ok z := by
  have hb := exampleNucleon_builds k true false
  obtain ⟨m, b, h⟩ := NucleonClass.part_built (p := p) exampleNucleon_proper hb
  obtain ⟨m', b', h'⟩ := NucleonClass.run_built exampleNucleon_proper hb
  have hr := exampleNucleon_evaluates k true false
  rw [h'] at hr
  rw [b'.evalC_iff (le_refl _)] at hr
  unfold NSingular at hr
  push Not at hr
  obtain ⟨⟨a1, a2, a3, a4⟩, hp, ⟨c1, c2, c3⟩, he⟩ := hr
  have hpS : ∀ p ∈ exampleNucleon.poleS.toList, (0 : ℂ) ≠ p ∧ (0 : ℂ) ≠ conj p := fun p h => hp p (List.mem_append_left _ h)
  have hpT : ∀ p ∈ exampleNucleon.poleT.toList, (0 : ℂ) ≠ p ∧ (0 : ℂ) ≠ conj p := fun p h => hp p (List.mem_append_right _ h)
  rw [h]
  cases p with
  | diracIsoscalar => exact ⟨_, b.ds_ok a1 hpS c1⟩
  | diracIsovector => exact ⟨_, b.dv_ok a2 hpT c2⟩
  | pauliIsoscalar => exact ⟨_, b.ps_ok a3 hpS c3⟩
  | pauliIsovector => exact ⟨_, b.pv_ok a4 hpT⟩

theorem NBuilt.nVal_bigO {k : NucleonClass} {x : NucleonArgs} {proton electric : Bool} {m : NucleonBase}
    (b : NBuilt k.thr proton electric x m) :
    (fun t => nVal x proton electric t (dsAt k.thr x (k.cDS x) t) (dvAt k.thr x (k.cDV x) t) (psAt k.thr x (k.cPS x) t)
      (pvAt k.thr x t)) =O[cobounded ℂ] (fun t : ℂ => t⁻¹ ^ 2) := by
  have h1 : (fun t => dsAt k.thr x (k.cDS x) t) =O[cobounded ℂ] (fun t : ℂ => t⁻¹ ^ 2) := b.part_bigO .diracIsoscalar
  have h2 : (fun t => dvAt k.thr x (k.cDV x) t) =O[cobounded ℂ] (fun t : ℂ => t⁻¹ ^ 2) := b.part_bigO .diracIsovector
  have h3 : (fun t => psAt k.thr x (k.cPS x) t) =O[cobounded ℂ] (fun t : ℂ => t⁻¹ ^ 3) := b.part_bigO .pauliIsoscalar
  have h4 : (fun t => pvAt k.thr x t) =O[cobounded ℂ] (fun t : ℂ => t⁻¹ ^ 3) := b.part_bigO .pauliIsovector
  have hd := h1.add (h2.const_mul_left (if proton then 1 else -1 : ℂ))
  have hp := h3.add (h4.const_mul_left (if proton then 1 else -1 : ℂ))
  unfold nVal
  refine hd.add ?_
  cases electric with
  | false =>
    simp only [Bool.false_eq_true, if_false, one_mul]
    refine hp.trans ?_
    apply IsBigO.of_bound 1
    rw [← comap_norm_atTop, Filter.eventually_comap]
    filter_upwards [Filter.eventually_ge_atTop 1]
    rintro a ha t rfl
    rw [norm_pow, norm_pow, norm_inv, one_mul]
    have : ‖t‖⁻¹ ≤ 1 := inv_le_one_of_one_le₀ ha
    exact pow_le_pow_of_le_one (by positivity) this (by norm_num)
  | true =>
    simp only [if_true]
    have ht : (fun t : ℂ => t / (4 * (x.nucleon_mass : ℂ) ^ 2)) =O[cobounded ℂ] (fun t : ℂ => t) := by
      exact ((isBigO_refl (fun t : ℂ => t) _).const_mul_left ((4 * (x.nucleon_mass : ℂ) ^ 2)⁻¹)).congr_left
        fun t => by rw [div_eq_inv_mul]
    refine (ht.mul hp).trans ?_
    apply IsBigO.of_bound 1
    rw [← comap_norm_atTop, Filter.eventually_comap]
    filter_upwards [Filter.eventually_ge_atTop 1]
    rintro a ha t rfl
    have hne : t ≠ 0 := by rintro rfl; simp at ha; linarith
    have : t * t⁻¹ ^ 3 = t⁻¹ ^ 2 := by field_simp
    rw [this, one_mul]

theorem prop_five (A B C D E : Prop) : (A ∨ B ∨ C ∨ D ∨ E) ↔ ¬ (¬ A ∧ ¬ B ∧ (¬ C ∧ ¬ D ∧ ¬ E)) := by tauto
theorem prop_four (A B C D : Prop) : (A ∨ B ∨ C ∨ D) ↔ ¬ (¬ A ∧ ¬ B ∧ (¬ A ∧ ¬ C ∧ ¬ D)) := by tauto

theorem NucleonClass.degenerate_iff {k : NucleonClass} {proton electric : Bool} {x : NucleonArgs} (hx : x.Proper)
    (hb : k.Builds proton electric x) :
    k.Degenerate proton electric x ↔ ¬ (DSok (k.cDS x) ∧ DVok (k.cDV x) ∧ PSok (k.cPS x)) := by
  cases k with
  | old =>
    simp only [NucleonClass.Degenerate, DSok, DVok, PSok, NucleonClass.cDS, NucleonClass.cDV, NucleonClass.cPS,
      NucleonArgs.squaresS, NucleonArgs.squaresV]
    norm_cast
    exact prop_four _ _ _ _
  | new =>
    obtain ⟨m, hm⟩ := hb
    obtain ⟨b, _⟩ := new_init_built hx hm
    have e1 : m.calculateMassTerm true true "phi_double_prime" = .ok x.cDS.phi_double_prime := by
      unfold NucleonBase.calculateMassTerm; rw [b.mapDS, b.args]; exact calc_of_built b.ds.phi_double_prime
    have e2 : m.calculateMassTerm true true "omega_double_prime" = .ok x.cDS.omega_double_prime := by
      unfold NucleonBase.calculateMassTerm; rw [b.mapDS, b.args]; exact calc_of_built b.ds.omega_double_prime
    have e3 : m.calculateMassTerm false true "rho_prime" = .ok x.cDV.rho_prime := by
      unfold NucleonBase.calculateMassTerm; rw [b.mapDV, b.args]; exact calc_of_built b.dv.rho_prime
    have e4 : m.calculateMassTerm false true "rho_double_prime" = .ok x.cDV.rho_double_prime := by
      unfold NucleonBase.calculateMassTerm; rw [b.mapDV, b.args]; exact calc_of_built b.dv.rho_double_prime
    have e5 : m.calculateMassTerm true false "phi_double_prime" = .ok x.cPS.phi_double_prime := by
      unfold NucleonBase.calculateMassTerm; rw [b.mapPS, b.args]; exact calc_of_built b.ps.phi_double_prime
    have e6 : m.calculateMassTerm true false "omega_double_prime" = .ok x.cPS.omega_double_prime := by
      unfold NucleonBase.calculateMassTerm; rw [b.mapPS, b.args]; exact calc_of_built b.ps.omega_double_prime
    have e7 : m.calculateMassTerm true false "omega_prime" = .ok x.cPS.omega_prime := by
      unfold NucleonBase.calculateMassTerm; rw [b.mapPS, b.args]; exact calc_of_built b.ps.omega_prime
    have : NucleonClass.new.Degenerate proton electric x ↔ (x.cDS.phi_double_prime = x.cDS.omega_double_prime ∨
        x.cDV.rho_prime = x.cDV.rho_double_prime ∨ x.cPS.phi_double_prime = x.cPS.omega_double_prime ∨
        x.cPS.omega_prime = x.cPS.omega_double_prime ∨ x.cPS.omega_prime = x.cPS.phi_double_prime) := by
      have aux : ∀ a b : ℂ, (Except.ok a : Except PyErr ℂ) = .ok b ↔ a = b := fun a b => ⟨fun h => by injection h, fun h => by rw [h]⟩
      show (∃ m, _ ∧ _) ↔ _
      rw [hm]
      constructor
      · rintro ⟨m', hm', h⟩
        injection hm' with hm'
        subst hm'
        rw [e1, e2, e3, e4, e5, e6, e7] at h
        simpa only [aux] using h
      · intro h
        refine ⟨m, rfl, ?_⟩
        rw [e1, e2, e3, e4, e5, e6, e7]
        simpa only [aux] using h
    rw [this]
    exact prop_five _ _ _ _ _

theorem NucleonClass.singular_iff {k : NucleonClass} {proton electric : Bool} {x : NucleonArgs} (hx : x.Proper)
    (hb : k.Builds proton electric x) (t : ℂ) :
    k.Singular proton electric x t ↔ NSingular x electric (k.cDS x) (k.cDV x) (k.cPS x) t := by
  unfold NucleonClass.Singular NSingular
  rw [k.degenerate_iff hx hb]
  refine or_congr Iff.rfl (or_congr ?_ Iff.rfl)
  simp only [NucleonArgs.resonances, NucleonArgs.poleS, NucleonArgs.poleT, Six.toList, Three.toList, List.cons_append,
    List.nil_append, List.mem_cons, List.not_mem_nil, or_false, exists_eq_or_imp, exists_eq_left, tMesonPole_eq]

theorem NucleonClass.run_value {k : NucleonClass} {proton electric : Bool} {x : NucleonArgs} (hx : x.Proper) {t y : ℂ}
    (h : k.run proton electric x t = .ok y) :
    y = nVal x proton electric t (dsAt k.thr x (k.cDS x) t) (dvAt k.thr x (k.cDV x) t) (psAt k.thr x (k.cPS x) t)
      (pvAt k.thr x t) := by
  obtain ⟨m, b, h'⟩ := NucleonClass.run_built hx (NucleonClass.builds_of_run h)
  rw [h'] at h
  have hns := (b.evalC_iff (evalC_re h)).mp ⟨y, h⟩
  rw [b.evalC_ok (evalC_re h) hns] at h
  injection h with h
  exact h.symm

theorem SameIsoscalar.parts {k : NucleonClass} {x x' : NucleonArgs} (h : SameIsoscalar x x') (t : ℂ) :
    dsAt k.thr x (k.cDS x) t = dsAt k.thr x' (k.cDS x') t ∧ psAt k.thr x (k.cPS x) t = psAt k.thr x' (k.cPS x') t := by
  obtain ⟨hm, hmu, h1, h2, h3, h4, hc, hr⟩ := h
  simp only [List.cons.injEq, and_true] at hc
  obtain ⟨c1, c2, c3, c4, c5, c6, c7⟩ := hc
  simp only [NucleonArgs.resonances, List.take_succ_cons, List.take_zero, List.cons.injEq, Prod.mk.injEq, and_true] at hr
  obtain ⟨⟨a1, b1⟩, ⟨a2, b2⟩, ⟨a3, b3⟩, ⟨a4, b4⟩, ⟨a5, b5⟩, a6, b6⟩ := hr
  have hmu' : (x.magnetic_moment_proton : ℂ) + x.magnetic_moment_neutron = x'.magnetic_moment_proton + x'.magnetic_moment_neutron := by
    exact_mod_cast hmu
  have eP : x.poleS = x'.poleS := by simp only [NucleonArgs.poleS, a1, b1, a2, b2, a3, b3, a4, b4, a5, b5, a6, b6]
  have eT : ∀ f s, x.thrS f s = x'.thrS f s := by
    intro f s; simp only [NucleonArgs.thrS, a1, b1, a2, b2, a3, b3, a4, b4, a5, b5, a6, b6]
  have eS : x.squaresS = x'.squaresS := by simp only [NucleonArgs.squaresS, a1, a2, a3, a4, a5, a6]
  have e1 : k.cDS x = k.cDS x' := by
    cases k with
    | new => simp only [NucleonClass.cDS, NucleonArgs.cDS, NucleonArgs.cS, h1, h2, eP, eT]
    | old => exact eS
  have e2 : k.cPS x = k.cPS x' := by
    cases k with
    | new => simp only [NucleonClass.cPS, NucleonArgs.cPS, NucleonArgs.cS, h3, h4, eP, eT]
    | old => exact eS
  constructor
  · unfold dsAt; rw [e1, eP, eT, h1, h2]; simp only [dsVal, c1, c2, c3, c4]
  · unfold psAt; rw [e2, eP, eT, h3, h4]; simp only [psVal, c5, c6, c7, hmu']

theorem SameIsovector.parts {k : NucleonClass} {x x' : NucleonArgs} (h : SameIsovector x x') (t : ℂ) :
    dvAt k.thr x (k.cDV x) t = dvAt k.thr x' (k.cDV x') t ∧ pvAt k.thr x t = pvAt k.thr x' t := by
  obtain ⟨hm, hmu, h1, h2, h3, h4, hc, hr⟩ := h
  simp only [NucleonArgs.resonances, List.drop_succ_cons, List.drop_zero, List.cons.injEq, Prod.mk.injEq, and_true] at hr
  obtain ⟨⟨a1, b1⟩, ⟨a2, b2⟩, a3, b3⟩ := hr
  have hmu' : (x.magnetic_moment_proton : ℂ) - x.magnetic_moment_neutron = x'.magnetic_moment_proton - x'.magnetic_moment_neutron := by
    exact_mod_cast hmu
  have eP : x.poleT = x'.poleT := by simp only [NucleonArgs.poleT, a1, b1, a2, b2, a3, b3]
  have eT : ∀ f s, x.thrT f s = x'.thrT f s := by intro f s; simp only [NucleonArgs.thrT, a1, b1, a2, b2, a3, b3]
  have eS : x.squaresV = x'.squaresV := by simp only [NucleonArgs.squaresV, a1, a2, a3]
  have e1 : k.cDV x = k.cDV x' := by
    cases k with
    | new => simp only [NucleonClass.cDV, NucleonArgs.cDV, NucleonArgs.cV, h1, h2, eP, eT]
    | old => exact eS
  constructor
  · unfold dvAt; rw [e1, eP, eT, h1, h2]; simp only [dvVal, hc]
  · unfold pvAt; rw [eP, eT, h3, h4]; simp only [pvVal, hmu']

theorem NBuilt.evalC_conj {thr : ℝ → ℝ → ℝ} {proton electric : Bool} {x : NucleonArgs} {m : NucleonBase}
    (b : NBuilt thr proton electric x m) {cDS : Six ℂ} {cDV : Three ℂ} {cPS : Six ℂ} {t : ℂ}
    (r1 : cDS.map conj = cDS) (r2 : cDV.map conj = cDV) (r3 : cPS.map conj = cPS)
    (c1 : ¬ (t.im = 0 ∧ x.t_0_dirac_isoscalar ≤ t.re)) (c2 : ¬ (t.im = 0 ∧ x.t_0_dirac_isovector ≤ t.re))
    (c3 : ¬ (t.im = 0 ∧ x.t_0_pauli_isoscalar ≤ t.re)) (c4 : ¬ (t.im = 0 ∧ x.t_0_pauli_isovector ≤ t.re)) :
    evalC m cDS cDV cPS (conj t) = (evalC m cDS cDV cPS t).map conj := by
  have hre' : (conj t).re = t.re := conj_re t
  by_cases hre : t.re < 0
  · rw [evalC_neg hre, evalC_neg (by rw [hre']; exact hre)]; rfl
  rw [not_lt] at hre
  by_cases hs : NSingular x electric cDS cDV cPS t
  · rw [b.evalC_zde hre hs, b.evalC_zde (by rw [hre']; exact hre) (NSingular_conj.mpr hs)]; rfl
  have e1 : dsAt thr x cDS (conj t) = conj (dsAt thr x cDS t) := by
    unfold dsAt; rw [SixF_conj b.ds.omega.h0 b.lt.1 _ _ c1]; conv_lhs => rw [← r1]
    exact dsVal_conj _ _ _
  have e2 : dvAt thr x cDV (conj t) = conj (dvAt thr x cDV t) := by
    unfold dvAt; rw [ThreeF_conj b.dv.rho.h0 b.lt.2.1 _ _ c2]; conv_lhs => rw [← r2]
    exact dvVal_conj _ _ _
  have e3 : psAt thr x cPS (conj t) = conj (psAt thr x cPS t) := by
    unfold psAt; rw [SixF_conj b.ps.omega.h0 b.lt.2.2.1 _ _ c3]; conv_lhs => rw [← r3]
    exact psVal_conj _ _ _
  have e4 : pvAt thr x (conj t) = conj (pvAt thr x t) := by
    unfold pvAt; rw [ThreeF_conj b.pv.rho.h0 b.lt.2.2.2 _ _ c4]
    exact pvVal_conj _ _
  rw [b.evalC_ok hre hs, b.evalC_ok (by rw [hre']; exact hre) (mt NSingular_conj.mp hs), e1, e2, e3, e4, nVal_conj]
  rfl

/-! ### Zero widths -/

theorem build_zero_width (t_0 t_in m : ℝ) : nucleonBuildComponent t_0 t_in m 0 = buildComponent t_0 t_in m 0 := by
  rw [nucleonBuildComponent_eq, buildComponent_eq, tMesonPole_re]
  simp

theorem initSix_zero_width {x : NucleonArgs} (h : x.ZeroWidth) (t_0 t_in : ℝ) :
    initIsoscalarComponents nucleonBuildComponent x t_0 t_in = initIsoscalarComponents buildComponent x t_0 t_in := by
  simp only [NucleonArgs.ZeroWidth, NucleonArgs.resonances, List.forall_mem_cons] at h
  obtain ⟨h1, h2, h3, h4, h5, h6, _⟩ := h
  unfold initIsoscalarComponents
  simp only [h1, h2, h3, h4, h5, h6, build_zero_width]

theorem initThree_zero_width {x : NucleonArgs} (h : x.ZeroWidth) (t_0 t_in : ℝ) :
    initIsovectorComponents nucleonBuildComponent x t_0 t_in = initIsovectorComponents buildComponent x t_0 t_in := by
  simp only [NucleonArgs.ZeroWidth, NucleonArgs.resonances, List.forall_mem_cons] at h
  obtain ⟨_, _, _, _, _, _, h1, h2, h3, _⟩ := h
  unfold initIsovectorComponents
  simp only [h1, h2, h3, build_zero_width]

theorem init_zero_width {x : NucleonArgs} (h : x.ZeroWidth) (proton electric : Bool) :
    NucleonBase.init nucleonBuildComponent proton electric x = NucleonBase.init buildComponent proton electric x := by
  unfold NucleonBase.init
  simp only [initSix_zero_width h, initThree_zero_width h]

theorem cS_zero_width {x : NucleonArgs} (h : x.ZeroWidth) {t_0 t_in : ℝ} (h0 : 0 ≤ t_0) (hlt : t_0 < t_in) {K : Six UAComponent}
    (hK : initIsoscalarComponents nucleonBuildComponent x t_0 t_in = .ok K) :
    x.cS t_0 t_in = x.squaresS.scale (kFac t_0 t_in) := by
  simp only [NucleonArgs.ZeroWidth, NucleonArgs.resonances, List.forall_mem_cons] at h
  obtain ⟨h1, h2, h3, h4, h5, h6, _⟩ := h
  have key : ∀ {m g : ℝ} {c : UAComponent}, g = 0 → nucleonBuildComponent t_0 t_in m g = .ok c →
      massTerm (if (tMesonPole m g).re < t_in then .A else .B) t_0 t_in (tMesonPole m g) = kFac t_0 t_in * (m : ℂ) ^ 2 := by
    intro m g c hg hc
    obtain ⟨b, hm⟩ := nucleonBuildComponent_built h0 hlt hc
    exact b.massTerm_zero hg hm
  unfold initIsoscalarComponents at hK
  refine bindE hK fun k1 e1 hK => ?_
  refine bindE hK fun k2 e2 hK => ?_
  refine bindE hK fun k3 e3 hK => ?_
  refine bindE hK fun k4 e4 hK => ?_
  refine bindE hK fun k5 e5 hK => ?_
  refine bindE hK fun k6 e6 hK => ?_
  simp only [NucleonArgs.cS, Six.map₂, NucleonArgs.thrS, NucleonArgs.poleS, Six.scale, Six.map, NucleonArgs.squaresS, thrNew]
  rw [key h1 e1, key h2 e2, key h3 e3, key h4 e4, key h5 e5, key h6 e6]

theorem cV_zero_width {x : NucleonArgs} (h : x.ZeroWidth) {t_0 t_in : ℝ} (h0 : 0 ≤ t_0) (hlt : t_0 < t_in) {K : Three UAComponent}
    (hK : initIsovectorComponents nucleonBuildComponent x t_0 t_in = .ok K) :
    x.cV t_0 t_in = x.squaresV.scale (kFac t_0 t_in) := by
  simp only [NucleonArgs.ZeroWidth, NucleonArgs.resonances, List.forall_mem_cons] at h
  obtain ⟨_, _, _, _, _, _, h1, h2, h3, _⟩ := h
  have key : ∀ {m g : ℝ} {c : UAComponent}, g = 0 → nucleonBuildComponent t_0 t_in m g = .ok c →
      massTerm (if (tMesonPole m g).re < t_in then .A else .B) t_0 t_in (tMesonPole m g) = kFac t_0 t_in * (m : ℂ) ^ 2 := by
    intro m g c hg hc
    obtain ⟨b, hm⟩ := nucleonBuildComponent_built h0 hlt hc
    exact b.massTerm_zero hg hm
  unfold initIsovectorComponents at hK
  refine bindE hK fun k1 e1 hK => ?_
  refine bindE hK fun k2 e2 hK => ?_
  refine bindE hK fun k3 e3 hK => ?_
  simp only [NucleonArgs.cV, Three.map₂, NucleonArgs.thrT, NucleonArgs.poleT, Three.scale, Three.map, NucleonArgs.squaresV, thrNew]
  rw [key h1 e1, key h2 e2, key h3 e3]

theorem init_inv {build : ℝ → ℝ → ℝ → ℝ → Except PyErr UAComponent} {proton electric : Bool} {x : NucleonArgs} {m : NucleonBase}
    (h : NucleonBase.init build proton electric x = .ok m) :
    (∃ c, initIsoscalarComponents build x x.t_0_dirac_isoscalar x.t_in_dirac_isoscalar = .ok c) ∧
    (∃ c, initIsovectorComponents build x x.t_0_dirac_isovector x.t_in_dirac_isovector = .ok c) ∧
    (∃ c, initIsoscalarComponents build x x.t_0_pauli_isoscalar x.t_in_pauli_isoscalar = .ok c) := by
  unfold NucleonBase.init at h
  refine bindE h fun m1 e1 h => ?_
  refine bindE h fun m2 e2 h => ?_
  refine bindE h fun m3 e3 h => ?_
  refine bindE h fun m4 e4 h => ?_
  refine bindE h fun k1 f1 h => ?_
  refine bindE h fun k2 f2 h => ?_
  refine bindE h fun k3 f3 h => ?_
  refine bindE h fun k4 f4 h => ?_
  exact ⟨⟨_, f1⟩, ⟨_, f2⟩, ⟨_, f3⟩⟩

end UA
