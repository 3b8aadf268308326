import Verif.Lemmas.NucleonRun

/-!
# Properties C23 - C25 and C62 - C65: the nucleon models
-/

namespace UA

open Complex ComplexConjugate Spec Asymptotics Bornology

/-! ### C23 -/

/-- **C23** normalisation of the proton and neutron form factors, both classes. -/
theorem C23_nucleon_normalisation (k : NucleonClass) (x : NucleonArgs) (hx : x.Proper) (y : ℂ) :
    (k.run true true x 0 = .ok y → y = 1) ∧
    (k.run false true x 0 = .ok y → y = 0) ∧
    (k.run true false x 0 = .ok y → y = x.magnetic_moment_proton) ∧
    (k.run false false x 0 = .ok y → y = x.magnetic_moment_neutron) := by
  have key : ∀ proton electric, k.run proton electric x 0 = .ok y →
      y = nVal x proton electric 0 (1 / 2) (1 / 2) (1 / 2 * (x.magnetic_moment_proton + x.magnetic_moment_neutron - 1))
        (1 / 2 * (x.magnetic_moment_proton - x.magnetic_moment_neutron - 1)) := by
    intro proton electric hy
    obtain ⟨m, b, h⟩ := NucleonClass.run_built hx (NucleonClass.builds_of_run hy)
    rw [h] at hy
    by_cases hs : NSingular x electric (k.cDS x) (k.cDV x) (k.cPS x) 0
    · rw [b.evalC_zde (le_refl _) hs] at hy; cases hy
    · rw [b.evalC_ok (le_refl _) hs] at hy
      injection hy with hy
      have hc : DSok (k.cDS x) ∧ DVok (k.cDV x) ∧ PSok (k.cPS x) := by
        by_contra hc; exact hs (Or.inr (Or.inr (Or.inl hc)))
      obtain ⟨v1, v2, v3, v4⟩ := b.values_zero hc.1 hc.2.1 hc.2.2
      rw [← hy, v1, v2, v3, v4]
  refine ⟨fun h => ?_, fun h => ?_, fun h => ?_, fun h => ?_⟩ <;> rw [key _ _ h] <;> simp [nVal] <;> ring

example (k : NucleonClass) : k.run true true exampleNucleon 0 = .ok 1 := by
  obtain ⟨y, hy⟩ := exampleNucleon_evaluates k true true
  rw [hy, (C23_nucleon_normalisation k _ exampleNucleon_proper y).1 hy]

/-! ### C24 -/

/-- **C24** after any history of calls (failing or not) and switch changes, a call returns exactly what a freshly built model
with the same parameters and the current switches returns - value or exception. -/
theorem C24_cache_invisible (x : NucleonArgs) (proton electric : Bool) (m₀ : NucleonUAModel)
    (h : NucleonUAModel.init proton electric x = .ok m₀) (hist : List NucleonOp) (t : ℂ) :
    let m := hist.foldl NucleonOp.apply m₀
    ((m.call t).1 = do let fresh ← NucleonUAModel.init m.proton m.electric x; (fresh.call t).1) := by
  intro m
  obtain ⟨base, hbase, hm₀⟩ := except_bind_eq_ok.mp h
  injection hm₀ with hm₀
  have hinv := nucleon_history (base := base) hist m₀ (by rw [← hm₀]; exact cacheInv_empty _)
    ⟨base.proton, base.electric, by rw [← hm₀]⟩
  obtain ⟨h1, p, e, h2⟩ := hinv
  rw [(NucleonUAModel.call_sim m t h1).1]
  have hfresh : NucleonBase.init nucleonBuildComponent p e x = .ok { base with proton := p, electric := e } := by
    unfold NucleonBase.init at hbase ⊢
    refine bindE hbase fun m1 e1 hbase => ?_
    refine bindE hbase fun m2 e2 hbase => ?_
    refine bindE hbase fun m3 e3 hbase => ?_
    refine bindE hbase fun m4 e4 hbase => ?_
    refine bindE hbase fun k1 f1 hbase => ?_
    refine bindE hbase fun k2 f2 hbase => ?_
    refine bindE hbase fun k3 f3 hbase => ?_
    refine bindE hbase fun k4 f4 hbase => ?_
    injection hbase with hbase
    rw [e1, e2, e3, e4]
    simp only [except_ok_bind]
    rw [f1, f2, f3, f4]
    subst hbase
    rfl
  have hp : m.proton = p := by rw [show m.proton = m.toNucleonBase.proton from rfl, h2]
  have he : m.electric = e := by rw [show m.electric = m.toNucleonBase.electric from rfl, h2]
  have e1 : NucleonUAModel.init m.proton m.electric x =
      .ok { toNucleonBase := { base with proton := p, electric := e }, mass_terms_cache := fun _ => none } := by
    unfold NucleonUAModel.init
    rw [hp, he, hfresh]
    rfl
  rw [e1, except_ok_bind, (NucleonUAModel.call_sim _ t (cacheInv_empty _)).1, h2]

example : ∃ m₀, NucleonUAModel.init true true exampleNucleon = .ok m₀ := exampleNucleon_builds .new true true

/-- **C24** after any history the cached look-up of any mass term gives what computing it afresh gives. -/
theorem C24_lookup_is_computation (x : NucleonArgs) (proton electric : Bool) (m₀ : NucleonUAModel)
    (h : NucleonUAModel.init proton electric x = .ok m₀) (hist : List NucleonOp) (scalar dirac : Bool) (r : String) :
    let m := hist.foldl NucleonOp.apply m₀
    (m.getMassTerm scalar dirac r m.mass_terms_cache).1 = m₀.calculateMassTerm scalar dirac r := by
  intro m
  obtain ⟨base, hbase, hm₀⟩ := except_bind_eq_ok.mp h
  injection hm₀ with hm₀
  obtain ⟨h1, p, e, h2⟩ := nucleon_history (base := base) hist m₀ (by rw [← hm₀]; exact cacheInv_empty _)
    ⟨base.proton, base.electric, by rw [← hm₀]⟩
  rw [(Sim.getMassTerm m.toNucleonBase scalar dirac r m.mass_terms_cache h1).1, h2, ← hm₀]
  rfl

example : ∃ m₀, NucleonUAModel.init true true exampleNucleon = .ok m₀ := exampleNucleon_builds .new true true

/-! ### C25 -/

/-- **C25** a contribution that evaluates anywhere evaluates at every large `t`, where the Dirac ones are bounded by `C/|t|²`
and the Pauli ones by `C/|t|³`. -/
theorem C25_fall_off (k : NucleonClass) (p : Contribution) (x : NucleonArgs) (hx : x.Proper) (s z : ℂ)
    (hs : k.part p x s = .ok z) :
    ∃ C R : ℝ, 0 < C ∧ 0 < R ∧ ∀ t : ℂ, R ≤ ‖t‖ → ∃ y, k.part p x t = .ok y ∧ ‖y‖ ≤ C / ‖t‖ ^ p.order := by
  obtain ⟨m, b, h⟩ := NucleonClass.part_built (p := p) hx (NucleonClass.builds_of_part hs)
  obtain ⟨C, R, hC, hR, hb⟩ := bigO_bound (b.part_bigO p)
  obtain ⟨R', hR', he⟩ := eventually_bound (b.part_eventually p (by rw [← h]; exact hs))
  refine ⟨C, max R R', hC, by positivity, fun t ht => ⟨_, ?_, hb t (le_trans (le_max_left _ _) ht)⟩⟩
  rw [h, he t (le_trans (le_max_right _ _) ht)]

example (k : NucleonClass) : ∃ C R : ℝ, 0 < C ∧ 0 < R ∧ ∀ t : ℂ, R ≤ ‖t‖ →
    ∃ y, k.part .pauliIsoscalar exampleNucleon t = .ok y ∧ ‖y‖ ≤ C / ‖t‖ ^ 3 := by
  obtain ⟨z, hz⟩ := exampleNucleon_part k .pauliIsoscalar
  exact C25_fall_off k .pauliIsoscalar _ exampleNucleon_proper 0 z hz

/-- **C25** the form factors themselves, electric or magnetic: bounded by `C/|t|²` at every large `t` they accept. -/
theorem C25_form_factor_fall_off (k : NucleonClass) (proton electric : Bool) (x : NucleonArgs) (hx : x.Proper) (s z : ℂ)
    (hs : k.run proton electric x s = .ok z) :
    ∃ C R : ℝ, 0 < C ∧ 0 < R ∧ ∀ t : ℂ, R ≤ ‖t‖ → 0 ≤ t.re →
      ∃ y, k.run proton electric x t = .ok y ∧ ‖y‖ ≤ C / ‖t‖ ^ 2 := by
  obtain ⟨m, b, h⟩ := NucleonClass.run_built hx (NucleonClass.builds_of_run hs)
  rw [h] at hs
  have hns := (b.evalC_iff (evalC_re hs)).mp ⟨z, hs⟩
  have hev : ∀ᶠ t : ℂ in cobounded ℂ, ¬ NSingular x electric (k.cDS x) (k.cDV x) (k.cPS x) t := by
    filter_upwards [b.ds.eventually, b.dv.eventually, b.ps.eventually, b.pv.eventually] with t h1 h2 h3 h4
    unfold NSingular at hns ⊢
    push Not at hns ⊢
    refine ⟨⟨h1.1, h2.1, h3.1, h4.1⟩, ?_, hns.2.2⟩
    intro p hp
    rcases List.mem_append.mp hp with hp | hp
    · exact h1.2 p hp
    · exact h2.2 p hp
  obtain ⟨C, R, hC, hR, hb⟩ := bigO_bound b.nVal_bigO
  obtain ⟨R', hR', he⟩ := eventually_bound hev
  refine ⟨C, max R R', hC, by positivity, fun t ht hre => ⟨_, ?_, hb t (le_trans (le_max_left _ _) ht)⟩⟩
  rw [h, b.evalC_ok hre (he t (le_trans (le_max_right _ _) ht))]

example (k : NucleonClass) : ∃ y, k.run true true exampleNucleon 0 = .ok y := exampleNucleon_evaluates k true true

/-! ### C63: exact domain -/

/-- **C63** a built nucleon model raises `ValueError` exactly for `Re t < 0`, `ZeroDivisionError` exactly at the listed
singular points, and returns a value everywhere else. -/
theorem C63_nucleon_domain (k : NucleonClass) (proton electric : Bool) (x : NucleonArgs) (hx : x.Proper)
    (hb : k.Builds proton electric x) (t : ℂ) :
    (k.run proton electric x t = .error .valueError ↔ t.re < 0) ∧
    (k.run proton electric x t = .error .zeroDivisionError ↔ 0 ≤ t.re ∧ k.Singular proton electric x t) ∧
    ((∃ y, k.run proton electric x t = .ok y) ↔ 0 ≤ t.re ∧ ¬ k.Singular proton electric x t) := by
  obtain ⟨m, b, h⟩ := NucleonClass.run_built hx hb
  rw [h, k.singular_iff hx hb]
  by_cases hre : t.re < 0
  · rw [evalC_neg hre]
    simp [hre, not_le.mpr hre]
  · rw [not_lt] at hre
    by_cases hs : NSingular x electric (k.cDS x) (k.cDV x) (k.cPS x) t
    · rw [b.evalC_zde hre hs]; simp [hre, hs]
    · rw [b.evalC_ok hre hs]; simp [hre, hs]

example (k : NucleonClass) : exampleNucleon.Proper ∧ k.Builds true true exampleNucleon :=
  ⟨exampleNucleon_proper, exampleNucleon_builds k true true⟩
/-- The right-hand sides are all inhabited: e.g. the normalisation point is regular, `t = 2` is singular. -/
example (k : NucleonClass) : k.Singular true true exampleNucleon 2 := Or.inl (Or.inl (by norm_num [exampleNucleon]))

/-! ### C64: reflection -/

/-- **C64** away from the cuts `k.run` commutes with complex conjugation (as outcomes: exceptions are mapped to themselves). -/
theorem C64_nucleon_schwarz (k : NucleonClass) (proton electric : Bool) (x : NucleonArgs) (hx : x.Proper)
    (hb : k.Builds proton electric x) (t : ℂ)
    (hcut : t.im ≠ 0 ∨ (t.re < x.t_0_dirac_isoscalar ∧ t.re < x.t_0_dirac_isovector ∧ t.re < x.t_0_pauli_isoscalar ∧
      t.re < x.t_0_pauli_isovector)) :
    k.run proton electric x (conj t) = (k.run proton electric x t).map conj := by
  obtain ⟨m, b, h⟩ := NucleonClass.run_built hx hb
  rw [h, h]
  have cut : ∀ {a : ℝ}, (t.im ≠ 0 ∨ t.re < a) → ¬ (t.im = 0 ∧ a ≤ t.re) := by
    rintro a (h | h) ⟨h1, h2⟩
    · exact h h1
    · linarith
  apply b.evalC_conj
  · cases k with
    | new => exact cS_real b.ds.omega.h0 b.lt.1 x
    | old => exact squaresS_real x
  · cases k with
    | new => exact cV_real b.dv.rho.h0 b.lt.2.1 x
    | old => exact squaresV_real x
  · cases k with
    | new => exact cS_real b.ps.omega.h0 b.lt.2.2.1 x
    | old => exact squaresS_real x
  · exact cut (hcut.imp id fun h => h.1)
  · exact cut (hcut.imp id fun h => h.2.1)
  · exact cut (hcut.imp id fun h => h.2.2.1)
  · exact cut (hcut.imp id fun h => h.2.2.2)

example (k : NucleonClass) : k.run true true exampleNucleon (conj (2 + I)) = (k.run true true exampleNucleon (2 + I)).map conj :=
  C64_nucleon_schwarz k true true _ exampleNucleon_proper (exampleNucleon_builds k true true) _ (Or.inl (by simp))

/-- **C64** below the lowest threshold the form factors are real. -/
theorem C64_nucleon_real (k : NucleonClass) (proton electric : Bool) (x : NucleonArgs) (hx : x.Proper) (s : ℝ)
    (h : s < x.t_0_dirac_isoscalar ∧ s < x.t_0_dirac_isovector ∧ s < x.t_0_pauli_isoscalar ∧ s < x.t_0_pauli_isovector)
    (y : ℂ) (hy : k.run proton electric x s = .ok y) : y.im = 0 := by
  have := C64_nucleon_schwarz k proton electric x hx (NucleonClass.builds_of_run hy) s (Or.inr h)
  rw [conj_ofReal, hy] at this
  injection this with this
  exact conj_eq_iff_im.mp this.symm

example (k : NucleonClass) : k.Builds true true exampleNucleon ∧ (I : ℂ).im ≠ 0 := ⟨exampleNucleon_builds k true true, by simp⟩
example (k : NucleonClass) : ∃ y, k.run true true exampleNucleon ((0 : ℝ) : ℂ) = .ok y := by
  simpa using exampleNucleon_evaluates k true true

/-! ### C65: isospin -/

/-- **C65** the sum of the proton and neutron values uses isoscalar inputs only. -/
theorem C65_isoscalar (k : NucleonClass) (electric : Bool) (x x' : NucleonArgs) (hx : x.Proper) (hx' : x'.Proper)
    (h : SameIsoscalar x x') (t yp yn yp' yn' : ℂ)
    (hp : k.run true electric x t = .ok yp) (hn : k.run false electric x t = .ok yn)
    (hp' : k.run true electric x' t = .ok yp') (hn' : k.run false electric x' t = .ok yn') : yp + yn = yp' + yn' := by
  obtain ⟨e1, e2⟩ := h.parts (k := k) t
  rw [NucleonClass.run_value hx hp, NucleonClass.run_value hx hn, NucleonClass.run_value hx' hp', NucleonClass.run_value hx' hn',
    e1, e2]
  simp only [nVal, h.nucleon_mass, Bool.false_eq_true, if_true, if_false]
  ring

example : SameIsoscalar exampleNucleon { exampleNucleon with a_dirac_rho := 77, magnetic_moment_proton := 4, magnetic_moment_neutron := -3 } := by
  constructor <;> norm_num [exampleNucleon, NucleonArgs.resonances]

/-- **C65** the difference uses isovector inputs only. -/
theorem C65_isovector (k : NucleonClass) (electric : Bool) (x x' : NucleonArgs) (hx : x.Proper) (hx' : x'.Proper)
    (h : SameIsovector x x') (t yp yn yp' yn' : ℂ)
    (hp : k.run true electric x t = .ok yp) (hn : k.run false electric x t = .ok yn)
    (hp' : k.run true electric x' t = .ok yp') (hn' : k.run false electric x' t = .ok yn') : yp - yn = yp' - yn' := by
  obtain ⟨e1, e2⟩ := h.parts (k := k) t
  rw [NucleonClass.run_value hx hp, NucleonClass.run_value hx hn, NucleonClass.run_value hx' hp', NucleonClass.run_value hx' hn',
    e1, e2]
  simp only [nVal, h.nucleon_mass, Bool.false_eq_true, if_true, if_false]
  ring

example : SameIsovector exampleNucleon { exampleNucleon with a_pauli_phi := 77, magnetic_moment_proton := 4, magnetic_moment_neutron := -1 } := by
  constructor <;> norm_num [exampleNucleon, NucleonArgs.resonances]

/-- **C65** the proton and the neutron can be evaluated at the same points. -/
theorem C65_switch_domain (k : NucleonClass) (electric : Bool) (x : NucleonArgs) (hx : x.Proper) (t : ℂ)
    (hb : k.Builds true electric x) (hb' : k.Builds false electric x) :
    (∃ y, k.run true electric x t = .ok y) ↔ ∃ y, k.run false electric x t = .ok y := by
  rw [(C63_nucleon_domain k true electric x hx hb t).2.2, (C63_nucleon_domain k false electric x hx hb' t).2.2,
    k.singular_iff hx hb, k.singular_iff hx hb']

example (k : NucleonClass) (b e : Bool) : ∃ y, k.run b e exampleNucleon 0 = .ok y := exampleNucleon_evaluates k b e

/-! ### C62: the two classes coincide for zero widths -/

/-- **C62** with all widths zero the new nucleon model and the old one have the same outcome (value or exception, including
exceptions while building) at every `t`. -/
theorem C62_zero_width_classes_agree (proton electric : Bool) (x : NucleonArgs) (hx : x.Proper) (hz : x.ZeroWidth) (t : ℂ) :
    NucleonClass.new.run proton electric x t = NucleonClass.old.run proton electric x t := by
  have hinit := init_zero_width hz proton electric
  rcases hm : NucleonBase.init buildComponent proton electric x with e | m
  · have h1 : NucleonClass.new.run proton electric x t = .error e := by
      show (do let m ← NucleonUAModel.init proton electric x; _) = _
      unfold NucleonUAModel.init
      rw [hinit, hm]; rfl
    have h2 : NucleonClass.old.run proton electric x t = .error e := by
      show (do let m ← NucleonUAModelOld.init proton electric x; _) = _
      unfold NucleonUAModelOld.init
      rw [hm]; rfl
    rw [h1, h2]
  · have b1 : NucleonClass.new.Builds proton electric x := by
      refine ⟨{ m with mass_terms_cache := fun _ => none }, ?_⟩
      unfold NucleonUAModel.init
      rw [hinit, hm]; rfl
    have b2 : NucleonClass.old.Builds proton electric x := ⟨m, hm⟩
    obtain ⟨m1, n1, r1⟩ := NucleonClass.run_built hx b1
    obtain ⟨m2, n2, r2⟩ := NucleonClass.run_built hx b2
    rw [r1, r2]
    rw [← hinit] at hm
    obtain ⟨⟨K1, i1⟩, ⟨K2, i2⟩, K3, i3⟩ := init_inv hm
    have p1 := n1.ds.omega.h0
    have p2 := n1.dv.rho.h0
    have p3 := n1.ps.omega.h0
    have s1 : NucleonClass.new.cDS x = (NucleonClass.old.cDS x).scale _ := cS_zero_width hz p1 hx.1 i1
    have s2 : NucleonClass.new.cDV x = (NucleonClass.old.cDV x).scale _ := cV_zero_width hz p2 hx.2.1 i2
    have s3 : NucleonClass.new.cPS x = (NucleonClass.old.cPS x).scale _ := cS_zero_width hz p3 hx.2.2.1 i3
    have q1 := kFac_ne p1 hx.1
    have q2 := kFac_ne p2 hx.2.1
    have q3 := kFac_ne p3 hx.2.2.1
    have ethr : ∀ s, x.thrS NucleonClass.new.thr s = x.thrS NucleonClass.old.thr s ∧
        x.thrT NucleonClass.new.thr s = x.thrT NucleonClass.old.thr s := by
      intro s
      have hz' := hz
      simp only [NucleonArgs.ZeroWidth, NucleonArgs.resonances, List.forall_mem_cons] at hz'
      obtain ⟨h1, h2, h3, h4, h5, h6, h7, h8, h9, _⟩ := hz'
      simp only [NucleonArgs.thrS, NucleonArgs.thrT, NucleonClass.thr, thrNew, tMesonPole_re, h1, h2, h3, h4, h5, h6, h7, h8, h9]
      simp only [ne_eq, OfNat.ofNat_ne_zero, not_false_eq_true, zero_pow, zero_div, sub_zero]
      constructor <;> congr
    have hsing : NSingular x electric (NucleonClass.new.cDS x) (NucleonClass.new.cDV x) (NucleonClass.new.cPS x) t ↔
        NSingular x electric (NucleonClass.old.cDS x) (NucleonClass.old.cDV x) (NucleonClass.old.cPS x) t := by
      unfold NSingular
      rw [s1, s2, s3, DSok_scale q1, DVok_scale q2, PSok_scale q3]
    by_cases hre : t.re < 0
    · rw [evalC_neg hre, evalC_neg hre]
    rw [not_lt] at hre
    by_cases hs : NSingular x electric (NucleonClass.new.cDS x) (NucleonClass.new.cDV x) (NucleonClass.new.cPS x) t
    · rw [n1.evalC_zde hre hs, n2.evalC_zde hre (hsing.mp hs)]
    rw [n1.evalC_ok hre hs, n2.evalC_ok hre (mt hsing.mpr hs)]
    unfold dsAt dvAt psAt pvAt
    rw [(ethr _).1, (ethr _).1, (ethr _).2, (ethr _).2, s1, s2, s3, dsVal_scale q1, dvVal_scale q2, psVal_scale q3]

/-- The example parameters with the four non-zero widths removed. -/
example : NucleonArgs.ZeroWidth { exampleNucleon with decay_rate_omega := 0, decay_rate_phi := 0, decay_rate_phi_prime := 0, decay_rate_rho := 0 } := by
  simp [NucleonArgs.ZeroWidth, NucleonArgs.resonances, exampleNucleon]

end UA
