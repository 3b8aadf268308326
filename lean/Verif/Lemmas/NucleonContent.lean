import Verif.Spec.NucleonContent
import Verif.Lemmas.Content
import Verif.Lemmas.NucleonInside

/-!
# Helper facts for property C106
-/

namespace UA

open Complex ComplexConjugate

/-! ### When a model can be constructed -/

/-- `_build_component` of a class. -/
noncomputable def NucleonClass.build : NucleonClass → ℝ → ℝ → ℝ → ℝ → Except PyErr UAComponent
  | .new => nucleonBuildComponent
  | .old => buildComponent

theorem initSix_iff {build : ℝ → ℝ → ℝ → ℝ → Except PyErr UAComponent} {x : NucleonArgs} {t_0 t_in : ℝ} :
    (∃ c, initIsoscalarComponents build x t_0 t_in = .ok c) ↔ ∀ r ∈ x.resonances.take 6, ∃ c, build t_0 t_in r.1 r.2 = .ok c := by
  simp only [NucleonArgs.resonances, List.take_succ_cons, List.take_zero, List.forall_mem_cons, List.not_mem_nil, false_imp_iff,
    implies_true, and_true]
  constructor
  · rintro ⟨c, h⟩
    unfold initIsoscalarComponents at h
    refine bindE h fun c0 e0 h => ?_
    refine bindE h fun c1 e1 h => ?_
    refine bindE h fun c2 e2 h => ?_
    refine bindE h fun c3 e3 h => ?_
    refine bindE h fun c4 e4 h => ?_
    refine bindE h fun c5 e5 h => ?_
    exact ⟨⟨_, e0⟩, ⟨_, e1⟩, ⟨_, e2⟩, ⟨_, e3⟩, ⟨_, e4⟩, _, e5⟩
  · rintro ⟨h1, h2, h3, h4, h5, h6⟩
    exact initSix_ok h1 h2 h3 h4 h5 h6

theorem initThree_iff {build : ℝ → ℝ → ℝ → ℝ → Except PyErr UAComponent} {x : NucleonArgs} {t_0 t_in : ℝ} :
    (∃ c, initIsovectorComponents build x t_0 t_in = .ok c) ↔ ∀ r ∈ x.resonances.drop 6, ∃ c, build t_0 t_in r.1 r.2 = .ok c := by
  simp only [NucleonArgs.resonances, List.drop_succ_cons, List.drop_zero, List.forall_mem_cons, List.not_mem_nil, false_imp_iff,
    implies_true, and_true]
  constructor
  · rintro ⟨c, h⟩
    unfold initIsovectorComponents at h
    refine bindE h fun c0 e0 h => ?_
    refine bindE h fun c1 e1 h => ?_
    refine bindE h fun c2 e2 h => ?_
    exact ⟨⟨_, e0⟩, ⟨_, e1⟩, _, e2⟩
  · rintro ⟨h1, h2, h3⟩
    exact initThree_ok h1 h2 h3

/-- What the constructor needs. -/
def NucleonArgs.Accepts (build : ℝ → ℝ → ℝ → ℝ → Except PyErr UAComponent) (x : NucleonArgs) : Prop :=
  0 ≤ x.t_0_dirac_isoscalar ∧ 0 ≤ x.t_0_dirac_isovector ∧ 0 ≤ x.t_0_pauli_isoscalar ∧ 0 ≤ x.t_0_pauli_isovector ∧
  (∀ r ∈ x.resonances.take 6, ∃ c, build x.t_0_dirac_isoscalar x.t_in_dirac_isoscalar r.1 r.2 = .ok c) ∧
  (∀ r ∈ x.resonances.drop 6, ∃ c, build x.t_0_dirac_isovector x.t_in_dirac_isovector r.1 r.2 = .ok c) ∧
  (∀ r ∈ x.resonances.take 6, ∃ c, build x.t_0_pauli_isoscalar x.t_in_pauli_isoscalar r.1 r.2 = .ok c) ∧
  (∀ r ∈ x.resonances.drop 6, ∃ c, build x.t_0_pauli_isovector x.t_in_pauli_isovector r.1 r.2 = .ok c)

theorem NucleonBase.init_iff {build : ℝ → ℝ → ℝ → ℝ → Except PyErr UAComponent} {pr el : Bool} {x : NucleonArgs} (hx : x.Proper) :
    (∃ m, NucleonBase.init build pr el x = .ok m) ↔ x.Accepts build := by
  constructor
  · rintro ⟨m, h⟩
    unfold NucleonBase.init at h
    refine bindE h fun m1 e1 h => ?_
    refine bindE h fun m2 e2 h => ?_
    refine bindE h fun m3 e3 h => ?_
    refine bindE h fun m4 e4 h => ?_
    refine bindE h fun k1 f1 h => ?_
    refine bindE h fun k2 f2 h => ?_
    refine bindE h fun k3 f3 h => ?_
    refine bindE h fun k4 f4 h => ?_
    exact ⟨(TtoW_init_eq_ok e1).1, (TtoW_init_eq_ok e2).1, (TtoW_init_eq_ok e3).1, (TtoW_init_eq_ok e4).1, initSix_iff.mp ⟨_, f1⟩,
      initThree_iff.mp ⟨_, f2⟩, initSix_iff.mp ⟨_, f3⟩, initThree_iff.mp ⟨_, f4⟩⟩
  · rintro ⟨h1, h2, h3, h4, e1, e2, e3, e4⟩
    exact NucleonBase.init_ok h1 h2 h3 h4 hx (initSix_iff.mpr e1) (initThree_iff.mpr e2) (initSix_iff.mpr e3) (initThree_iff.mpr e4)

theorem NucleonClass.builds_iff {k : NucleonClass} {pr el : Bool} {x : NucleonArgs} (hx : x.Proper) :
    k.Builds pr el x ↔ x.Accepts k.build := by
  cases k with
  | old => exact NucleonBase.init_iff hx
  | new =>
    refine Iff.trans ?_ (NucleonBase.init_iff (pr := pr) (el := el) hx)
    constructor
    · rintro ⟨m, h⟩
      unfold NucleonUAModel.init at h
      exact bindE h fun b e _ => ⟨b, e⟩
    · rintro ⟨b, e⟩
      have e' : NucleonBase.init nucleonBuildComponent pr el x = .ok b := e
      exact ⟨_, by unfold NucleonUAModel.init; rw [e']; rfl⟩

theorem buildNucleon_exists {t_0 t_in m g : ℝ} (h0 : 0 ≤ t_0) (h : t_0 < t_in) : (∃ c, nucleonBuildComponent t_0 t_in m g = .ok c) ↔
    t_0 ≤ m ^ 2 - g ^ 2 / 4 ∧ ¬ (g = 0 ∧ (m ^ 2 = t_0 ∨ m ^ 2 = t_in)) := by
  have ht := C12_thresholds_nucleon t_0 t_in m g h0 h
  constructor
  · rintro ⟨c, hc⟩
    refine ⟨not_lt.mp fun h' => ?_, fun h' => ?_⟩
    · rw [ht.1.mpr h'] at hc; cases hc
    · rw [ht.2.1.mpr h'] at hc; cases hc
  · rintro ⟨h1, h2⟩
    by_cases hlt : m ^ 2 - g ^ 2 / 4 < t_in
    · obtain ⟨c, hc, -⟩ := ht.2.2.1.mpr ⟨h1, hlt, fun h' => h2 ⟨h'.1, Or.inl h'.2⟩⟩
      exact ⟨c, hc⟩
    · obtain ⟨c, hc, -⟩ := ht.2.2.2.mpr ⟨not_lt.mp hlt, fun h' => h2 ⟨h'.1, Or.inr h'.2⟩⟩
      exact ⟨c, hc⟩

theorem NucleonClass.build_abs {k : NucleonClass} {t_0 t_in : ℝ} (h0 : 0 ≤ t_0) (h : t_0 < t_in) (m g : ℝ) :
    (∃ c, k.build t_0 t_in |m| |g| = .ok c) ↔ ∃ c, k.build t_0 t_in m g = .ok c := by
  cases k with
  | new => simp only [NucleonClass.build]; rw [buildNucleon_exists h0 h, buildNucleon_exists h0 h, sq_abs, sq_abs, abs_eq_zero]
  | old => simp only [NucleonClass.build]; rw [buildComponent_exists h0 h, buildComponent_exists h0 h, sq_abs, abs_eq_zero]

/-! ### Agreement of two models -/

/-- The two argument sets are interchangeable. -/
def SameNucleon (k : NucleonClass) (pr el : Bool) (x x' : NucleonArgs) : Prop :=
  (x'.Proper ↔ x.Proper) ∧ (x.Proper → (k.Builds pr el x' ↔ k.Builds pr el x) ∧ (k.Builds pr el x → ∀ t, k.run pr el x' t = k.run pr el x t))

theorem SameNucleon.refl {k : NucleonClass} {pr el : Bool} (x : NucleonArgs) : SameNucleon k pr el x x := ⟨Iff.rfl, fun _ => ⟨Iff.rfl, fun _ _ => rfl⟩⟩

theorem SameNucleon.symm {k : NucleonClass} {pr el : Bool} {x x' : NucleonArgs} (h : SameNucleon k pr el x x') : SameNucleon k pr el x' x :=
  ⟨h.1.symm, fun hp => ⟨(h.2 (h.1.mp hp)).1.symm, fun hb t => ((h.2 (h.1.mp hp)).2 ((h.2 (h.1.mp hp)).1.mp hb) t).symm⟩⟩

theorem SameNucleon.trans {k : NucleonClass} {pr el : Bool} {x y z : NucleonArgs} (h : SameNucleon k pr el x y) (h' : SameNucleon k pr el y z) :
    SameNucleon k pr el x z := by
  refine ⟨h'.1.trans h.1, fun hp => ?_⟩
  obtain ⟨a, b⟩ := h.2 hp
  obtain ⟨c, d⟩ := h'.2 (h.1.mpr hp)
  exact ⟨c.trans a, fun hb t => (d (a.mpr hb) t).trans (b hb t)⟩

theorem run_congr {k : NucleonClass} {pr el : Bool} {x x' : NucleonArgs} (hx : x.Proper) (hx' : x'.Proper) (hb : k.Builds pr el x)
    (hb' : k.Builds pr el x')
    (hs : ∀ t, NSingular x' el (k.cDS x') (k.cDV x') (k.cPS x') t ↔ NSingular x el (k.cDS x) (k.cDV x) (k.cPS x) t)
    (hv : ∀ t, nVal x' pr el t (dsAt k.thr x' (k.cDS x') t) (dvAt k.thr x' (k.cDV x') t) (psAt k.thr x' (k.cPS x') t) (pvAt k.thr x' t) =
      nVal x pr el t (dsAt k.thr x (k.cDS x) t) (dvAt k.thr x (k.cDV x) t) (psAt k.thr x (k.cPS x) t) (pvAt k.thr x t)) (t : ℂ) :
    k.run pr el x' t = k.run pr el x t := by
  obtain ⟨m, b, e⟩ := NucleonClass.run_built hx hb
  obtain ⟨m', b', e'⟩ := NucleonClass.run_built hx' hb'
  rw [e, e']
  by_cases hre : t.re < 0
  · unfold evalC; rw [if_pos hre, if_pos hre]
  · by_cases h : NSingular x el (k.cDS x) (k.cDV x) (k.cPS x) t
    · rw [b.evalC_zde (not_lt.mp hre) h, b'.evalC_zde (not_lt.mp hre) ((hs t).mpr h)]
    · rw [b.evalC_ok (not_lt.mp hre) h, b'.evalC_ok (not_lt.mp hre) fun h' => h ((hs t).mp h'), hv]

theorem sameNucleon_of {k : NucleonClass} {pr el : Bool} {x x' : NucleonArgs} (hp : x'.Proper ↔ x.Proper) (ha : x.Proper → (x'.Accepts k.build ↔ x.Accepts k.build))
    (hs : x.Proper → ∀ t, NSingular x' el (k.cDS x') (k.cDV x') (k.cPS x') t ↔ NSingular x el (k.cDS x) (k.cDV x) (k.cPS x) t)
    (hv : x.Proper → ∀ t, nVal x' pr el t (dsAt k.thr x' (k.cDS x') t) (dvAt k.thr x' (k.cDV x') t) (psAt k.thr x' (k.cPS x') t) (pvAt k.thr x' t) =
      nVal x pr el t (dsAt k.thr x (k.cDS x) t) (dvAt k.thr x (k.cDV x) t) (psAt k.thr x (k.cPS x) t) (pvAt k.thr x t)) : SameNucleon k pr el x x' := by
  refine ⟨hp, fun hx => ?_⟩
  have hb : k.Builds pr el x' ↔ k.Builds pr el x := by rw [NucleonClass.builds_iff hx, NucleonClass.builds_iff (hp.mpr hx), ha hx]
  exact ⟨hb, fun h t => run_congr hx (hp.mpr hx) h (hb.mpr h) (hs hx) (hv hx) t⟩

/-! ### Exchanges -/

def Six.omegaPhi {α : Type} (s : Six α) : Six α := { s with omega := s.phi, phi := s.omega }
def Six.phiPhiPrime {α : Type} (s : Six α) : Six α := { s with phi := s.phi_prime, phi_prime := s.phi }
def Six.doublePrimes {α : Type} (s : Six α) : Six α := { s with omega_double_prime := s.phi_double_prime, phi_double_prime := s.omega_double_prime }
def Three.primes {α : Type} (s : Three α) : Three α := { s with rho_prime := s.rho_double_prime, rho_double_prime := s.rho_prime }

theorem omega_phi_same (k : NucleonClass) (pr el : Bool) (x : NucleonArgs) : SameNucleon k pr el x { x with
      a_dirac_omega := x.a_dirac_phi, a_pauli_omega := x.a_pauli_phi, mass_omega := x.mass_phi, decay_rate_omega := x.decay_rate_phi
      a_dirac_phi := x.a_dirac_omega, a_pauli_phi := x.a_pauli_omega, mass_phi := x.mass_omega, decay_rate_phi := x.decay_rate_omega } := by
  set x' : NucleonArgs := { x with
      a_dirac_omega := x.a_dirac_phi, a_pauli_omega := x.a_pauli_phi, mass_omega := x.mass_phi, decay_rate_omega := x.decay_rate_phi
      a_dirac_phi := x.a_dirac_omega, a_pauli_phi := x.a_pauli_omega, mass_phi := x.mass_omega, decay_rate_phi := x.decay_rate_omega } with hx'
  have c1 : k.cDS x' = (k.cDS x).omegaPhi := by cases k <;> rfl
  have c2 : k.cPS x' = (k.cPS x).omegaPhi := by cases k <;> rfl
  have c3 : k.cDV x' = k.cDV x := by cases k <;> rfl
  refine sameNucleon_of Iff.rfl (fun _ => ?_) (fun _ t => ?_) fun _ t => ?_
  · simp only [hx', NucleonArgs.Accepts, NucleonArgs.resonances, List.take_succ_cons, List.take_zero, List.drop_succ_cons, List.drop_zero,
      List.forall_mem_cons, List.not_mem_nil, false_imp_iff, implies_true, and_true]
    tauto
  · rw [c1, c2, c3]
    unfold NSingular
    refine or_congr Iff.rfl (or_congr ?_ (or_congr ?_ Iff.rfl))
    · simp only [hx', NucleonArgs.poleS, NucleonArgs.poleT, Six.toList, Three.toList, List.cons_append,
        List.nil_append, List.mem_cons, List.not_mem_nil, or_false, exists_eq_or_imp, exists_eq_left]
      tauto
    · simp only [DSok, PSok, Six.omegaPhi]
  · rw [c1, c2, c3]
    have e1 : dsAt k.thr x' (k.cDS x).omegaPhi t = dsAt k.thr x (k.cDS x) t := by
      show dsVal x' (Six.F x.t_0_dirac_isoscalar x.t_in_dirac_isoscalar (x.thrS k.thr x.t_in_dirac_isoscalar) x.poleS t).omegaPhi _ = dsVal x _ _
      generalize Six.F x.t_0_dirac_isoscalar x.t_in_dirac_isoscalar (x.thrS k.thr x.t_in_dirac_isoscalar) x.poleS t = F
      simp only [dsVal, Six.omegaPhi, hx']; ring
    have e2 : psAt k.thr x' (k.cPS x).omegaPhi t = psAt k.thr x (k.cPS x) t := by
      show psVal x' (Six.F x.t_0_pauli_isoscalar x.t_in_pauli_isoscalar (x.thrS k.thr x.t_in_pauli_isoscalar) x.poleS t).omegaPhi _ = psVal x _ _
      generalize Six.F x.t_0_pauli_isoscalar x.t_in_pauli_isoscalar (x.thrS k.thr x.t_in_pauli_isoscalar) x.poleS t = F
      simp only [psVal, Six.omegaPhi, hx']; ring
    rw [e1, e2]
    rfl

theorem phi_phi_prime_same (k : NucleonClass) (pr el : Bool) (x : NucleonArgs) : SameNucleon k pr el x { x with
      a_dirac_phi := x.a_dirac_phi_prime, a_pauli_phi := x.a_pauli_phi_prime, mass_phi := x.mass_phi_prime
      decay_rate_phi := x.decay_rate_phi_prime
      a_dirac_phi_prime := x.a_dirac_phi, a_pauli_phi_prime := x.a_pauli_phi, mass_phi_prime := x.mass_phi
      decay_rate_phi_prime := x.decay_rate_phi } := by
  set x' : NucleonArgs := { x with
      a_dirac_phi := x.a_dirac_phi_prime, a_pauli_phi := x.a_pauli_phi_prime, mass_phi := x.mass_phi_prime
      decay_rate_phi := x.decay_rate_phi_prime
      a_dirac_phi_prime := x.a_dirac_phi, a_pauli_phi_prime := x.a_pauli_phi, mass_phi_prime := x.mass_phi
      decay_rate_phi_prime := x.decay_rate_phi } with hx'
  have c1 : k.cDS x' = (k.cDS x).phiPhiPrime := by cases k <;> rfl
  have c2 : k.cPS x' = (k.cPS x).phiPhiPrime := by cases k <;> rfl
  have c3 : k.cDV x' = k.cDV x := by cases k <;> rfl
  refine sameNucleon_of Iff.rfl (fun _ => ?_) (fun _ t => ?_) fun _ t => ?_
  · simp only [hx', NucleonArgs.Accepts, NucleonArgs.resonances, List.take_succ_cons, List.take_zero, List.drop_succ_cons, List.drop_zero,
      List.forall_mem_cons, List.not_mem_nil, false_imp_iff, implies_true, and_true]
    tauto
  · rw [c1, c2, c3]
    unfold NSingular
    refine or_congr Iff.rfl (or_congr ?_ (or_congr ?_ Iff.rfl))
    · simp only [hx', NucleonArgs.poleS, NucleonArgs.poleT, Six.toList, Three.toList, List.cons_append,
        List.nil_append, List.mem_cons, List.not_mem_nil, or_false, exists_eq_or_imp, exists_eq_left]
      tauto
    · simp only [DSok, PSok, Six.phiPhiPrime]
  · rw [c1, c2, c3]
    have e1 : dsAt k.thr x' (k.cDS x).phiPhiPrime t = dsAt k.thr x (k.cDS x) t := by
      show dsVal x' (Six.F x.t_0_dirac_isoscalar x.t_in_dirac_isoscalar (x.thrS k.thr x.t_in_dirac_isoscalar) x.poleS t).phiPhiPrime _ = dsVal x _ _
      generalize Six.F x.t_0_dirac_isoscalar x.t_in_dirac_isoscalar (x.thrS k.thr x.t_in_dirac_isoscalar) x.poleS t = F
      simp only [dsVal, Six.phiPhiPrime, hx']; ring
    have e2 : psAt k.thr x' (k.cPS x).phiPhiPrime t = psAt k.thr x (k.cPS x) t := by
      show psVal x' (Six.F x.t_0_pauli_isoscalar x.t_in_pauli_isoscalar (x.thrS k.thr x.t_in_pauli_isoscalar) x.poleS t).phiPhiPrime _ = psVal x _ _
      generalize Six.F x.t_0_pauli_isoscalar x.t_in_pauli_isoscalar (x.thrS k.thr x.t_in_pauli_isoscalar) x.poleS t = F
      simp only [psVal, Six.phiPhiPrime, hx']; ring
    rw [e1, e2]
    rfl

theorem double_primes_same (k : NucleonClass) (pr el : Bool) (x : NucleonArgs) : SameNucleon k pr el x { x with
      mass_omega_double_prime := x.mass_phi_double_prime, decay_rate_omega_double_prime := x.decay_rate_phi_double_prime
      mass_phi_double_prime := x.mass_omega_double_prime, decay_rate_phi_double_prime := x.decay_rate_omega_double_prime } := by
  set x' : NucleonArgs := { x with
      mass_omega_double_prime := x.mass_phi_double_prime, decay_rate_omega_double_prime := x.decay_rate_phi_double_prime
      mass_phi_double_prime := x.mass_omega_double_prime, decay_rate_phi_double_prime := x.decay_rate_omega_double_prime } with hx'
  have c1 : k.cDS x' = (k.cDS x).doublePrimes := by cases k <;> rfl
  have c2 : k.cPS x' = (k.cPS x).doublePrimes := by cases k <;> rfl
  have c3 : k.cDV x' = k.cDV x := by cases k <;> rfl
  refine sameNucleon_of Iff.rfl (fun _ => ?_) (fun _ t => ?_) fun _ t => ?_
  · simp only [hx', NucleonArgs.Accepts, NucleonArgs.resonances, List.take_succ_cons, List.take_zero, List.drop_succ_cons, List.drop_zero,
      List.forall_mem_cons, List.not_mem_nil, false_imp_iff, implies_true, and_true]
    tauto
  · rw [c1, c2, c3]
    unfold NSingular
    refine or_congr Iff.rfl (or_congr ?_ (or_congr ?_ Iff.rfl))
    · simp only [hx', NucleonArgs.poleS, NucleonArgs.poleT, Six.toList, Three.toList, List.cons_append,
        List.nil_append, List.mem_cons, List.not_mem_nil, or_false, exists_eq_or_imp, exists_eq_left]
      tauto
    · simp only [DSok, PSok, Six.doublePrimes, ne_comm (a := (k.cDS x).omega_double_prime), ne_comm (a := (k.cPS x).omega_double_prime) (b := (k.cPS x).phi_double_prime)]
      tauto
  · rw [c1, c2, c3]
    have e1 : dsAt k.thr x' (k.cDS x).doublePrimes t = dsAt k.thr x (k.cDS x) t := by
      show dsVal x' (Six.F x.t_0_dirac_isoscalar x.t_in_dirac_isoscalar (x.thrS k.thr x.t_in_dirac_isoscalar) x.poleS t).doublePrimes _ = dsVal x _ _
      generalize Six.F x.t_0_dirac_isoscalar x.t_in_dirac_isoscalar (x.thrS k.thr x.t_in_dirac_isoscalar) x.poleS t = F
      simp only [dsVal, dTerm, Six.doublePrimes, hx']; ring
    have e2 : psAt k.thr x' (k.cPS x).doublePrimes t = psAt k.thr x (k.cPS x) t := by
      show psVal x' (Six.F x.t_0_pauli_isoscalar x.t_in_pauli_isoscalar (x.thrS k.thr x.t_in_pauli_isoscalar) x.poleS t).doublePrimes _ = psVal x _ _
      generalize Six.F x.t_0_pauli_isoscalar x.t_in_pauli_isoscalar (x.thrS k.thr x.t_in_pauli_isoscalar) x.poleS t = F
      simp only [psVal, pTerm, Six.doublePrimes, hx']; ring
    rw [e1, e2]
    rfl

theorem rho_primes_same (k : NucleonClass) (pr el : Bool) (x : NucleonArgs) : SameNucleon k pr el x { x with
      mass_rho_prime := x.mass_rho_double_prime, decay_rate_rho_prime := x.decay_rate_rho_double_prime
      mass_rho_double_prime := x.mass_rho_prime, decay_rate_rho_double_prime := x.decay_rate_rho_prime } := by
  set x' : NucleonArgs := { x with
      mass_rho_prime := x.mass_rho_double_prime, decay_rate_rho_prime := x.decay_rate_rho_double_prime
      mass_rho_double_prime := x.mass_rho_prime, decay_rate_rho_double_prime := x.decay_rate_rho_prime } with hx'
  have c1 : k.cDS x' = k.cDS x := by cases k <;> rfl
  have c2 : k.cPS x' = k.cPS x := by cases k <;> rfl
  have c3 : k.cDV x' = (k.cDV x).primes := by cases k <;> rfl
  refine sameNucleon_of Iff.rfl (fun _ => ?_) (fun _ t => ?_) fun _ t => ?_
  · simp only [hx', NucleonArgs.Accepts, NucleonArgs.resonances, List.take_succ_cons, List.take_zero, List.drop_succ_cons, List.drop_zero,
      List.forall_mem_cons, List.not_mem_nil, false_imp_iff, implies_true, and_true]
    tauto
  · rw [c1, c2, c3]
    unfold NSingular
    refine or_congr Iff.rfl (or_congr ?_ (or_congr ?_ Iff.rfl))
    · simp only [hx', NucleonArgs.poleS, NucleonArgs.poleT, Six.toList, Three.toList, List.cons_append,
        List.nil_append, List.mem_cons, List.not_mem_nil, or_false, exists_eq_or_imp, exists_eq_left]
      tauto
    · simp only [DVok, Three.primes, ne_comm (a := (k.cDV x).rho_double_prime)]
  · rw [c1, c2, c3]
    have e1 : dvAt k.thr x' (k.cDV x).primes t = dvAt k.thr x (k.cDV x) t := by
      show dvVal x' (Three.F x.t_0_dirac_isovector x.t_in_dirac_isovector (x.thrT k.thr x.t_in_dirac_isovector) x.poleT t).primes _ = dvVal x _ _
      generalize Three.F x.t_0_dirac_isovector x.t_in_dirac_isovector (x.thrT k.thr x.t_in_dirac_isovector) x.poleT t = F
      simp only [dvVal, dTerm, Three.primes, hx']; ring
    have e2 : pvAt k.thr x' t = pvAt k.thr x t := by
      show pvVal x' (Three.F x.t_0_pauli_isovector x.t_in_pauli_isovector (x.thrT k.thr x.t_in_pauli_isovector) x.poleT t).primes = pvVal x _
      generalize Three.F x.t_0_pauli_isovector x.t_in_pauli_isovector (x.thrT k.thr x.t_in_pauli_isovector) x.poleT t = F
      simp only [pvVal, Three.primes, hx']; ring
    rw [e1, e2]
    rfl

/-! ### Signs -/

theorem tMesonPole_abs (m g : ℝ) : tMesonPole m g = tMesonPole |m| |g| ∨ tMesonPole m g = conj (tMesonPole |m| |g|) := by
  have := pole_unsigned ⟨0, m, g⟩
  simpa only [Res.pole, Res.unsigned] using this

theorem massTerm_conj_pole (v : Variant) {t_0 t_in : ℝ} (h : t_0 < t_in) (p : ℂ) : massTerm v t_0 t_in (conj p) = massTerm v t_0 t_in p := by
  by_cases hp : p.im = 0
  · rw [Complex.conj_eq_iff_im.mpr hp]
  · unfold massTerm
    rw [Wval_conj h fun h' => hp h'.1, quart_conj_pole]
    have : conj (Wval t_0 t_in p) - 1 / conj (Wval t_0 t_in p) = conj (Wval t_0 t_in p - 1 / Wval t_0 t_in p) := by simp
    rw [this, Complex.norm_conj]

theorem thr_abs (k : NucleonClass) (m g : ℝ) : k.thr |m| |g| = k.thr m g := by
  cases k <;> simp [NucleonClass.thr, tMesonPole_re]

theorem pole_abs_iff (m g : ℝ) (t : ℂ) : (t = tMesonPole |m| |g| ∨ t = conj (tMesonPole |m| |g|)) ↔ (t = tMesonPole m g ∨ t = conj (tMesonPole m g)) := by
  rcases tMesonPole_abs m g with e | e <;> rw [e]
  rw [conj_conj, or_comm]

theorem F_abs (v : Variant) {t_0 t_in : ℝ} (h : t_0 < t_in) (m g : ℝ) (t : ℂ) :
    Fval v t_0 t_in (tMesonPole |m| |g|) t = Fval v t_0 t_in (tMesonPole m g) t := by
  rcases tMesonPole_abs m g with e | e <;> rw [e]
  rw [Fval_conj_pole _ h]

theorem massTerm_abs (v : Variant) {t_0 t_in : ℝ} (h : t_0 < t_in) (m g : ℝ) :
    massTerm v t_0 t_in (tMesonPole |m| |g|) = massTerm v t_0 t_in (tMesonPole m g) := by
  rcases tMesonPole_abs m g with e | e <;> rw [e]
  rw [massTerm_conj_pole _ h]

theorem unsigned_thrS (k : NucleonClass) (x : NucleonArgs) (t_in : ℝ) : x.unsigned.thrS k.thr t_in = x.thrS k.thr t_in := by
  simp only [NucleonArgs.thrS, NucleonArgs.unsigned, thr_abs]

theorem unsigned_thrT (k : NucleonClass) (x : NucleonArgs) (t_in : ℝ) : x.unsigned.thrT k.thr t_in = x.thrT k.thr t_in := by
  simp only [NucleonArgs.thrT, NucleonArgs.unsigned, thr_abs]

theorem unsigned_FS {x : NucleonArgs} {t_0 t_in : ℝ} (h : t_0 < t_in) (V : Six Variant) (t : ℂ) :
    Six.F t_0 t_in V x.unsigned.poleS t = Six.F t_0 t_in V x.poleS t := by
  simp only [Six.F, Six.map₂, NucleonArgs.poleS, NucleonArgs.unsigned, F_abs _ h]

theorem unsigned_FT {x : NucleonArgs} {t_0 t_in : ℝ} (h : t_0 < t_in) (V : Three Variant) (t : ℂ) :
    Three.F t_0 t_in V x.unsigned.poleT t = Three.F t_0 t_in V x.poleT t := by
  simp only [Three.F, Three.map₂, NucleonArgs.poleT, NucleonArgs.unsigned, F_abs _ h]

theorem unsigned_cS {x : NucleonArgs} {t_0 t_in : ℝ} (h : t_0 < t_in) : x.unsigned.cS t_0 t_in = x.cS t_0 t_in := by
  unfold NucleonArgs.cS
  rw [show x.unsigned.thrS thrNew t_in = x.thrS thrNew t_in from unsigned_thrS .new x t_in]
  simp only [Six.map₂, NucleonArgs.poleS, NucleonArgs.unsigned, massTerm_abs _ h]

theorem unsigned_cV {x : NucleonArgs} {t_0 t_in : ℝ} (h : t_0 < t_in) : x.unsigned.cV t_0 t_in = x.cV t_0 t_in := by
  unfold NucleonArgs.cV
  rw [show x.unsigned.thrT thrNew t_in = x.thrT thrNew t_in from unsigned_thrT .new x t_in]
  simp only [Three.map₂, NucleonArgs.poleT, NucleonArgs.unsigned, massTerm_abs _ h]

theorem unsigned_squaresS (x : NucleonArgs) : x.unsigned.squaresS = x.squaresS := by
  simp only [NucleonArgs.squaresS, NucleonArgs.unsigned, ← ofReal_pow, sq_abs]

theorem unsigned_squaresV (x : NucleonArgs) : x.unsigned.squaresV = x.squaresV := by
  simp only [NucleonArgs.squaresV, NucleonArgs.unsigned, ← ofReal_pow, sq_abs]

theorem unsigned_same (k : NucleonClass) (pr el : Bool) (x : NucleonArgs) : SameNucleon k pr el x x.unsigned := by
  have c1 : x.Proper → k.cDS x.unsigned = k.cDS x := fun hp => by
    cases k
    · exact unsigned_cS hp.1
    · exact unsigned_squaresS x
  have c2 : x.Proper → k.cPS x.unsigned = k.cPS x := fun hp => by
    cases k
    · exact unsigned_cS hp.2.2.1
    · exact unsigned_squaresS x
  have c3 : x.Proper → k.cDV x.unsigned = k.cDV x := fun hp => by
    cases k
    · exact unsigned_cV hp.2.1
    · exact unsigned_squaresV x
  refine sameNucleon_of Iff.rfl (fun hp => ?_) (fun hp t => ?_) fun hp t => ?_
  · unfold NucleonArgs.Accepts
    refine and_congr_right fun h1 => and_congr_right fun h2 => and_congr_right fun h3 => and_congr_right fun h4 => ?_
    have key : ∀ {t_0 t_in : ℝ}, 0 ≤ t_0 → t_0 < t_in → ∀ (rs : List (ℝ × ℝ)),
        (∀ r ∈ rs.map (fun r => (|r.1|, |r.2|)), ∃ c, k.build t_0 t_in r.1 r.2 = .ok c) ↔ ∀ r ∈ rs, ∃ c, k.build t_0 t_in r.1 r.2 = .ok c := by
      intro t_0 t_in h0 h rs
      simp only [List.mem_map, forall_exists_index, and_imp, forall_apply_eq_imp_iff₂, NucleonClass.build_abs h0 h]
    have e1 : x.unsigned.resonances.take 6 = (x.resonances.take 6).map fun r => (|r.1|, |r.2|) := rfl
    have e2 : x.unsigned.resonances.drop 6 = (x.resonances.drop 6).map fun r => (|r.1|, |r.2|) := rfl
    rw [e1, e2]
    exact and_congr (key h1 hp.1 _) (and_congr (key h2 hp.2.1 _) (and_congr (key h3 hp.2.2.1 _) (key h4 hp.2.2.2 _)))
  · rw [c1 hp, c2 hp, c3 hp]
    unfold NSingular
    refine or_congr Iff.rfl (or_congr ?_ Iff.rfl)
    simp only [NucleonArgs.unsigned, NucleonArgs.poleS, NucleonArgs.poleT, Six.toList, Three.toList, List.cons_append,
      List.nil_append, List.mem_cons, List.not_mem_nil, or_false, exists_eq_or_imp, exists_eq_left, pole_abs_iff]
  · rw [c1 hp, c2 hp, c3 hp]
    have e1 : dsAt k.thr x.unsigned (k.cDS x) t = dsAt k.thr x (k.cDS x) t := by
      unfold dsAt
      rw [unsigned_thrS, show x.unsigned.t_0_dirac_isoscalar = x.t_0_dirac_isoscalar from rfl, show x.unsigned.t_in_dirac_isoscalar = x.t_in_dirac_isoscalar from rfl,
        unsigned_FS hp.1]
      rfl
    have e2 : psAt k.thr x.unsigned (k.cPS x) t = psAt k.thr x (k.cPS x) t := by
      unfold psAt
      rw [unsigned_thrS, show x.unsigned.t_0_pauli_isoscalar = x.t_0_pauli_isoscalar from rfl, show x.unsigned.t_in_pauli_isoscalar = x.t_in_pauli_isoscalar from rfl,
        unsigned_FS hp.2.2.1]
      rfl
    have e3 : dvAt k.thr x.unsigned (k.cDV x) t = dvAt k.thr x (k.cDV x) t := by
      unfold dvAt
      rw [unsigned_thrT, show x.unsigned.t_0_dirac_isovector = x.t_0_dirac_isovector from rfl, show x.unsigned.t_in_dirac_isovector = x.t_in_dirac_isovector from rfl,
        unsigned_FT hp.2.1]
      rfl
    have e4 : pvAt k.thr x.unsigned t = pvAt k.thr x t := by
      unfold pvAt
      rw [unsigned_thrT, show x.unsigned.t_0_pauli_isovector = x.t_0_pauli_isovector from rfl, show x.unsigned.t_in_pauli_isovector = x.t_in_pauli_isovector from rfl,
        unsigned_FT hp.2.2.2]
      rfl
    rw [e1, e2, e3, e4]
    rfl

theorem rewritten_same (k : NucleonClass) (pr el : Bool) {x x' : NucleonArgs} (h : x.Rewritten x') : SameNucleon k pr el x x' := by
  induction h with
  | refl x => exact .refl x
  | trans _ _ h h' => exact h.trans h'
  | signs h => exact (h ▸ unsigned_same k pr el _ : SameNucleon k pr el _ _).trans (unsigned_same k pr el _).symm
  | omega_phi x => exact omega_phi_same k pr el x
  | phi_phi_prime x => exact phi_phi_prime_same k pr el x
  | double_primes x => exact double_primes_same k pr el x
  | rho_primes x => exact rho_primes_same k pr el x

/-! ### Electric and magnetic -/

theorem init_electric (build : ℝ → ℝ → ℝ → ℝ → Except PyErr UAComponent) (pr el : Bool) (x : NucleonArgs) :
    NucleonBase.init build pr el x = (NucleonBase.init build pr false x).map fun m => { m with electric := el } := by
  unfold NucleonBase.init
  rcases MapFromTtoW.init x.t_0_dirac_isoscalar x.t_in_dirac_isoscalar with e | a1
  · rfl
  rcases MapFromTtoW.init x.t_0_dirac_isovector x.t_in_dirac_isovector with e | a2
  · rfl
  rcases MapFromTtoW.init x.t_0_pauli_isoscalar x.t_in_pauli_isoscalar with e | a3
  · rfl
  rcases MapFromTtoW.init x.t_0_pauli_isovector x.t_in_pauli_isovector with e | a4
  · rfl
  rcases initIsoscalarComponents build x x.t_0_dirac_isoscalar x.t_in_dirac_isoscalar with e | b1
  · rfl
  rcases initIsovectorComponents build x x.t_0_dirac_isovector x.t_in_dirac_isovector with e | b2
  · rfl
  rcases initIsoscalarComponents build x x.t_0_pauli_isoscalar x.t_in_pauli_isoscalar with e | b3
  · rfl
  rcases initIsovectorComponents build x x.t_0_pauli_isovector x.t_in_pauli_isovector with e | b4
  · rfl
  rfl

theorem combine_threshold {m : NucleonBase} (h : m.nucleon_mass ≠ 0) (ds dv ps pv : ℂ) :
    ({ m with electric := true } : NucleonBase).combine (4 * (m.nucleon_mass : ℂ) ^ 2) ds dv ps pv =
      ({ m with electric := false } : NucleonBase).combine (4 * (m.nucleon_mass : ℂ) ^ 2) ds dv ps pv := by
  have h4 : (4 * (m.nucleon_mass : ℂ) ^ 2) ≠ 0 := mul_ne_zero (by norm_num) (pow_ne_zero 2 (ofReal_ne_zero.mpr h))
  unfold NucleonBase.combine
  simp only [if_true, Bool.false_eq_true, if_false]
  rw [pyDiv_ok h4, except_ok_bind, div_self h4, one_mul]

theorem init_mass {build : ℝ → ℝ → ℝ → ℝ → Except PyErr UAComponent} {pr el : Bool} {x : NucleonArgs} {m : NucleonBase}
    (h : NucleonBase.init build pr el x = .ok m) : m.nucleon_mass = x.nucleon_mass ∧ m.electric = el := by
  unfold NucleonBase.init at h
  refine bindE h fun _ _ h => ?_
  refine bindE h fun _ _ h => ?_
  refine bindE h fun _ _ h => ?_
  refine bindE h fun _ _ h => ?_
  refine bindE h fun _ _ h => ?_
  refine bindE h fun _ _ h => ?_
  refine bindE h fun _ _ h => ?_
  refine bindE h fun _ _ h => ?_
  injection h with h
  subst h
  exact ⟨rfl, rfl⟩

theorem run_threshold (k : NucleonClass) (pr : Bool) {x : NucleonArgs} (h : x.nucleon_mass ≠ 0) :
    k.run pr true x (4 * (x.nucleon_mass : ℂ) ^ 2) = k.run pr false x (4 * (x.nucleon_mass : ℂ) ^ 2) := by
  cases k with
  | old =>
    show (do let m ← NucleonBase.init buildComponent pr true x; NucleonUAModelOld.call m _) =
      (do let m ← NucleonBase.init buildComponent pr false x; NucleonUAModelOld.call m _)
    rw [init_electric _ pr true]
    rcases hm : NucleonBase.init buildComponent pr false x with e | m
    · rfl
    · obtain ⟨h1, h2⟩ := init_mass hm
      have hc := combine_threshold (m := m) (h1 ▸ h)
      have hself : ({ m with electric := false } : NucleonBase) = m := by rw [← h2]
      rw [hself, h1] at hc
      show NucleonUAModelOld.call { m with electric := true } _ = NucleonUAModelOld.call m _
      unfold NucleonUAModelOld.call
      simp only [hc]
      rfl
  | new =>
    show (do let m ← NucleonUAModel.init pr true x; (m.call _).1) = (do let m ← NucleonUAModel.init pr false x; (m.call _).1)
    unfold NucleonUAModel.init
    rw [init_electric _ pr true]
    rcases hm : NucleonBase.init nucleonBuildComponent pr false x with e | m
    · rfl
    · obtain ⟨h1, h2⟩ := init_mass hm
      have hc := combine_threshold (m := m) (h1 ▸ h)
      have hself : ({ m with electric := false } : NucleonBase) = m := by rw [← h2]
      rw [hself, h1] at hc
      show (NucleonUAModel.call { toNucleonBase := { m with electric := true }, mass_terms_cache := fun _ => none } _).1 =
        (NucleonUAModel.call { toNucleonBase := m, mass_terms_cache := fun _ => none } _).1
      unfold NucleonUAModel.call
      simp only [hc]
      rfl

/-! ### Affine dependence on the strengths -/

/-- The arguments with other moments and couplings. -/
def NucleonArgs.withStrengths (x₀ x : NucleonArgs) : NucleonArgs :=
  { x₀ with
    magnetic_moment_proton := x.magnetic_moment_proton, magnetic_moment_neutron := x.magnetic_moment_neutron, a_dirac_omega := x.a_dirac_omega, a_dirac_omega_prime := x.a_dirac_omega_prime
    a_dirac_phi := x.a_dirac_phi, a_dirac_phi_prime := x.a_dirac_phi_prime, a_dirac_rho := x.a_dirac_rho, a_pauli_omega := x.a_pauli_omega
    a_pauli_phi := x.a_pauli_phi, a_pauli_phi_prime := x.a_pauli_phi_prime }

theorem eq_withStrengths {x₀ x : NucleonArgs} (h : x.positions = x₀.positions) : x = x₀.withStrengths x := by
  cases x₀; cases x
  simp only [NucleonArgs.positions, NucleonArgs.resonances, List.map_cons, List.map_nil, List.cons_append, List.nil_append, List.cons.injEq, and_true] at h
  simp only [NucleonArgs.withStrengths, NucleonArgs.mk.injEq]
  tauto

theorem run_affine {k : NucleonClass} {pr el : Bool} {x₀ x₁ x : NucleonArgs} (hp : x₀.Proper) (s : ℝ) (h₁ : x₁.positions = x₀.positions)
    (h : x.positions = x₀.positions) (hs : x.strengths = List.zipWith (fun a b => (1 - s) * a + s * b) x₀.strengths x₁.strengths)
    {t y₀ y₁ y : ℂ} (hy₀ : k.run pr el x₀ t = .ok y₀) (hy₁ : k.run pr el x₁ t = .ok y₁) (hy : k.run pr el x t = .ok y) :
    y = (1 - s) * y₀ + s * y₁ := by
  have key : ∀ {z : NucleonArgs} {w : ℂ}, z.positions = x₀.positions → k.run pr el z t = .ok w → w = nVal x₀ pr el t
      (dsVal z (Six.F x₀.t_0_dirac_isoscalar x₀.t_in_dirac_isoscalar (x₀.thrS k.thr x₀.t_in_dirac_isoscalar) x₀.poleS t) (k.cDS x₀))
      (dvVal z (Three.F x₀.t_0_dirac_isovector x₀.t_in_dirac_isovector (x₀.thrT k.thr x₀.t_in_dirac_isovector) x₀.poleT t) (k.cDV x₀))
      (psVal z (Six.F x₀.t_0_pauli_isoscalar x₀.t_in_pauli_isoscalar (x₀.thrS k.thr x₀.t_in_pauli_isoscalar) x₀.poleS t) (k.cPS x₀))
      (pvVal z (Three.F x₀.t_0_pauli_isovector x₀.t_in_pauli_isovector (x₀.thrT k.thr x₀.t_in_pauli_isovector) x₀.poleT t)) := by
    intro z w hz hw
    have ez := eq_withStrengths hz
    have hpz : z.Proper := by rw [ez]; exact hp
    rw [NucleonClass.run_value hpz hw]
    have c1 : k.cDS z = k.cDS x₀ := by rw [ez]; cases k <;> rfl
    have c2 : k.cDV z = k.cDV x₀ := by rw [ez]; cases k <;> rfl
    have c3 : k.cPS z = k.cPS x₀ := by rw [ez]; cases k <;> rfl
    rw [c1, c2, c3, ez]
    rfl
  rw [key h hy, key rfl hy₀, key h₁ hy₁]
  simp only [NucleonArgs.strengths, List.zipWith_cons_cons, List.zipWith_nil_right, List.cons.injEq, and_true] at hs
  obtain ⟨s1, s2, s3, s4, s5, s6, s7, s8, s9, s10⟩ := hs
  simp only [nVal, dsVal, dvVal, psVal, pvVal, s1, s2, s3, s4, s5, s6, s7, s8, s9, s10]
  push_cast
  generalize Six.F x₀.t_0_dirac_isoscalar x₀.t_in_dirac_isoscalar (x₀.thrS k.thr x₀.t_in_dirac_isoscalar) x₀.poleS t = F1
  generalize Three.F x₀.t_0_dirac_isovector x₀.t_in_dirac_isovector (x₀.thrT k.thr x₀.t_in_dirac_isovector) x₀.poleT t = F2
  generalize Six.F x₀.t_0_pauli_isoscalar x₀.t_in_pauli_isoscalar (x₀.thrS k.thr x₀.t_in_pauli_isoscalar) x₀.poleS t = F3
  generalize Three.F x₀.t_0_pauli_isovector x₀.t_in_pauli_isovector (x₀.thrT k.thr x₀.t_in_pauli_isovector) x₀.poleT t = F4
  ring

/-- Moments and couplings do not decide whether a model can be constructed or evaluated. -/
theorem run_defined {k : NucleonClass} {pr el : Bool} {x₀ x : NucleonArgs} (hp : x₀.Proper) (h : x.positions = x₀.positions) :
    (k.Builds pr el x ↔ k.Builds pr el x₀) ∧ ∀ t, (∃ y, k.run pr el x t = .ok y) ↔ ∃ y, k.run pr el x₀ t = .ok y := by
  have ez := eq_withStrengths h
  have hpz : x.Proper := by rw [ez]; exact hp
  have hb : k.Builds pr el x ↔ k.Builds pr el x₀ := by
    rw [NucleonClass.builds_iff hp, NucleonClass.builds_iff hpz, ez]
    exact Iff.rfl
  have c1 : k.cDS x = k.cDS x₀ := by rw [ez]; cases k <;> rfl
  have c2 : k.cDV x = k.cDV x₀ := by rw [ez]; cases k <;> rfl
  have c3 : k.cPS x = k.cPS x₀ := by rw [ez]; cases k <;> rfl
  have hns : ∀ t, NSingular x el (k.cDS x) (k.cDV x) (k.cPS x) t ↔ NSingular x₀ el (k.cDS x₀) (k.cDV x₀) (k.cPS x₀) t := by
    intro t; rw [c1, c2, c3, ez]; exact Iff.rfl
  have key : ∀ {z z' : NucleonArgs}, z.Proper → z'.Proper → (k.Builds pr el z → k.Builds pr el z') →
      (∀ t, NSingular z' el (k.cDS z') (k.cDV z') (k.cPS z') t → NSingular z el (k.cDS z) (k.cDV z) (k.cPS z) t) → ∀ t,
      (∃ y, k.run pr el z t = .ok y) → ∃ y, k.run pr el z' t = .ok y := by
    intro z z' hz hz' hbz hn t ⟨y, hy⟩
    have hb := NucleonClass.builds_of_run hy
    obtain ⟨m, b, e⟩ := NucleonClass.run_built hz hb
    obtain ⟨m', b', e'⟩ := NucleonClass.run_built hz' (hbz hb)
    rw [e] at hy
    have hre := evalC_re hy
    rw [e', b'.evalC_iff hre]
    exact fun h' => (b.evalC_iff hre).mp ⟨y, hy⟩ (hn t h')
  exact ⟨hb, fun t => ⟨key hpz hp hb.mp (fun t => (hns t).mpr) t, key hp hpz hb.mpr (fun t => (hns t).mp) t⟩⟩

end UA
