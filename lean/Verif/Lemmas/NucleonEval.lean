import Verif.Spec.Nucleon
import Verif.Lemmas.Nucleon

/-! Helper lemmas: the nucleon models' domain of definition and values. -/

namespace UA

open Complex ComplexConjugate

theorem Built.callZ {t_0 t_in : ℝ} {p : ℂ} {v : Variant} {c : UAComponent} (b : Built t_0 t_in p v c) {t : ℂ} (ht : t ≠ t_in) :
    OnlyZ (c.call (Wval t_0 t_in t)) := by
  by_cases h : t = p ∨ t = conj p
  · rw [b.call_error ht h]; exact OnlyZ.zde
  · push Not at h
    rw [b.call_ok ht h.1 h.2]; exact OnlyZ.ok _

theorem Built.call_inv {t_0 t_in : ℝ} {p : ℂ} {v : Variant} {c : UAComponent} (b : Built t_0 t_in p v c) {t : ℂ} (ht : t ≠ t_in)
    {y : ℂ} (hy : c.call (Wval t_0 t_in t) = .ok y) : (t ≠ p ∧ t ≠ conj p) ∧ y = Fval v t_0 t_in p t := by
  by_cases h : t = p ∨ t = conj p
  · rw [b.call_error ht h] at hy; cases hy
  · push Not at h
    rw [b.call_ok ht h.1 h.2] at hy
    injection hy with hy
    exact ⟨h, hy.symm⟩

noncomputable def NucleonArgs.poleS (x : NucleonArgs) : Six ℂ := ⟨tMesonPole x.mass_omega x.decay_rate_omega, tMesonPole x.mass_omega_prime x.decay_rate_omega_prime, tMesonPole x.mass_omega_double_prime x.decay_rate_omega_double_prime, tMesonPole x.mass_phi x.decay_rate_phi, tMesonPole x.mass_phi_prime x.decay_rate_phi_prime, tMesonPole x.mass_phi_double_prime x.decay_rate_phi_double_prime⟩
noncomputable def NucleonArgs.thrS (x : NucleonArgs) (thr : ℝ → ℝ → ℝ) (t_in : ℝ) : Six Variant :=
  ⟨if thr x.mass_omega x.decay_rate_omega < t_in then .A else .B,
   if thr x.mass_omega_prime x.decay_rate_omega_prime < t_in then .A else .B,
   if thr x.mass_omega_double_prime x.decay_rate_omega_double_prime < t_in then .A else .B,
   if thr x.mass_phi x.decay_rate_phi < t_in then .A else .B,
   if thr x.mass_phi_prime x.decay_rate_phi_prime < t_in then .A else .B,
   if thr x.mass_phi_double_prime x.decay_rate_phi_double_prime < t_in then .A else .B⟩

noncomputable def NucleonArgs.poleT (x : NucleonArgs) : Three ℂ := ⟨tMesonPole x.mass_rho x.decay_rate_rho, tMesonPole x.mass_rho_prime x.decay_rate_rho_prime, tMesonPole x.mass_rho_double_prime x.decay_rate_rho_double_prime⟩
noncomputable def NucleonArgs.thrT (x : NucleonArgs) (thr : ℝ → ℝ → ℝ) (t_in : ℝ) : Three Variant :=
  ⟨if thr x.mass_rho x.decay_rate_rho < t_in then .A else .B,
   if thr x.mass_rho_prime x.decay_rate_rho_prime < t_in then .A else .B,
   if thr x.mass_rho_double_prime x.decay_rate_rho_double_prime < t_in then .A else .B⟩

/-! ### Groups of 6 resonances -/

def Six.toList {α : Type} (s : Six α) : List α := [s.omega, s.omega_prime, s.omega_double_prime, s.phi, s.phi_prime, s.phi_double_prime]
def Six.map {α β : Type} (f : α → β) (s : Six α) : Six β := ⟨f s.omega, f s.omega_prime, f s.omega_double_prime, f s.phi, f s.phi_prime, f s.phi_double_prime⟩
def Six.map₂ {α β γ : Type} (f : α → β → γ) (s : Six α) (u : Six β) : Six γ := ⟨f s.omega u.omega, f s.omega_prime u.omega_prime, f s.omega_double_prime u.omega_double_prime, f s.phi u.phi, f s.phi_prime u.phi_prime, f s.phi_double_prime u.phi_double_prime⟩

/-- All components of the group are built. -/
structure SixBuilt (t_0 t_in : ℝ) (P : Six ℂ) (V : Six Variant) (K : Six UAComponent) : Prop where
  omega : Built t_0 t_in P.omega V.omega K.omega
  omega_prime : Built t_0 t_in P.omega_prime V.omega_prime K.omega_prime
  omega_double_prime : Built t_0 t_in P.omega_double_prime V.omega_double_prime K.omega_double_prime
  phi : Built t_0 t_in P.phi V.phi K.phi
  phi_prime : Built t_0 t_in P.phi_prime V.phi_prime K.phi_prime
  phi_double_prime : Built t_0 t_in P.phi_double_prime V.phi_double_prime K.phi_double_prime

/-- Values of the components at `W(t)`. -/
noncomputable def Six.F (t_0 t_in : ℝ) (V : Six Variant) (P : Six ℂ) (t : ℂ) : Six ℂ := Six.map₂ (fun v p => Fval v t_0 t_in p t) V P

theorem SixBuilt.calls {t_0 t_in : ℝ} {P : Six ℂ} {V : Six Variant} {K : Six UAComponent} (b : SixBuilt t_0 t_in P V K)
    {t : ℂ} (ht : t ≠ t_in) (hp : ∀ p ∈ P.toList, t ≠ p ∧ t ≠ conj p) : K.Calls (Wval t_0 t_in t) (Six.F t_0 t_in V P t) :=
  ⟨b.omega.call_ok ht (hp _ (by simp [Six.toList])).1 (hp _ (by simp [Six.toList])).2,
   b.omega_prime.call_ok ht (hp _ (by simp [Six.toList])).1 (hp _ (by simp [Six.toList])).2,
   b.omega_double_prime.call_ok ht (hp _ (by simp [Six.toList])).1 (hp _ (by simp [Six.toList])).2,
   b.phi.call_ok ht (hp _ (by simp [Six.toList])).1 (hp _ (by simp [Six.toList])).2,
   b.phi_prime.call_ok ht (hp _ (by simp [Six.toList])).1 (hp _ (by simp [Six.toList])).2,
   b.phi_double_prime.call_ok ht (hp _ (by simp [Six.toList])).1 (hp _ (by simp [Six.toList])).2⟩

theorem SixBuilt.callsZ {t_0 t_in : ℝ} {P : Six ℂ} {V : Six Variant} {K : Six UAComponent} (b : SixBuilt t_0 t_in P V K)
    {t : ℂ} (ht : t ≠ t_in) : K.CallsZ (Wval t_0 t_in t) :=
  ⟨b.omega.callZ ht, b.omega_prime.callZ ht, b.omega_double_prime.callZ ht, b.phi.callZ ht, b.phi_prime.callZ ht, b.phi_double_prime.callZ ht⟩

theorem SixBuilt.calls_inv {t_0 t_in : ℝ} {P : Six ℂ} {V : Six Variant} {K : Six UAComponent} (b : SixBuilt t_0 t_in P V K)
    {t : ℂ} (ht : t ≠ t_in) {F : Six ℂ} (h : K.Calls (Wval t_0 t_in t) F) :
    (∀ p ∈ P.toList, t ≠ p ∧ t ≠ conj p) ∧ F = Six.F t_0 t_in V P t := by
  obtain ⟨h0, h1, h2, h3, h4, h5⟩ := h
  obtain ⟨a0, g0⟩ := b.omega.call_inv ht h0
  obtain ⟨a1, g1⟩ := b.omega_prime.call_inv ht h1
  obtain ⟨a2, g2⟩ := b.omega_double_prime.call_inv ht h2
  obtain ⟨a3, g3⟩ := b.phi.call_inv ht h3
  obtain ⟨a4, g4⟩ := b.phi_prime.call_inv ht h4
  obtain ⟨a5, g5⟩ := b.phi_double_prime.call_inv ht h5
  constructor
  · intro p hp
    simp only [Six.toList, List.mem_cons, List.not_mem_nil, or_false] at hp
    rcases hp with rfl | rfl | rfl | rfl | rfl | rfl
    · exact a0
    · exact a1
    · exact a2
    · exact a3
    · exact a4
    · exact a5
  · cases F
    simp only [Six.F, Six.map₂, Six.mk.injEq]
    exact ⟨g0, g1, g2, g3, g4, g5⟩

theorem SixBuilt.F_zero {t_0 t_in : ℝ} {P : Six ℂ} {V : Six Variant} {K : Six UAComponent} (b : SixBuilt t_0 t_in P V K) :
    Six.F t_0 t_in V P 0 = ⟨1, 1, 1, 1, 1, 1⟩ := by
  simp only [Six.F, Six.map₂, b.omega.Fval_zero, b.omega_prime.Fval_zero, b.omega_double_prime.Fval_zero, b.phi.Fval_zero, b.phi_prime.Fval_zero, b.phi_double_prime.Fval_zero]

theorem initSix_built {build : ℝ → ℝ → ℝ → ℝ → Except PyErr UAComponent} {thr : ℝ → ℝ → ℝ} {t_0 t_in : ℝ}
    (hbuild : ∀ m g c, build t_0 t_in m g = .ok c → Built t_0 t_in (tMesonPole m g) (if thr m g < t_in then .A else .B) c)
    {x : NucleonArgs} {K : Six UAComponent} (h : initIsoscalarComponents build x t_0 t_in = .ok K) :
    SixBuilt t_0 t_in x.poleS (x.thrS thr t_in) K := by
  unfold initIsoscalarComponents at h
  refine bindE h fun c0 e0 h => ?_
  refine bindE h fun c1 e1 h => ?_
  refine bindE h fun c2 e2 h => ?_
  refine bindE h fun c3 e3 h => ?_
  refine bindE h fun c4 e4 h => ?_
  refine bindE h fun c5 e5 h => ?_
  injection h with h
  subst h
  exact ⟨hbuild _ _ _ e0, hbuild _ _ _ e1, hbuild _ _ _ e2, hbuild _ _ _ e3, hbuild _ _ _ e4, hbuild _ _ _ e5⟩

/-! ### Groups of 3 resonances -/

def Three.toList {α : Type} (s : Three α) : List α := [s.rho, s.rho_prime, s.rho_double_prime]
def Three.map {α β : Type} (f : α → β) (s : Three α) : Three β := ⟨f s.rho, f s.rho_prime, f s.rho_double_prime⟩
def Three.map₂ {α β γ : Type} (f : α → β → γ) (s : Three α) (u : Three β) : Three γ := ⟨f s.rho u.rho, f s.rho_prime u.rho_prime, f s.rho_double_prime u.rho_double_prime⟩

/-- All components of the group are built. -/
structure ThreeBuilt (t_0 t_in : ℝ) (P : Three ℂ) (V : Three Variant) (K : Three UAComponent) : Prop where
  rho : Built t_0 t_in P.rho V.rho K.rho
  rho_prime : Built t_0 t_in P.rho_prime V.rho_prime K.rho_prime
  rho_double_prime : Built t_0 t_in P.rho_double_prime V.rho_double_prime K.rho_double_prime

/-- Values of the components at `W(t)`. -/
noncomputable def Three.F (t_0 t_in : ℝ) (V : Three Variant) (P : Three ℂ) (t : ℂ) : Three ℂ := Three.map₂ (fun v p => Fval v t_0 t_in p t) V P

theorem ThreeBuilt.calls {t_0 t_in : ℝ} {P : Three ℂ} {V : Three Variant} {K : Three UAComponent} (b : ThreeBuilt t_0 t_in P V K)
    {t : ℂ} (ht : t ≠ t_in) (hp : ∀ p ∈ P.toList, t ≠ p ∧ t ≠ conj p) : K.Calls (Wval t_0 t_in t) (Three.F t_0 t_in V P t) :=
  ⟨b.rho.call_ok ht (hp _ (by simp [Three.toList])).1 (hp _ (by simp [Three.toList])).2,
   b.rho_prime.call_ok ht (hp _ (by simp [Three.toList])).1 (hp _ (by simp [Three.toList])).2,
   b.rho_double_prime.call_ok ht (hp _ (by simp [Three.toList])).1 (hp _ (by simp [Three.toList])).2⟩

theorem ThreeBuilt.callsZ {t_0 t_in : ℝ} {P : Three ℂ} {V : Three Variant} {K : Three UAComponent} (b : ThreeBuilt t_0 t_in P V K)
    {t : ℂ} (ht : t ≠ t_in) : K.CallsZ (Wval t_0 t_in t) :=
  ⟨b.rho.callZ ht, b.rho_prime.callZ ht, b.rho_double_prime.callZ ht⟩

theorem ThreeBuilt.calls_inv {t_0 t_in : ℝ} {P : Three ℂ} {V : Three Variant} {K : Three UAComponent} (b : ThreeBuilt t_0 t_in P V K)
    {t : ℂ} (ht : t ≠ t_in) {F : Three ℂ} (h : K.Calls (Wval t_0 t_in t) F) :
    (∀ p ∈ P.toList, t ≠ p ∧ t ≠ conj p) ∧ F = Three.F t_0 t_in V P t := by
  obtain ⟨h0, h1, h2⟩ := h
  obtain ⟨a0, g0⟩ := b.rho.call_inv ht h0
  obtain ⟨a1, g1⟩ := b.rho_prime.call_inv ht h1
  obtain ⟨a2, g2⟩ := b.rho_double_prime.call_inv ht h2
  constructor
  · intro p hp
    simp only [Three.toList, List.mem_cons, List.not_mem_nil, or_false] at hp
    rcases hp with rfl | rfl | rfl
    · exact a0
    · exact a1
    · exact a2
  · cases F
    simp only [Three.F, Three.map₂, Three.mk.injEq]
    exact ⟨g0, g1, g2⟩

theorem ThreeBuilt.F_zero {t_0 t_in : ℝ} {P : Three ℂ} {V : Three Variant} {K : Three UAComponent} (b : ThreeBuilt t_0 t_in P V K) :
    Three.F t_0 t_in V P 0 = ⟨1, 1, 1⟩ := by
  simp only [Three.F, Three.map₂, b.rho.Fval_zero, b.rho_prime.Fval_zero, b.rho_double_prime.Fval_zero]

theorem initThree_built {build : ℝ → ℝ → ℝ → ℝ → Except PyErr UAComponent} {thr : ℝ → ℝ → ℝ} {t_0 t_in : ℝ}
    (hbuild : ∀ m g c, build t_0 t_in m g = .ok c → Built t_0 t_in (tMesonPole m g) (if thr m g < t_in then .A else .B) c)
    {x : NucleonArgs} {K : Three UAComponent} (h : initIsovectorComponents build x t_0 t_in = .ok K) :
    ThreeBuilt t_0 t_in x.poleT (x.thrT thr t_in) K := by
  unfold initIsovectorComponents at h
  refine bindE h fun c0 e0 h => ?_
  refine bindE h fun c1 e1 h => ?_
  refine bindE h fun c2 e2 h => ?_
  injection h with h
  subst h
  exact ⟨hbuild _ _ _ e0, hbuild _ _ _ e1, hbuild _ _ _ e2⟩

/-! ### The whole model, mass terms given -/

/-- Both classes' `__call__` with the mass terms supplied. -/
noncomputable def evalC (m : NucleonBase) (cDS : Six ℂ) (cDV : Three ℂ) (cPS : Six ℂ) (t : ℂ) : Except PyErr ℂ :=
  if t.re < 0 then .error .valueError
  else do
    let ds ← (do let w ← m.t_to_W_dirac_isoscalar.call t; diracIsoscalarExpr m.toNucleonArgs m.diracS cDS w)
    let dv ← (do let w ← m.t_to_W_dirac_isovector.call t; diracIsovectorExpr m.toNucleonArgs m.diracV cDV w)
    let ps ← (do let w ← m.t_to_W_pauli_isoscalar.call t; pauliIsoscalarExpr m.toNucleonArgs m.pauliS cPS w)
    let pv ← (do let w ← m.t_to_W_pauli_isovector.call t; pauliIsovectorExpr m.toNucleonArgs m.pauliV w)
    m.combine t ds dv ps pv

/-- A base object built from `x`; `thr` is the quantity compared with the thresholds. -/
structure NBuilt (thr : ℝ → ℝ → ℝ) (proton electric : Bool) (x : NucleonArgs) (m : NucleonBase) : Prop where
  args : m.toNucleonArgs = x
  hp : m.proton = proton
  he : m.electric = electric
  mapDS : m.t_to_W_dirac_isoscalar = mkTtoW x.t_0_dirac_isoscalar x.t_in_dirac_isoscalar
  mapDV : m.t_to_W_dirac_isovector = mkTtoW x.t_0_dirac_isovector x.t_in_dirac_isovector
  mapPS : m.t_to_W_pauli_isoscalar = mkTtoW x.t_0_pauli_isoscalar x.t_in_pauli_isoscalar
  mapPV : m.t_to_W_pauli_isovector = mkTtoW x.t_0_pauli_isovector x.t_in_pauli_isovector
  ds : SixBuilt x.t_0_dirac_isoscalar x.t_in_dirac_isoscalar x.poleS (x.thrS thr x.t_in_dirac_isoscalar) m.diracS
  dv : ThreeBuilt x.t_0_dirac_isovector x.t_in_dirac_isovector x.poleT (x.thrT thr x.t_in_dirac_isovector) m.diracV
  ps : SixBuilt x.t_0_pauli_isoscalar x.t_in_pauli_isoscalar x.poleS (x.thrS thr x.t_in_pauli_isoscalar) m.pauliS
  pv : ThreeBuilt x.t_0_pauli_isovector x.t_in_pauli_isovector x.poleT (x.thrT thr x.t_in_pauli_isovector) m.pauliV

theorem NucleonBase.init_built {build : ℝ → ℝ → ℝ → ℝ → Except PyErr UAComponent} {thr : ℝ → ℝ → ℝ}
    (hbuild : ∀ t_0 t_in, 0 ≤ t_0 → t_0 < t_in → ∀ m g c, build t_0 t_in m g = .ok c →
      Built t_0 t_in (tMesonPole m g) (if thr m g < t_in then .A else .B) c)
    {proton electric : Bool} {x : NucleonArgs} (hx : x.Proper) {m : NucleonBase}
    (h : NucleonBase.init build proton electric x = .ok m) : NBuilt thr proton electric x m := by
  unfold NucleonBase.init at h
  refine bindE h fun m1 e1 h => ?_
  refine bindE h fun m2 e2 h => ?_
  refine bindE h fun m3 e3 h => ?_
  refine bindE h fun m4 e4 h => ?_
  refine bindE h fun k1 f1 h => ?_
  refine bindE h fun k2 f2 h => ?_
  refine bindE h fun k3 f3 h => ?_
  refine bindE h fun k4 f4 h => ?_
  obtain ⟨x1, x2, x3, x4⟩ := hx
  obtain ⟨p1, _, q1⟩ := TtoW_init_eq_ok e1
  obtain ⟨p2, _, q2⟩ := TtoW_init_eq_ok e2
  obtain ⟨p3, _, q3⟩ := TtoW_init_eq_ok e3
  obtain ⟨p4, _, q4⟩ := TtoW_init_eq_ok e4
  injection h with h
  subst h
  exact ⟨rfl, rfl, rfl, q1, q2, q3, q4, initSix_built (hbuild _ _ p1 x1) f1, initThree_built (hbuild _ _ p2 x2) f2,
    initSix_built (hbuild _ _ p3 x3) f3, initThree_built (hbuild _ _ p4 x4) f4⟩

theorem old_init_built {proton electric : Bool} {x : NucleonArgs} (hx : x.Proper) {m : NucleonBase}
    (h : NucleonUAModelOld.init proton electric x = .ok m) : NBuilt (fun m _ => m ^ 2) proton electric x m :=
  NucleonBase.init_built (thr := fun m _ => m ^ 2) (fun _ _ h0 hlt _ _ _ hc => (buildComponent_built h0 hlt hc).1) hx h

theorem new_init_built {proton electric : Bool} {x : NucleonArgs} (hx : x.Proper) {m : NucleonUAModel}
    (h : NucleonUAModel.init proton electric x = .ok m) :
    NBuilt (fun m g => (tMesonPole m g).re) proton electric x m.toNucleonBase ∧ m.mass_terms_cache = fun _ => none := by
  unfold NucleonUAModel.init at h
  refine bindE h fun b e h => ?_
  injection h with h
  subst h
  exact ⟨NucleonBase.init_built (thr := fun m g => (tMesonPole m g).re)
    (fun _ _ h0 hlt _ _ _ hc => (nucleonBuildComponent_built h0 hlt hc).1) hx e, rfl⟩

theorem contribution_onlyZ {t_0 t_in : ℝ} (h : t_0 < t_in) {f : ℂ → Except PyErr ℂ} (t : ℂ)
    (hf : t ≠ t_in → OnlyZ (f (Wval t_0 t_in t))) : OnlyZ (do let w ← (mkTtoW t_0 t_in).call t; f w) := by
  by_cases ht : t = t_in
  · rw [ht, TtoW_call_tin h.le]; exact OnlyZ.zde
  · rw [TtoW_call_ok h ht, except_ok_bind]; exact hf ht

theorem contribution_inv {t_0 t_in : ℝ} (h : t_0 < t_in) {f : ℂ → Except PyErr ℂ} {t y : ℂ}
    (hy : (do let w ← (mkTtoW t_0 t_in).call t; f w) = .ok y) : t ≠ t_in ∧ f (Wval t_0 t_in t) = .ok y := by
  by_cases ht : t = t_in
  · rw [ht, TtoW_call_tin h.le] at hy; cases hy
  · rw [TtoW_call_ok h ht, except_ok_bind] at hy; exact ⟨ht, hy⟩

/-- The points and parameters where evaluation divides by zero. -/
def NSingular (x : NucleonArgs) (electric : Bool) (cDS : Six ℂ) (cDV : Three ℂ) (cPS : Six ℂ) (t : ℂ) : Prop :=
  (t = x.t_in_dirac_isoscalar ∨ t = x.t_in_dirac_isovector ∨ t = x.t_in_pauli_isoscalar ∨ t = x.t_in_pauli_isovector) ∨
  (∃ p ∈ x.poleS.toList ++ x.poleT.toList, t = p ∨ t = conj p) ∨
  ¬ (DSok cDS ∧ DVok cDV ∧ PSok cPS) ∨ (electric = true ∧ x.nucleon_mass = 0)

/-- Value of the whole model. -/
noncomputable def nVal (x : NucleonArgs) (proton electric : Bool) (t ds dv ps pv : ℂ) : ℂ :=
  let s : ℂ := if proton then 1 else -1
  (ds + s * dv) + (if electric then t / (4 * (x.nucleon_mass : ℂ) ^ 2) else 1) * (ps + s * pv)

theorem combine_ok (m : NucleonBase) (t ds dv ps pv : ℂ) (h : ¬ (m.electric = true ∧ m.nucleon_mass = 0)) :
    m.combine t ds dv ps pv = .ok (nVal m.toNucleonArgs m.proton m.electric t ds dv ps pv) := by
  unfold NucleonBase.combine nVal
  cases he : m.electric
  · cases hp : m.proton <;> simp [sub_eq_add_neg]
  · have : m.nucleon_mass ≠ 0 := fun h' => h ⟨he, h'⟩
    have h4 : (4 * (m.nucleon_mass : ℂ) ^ 2) ≠ 0 := by simpa using this
    cases hp : m.proton <;> simp [pyDiv_ok h4, sub_eq_add_neg]

theorem combine_zde (m : NucleonBase) (t ds dv ps pv : ℂ) (h : m.electric = true ∧ m.nucleon_mass = 0) :
    m.combine t ds dv ps pv = .error .zeroDivisionError := by
  unfold NucleonBase.combine
  simp [h.1, h.2, pyDiv]

section
variable {thr : ℝ → ℝ → ℝ} {proton electric : Bool} {x : NucleonArgs} {m : NucleonBase}

theorem NBuilt.lt (b : NBuilt thr proton electric x m) : x.Proper := ⟨b.ds.omega.hlt, b.dv.rho.hlt, b.ps.omega.hlt, b.pv.rho.hlt⟩

/-- Values of the four contributions. -/
noncomputable def dsAt (thr : ℝ → ℝ → ℝ) (x : NucleonArgs) (c : Six ℂ) (t : ℂ) : ℂ :=
  dsVal x (Six.F x.t_0_dirac_isoscalar x.t_in_dirac_isoscalar (x.thrS thr x.t_in_dirac_isoscalar) x.poleS t) c
noncomputable def dvAt (thr : ℝ → ℝ → ℝ) (x : NucleonArgs) (c : Three ℂ) (t : ℂ) : ℂ :=
  dvVal x (Three.F x.t_0_dirac_isovector x.t_in_dirac_isovector (x.thrT thr x.t_in_dirac_isovector) x.poleT t) c
noncomputable def psAt (thr : ℝ → ℝ → ℝ) (x : NucleonArgs) (c : Six ℂ) (t : ℂ) : ℂ :=
  psVal x (Six.F x.t_0_pauli_isoscalar x.t_in_pauli_isoscalar (x.thrS thr x.t_in_pauli_isoscalar) x.poleS t) c
noncomputable def pvAt (thr : ℝ → ℝ → ℝ) (x : NucleonArgs) (t : ℂ) : ℂ :=
  pvVal x (Three.F x.t_0_pauli_isovector x.t_in_pauli_isovector (x.thrT thr x.t_in_pauli_isovector) x.poleT t)

theorem NBuilt.ds_ok (b : NBuilt thr proton electric x m) {t : ℂ} {c : Six ℂ} (ht : t ≠ x.t_in_dirac_isoscalar)
    (hp : ∀ p ∈ x.poleS.toList, t ≠ p ∧ t ≠ conj p) (hc : DSok c) :
    (do let w ← m.t_to_W_dirac_isoscalar.call t; diracIsoscalarExpr m.toNucleonArgs m.diracS c w) = .ok (dsAt thr x c t) := by
  rw [b.mapDS, TtoW_call_ok b.lt.1 ht, except_ok_bind, b.args, dsExpr_ok (b.ds.calls ht hp) hc]; rfl
theorem NBuilt.dv_ok (b : NBuilt thr proton electric x m) {t : ℂ} {c : Three ℂ} (ht : t ≠ x.t_in_dirac_isovector)
    (hp : ∀ p ∈ x.poleT.toList, t ≠ p ∧ t ≠ conj p) (hc : DVok c) :
    (do let w ← m.t_to_W_dirac_isovector.call t; diracIsovectorExpr m.toNucleonArgs m.diracV c w) = .ok (dvAt thr x c t) := by
  rw [b.mapDV, TtoW_call_ok b.lt.2.1 ht, except_ok_bind, b.args, dvExpr_ok (b.dv.calls ht hp) hc]; rfl
theorem NBuilt.ps_ok (b : NBuilt thr proton electric x m) {t : ℂ} {c : Six ℂ} (ht : t ≠ x.t_in_pauli_isoscalar)
    (hp : ∀ p ∈ x.poleS.toList, t ≠ p ∧ t ≠ conj p) (hc : PSok c) :
    (do let w ← m.t_to_W_pauli_isoscalar.call t; pauliIsoscalarExpr m.toNucleonArgs m.pauliS c w) = .ok (psAt thr x c t) := by
  rw [b.mapPS, TtoW_call_ok b.lt.2.2.1 ht, except_ok_bind, b.args, psExpr_ok (b.ps.calls ht hp) hc]; rfl
theorem NBuilt.pv_ok (b : NBuilt thr proton electric x m) {t : ℂ} (ht : t ≠ x.t_in_pauli_isovector)
    (hp : ∀ p ∈ x.poleT.toList, t ≠ p ∧ t ≠ conj p) :
    (do let w ← m.t_to_W_pauli_isovector.call t; pauliIsovectorExpr m.toNucleonArgs m.pauliV w) = .ok (pvAt thr x t) := by
  rw [b.mapPV, TtoW_call_ok b.lt.2.2.2 ht, except_ok_bind, b.args, pvExpr_ok (b.pv.calls ht hp)]; rfl

theorem NBuilt.ds_inv (b : NBuilt thr proton electric x m) {t y : ℂ} {c : Six ℂ}
    (h : (do let w ← m.t_to_W_dirac_isoscalar.call t; diracIsoscalarExpr m.toNucleonArgs m.diracS c w) = .ok y) :
    t ≠ x.t_in_dirac_isoscalar ∧ (∀ p ∈ x.poleS.toList, t ≠ p ∧ t ≠ conj p) ∧ DSok c := by
  rw [b.mapDS] at h
  obtain ⟨ht, h⟩ := contribution_inv b.lt.1 h
  obtain ⟨⟨F, hF⟩, hc⟩ := dsExpr_inv h
  exact ⟨ht, (b.ds.calls_inv ht hF).1, hc⟩
theorem NBuilt.dv_inv (b : NBuilt thr proton electric x m) {t y : ℂ} {c : Three ℂ}
    (h : (do let w ← m.t_to_W_dirac_isovector.call t; diracIsovectorExpr m.toNucleonArgs m.diracV c w) = .ok y) :
    t ≠ x.t_in_dirac_isovector ∧ (∀ p ∈ x.poleT.toList, t ≠ p ∧ t ≠ conj p) ∧ DVok c := by
  rw [b.mapDV] at h
  obtain ⟨ht, h⟩ := contribution_inv b.lt.2.1 h
  obtain ⟨⟨F, hF⟩, hc⟩ := dvExpr_inv h
  exact ⟨ht, (b.dv.calls_inv ht hF).1, hc⟩
theorem NBuilt.ps_inv (b : NBuilt thr proton electric x m) {t y : ℂ} {c : Six ℂ}
    (h : (do let w ← m.t_to_W_pauli_isoscalar.call t; pauliIsoscalarExpr m.toNucleonArgs m.pauliS c w) = .ok y) :
    t ≠ x.t_in_pauli_isoscalar ∧ (∀ p ∈ x.poleS.toList, t ≠ p ∧ t ≠ conj p) ∧ PSok c := by
  rw [b.mapPS] at h
  obtain ⟨ht, h⟩ := contribution_inv b.lt.2.2.1 h
  obtain ⟨⟨F, hF⟩, hc⟩ := psExpr_inv h
  exact ⟨ht, (b.ps.calls_inv ht hF).1, hc⟩
theorem NBuilt.pv_inv (b : NBuilt thr proton electric x m) {t y : ℂ}
    (h : (do let w ← m.t_to_W_pauli_isovector.call t; pauliIsovectorExpr m.toNucleonArgs m.pauliV w) = .ok y) :
    t ≠ x.t_in_pauli_isovector ∧ (∀ p ∈ x.poleT.toList, t ≠ p ∧ t ≠ conj p) := by
  rw [b.mapPV] at h
  obtain ⟨ht, h⟩ := contribution_inv b.lt.2.2.2 h
  obtain ⟨F, hF⟩ := pvExpr_inv h
  exact ⟨ht, (b.pv.calls_inv ht hF).1⟩

theorem NBuilt.evalC_ok (b : NBuilt thr proton electric x m) {cDS : Six ℂ} {cDV : Three ℂ} {cPS : Six ℂ} {t : ℂ}
    (hre : 0 ≤ t.re) (hs : ¬ NSingular x electric cDS cDV cPS t) :
    evalC m cDS cDV cPS t =
      .ok (nVal x proton electric t (dsAt thr x cDS t) (dvAt thr x cDV t) (psAt thr x cPS t) (pvAt thr x t)) := by
  unfold NSingular at hs
  push Not at hs
  obtain ⟨⟨a1, a2, a3, a4⟩, hp, ⟨c1, c2, c3⟩, he⟩ := hs
  have hpS : ∀ p ∈ x.poleS.toList, t ≠ p ∧ t ≠ conj p := fun p h => hp p (List.mem_append_left _ h)
  have hpT : ∀ p ∈ x.poleT.toList, t ≠ p ∧ t ≠ conj p := fun p h => hp p (List.mem_append_right _ h)
  unfold evalC
  rw [if_neg (not_lt.mpr hre), b.ds_ok a1 hpS c1, b.dv_ok a2 hpT c2, b.ps_ok a3 hpS c3, b.pv_ok a4 hpT]
  simp only [except_ok_bind]
  rw [combine_ok, b.args, b.hp, b.he]
  rw [b.args, b.he]
  rintro ⟨h1, h2⟩
  exact he h1 h2

theorem evalC_neg {cDS : Six ℂ} {cDV : Three ℂ} {cPS : Six ℂ} {t : ℂ} (hre : t.re < 0) :
    evalC m cDS cDV cPS t = .error .valueError := by
  unfold evalC; rw [if_pos hre]

theorem NBuilt.evalC_zde (b : NBuilt thr proton electric x m) {cDS : Six ℂ} {cDV : Three ℂ} {cPS : Six ℂ} {t : ℂ}
    (hre : 0 ≤ t.re) (hs : NSingular x electric cDS cDV cPS t) :
    evalC m cDS cDV cPS t = .error .zeroDivisionError := by
  unfold evalC
  rw [if_neg (not_lt.mpr hre)]
  apply OnlyZ.eq_zde
  · refine OnlyZ.bind ?_ fun _ => OnlyZ.bind ?_ fun _ => OnlyZ.bind ?_ fun _ => OnlyZ.bind ?_ fun _ => ?_
    · rw [b.mapDS]; exact contribution_onlyZ b.lt.1 t fun ht => dsExpr_onlyZ (b.ds.callsZ ht)
    · rw [b.mapDV]; exact contribution_onlyZ b.lt.2.1 t fun ht => dvExpr_onlyZ (b.dv.callsZ ht)
    · rw [b.mapPS]; exact contribution_onlyZ b.lt.2.2.1 t fun ht => psExpr_onlyZ (b.ps.callsZ ht)
    · rw [b.mapPV]; exact contribution_onlyZ b.lt.2.2.2 t fun ht => pvExpr_onlyZ (b.pv.callsZ ht)
    · by_cases h : m.electric = true ∧ m.nucleon_mass = 0
      · rw [combine_zde _ _ _ _ _ _ h]; exact OnlyZ.zde
      · rw [combine_ok _ _ _ _ _ _ h]; exact OnlyZ.ok _
  · intro y h
    refine bindE h fun ds e1 h => ?_
    refine bindE h fun dv e2 h => ?_
    refine bindE h fun ps e3 h => ?_
    refine bindE h fun pv e4 h => ?_
    obtain ⟨a1, p1, c1⟩ := b.ds_inv e1
    obtain ⟨a2, p2, c2⟩ := b.dv_inv e2
    obtain ⟨a3, p3, c3⟩ := b.ps_inv e3
    obtain ⟨a4, p4⟩ := b.pv_inv e4
    rcases hs with hs | ⟨p, hp, hs⟩ | hs | hs
    · rcases hs with hs | hs | hs | hs <;> contradiction
    · rcases List.mem_append.mp hp with hp | hp
      · rcases hs with hs | hs
        · exact (p1 p hp).1 hs
        · exact (p1 p hp).2 hs
      · rcases hs with hs | hs
        · exact (p2 p hp).1 hs
        · exact (p2 p hp).2 hs
    · exact hs ⟨c1, c2, c3⟩
    · rw [combine_zde _ _ _ _ _ _ (by rw [b.args, b.he]; exact hs)] at h; cases h

/-! ### Value at zero -/

theorem dTerm_one {cO cP cR : ℂ} (h : cP ≠ cO) : dTerm 1 1 1 cO cP cR = 0 := by
  have h1 := sub_ne_zero.mpr h
  have h2 := sub_ne_zero.mpr h.symm
  unfold dTerm
  field_simp
  ring

theorem pTerm_one {cO cP cQ cR : ℂ} (h1 : cP ≠ cO) (h2 : cQ ≠ cO) (h3 : cQ ≠ cP) : pTerm 1 1 1 1 cO cP cQ cR = 0 := by
  have a1 := sub_ne_zero.mpr h1
  have a2 := sub_ne_zero.mpr h1.symm
  have a3 := sub_ne_zero.mpr h2
  have a4 := sub_ne_zero.mpr h2.symm
  have a5 := sub_ne_zero.mpr h3
  have a6 := sub_ne_zero.mpr h3.symm
  unfold pTerm
  field_simp
  ring

theorem NBuilt.values_zero (b : NBuilt thr proton electric x m) {cDS : Six ℂ} {cDV : Three ℂ} {cPS : Six ℂ}
    (h1 : DSok cDS) (h2 : DVok cDV) (h3 : PSok cPS) :
    dsAt thr x cDS 0 = 1 / 2 ∧ dvAt thr x cDV 0 = 1 / 2 ∧
    psAt thr x cPS 0 = 1 / 2 * (x.magnetic_moment_proton + x.magnetic_moment_neutron - 1) ∧
    pvAt thr x 0 = 1 / 2 * (x.magnetic_moment_proton - x.magnetic_moment_neutron - 1) := by
  refine ⟨?_, ?_, ?_, ?_⟩
  · rw [dsAt, b.ds.F_zero]; simp only [dsVal]
    rw [dTerm_one h1, dTerm_one h1, dTerm_one h1, dTerm_one h1]; ring
  · rw [dvAt, b.dv.F_zero]; simp only [dvVal]
    rw [dTerm_one h2]; ring
  · rw [psAt, b.ps.F_zero]; simp only [psVal]
    rw [pTerm_one h3.1 h3.2.1 h3.2.2, pTerm_one h3.1 h3.2.1 h3.2.2, pTerm_one h3.1 h3.2.1 h3.2.2]; ring
  · rw [pvAt, b.pv.F_zero]; simp only [pvVal]; ring

end

/-! ### Mass terms -/

/-- The mass term of a resonance. -/
noncomputable def massTerm (v : Variant) (t_0 t_in : ℝ) (p : ℂ) : ℂ :=
  quart v (Wval t_0 t_in p) (Wval t_0 t_in 0) / -((‖Wval t_0 t_in p - 1 / Wval t_0 t_in p‖ ^ 2 : ℝ) : ℂ)

theorem massTerm_den_ne {w : ℂ} (h0 : w ≠ 0) (h1 : 1 - w ^ 2 ≠ 0) : -((‖w - 1 / w‖ ^ 2 : ℝ) : ℂ) ≠ 0 := by
  have : w - 1 / w ≠ 0 := by
    intro h
    apply h1
    field_simp at h
    linear_combination -h
  rw [neg_ne_zero, ofReal_ne_zero]
  exact pow_ne_zero 2 (norm_ne_zero_iff.mpr this)

theorem calcA_ok {w_r w_n : ℂ} (h0 : w_r ≠ 0) (h1 : 1 - w_r ^ 2 ≠ 0) :
    calculateMassTermA w_r w_n = .ok (quart .A w_r w_n / -((‖w_r - 1 / w_r‖ ^ 2 : ℝ) : ℂ)) := by
  unfold calculateMassTermA
  rw [pyDiv_ok h0, pyDiv_ok (conj_ne_zero' h0)]
  simp only [except_ok_bind]
  rw [pyDiv_ok (massTerm_den_ne h0 h1)]; rfl

theorem calcB_ok {w_r w_n : ℂ} (h0 : w_r ≠ 0) (h1 : 1 - w_r ^ 2 ≠ 0) :
    calculateMassTermB w_r w_n = .ok (quart .B w_r w_n / -((‖w_r - 1 / w_r‖ ^ 2 : ℝ) : ℂ)) := by
  unfold calculateMassTermB
  rw [pyDiv_ok h0]
  simp only [except_ok_bind]
  rw [pyDiv_ok (massTerm_den_ne h0 h1)]; rfl

/-- The mass term of a built component, as `_calculate_mass_term` computes it once the map and the numbers are looked up. -/
theorem calc_of_built {t_0 t_in m g : ℝ} {c : UAComponent}
    (b : Built t_0 t_in (tMesonPole m g) (if (tMesonPole m g).re < t_in then .A else .B) c) :
    (do
      let w_resonance ← (mkTtoW t_0 t_in).call (((m : ℂ) - 0.5 * I * g) ^ 2)
      let w_norm ← (mkTtoW t_0 t_in).call 0
      if (((m : ℂ) - 0.5 * I * g) ^ 2).re < t_in then calculateMassTermA w_resonance w_norm
      else calculateMassTermB w_resonance w_norm) =
    .ok (massTerm (if (tMesonPole m g).re < t_in then .A else .B) t_0 t_in (tMesonPole m g)) := by
  have hp : ((m : ℂ) - 0.5 * I * g) ^ 2 = tMesonPole m g := by unfold tMesonPole; norm_num; ring
  rw [hp, TtoW_call_ok b.hlt b.hpin, TtoW_call_ok b.hlt (zero_ne_tin b.h0 b.hlt)]
  simp only [except_ok_bind]
  have h0 := b.wm_ne
  have h1 := Wval_sq_ne_one b.hlt b.hpin
  split_ifs
  · rw [calcA_ok h0 h1]; rfl
  · rw [calcB_ok h0 h1]; rfl

/-- The threshold quantity of `NucleonUAModel`. -/
noncomputable abbrev thrNew : ℝ → ℝ → ℝ := fun m g => (tMesonPole m g).re

noncomputable def NucleonArgs.cS (x : NucleonArgs) (t_0 t_in : ℝ) : Six ℂ :=
  Six.map₂ (fun v p => massTerm v t_0 t_in p) (x.thrS thrNew t_in) x.poleS
noncomputable def NucleonArgs.cV (x : NucleonArgs) (t_0 t_in : ℝ) : Three ℂ :=
  Three.map₂ (fun v p => massTerm v t_0 t_in p) (x.thrT thrNew t_in) x.poleT

/-- The three groups of mass terms `NucleonUAModel` uses. -/
noncomputable def NucleonArgs.cDS (x : NucleonArgs) : Six ℂ := x.cS x.t_0_dirac_isoscalar x.t_in_dirac_isoscalar
noncomputable def NucleonArgs.cDV (x : NucleonArgs) : Three ℂ := x.cV x.t_0_dirac_isovector x.t_in_dirac_isovector
noncomputable def NucleonArgs.cPS (x : NucleonArgs) : Six ℂ := x.cS x.t_0_pauli_isoscalar x.t_in_pauli_isoscalar

/-- The six mass terms without the cache. -/
noncomputable def NucleonBase.calcS (m : NucleonBase) (dirac : Bool) : Except PyErr (Six ℂ) := do
  let c0 ← m.calculateMassTerm true dirac "omega"
  let c1 ← m.calculateMassTerm true dirac "omega_prime"
  let c2 ← m.calculateMassTerm true dirac "omega_double_prime"
  let c3 ← m.calculateMassTerm true dirac "phi"
  let c4 ← m.calculateMassTerm true dirac "phi_prime"
  let c5 ← m.calculateMassTerm true dirac "phi_double_prime"
  return ⟨c0, c1, c2, c3, c4, c5⟩
noncomputable def NucleonBase.calcV (m : NucleonBase) : Except PyErr (Three ℂ) := do
  let c0 ← m.calculateMassTerm false true "rho"
  let c1 ← m.calculateMassTerm false true "rho_prime"
  let c2 ← m.calculateMassTerm false true "rho_double_prime"
  return ⟨c0, c1, c2⟩

section
variable {proton electric : Bool} {x : NucleonArgs} {m : NucleonBase}

theorem NBuilt.calcDS (b : NBuilt thrNew proton electric x m) : m.calcS true = .ok x.cDS := by
  have e0 : m.calculateMassTerm true true "omega" = .ok x.cDS.omega := by
    unfold NucleonBase.calculateMassTerm; rw [b.mapDS, b.args]; exact calc_of_built b.ds.omega
  have e1 : m.calculateMassTerm true true "omega_prime" = .ok x.cDS.omega_prime := by
    unfold NucleonBase.calculateMassTerm; rw [b.mapDS, b.args]; exact calc_of_built b.ds.omega_prime
  have e2 : m.calculateMassTerm true true "omega_double_prime" = .ok x.cDS.omega_double_prime := by
    unfold NucleonBase.calculateMassTerm; rw [b.mapDS, b.args]; exact calc_of_built b.ds.omega_double_prime
  have e3 : m.calculateMassTerm true true "phi" = .ok x.cDS.phi := by
    unfold NucleonBase.calculateMassTerm; rw [b.mapDS, b.args]; exact calc_of_built b.ds.phi
  have e4 : m.calculateMassTerm true true "phi_prime" = .ok x.cDS.phi_prime := by
    unfold NucleonBase.calculateMassTerm; rw [b.mapDS, b.args]; exact calc_of_built b.ds.phi_prime
  have e5 : m.calculateMassTerm true true "phi_double_prime" = .ok x.cDS.phi_double_prime := by
    unfold NucleonBase.calculateMassTerm; rw [b.mapDS, b.args]; exact calc_of_built b.ds.phi_double_prime
  unfold NucleonBase.calcS
  rw [e0, e1, e2, e3, e4, e5]; rfl

theorem NBuilt.calcPS (b : NBuilt thrNew proton electric x m) : m.calcS false = .ok x.cPS := by
  have e0 : m.calculateMassTerm true false "omega" = .ok x.cPS.omega := by
    unfold NucleonBase.calculateMassTerm; rw [b.mapPS, b.args]; exact calc_of_built b.ps.omega
  have e1 : m.calculateMassTerm true false "omega_prime" = .ok x.cPS.omega_prime := by
    unfold NucleonBase.calculateMassTerm; rw [b.mapPS, b.args]; exact calc_of_built b.ps.omega_prime
  have e2 : m.calculateMassTerm true false "omega_double_prime" = .ok x.cPS.omega_double_prime := by
    unfold NucleonBase.calculateMassTerm; rw [b.mapPS, b.args]; exact calc_of_built b.ps.omega_double_prime
  have e3 : m.calculateMassTerm true false "phi" = .ok x.cPS.phi := by
    unfold NucleonBase.calculateMassTerm; rw [b.mapPS, b.args]; exact calc_of_built b.ps.phi
  have e4 : m.calculateMassTerm true false "phi_prime" = .ok x.cPS.phi_prime := by
    unfold NucleonBase.calculateMassTerm; rw [b.mapPS, b.args]; exact calc_of_built b.ps.phi_prime
  have e5 : m.calculateMassTerm true false "phi_double_prime" = .ok x.cPS.phi_double_prime := by
    unfold NucleonBase.calculateMassTerm; rw [b.mapPS, b.args]; exact calc_of_built b.ps.phi_double_prime
  unfold NucleonBase.calcS
  rw [e0, e1, e2, e3, e4, e5]; rfl

theorem NBuilt.calcDV (b : NBuilt thrNew proton electric x m) : m.calcV = .ok x.cDV := by
  have e0 : m.calculateMassTerm false true "rho" = .ok x.cDV.rho := by
    unfold NucleonBase.calculateMassTerm; rw [b.mapDV, b.args]; exact calc_of_built b.dv.rho
  have e1 : m.calculateMassTerm false true "rho_prime" = .ok x.cDV.rho_prime := by
    unfold NucleonBase.calculateMassTerm; rw [b.mapDV, b.args]; exact calc_of_built b.dv.rho_prime
  have e2 : m.calculateMassTerm false true "rho_double_prime" = .ok x.cDV.rho_double_prime := by
    unfold NucleonBase.calculateMassTerm; rw [b.mapDV, b.args]; exact calc_of_built b.dv.rho_double_prime
  unfold NucleonBase.calcV
  rw [e0, e1, e2]; rfl

end

/-! ### The cache -/

theorem buildCacheKey_inj {s d s' d' : Bool} {r r' : String} (h : buildCacheKey s d r = buildCacheKey s' d' r') :
    s = s' ∧ d = d' ∧ r = r' := by
  have hl := congrArg String.toList h
  cases s <;> cases d <;> cases s' <;> cases d' <;>
    simp [buildCacheKey, String.toList_append] at hl ⊢ <;> exact String.toList_inj.mp hl

/-- Every entry of the cache is the mass term it stands for. -/
def CacheInv (m : NucleonBase) (c : MassTermCache) : Prop :=
  ∀ s d r v, c (buildCacheKey s d r) = some v → m.calculateMassTerm s d r = .ok v

/-- A cached computation returns what the uncached one returns, and keeps the cache correct. -/
def Sim {α : Type} (m : NucleonBase) (x : CacheM α) (y : Except PyErr α) : Prop :=
  ∀ c, CacheInv m c → (x c).1 = y ∧ CacheInv m (x c).2

theorem Sim.lift {α : Type} (m : NucleonBase) (y : Except PyErr α) : Sim m (CacheM.lift y) y := fun _ h => ⟨rfl, h⟩

theorem Sim.bind {α β : Type} {m : NucleonBase} {x : CacheM α} {y : Except PyErr α} {f : α → CacheM β} {g : α → Except PyErr β}
    (hx : Sim m x y) (hf : ∀ a, Sim m (f a) (g a)) : Sim m (x.bind f) (y >>= g) := by
  intro c hc
  obtain ⟨h1, h2⟩ := hx c hc
  unfold CacheM.bind
  rcases hxc : x c with ⟨r, c'⟩
  rw [hxc] at h1 h2
  simp only at h1 h2
  subst h1
  cases r with
  | error e => exact ⟨rfl, h2⟩
  | ok a => exact hf a c' h2

theorem Sim.getMassTerm (m : NucleonBase) (s d : Bool) (r : String) :
    Sim m (m.getMassTerm s d r) (m.calculateMassTerm s d r) := by
  intro c hc
  have hcompute : ∀ (R : Except PyErr ℂ × MassTermCache),
      R = (match m.calculateMassTerm s d r with
        | .error e => (.error e, c)
        | .ok val => (.ok val, fun k => if k = buildCacheKey s d r then some val else c k)) →
      R.1 = m.calculateMassTerm s d r ∧ CacheInv m R.2 := by
    rintro R rfl
    rcases h : m.calculateMassTerm s d r with e | val
    · exact ⟨rfl, hc⟩
    · refine ⟨rfl, ?_⟩
      intro s' d' r' v hv
      simp only at hv
      split_ifs at hv with hk
      · obtain ⟨rfl, rfl, rfl⟩ := buildCacheKey_inj hk
        injection hv with hv
        rw [h, hv]
      · exact hc s' d' r' v hv
  unfold NucleonBase.getMassTerm
  simp only
  rcases hk : c (buildCacheKey s d r) with _ | v
  · exact hcompute _ rfl
  · simp only
    split_ifs with h0
    · exact hcompute _ rfl
    · exact ⟨(hc s d r v hk).symm, hc⟩

theorem Sim.getS (m : NucleonBase) (dirac : Bool) : Sim m (m.getMassTermsS dirac) (m.calcS dirac) :=
  Sim.bind (Sim.getMassTerm _ _ _ _) fun _ => Sim.bind (Sim.getMassTerm _ _ _ _) fun _ => Sim.bind (Sim.getMassTerm _ _ _ _) fun _ =>
  Sim.bind (Sim.getMassTerm _ _ _ _) fun _ => Sim.bind (Sim.getMassTerm _ _ _ _) fun _ => Sim.bind (Sim.getMassTerm _ _ _ _) fun _ => Sim.lift _ _
theorem Sim.getV (m : NucleonBase) : Sim m m.getMassTermsV m.calcV :=
  Sim.bind (Sim.getMassTerm _ _ _ _) fun _ => Sim.bind (Sim.getMassTerm _ _ _ _) fun _ => Sim.bind (Sim.getMassTerm _ _ _ _) fun _ => Sim.lift _ _

/-- The model's `__call__` without the cache. -/
noncomputable def callPure (m : NucleonBase) (t : ℂ) : Except PyErr ℂ :=
  if t.re < 0 then .error .valueError
  else do
    let ds ← (do let w ← m.t_to_W_dirac_isoscalar.call t; let c ← m.calcS true; diracIsoscalarExpr m.toNucleonArgs m.diracS c w)
    let dv ← (do let w ← m.t_to_W_dirac_isovector.call t; let c ← m.calcV; diracIsovectorExpr m.toNucleonArgs m.diracV c w)
    let ps ← (do let w ← m.t_to_W_pauli_isoscalar.call t; let c ← m.calcS false; pauliIsoscalarExpr m.toNucleonArgs m.pauliS c w)
    let pv ← (do let w ← m.t_to_W_pauli_isovector.call t; pauliIsovectorExpr m.toNucleonArgs m.pauliV w)
    m.combine t ds dv ps pv

theorem NucleonUAModel.call_base (m : NucleonUAModel) (t : ℂ) : (m.call t).2.toNucleonBase = m.toNucleonBase := rfl

theorem NucleonUAModel.call_sim (m : NucleonUAModel) (t : ℂ) (h : CacheInv m.toNucleonBase m.mass_terms_cache) :
    (m.call t).1 = callPure m.toNucleonBase t ∧ CacheInv m.toNucleonBase (m.call t).2.mass_terms_cache := by
  unfold NucleonUAModel.call callPure
  simp only
  split_ifs with hre
  · exact ⟨rfl, h⟩
  · refine Sim.bind ?_ (fun ds => Sim.bind ?_ fun dv => Sim.bind ?_ fun ps => Sim.bind ?_ fun pv => Sim.lift _ _) _ h
    · exact Sim.bind (Sim.lift _ _) fun w => Sim.bind (Sim.getS _ _) fun c => Sim.lift _ _
    · exact Sim.bind (Sim.lift _ _) fun w => Sim.bind (Sim.getV _) fun c => Sim.lift _ _
    · exact Sim.bind (Sim.lift _ _) fun w => Sim.bind (Sim.getS _ _) fun c => Sim.lift _ _
    · exact Sim.bind (Sim.lift _ _) fun w => Sim.lift _ _

theorem NBuilt.callPure_eq {proton electric : Bool} {x : NucleonArgs} {m : NucleonBase} (b : NBuilt thrNew proton electric x m)
    (t : ℂ) : callPure m t = evalC m x.cDS x.cDV x.cPS t := by
  unfold callPure evalC
  simp only [b.calcDS, b.calcPS, b.calcDV, except_ok_bind]

end UA
