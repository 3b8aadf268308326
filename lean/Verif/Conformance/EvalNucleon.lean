import Verif.Conformance.Eval
import Verif.Lemmas.NucleonRun

/-!
# Rigorous numerical evaluation of the nucleon form factors
-/

namespace UA

open Complex ComplexConjugate

namespace Ball

/-! ### Groups of resonances -/

def Mem6 (a : Six ℂ) (b : Six Ball) : Prop :=
  Mem a.omega b.omega ∧ Mem a.omega_prime b.omega_prime ∧ Mem a.omega_double_prime b.omega_double_prime ∧
  Mem a.phi b.phi ∧ Mem a.phi_prime b.phi_prime ∧ Mem a.phi_double_prime b.phi_double_prime
def Mem3 (a : Three ℂ) (b : Three Ball) : Prop :=
  Mem a.rho b.rho ∧ Mem a.rho_prime b.rho_prime ∧ Mem a.rho_double_prime b.rho_double_prime

/-- Numerical data of an isoscalar part: `t_0`, `√(t_in - t_0)`, `W(0)`, the variants and the poles in the conformal variable. -/
structure Grp6 where
  T0 : Ball
  A : Ball
  B0 : Ball
  V : Six Variant
  W : Six Ball
structure Grp3 where
  T0 : Ball
  A : Ball
  B0 : Ball
  V : Three Variant
  W : Three Ball

structure Grp6OK (t_0 t_in : ℝ) (V : Six Variant) (P : Six ℂ) (g : Grp6) : Prop where
  h0 : Mem t_0 g.T0
  hA : Mem (Real.sqrt (t_in - t_0) : ℂ) g.A
  hB : Mem (Wval t_0 t_in 0) g.B0
  hV : V = g.V
  hW : Mem6 (P.map (Wval t_0 t_in)) g.W
structure Grp3OK (t_0 t_in : ℝ) (V : Three Variant) (P : Three ℂ) (g : Grp3) : Prop where
  h0 : Mem t_0 g.T0
  hA : Mem (Real.sqrt (t_in - t_0) : ℂ) g.A
  hB : Mem (Wval t_0 t_in 0) g.B0
  hV : V = g.V
  hW : Mem3 (P.map (Wval t_0 t_in)) g.W

def Grp6.F (g : Grp6) (T : Ball) (k : Cert) : Six Ball := Six.map₂ (fun v p => fB v g.B0 p (wB g.T0 g.A T k)) g.V g.W
def Grp3.F (g : Grp3) (T : Ball) (k : Cert) : Three Ball := Three.map₂ (fun v p => fB v g.B0 p (wB g.T0 g.A T k)) g.V g.W

theorem Grp6OK.F {t_0 t_in : ℝ} {V : Six Variant} {P : Six ℂ} {g : Grp6} (o : Grp6OK t_0 t_in V P g) {t : ℂ} {T : Ball} (ht : Mem t T)
    (k : Cert) : Mem6 (Six.F t_0 t_in V P t) (g.F T k) := by
  obtain ⟨h0, hA, hB, rfl, w1, w2, w3, w4, w5, w6⟩ := o
  have hw := mem_Wval h0 hA ht k
  exact ⟨mem_Fval _ hB w1 hw, mem_Fval _ hB w2 hw, mem_Fval _ hB w3 hw, mem_Fval _ hB w4 hw, mem_Fval _ hB w5 hw, mem_Fval _ hB w6 hw⟩
theorem Grp3OK.F {t_0 t_in : ℝ} {V : Three Variant} {P : Three ℂ} {g : Grp3} (o : Grp3OK t_0 t_in V P g) {t : ℂ} {T : Ball} (ht : Mem t T)
    (k : Cert) : Mem3 (Three.F t_0 t_in V P t) (g.F T k) := by
  obtain ⟨h0, hA, hB, rfl, w1, w2, w3⟩ := o
  have hw := mem_Wval h0 hA ht k
  exact ⟨mem_Fval _ hB w1 hw, mem_Fval _ hB w2 hw, mem_Fval _ hB w3 hw⟩

/-! ### Mass terms -/

def massB (v : Variant) (B0 Bp : Ball) : Ball :=
  let u := Bp - Bp.inv
  quartB v Bp B0 / -(u * u.conjB)

theorem mem_massTerm (v : Variant) {t_0 t_in : ℝ} {p : ℂ} {B0 Bp : Ball} (h0 : Mem (Wval t_0 t_in 0) B0) (hp : Mem (Wval t_0 t_in p) Bp) :
    Mem (massTerm v t_0 t_in p) (massB v B0 Bp) := by
  unfold massTerm massB
  have hu := hp.sub hp.inv
  have := (mem_quart v hp h0).div (hu.mul hu.conj).neg
  rw [Complex.mul_conj, Complex.normSq_eq_norm_sq] at this
  exact this

def Grp6.c (g : Grp6) : Six Ball := Six.map₂ (fun v p => massB v g.B0 p) g.V g.W
def Grp3.c (g : Grp3) : Three Ball := Three.map₂ (fun v p => massB v g.B0 p) g.V g.W

theorem Grp6OK.c {t_0 t_in : ℝ} {V : Six Variant} {P : Six ℂ} {g : Grp6} (o : Grp6OK t_0 t_in V P g) :
    Mem6 (Six.map₂ (fun v p => massTerm v t_0 t_in p) V P) g.c := by
  obtain ⟨h0, hA, hB, rfl, w1, w2, w3, w4, w5, w6⟩ := o
  exact ⟨mem_massTerm _ hB w1, mem_massTerm _ hB w2, mem_massTerm _ hB w3, mem_massTerm _ hB w4, mem_massTerm _ hB w5, mem_massTerm _ hB w6⟩
theorem Grp3OK.c {t_0 t_in : ℝ} {V : Three Variant} {P : Three ℂ} {g : Grp3} (o : Grp3OK t_0 t_in V P g) :
    Mem3 (Three.map₂ (fun v p => massTerm v t_0 t_in p) V P) g.c := by
  obtain ⟨h0, hA, hB, rfl, w1, w2, w3⟩ := o
  exact ⟨mem_massTerm _ hB w1, mem_massTerm _ hB w2, mem_massTerm _ hB w3⟩

def within6 (a b : Six Ball) : Bool :=
  a.omega.within b.omega && a.omega_prime.within b.omega_prime && a.omega_double_prime.within b.omega_double_prime &&
  a.phi.within b.phi && a.phi_prime.within b.phi_prime && a.phi_double_prime.within b.phi_double_prime
def within3 (a b : Three Ball) : Bool := a.rho.within b.rho && a.rho_prime.within b.rho_prime && a.rho_double_prime.within b.rho_double_prime

theorem Mem6.within {x : Six ℂ} {a b : Six Ball} (h : Mem6 x a) (hw : within6 a b = true) : Mem6 x b := by
  simp only [within6, Bool.and_eq_true] at hw
  obtain ⟨⟨⟨⟨⟨w1, w2⟩, w3⟩, w4⟩, w5⟩, w6⟩ := hw
  obtain ⟨h1, h2, h3, h4, h5, h6⟩ := h
  exact ⟨h1.within w1, h2.within w2, h3.within w3, h4.within w4, h5.within w5, h6.within w6⟩
theorem Mem3.within {x : Three ℂ} {a b : Three Ball} (h : Mem3 x a) (hw : within3 a b = true) : Mem3 x b := by
  simp only [within3, Bool.and_eq_true] at hw
  obtain ⟨⟨w1, w2⟩, w3⟩ := hw
  obtain ⟨h1, h2, h3⟩ := h
  exact ⟨h1.within w1, h2.within w2, h3.within w3⟩

/-! ### The four contributions -/

def dTermB (O P R cO cP cR : Ball) : Ball := P * R * (cP - cR) / (cP - cO) + O * R * (cO - cR) / (cO - cP) - O * P
def pTermB (O P Q R cO cP cQ cR : Ball) : Ball :=
  P * Q * R * ((cP - cR) / (cP - cO)) * ((cQ - cR) / (cQ - cO)) + O * Q * R * ((cO - cR) / (cO - cP)) * ((cQ - cR) / (cQ - cP)) +
    O * P * R * ((cO - cR) / (cO - cQ)) * ((cP - cR) / (cP - cQ)) - O * P * Q

theorem mem_dTerm {O P R cO cP cR : ℂ} {bO bP bR dO dP dR : Ball} (h1 : Mem O bO) (h2 : Mem P bP) (h3 : Mem R bR) (h4 : Mem cO dO)
    (h5 : Mem cP dP) (h6 : Mem cR dR) : Mem (dTerm O P R cO cP cR) (dTermB bO bP bR dO dP dR) :=
  ((((h2.mul h3).mul (h5.sub h6)).div (h5.sub h4)).add (((h1.mul h3).mul (h4.sub h6)).div (h4.sub h5))).sub (h1.mul h2)
theorem mem_pTerm {O P Q R cO cP cQ cR : ℂ} {bO bP bQ bR dO dP dQ dR : Ball} (h1 : Mem O bO) (h2 : Mem P bP) (h3 : Mem Q bQ) (h4 : Mem R bR)
    (h5 : Mem cO dO) (h6 : Mem cP dP) (h7 : Mem cQ dQ) (h8 : Mem cR dR) :
    Mem (pTerm O P Q R cO cP cQ cR) (pTermB bO bP bQ bR dO dP dQ dR) :=
  ((((((h2.mul h3).mul h4).mul ((h6.sub h8).div (h6.sub h5))).mul ((h7.sub h8).div (h7.sub h5))).add
    ((((h1.mul h3).mul h4).mul ((h5.sub h8).div (h5.sub h6))).mul ((h7.sub h8).div (h7.sub h6)))).add
    ((((h1.mul h2).mul h4).mul ((h5.sub h8).div (h5.sub h7))).mul ((h6.sub h8).div (h6.sub h7)))).sub ((h1.mul h2).mul h3)

/-- Numerical values of the constructor arguments other than thresholds, masses and widths. -/
structure ConstB where
  nucleon_mass : Ball
  mu_p : Ball
  mu_n : Ball
  a_dirac_omega : Ball
  a_dirac_omega_prime : Ball
  a_dirac_phi : Ball
  a_dirac_phi_prime : Ball
  a_dirac_rho : Ball
  a_pauli_omega : Ball
  a_pauli_phi : Ball
  a_pauli_phi_prime : Ball

structure ConstOK (x : NucleonArgs) (b : ConstB) : Prop where
  nucleon_mass : Mem x.nucleon_mass b.nucleon_mass
  mu_p : Mem x.magnetic_moment_proton b.mu_p
  mu_n : Mem x.magnetic_moment_neutron b.mu_n
  a_dirac_omega : Mem x.a_dirac_omega b.a_dirac_omega
  a_dirac_omega_prime : Mem x.a_dirac_omega_prime b.a_dirac_omega_prime
  a_dirac_phi : Mem x.a_dirac_phi b.a_dirac_phi
  a_dirac_phi_prime : Mem x.a_dirac_phi_prime b.a_dirac_phi_prime
  a_dirac_rho : Mem x.a_dirac_rho b.a_dirac_rho
  a_pauli_omega : Mem x.a_pauli_omega b.a_pauli_omega
  a_pauli_phi : Mem x.a_pauli_phi b.a_pauli_phi
  a_pauli_phi_prime : Mem x.a_pauli_phi_prime b.a_pauli_phi_prime

def half : Ball := one / two
theorem mem_half : Mem (1 / 2) half := mem_one.div mem_two

def dsB (b : ConstB) (F c : Six Ball) : Ball :=
  half * F.omega_double_prime * F.phi_double_prime +
  b.a_dirac_omega_prime * dTermB F.omega_double_prime F.phi_double_prime F.omega_prime c.omega_double_prime c.phi_double_prime c.omega_prime +
  b.a_dirac_phi_prime * dTermB F.omega_double_prime F.phi_double_prime F.phi_prime c.omega_double_prime c.phi_double_prime c.phi_prime +
  b.a_dirac_omega * dTermB F.omega_double_prime F.phi_double_prime F.omega c.omega_double_prime c.phi_double_prime c.omega +
  b.a_dirac_phi * dTermB F.omega_double_prime F.phi_double_prime F.phi c.omega_double_prime c.phi_double_prime c.phi
def dvB (b : ConstB) (F c : Three Ball) : Ball :=
  half * F.rho_prime * F.rho_double_prime +
  b.a_dirac_rho * dTermB F.rho_double_prime F.rho_prime F.rho c.rho_double_prime c.rho_prime c.rho
def psB (b : ConstB) (F c : Six Ball) : Ball :=
  half * (b.mu_p + b.mu_n - one) * F.omega_double_prime * F.phi_double_prime * F.omega_prime +
  b.a_pauli_phi_prime * pTermB F.omega_double_prime F.phi_double_prime F.omega_prime F.phi_prime c.omega_double_prime c.phi_double_prime c.omega_prime c.phi_prime +
  b.a_pauli_omega * pTermB F.omega_double_prime F.phi_double_prime F.omega_prime F.omega c.omega_double_prime c.phi_double_prime c.omega_prime c.omega +
  b.a_pauli_phi * pTermB F.omega_double_prime F.phi_double_prime F.omega_prime F.phi c.omega_double_prime c.phi_double_prime c.omega_prime c.phi
def pvB (b : ConstB) (F : Three Ball) : Ball :=
  half * (b.mu_p - b.mu_n - one) * F.rho * F.rho_prime * F.rho_double_prime

theorem mem_ds {x : NucleonArgs} {b : ConstB} (h : ConstOK x b) {F c : Six ℂ} {G d : Six Ball} (hF : Mem6 F G) (hc : Mem6 c d) :
    Mem (dsVal x F c) (dsB b G d) := by
  obtain ⟨f1, f2, f3, f4, f5, f6⟩ := hF
  obtain ⟨c1, c2, c3, c4, c5, c6⟩ := hc
  exact (((((mem_half.mul f3).mul f6).add (h.a_dirac_omega_prime.mul (mem_dTerm f3 f6 f2 c3 c6 c2))).add
    (h.a_dirac_phi_prime.mul (mem_dTerm f3 f6 f5 c3 c6 c5))).add (h.a_dirac_omega.mul (mem_dTerm f3 f6 f1 c3 c6 c1))).add
    (h.a_dirac_phi.mul (mem_dTerm f3 f6 f4 c3 c6 c4))
theorem mem_dv {x : NucleonArgs} {b : ConstB} (h : ConstOK x b) {F c : Three ℂ} {G d : Three Ball} (hF : Mem3 F G) (hc : Mem3 c d) :
    Mem (dvVal x F c) (dvB b G d) := by
  obtain ⟨f1, f2, f3⟩ := hF
  obtain ⟨c1, c2, c3⟩ := hc
  exact ((mem_half.mul f2).mul f3).add (h.a_dirac_rho.mul (mem_dTerm f3 f2 f1 c3 c2 c1))
theorem mem_ps {x : NucleonArgs} {b : ConstB} (h : ConstOK x b) {F c : Six ℂ} {G d : Six Ball} (hF : Mem6 F G) (hc : Mem6 c d) :
    Mem (psVal x F c) (psB b G d) := by
  obtain ⟨f1, f2, f3, f4, f5, f6⟩ := hF
  obtain ⟨c1, c2, c3, c4, c5, c6⟩ := hc
  exact (((((mem_half.mul ((h.mu_p.add h.mu_n).sub mem_one)).mul f3).mul f6).mul f2).add
    (h.a_pauli_phi_prime.mul (mem_pTerm f3 f6 f2 f5 c3 c6 c2 c5))).add (h.a_pauli_omega.mul (mem_pTerm f3 f6 f2 f1 c3 c6 c2 c1)) |>.add
    (h.a_pauli_phi.mul (mem_pTerm f3 f6 f2 f4 c3 c6 c2 c4))
theorem mem_pv {x : NucleonArgs} {b : ConstB} (h : ConstOK x b) {F : Three ℂ} {G : Three Ball} (hF : Mem3 F G) :
    Mem (pvVal x F) (pvB b G) := by
  obtain ⟨f1, f2, f3⟩ := hF
  exact ((((mem_half.mul ((h.mu_p.sub h.mu_n).sub mem_one)).mul f1).mul f2).mul f3)

/-! ### The whole model -/

theorem Mem.sq {x : ℂ} {a : Ball} (h : Mem x a) : Mem (x ^ 2) (a * a) := by
  rw [pow_two]; exact h.mul h

/-- A resonance of non-zero width above the threshold is accepted by both builders. -/
theorem build_ok (b : Builder) {t_0 t_in m g : ℝ} (h0 : 0 ≤ t_0) (h : t_0 < t_in) (hg : g ≠ 0) (hm : t_0 < m ^ 2 - g ^ 2 / 4) :
    ∃ c, b.build t_0 t_in m g = .ok c := by
  have hm' : t_0 < m ^ 2 := by nlinarith [sq_nonneg g]
  cases b
  · have ht := C12_thresholds t_0 t_in m g h0 h
    by_cases hlt : m ^ 2 < t_in
    · obtain ⟨c, hc, _⟩ := ht.2.2.1.mpr ⟨hm'.le, hlt, fun h' => hg h'.1⟩
      exact ⟨c, hc⟩
    · obtain ⟨c, hc, _⟩ := ht.2.2.2.mpr ⟨not_lt.mp hlt, fun h' => hg h'.1⟩
      exact ⟨c, hc⟩
  · have ht := C12_thresholds_nucleon t_0 t_in m g h0 h
    by_cases hlt : m ^ 2 - g ^ 2 / 4 < t_in
    · obtain ⟨c, hc, _⟩ := ht.2.2.1.mpr ⟨hm.le, hlt, fun h' => hg h'.1⟩
      exact ⟨c, hc⟩
    · obtain ⟨c, hc, _⟩ := ht.2.2.2.mpr ⟨not_lt.mp hlt, fun h' => hg h'.1⟩
      exact ⟨c, hc⟩

theorem builds_of_base (k : NucleonClass) {proton electric : Bool} {x : NucleonArgs}
    (h : ∀ b : Builder, ∃ m, NucleonBase.init b.build proton electric x = .ok m) : k.Builds proton electric x := by
  cases k with
  | new =>
    obtain ⟨m, hm⟩ := h .poleRealPart
    refine ⟨{ m with mass_terms_cache := fun _ => none }, ?_⟩
    unfold NucleonUAModel.init
    rw [show NucleonBase.init nucleonBuildComponent proton electric x = .ok m from hm]
    rfl
  | old => exact h .massSquared

/-- Numerical data of a nucleon model. -/
structure NData where
  k : ConstB
  tin : Ball × Ball × Ball × Ball
  pS : Six Ball
  pT : Three Ball
  ds : Grp6
  dv : Grp3
  ps : Grp6
  pv : Grp3
  cDS : Six Ball
  cDV : Three Ball
  cPS : Six Ball

structure NOK (k : NucleonClass) (x : NucleonArgs) (d : NData) : Prop where
  hk : ConstOK x d.k
  htin : Mem x.t_in_dirac_isoscalar d.tin.1 ∧ Mem x.t_in_dirac_isovector d.tin.2.1 ∧ Mem x.t_in_pauli_isoscalar d.tin.2.2.1 ∧
    Mem x.t_in_pauli_isovector d.tin.2.2.2
  hpS : Mem6 x.poleS d.pS
  hpT : Mem3 x.poleT d.pT
  ds : Grp6OK x.t_0_dirac_isoscalar x.t_in_dirac_isoscalar (x.thrS k.thr x.t_in_dirac_isoscalar) x.poleS d.ds
  dv : Grp3OK x.t_0_dirac_isovector x.t_in_dirac_isovector (x.thrT k.thr x.t_in_dirac_isovector) x.poleT d.dv
  ps : Grp6OK x.t_0_pauli_isoscalar x.t_in_pauli_isoscalar (x.thrS k.thr x.t_in_pauli_isoscalar) x.poleS d.ps
  pv : Grp3OK x.t_0_pauli_isovector x.t_in_pauli_isovector (x.thrT k.thr x.t_in_pauli_isovector) x.poleT d.pv
  cDS : Mem6 (k.cDS x) d.cDS
  cDV : Mem3 (k.cDV x) d.cDV
  cPS : Mem6 (k.cPS x) d.cPS
  mass : x.nucleon_mass ≠ 0
  okDS : (d.cDS.phi_double_prime - d.cDS.omega_double_prime).away = true
  okDV : (d.cDV.rho_prime - d.cDV.rho_double_prime).away = true
  okPS : (d.cPS.phi_double_prime - d.cPS.omega_double_prime).away = true ∧ (d.cPS.omega_prime - d.cPS.omega_double_prime).away = true ∧
    (d.cPS.omega_prime - d.cPS.phi_double_prime).away = true

structure Cert4 where
  ds : Cert
  dv : Cert
  ps : Cert
  pv : Cert

/-- The value of the model. -/
def nucB (d : NData) (proton electric : Bool) (T : Ball) (k : Cert4) : Ball :=
  let s := if proton then one else -one
  (dsB d.k (d.ds.F T k.ds) d.cDS + s * dvB d.k (d.dv.F T k.dv) d.cDV) +
    (if electric then T / ((two + two) * (d.k.nucleon_mass * d.k.nucleon_mass)) else one) *
      (psB d.k (d.ps.F T k.ps) d.cPS + s * pvB d.k (d.pv.F T k.pv))

/-- The point is no threshold and no pole. -/
def nucRegular (d : NData) (T : Ball) : Bool :=
  (T - d.tin.1).away && (T - d.tin.2.1).away && (T - d.tin.2.2.1).away && (T - d.tin.2.2.2).away && d.pS.toList.all (fun p => (T - p).away && (T - p.conjB).away) &&
    d.pT.toList.all (fun p => (T - p).away && (T - p.conjB).away)

theorem nuc_value {k : NucleonClass} {x : NucleonArgs} {d : NData} (o : NOK k x d) (hx : x.Proper) {proton electric : Bool}
    (hb : k.Builds proton electric x) {t : ℂ} {T : Ball} (hre : 0 ≤ t.re) (ht : Mem t T) (c : Cert4) (h : nucRegular d T = true) :
    ∃ y, k.run proton electric x t = .ok y ∧ Mem y (nucB d proton electric T c) := by
  obtain ⟨m, b, hrun⟩ := NucleonClass.run_built hx hb
  simp only [nucRegular, Bool.and_eq_true] at h
  obtain ⟨⟨⟨⟨⟨g1, g2⟩, g3⟩, g4⟩, h2⟩, h3⟩ := h
  have hpole : ∀ p B, Mem p B → ((T - B).away && (T - B.conjB).away) = true → ¬ (t = p ∨ t = conj p) := by
    rintro p B hp hB
    rw [Bool.and_eq_true] at hB
    rintro (e | e)
    · exact (ht.sub hp).of_away hB.1 (sub_eq_zero.mpr e)
    · exact (ht.sub hp.conj).of_away hB.2 (sub_eq_zero.mpr e)
  have hns : ¬ NSingular x electric (k.cDS x) (k.cDV x) (k.cPS x) t := by
    rintro (hs | ⟨p, hp, hs⟩ | hs | hs)
    · obtain ⟨e1, e2, e3, e4⟩ := o.htin
      rcases hs with hs | hs | hs | hs
      · exact (ht.sub e1).of_away g1 (sub_eq_zero.mpr hs)
      · exact (ht.sub e2).of_away g2 (sub_eq_zero.mpr hs)
      · exact (ht.sub e3).of_away g3 (sub_eq_zero.mpr hs)
      · exact (ht.sub e4).of_away g4 (sub_eq_zero.mpr hs)
    · rcases List.mem_append.mp hp with hp | hp
      · obtain ⟨q1, q2, q3, q4, q5, q6⟩ := o.hpS
        simp only [Six.toList, List.all_cons, Bool.and_eq_true, List.mem_cons, List.not_mem_nil, or_false] at h2 hp
        obtain ⟨r1, r2, r3, r4, r5, r6, _⟩ := h2
        rcases hp with rfl | rfl | rfl | rfl | rfl | rfl
        · exact hpole _ _ q1 (by simp [r1]) hs
        · exact hpole _ _ q2 (by simp [r2]) hs
        · exact hpole _ _ q3 (by simp [r3]) hs
        · exact hpole _ _ q4 (by simp [r4]) hs
        · exact hpole _ _ q5 (by simp [r5]) hs
        · exact hpole _ _ q6 (by simp [r6]) hs
      · obtain ⟨q1, q2, q3⟩ := o.hpT
        simp only [Three.toList, List.all_cons, Bool.and_eq_true, List.mem_cons, List.not_mem_nil, or_false] at h3 hp
        obtain ⟨r1, r2, r3, _⟩ := h3
        rcases hp with rfl | rfl | rfl
        · exact hpole _ _ q1 (by simp [r1]) hs
        · exact hpole _ _ q2 (by simp [r2]) hs
        · exact hpole _ _ q3 (by simp [r3]) hs
    · refine hs ⟨?_, ?_, ?_, ?_, ?_⟩
      · exact sub_ne_zero.mp ((o.cDS.2.2.2.2.2.sub o.cDS.2.2.1).of_away o.okDS)
      · exact sub_ne_zero.mp ((o.cDV.2.1.sub o.cDV.2.2).of_away o.okDV)
      · exact sub_ne_zero.mp ((o.cPS.2.2.2.2.2.sub o.cPS.2.2.1).of_away o.okPS.1)
      · exact sub_ne_zero.mp ((o.cPS.2.1.sub o.cPS.2.2.1).of_away o.okPS.2.1)
      · exact sub_ne_zero.mp ((o.cPS.2.1.sub o.cPS.2.2.2.2.2).of_away o.okPS.2.2)
    · exact o.mass hs.2
  refine ⟨_, (hrun t).trans (b.evalC_ok hre hns), ?_⟩
  have hs : Mem (if proton = true then (1 : ℂ) else -1) (if proton then one else -one) := by
    cases proton
    · exact mem_one.neg
    · exact mem_one
  have hf : Mem (if electric = true then t / (4 * (x.nucleon_mass : ℂ) ^ 2) else 1)
      (if electric then T / ((two + two) * (d.k.nucleon_mass * d.k.nucleon_mass)) else one) := by
    cases electric
    · exact mem_one
    · have := ht.div ((mem_two.add mem_two).mul (o.hk.nucleon_mass.mul o.hk.nucleon_mass))
      rw [← pow_two, show (2 : ℂ) + 2 = 4 by norm_num] at this
      exact this
  exact ((mem_ds o.hk (o.ds.F ht c.ds) o.cDS).add (hs.mul (mem_dv o.hk (o.dv.F ht c.dv) o.cDV))).add
    (hf.mul ((mem_ps o.hk (o.ps.F ht c.ps) o.cPS).add (hs.mul (mem_pv o.hk (o.pv.F ht c.pv)))))

theorem nuc_close {k : NucleonClass} {x : NucleonArgs} {d : NData} (o : NOK k x d) (hx : x.Proper) {proton electric : Bool}
    (hb : k.Builds proton electric x) {t e : ℂ} {T E : Ball} (hre : 0 ≤ t.re) (ht : Mem t T) (he : Mem e E) (c : Cert4)
    (h : (nucRegular d T && closeB (nucB d proton electric T c) E) = true) :
    ∃ y, k.run proton electric x t = .ok y ∧ IsClose y e 1e-15 := by
  rw [Bool.and_eq_true] at h
  obtain ⟨y, hy, hm⟩ := nuc_value o hx hb hre ht c h.1
  exact ⟨y, hy, hm.close he h.2 _⟩

end Ball
end UA
