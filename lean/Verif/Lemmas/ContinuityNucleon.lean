import Verif.Lemmas.ContinuityRun
import Verif.Lemmas.NucleonInside
import Verif.Spec.ContinuityNucleon

/-! The fitted nucleon functions as functions of the parameters. -/

namespace UA

open Complex ComplexConjugate Filter Topology

variable {ι : Type*} {l : Filter ι}

theorem massTerm_tendsto (v : Variant) {t0 tin : ι → ℝ} {t_0 t_in : ℝ} (hn : 0 ≤ t_0) (h : t_0 < t_in) (h0 : Tendsto t0 l (𝓝 t_0))
    (hin : Tendsto tin l (𝓝 t_in)) {u : ι → ℂ} {p : ℂ} (hu : Tendsto u l (𝓝 p)) (hp : p.im ≠ 0) :
    Tendsto (fun i => massTerm v (t0 i) (tin i) (u i)) l (𝓝 (massTerm v t_0 t_in p)) := by
  have hoff : ¬ (p.im = 0 ∧ t_0 ≤ p.re) := fun hh => hp hh.1
  have hpin : p ≠ t_in := fun hh => hp (by rw [hh]; simp)
  have hp0 : p ≠ t_0 := fun hh => hp (by rw [hh]; simp)
  have h0in : (0 : ℂ) ≠ t_in := zero_ne_tin hn h
  have w0 := Wval_tendsto h h0 hin h0in (by simpa using zOf_tendsto_real h0 0)
  have wp := Wval_tendsto h h0 hin hpin (zOf_tendsto_off h0 hu hoff)
  have hm : Wval t_0 t_in p ≠ 0 := fun h' => hp0 ((Wval_eq_zero h hpin).mp h')
  refine (quart_tendsto v wp w0 hm).div ?_ (massTerm_den_ne hm (Wval_sq_ne_one h hpin))
  exact (tendsto_ofReal (((wp.sub (tendsto_const_nhds.div wp hm)).norm).pow 2)).neg

/-- A channel with one of its resonances: the parameters converge, the limit has non-zero mass and width and its pole is off the
inelastic threshold. -/
structure ResTend (l : Filter ι) (t0 tin m g : ι → ℝ) (t_0 t_in M G : ℝ) : Prop where
  hn : 0 ≤ t_0
  h : t_0 < t_in
  a1 : Tendsto t0 l (𝓝 t_0)
  a2 : Tendsto tin l (𝓝 t_in)
  a3 : Tendsto m l (𝓝 M)
  a4 : Tendsto g l (𝓝 G)
  hM : M ≠ 0
  hG : G ≠ 0
  hoff : poleRealPart (M, G) ≠ t_in

section
variable {t0 tin m g : ι → ℝ} {t_0 t_in M G : ℝ} (r : ResTend l t0 tin m g t_0 t_in M G)
include r

theorem ResTend.real : Tendsto (fun i => thrNew (m i) (g i)) l (𝓝 (thrNew M G)) := by
  simp only [thrNew, tMesonPole_re]
  exact (r.a3.pow 2).sub ((r.a4.pow 2).div_const 4)

theorem ResTend.var : ∀ᶠ i in l, (if thrNew (m i) (g i) < tin i then Variant.A else .B) = (if thrNew M G < t_in then .A else .B) := by
  have hoff : thrNew M G ≠ t_in := by
    have := r.hoff
    simp only [thrNew, tMesonPole_re]
    exact this
  rcases lt_or_gt_of_ne hoff with hlt | hgt
  · filter_upwards [r.real.eventually_lt r.a2 hlt] with i hi
    rw [if_pos hi, if_pos hlt]
  · filter_upwards [r.a2.eventually_lt r.real hgt] with i hi
    rw [if_neg (not_lt.mpr hi.le), if_neg (not_lt.mpr (le_of_lt hgt))]

theorem ResTend.pole : Tendsto (fun i => tMesonPole (m i) (g i)) l (𝓝 (tMesonPole M G)) := by
  simp only [tMesonPole_eq]
  exact polePosition_tendsto r.a3 r.a4

theorem ResTend.im : (tMesonPole M G).im ≠ 0 := by
  rw [tMesonPole_eq]
  simp [polePosition, r.hM, r.hG]

theorem ResTend.F {t : ℝ} (ht : t ≠ t_in) :
    Tendsto (fun i => Fval (if thrNew (m i) (g i) < tin i then .A else .B) (t0 i) (tin i) (tMesonPole (m i) (g i)) t) l
      (𝓝 (Fval (if thrNew M G < t_in then .A else .B) t_0 t_in (tMesonPole M G) t)) := by
  have him := r.im
  refine (Fval_tendsto _ r.hn r.h r.a1 r.a2 r.pole him (t := (t : ℂ)) (fun hh => ht (by exact_mod_cast hh)) (zOf_tendsto_real r.a1 t)
    (fun hh => him (by rw [← hh]; simp)) (fun hh => him (by
      have := congrArg Complex.im hh
      simpa using this.symm))).congr' ?_
  filter_upwards [r.var] with i hi
  rw [hi]

theorem ResTend.c :
    Tendsto (fun i => massTerm (if thrNew (m i) (g i) < tin i then .A else .B) (t0 i) (tin i) (tMesonPole (m i) (g i))) l
      (𝓝 (massTerm (if thrNew M G < t_in then .A else .B) t_0 t_in (tMesonPole M G))) := by
  refine (massTerm_tendsto _ r.hn r.h r.a1 r.a2 r.pole r.im).congr' ?_
  filter_upwards [r.var] with i hi
  rw [hi]

end

/-! ### Groups of resonances -/

theorem dTerm_tendsto {O P R cO cP cR : ι → ℂ} {O' P' R' cO' cP' cR' : ℂ} (h : cP' ≠ cO') (a1 : Tendsto O l (𝓝 O')) (a2 : Tendsto P l (𝓝 P'))
    (a3 : Tendsto R l (𝓝 R')) (a4 : Tendsto cO l (𝓝 cO')) (a5 : Tendsto cP l (𝓝 cP')) (a6 : Tendsto cR l (𝓝 cR')) :
    Tendsto (fun i => dTerm (O i) (P i) (R i) (cO i) (cP i) (cR i)) l (𝓝 (dTerm O' P' R' cO' cP' cR')) :=
  ((((a2.mul a3).mul (a5.sub a6)).div (a5.sub a4) (sub_ne_zero.mpr h)).add
    (((a1.mul a3).mul (a4.sub a6)).div (a4.sub a5) (sub_ne_zero.mpr h.symm))).sub (a1.mul a2)

theorem pTerm_tendsto {O P Q R cO cP cQ cR : ι → ℂ} {O' P' Q' R' cO' cP' cQ' cR' : ℂ} (h1 : cP' ≠ cO') (h2 : cQ' ≠ cO') (h3 : cQ' ≠ cP')
    (a1 : Tendsto O l (𝓝 O')) (a2 : Tendsto P l (𝓝 P')) (a3 : Tendsto Q l (𝓝 Q')) (a4 : Tendsto R l (𝓝 R'))
    (b1 : Tendsto cO l (𝓝 cO')) (b2 : Tendsto cP l (𝓝 cP')) (b3 : Tendsto cQ l (𝓝 cQ')) (b4 : Tendsto cR l (𝓝 cR')) :
    Tendsto (fun i => pTerm (O i) (P i) (Q i) (R i) (cO i) (cP i) (cQ i) (cR i)) l (𝓝 (pTerm O' P' Q' R' cO' cP' cQ' cR')) := by
  have n1 := sub_ne_zero.mpr h1
  have n2 := sub_ne_zero.mpr h1.symm
  have n3 := sub_ne_zero.mpr h2
  have n4 := sub_ne_zero.mpr h2.symm
  have n5 := sub_ne_zero.mpr h3
  have n6 := sub_ne_zero.mpr h3.symm
  exact ((((((a2.mul a3).mul a4).mul ((b2.sub b4).div (b2.sub b1) n1)).mul ((b3.sub b4).div (b3.sub b1) n3)).add
    ((((a1.mul a3).mul a4).mul ((b1.sub b4).div (b1.sub b2) n2)).mul ((b3.sub b4).div (b3.sub b2) n5))).add
    ((((a1.mul a2).mul a4).mul ((b1.sub b4).div (b1.sub b3) n4)).mul ((b2.sub b4).div (b2.sub b3) n6))).sub ((a1.mul a2).mul a3)

/-- Entries of two groups converge. -/
structure SixTend (l : Filter ι) (F : ι → Six ℂ) (F' : Six ℂ) : Prop where
  omega : Tendsto (fun i => (F i).omega) l (𝓝 F'.omega)
  omega_prime : Tendsto (fun i => (F i).omega_prime) l (𝓝 F'.omega_prime)
  omega_double_prime : Tendsto (fun i => (F i).omega_double_prime) l (𝓝 F'.omega_double_prime)
  phi : Tendsto (fun i => (F i).phi) l (𝓝 F'.phi)
  phi_prime : Tendsto (fun i => (F i).phi_prime) l (𝓝 F'.phi_prime)
  phi_double_prime : Tendsto (fun i => (F i).phi_double_prime) l (𝓝 F'.phi_double_prime)

structure ThreeTend (l : Filter ι) (F : ι → Three ℂ) (F' : Three ℂ) : Prop where
  rho : Tendsto (fun i => (F i).rho) l (𝓝 F'.rho)
  rho_prime : Tendsto (fun i => (F i).rho_prime) l (𝓝 F'.rho_prime)
  rho_double_prime : Tendsto (fun i => (F i).rho_double_prime) l (𝓝 F'.rho_double_prime)

section
variable {X : ι → NucleonArgs} {x : NucleonArgs}

theorem dsVal_tendsto {F c : ι → Six ℂ} {F' c' : Six ℂ} (hF : SixTend l F F') (hc : SixTend l c c') (hok : DSok c')
    (a1 : Tendsto (fun i => (X i).a_dirac_omega) l (𝓝 x.a_dirac_omega))
    (a2 : Tendsto (fun i => (X i).a_dirac_omega_prime) l (𝓝 x.a_dirac_omega_prime))
    (a3 : Tendsto (fun i => (X i).a_dirac_phi) l (𝓝 x.a_dirac_phi))
    (a4 : Tendsto (fun i => (X i).a_dirac_phi_prime) l (𝓝 x.a_dirac_phi_prime)) :
    Tendsto (fun i => dsVal (X i) (F i) (c i)) l (𝓝 (dsVal x F' c')) := by
  have d : ∀ {R cR : ι → ℂ} {R' cR' : ℂ}, Tendsto R l (𝓝 R') → Tendsto cR l (𝓝 cR') → _ := fun {R cR R' cR'} h1 h2 =>
    dTerm_tendsto (R := R) (cR := cR) hok hF.omega_double_prime hF.phi_double_prime h1 hc.omega_double_prime hc.phi_double_prime h2
  exact (((((tendsto_const_nhds.mul hF.omega_double_prime).mul hF.phi_double_prime).add
    ((tendsto_ofReal a2).mul (d hF.omega_prime hc.omega_prime))).add
    ((tendsto_ofReal a4).mul (d hF.phi_prime hc.phi_prime))).add
    ((tendsto_ofReal a1).mul (d hF.omega hc.omega))).add
    ((tendsto_ofReal a3).mul (d hF.phi hc.phi))

theorem dvVal_tendsto {F c : ι → Three ℂ} {F' c' : Three ℂ} (hF : ThreeTend l F F') (hc : ThreeTend l c c') (hok : DVok c')
    (a1 : Tendsto (fun i => (X i).a_dirac_rho) l (𝓝 x.a_dirac_rho)) :
    Tendsto (fun i => dvVal (X i) (F i) (c i)) l (𝓝 (dvVal x F' c')) :=
  ((tendsto_const_nhds.mul hF.rho_prime).mul hF.rho_double_prime).add
    ((tendsto_ofReal a1).mul (dTerm_tendsto hok hF.rho_double_prime hF.rho_prime hF.rho hc.rho_double_prime hc.rho_prime hc.rho))

theorem psVal_tendsto {F c : ι → Six ℂ} {F' c' : Six ℂ} (hF : SixTend l F F') (hc : SixTend l c c') (hok : PSok c')
    (m1 : Tendsto (fun i => (X i).magnetic_moment_proton) l (𝓝 x.magnetic_moment_proton))
    (m2 : Tendsto (fun i => (X i).magnetic_moment_neutron) l (𝓝 x.magnetic_moment_neutron))
    (a1 : Tendsto (fun i => (X i).a_pauli_omega) l (𝓝 x.a_pauli_omega))
    (a3 : Tendsto (fun i => (X i).a_pauli_phi) l (𝓝 x.a_pauli_phi))
    (a4 : Tendsto (fun i => (X i).a_pauli_phi_prime) l (𝓝 x.a_pauli_phi_prime)) :
    Tendsto (fun i => psVal (X i) (F i) (c i)) l (𝓝 (psVal x F' c')) := by
  have d : ∀ {R cR : ι → ℂ} {R' cR' : ℂ}, Tendsto R l (𝓝 R') → Tendsto cR l (𝓝 cR') → _ := fun {R cR R' cR'} h1 h2 =>
    pTerm_tendsto (R := R) (cR := cR) hok.1 hok.2.1 hok.2.2 hF.omega_double_prime hF.phi_double_prime hF.omega_prime h1
      hc.omega_double_prime hc.phi_double_prime hc.omega_prime h2
  exact ((((((tendsto_const_nhds.mul (((tendsto_ofReal m1).add (tendsto_ofReal m2)).sub tendsto_const_nhds)).mul hF.omega_double_prime).mul
    hF.phi_double_prime).mul hF.omega_prime).add
    ((tendsto_ofReal a4).mul (d hF.phi_prime hc.phi_prime))).add
    ((tendsto_ofReal a1).mul (d hF.omega hc.omega))).add
    ((tendsto_ofReal a3).mul (d hF.phi hc.phi))

theorem pvVal_tendsto {F : ι → Three ℂ} {F' : Three ℂ} (hF : ThreeTend l F F')
    (m1 : Tendsto (fun i => (X i).magnetic_moment_proton) l (𝓝 x.magnetic_moment_proton))
    (m2 : Tendsto (fun i => (X i).magnetic_moment_neutron) l (𝓝 x.magnetic_moment_neutron)) :
    Tendsto (fun i => pvVal (X i) (F i)) l (𝓝 (pvVal x F')) :=
  (((tendsto_const_nhds.mul (((tendsto_ofReal m1).sub (tendsto_ofReal m2)).sub tendsto_const_nhds)).mul hF.rho).mul hF.rho_prime).mul
    hF.rho_double_prime

theorem nVal_tendsto {ds dv ps pv : ι → ℂ} {ds' dv' ps' pv' : ℂ} (pr el : Bool) (t : ℂ) (he : el = true → x.nucleon_mass ≠ 0)
    (hm : Tendsto (fun i => (X i).nucleon_mass) l (𝓝 x.nucleon_mass)) (a1 : Tendsto ds l (𝓝 ds')) (a2 : Tendsto dv l (𝓝 dv'))
    (a3 : Tendsto ps l (𝓝 ps')) (a4 : Tendsto pv l (𝓝 pv')) :
    Tendsto (fun i => nVal (X i) pr el t (ds i) (dv i) (ps i) (pv i)) l (𝓝 (nVal x pr el t ds' dv' ps' pv')) := by
  have hfac : Tendsto (fun i => (if el then t / (4 * ((X i).nucleon_mass : ℂ) ^ 2) else 1)) l
      (𝓝 (if el then t / (4 * (x.nucleon_mass : ℂ) ^ 2) else 1)) := by
    cases el
    · simpa using tendsto_const_nhds
    · simp only [if_true]
      refine tendsto_const_nhds.div (tendsto_const_nhds.mul ((tendsto_ofReal hm).pow 2)) ?_
      exact mul_ne_zero (by norm_num) (pow_ne_zero 2 (by exact_mod_cast he rfl))
  exact (a1.add (tendsto_const_nhds.mul a2)).add (hfac.mul (a3.add (tendsto_const_nhds.mul a4)))

end

/-! ### The whole form factor -/

/-- The value of the form factor. -/
noncomputable def NucleonArgs.formula (x : NucleonArgs) (pr el : Bool) (t : ℂ) : ℂ :=
  nVal x pr el t (dsAt thrNew x x.cDS t) (dvAt thrNew x x.cDV t) (psAt thrNew x x.cPS t) (pvAt thrNew x t)

/-- Values converging name by name, and what is needed of the limit; the switch of the Pauli isovector part is left out. -/
structure NTend0 (l : Filter ι) (v : ι → String → ℝ) (V : String → ℝ) : Prop where
  tend : ∀ n, Tendsto (fun i => v i n) l (𝓝 (V n))
  proper : (NucleonArgs.ofValues V).Proper
  t0 : 0 ≤ V "t_0_dirac_isoscalar" ∧ 0 ≤ V "t_0_dirac_isovector" ∧ 0 ≤ V "t_0_pauli_isoscalar" ∧ 0 ≤ V "t_0_pauli_isovector"
  res : ∀ r ∈ (NucleonArgs.ofValues V).resonances, r.1 ≠ 0 ∧ r.2 ≠ 0
  offS : ∀ r ∈ (NucleonArgs.ofValues V).resonances.take 6, poleRealPart r ≠ V "t_in_dirac_isoscalar" ∧ poleRealPart r ≠ V "t_in_pauli_isoscalar"
  offV : ∀ r ∈ (NucleonArgs.ofValues V).resonances.drop 6, poleRealPart r ≠ V "t_in_dirac_isovector"

/-- The same with all switches. -/
structure NTend (l : Filter ι) (v : ι → String → ℝ) (V : String → ℝ) : Prop extends NTend0 l v V where
  off : (NucleonArgs.ofValues V).OffThresholds

section
variable {v : ι → String → ℝ} {V : String → ℝ} (h : NTend0 l v V)
include h

theorem NTend0.dirac_isoscalar {mn gn : String} (hr : (V mn, V gn) ∈ (NucleonArgs.ofValues V).resonances.take 6) :
    ResTend l (fun i => v i "t_0_dirac_isoscalar") (fun i => v i "t_in_dirac_isoscalar") (fun i => v i mn) (fun i => v i gn)
      (V "t_0_dirac_isoscalar") (V "t_in_dirac_isoscalar") (V mn) (V gn) :=
  ⟨h.t0.1, h.proper.1, h.tend _, h.tend _, h.tend _, h.tend _, (h.res _ (List.mem_of_mem_take hr)).1, (h.res _ (List.mem_of_mem_take hr)).2,
    (h.offS _ hr).1⟩

theorem NTend0.dirac_isovector {mn gn : String} (hr : (V mn, V gn) ∈ (NucleonArgs.ofValues V).resonances.drop 6) :
    ResTend l (fun i => v i "t_0_dirac_isovector") (fun i => v i "t_in_dirac_isovector") (fun i => v i mn) (fun i => v i gn)
      (V "t_0_dirac_isovector") (V "t_in_dirac_isovector") (V mn) (V gn) :=
  ⟨h.t0.2.1, h.proper.2.1, h.tend _, h.tend _, h.tend _, h.tend _, (h.res _ (List.mem_of_mem_drop hr)).1, (h.res _ (List.mem_of_mem_drop hr)).2,
    h.offV _ hr⟩

theorem NTend0.pauli_isoscalar {mn gn : String} (hr : (V mn, V gn) ∈ (NucleonArgs.ofValues V).resonances.take 6) :
    ResTend l (fun i => v i "t_0_pauli_isoscalar") (fun i => v i "t_in_pauli_isoscalar") (fun i => v i mn) (fun i => v i gn)
      (V "t_0_pauli_isoscalar") (V "t_in_pauli_isoscalar") (V mn) (V gn) :=
  ⟨h.t0.2.2.1, h.proper.2.2.1, h.tend _, h.tend _, h.tend _, h.tend _, (h.res _ (List.mem_of_mem_take hr)).1, (h.res _ (List.mem_of_mem_take hr)).2,
    (h.offS _ hr).2⟩

theorem NTend0.dsF {t : ℝ} (ht : t ≠ V "t_in_dirac_isoscalar") :
    SixTend l (fun i => Six.F (v i "t_0_dirac_isoscalar") (v i "t_in_dirac_isoscalar") ((NucleonArgs.ofValues (v i)).thrS thrNew (v i "t_in_dirac_isoscalar")) (NucleonArgs.ofValues (v i)).poleS t)
      (Six.F (V "t_0_dirac_isoscalar") (V "t_in_dirac_isoscalar") ((NucleonArgs.ofValues V).thrS thrNew (V "t_in_dirac_isoscalar")) (NucleonArgs.ofValues V).poleS t) :=
  ⟨(h.dirac_isoscalar (mn := "mass_omega") (gn := "decay_rate_omega") (by simp [NucleonArgs.resonances, NucleonArgs.ofValues])).F ht,
   (h.dirac_isoscalar (mn := "mass_omega_prime") (gn := "decay_rate_omega_prime") (by simp [NucleonArgs.resonances, NucleonArgs.ofValues])).F ht,
   (h.dirac_isoscalar (mn := "mass_omega_double_prime") (gn := "decay_rate_omega_double_prime") (by simp [NucleonArgs.resonances, NucleonArgs.ofValues])).F ht,
   (h.dirac_isoscalar (mn := "mass_phi") (gn := "decay_rate_phi") (by simp [NucleonArgs.resonances, NucleonArgs.ofValues])).F ht,
   (h.dirac_isoscalar (mn := "mass_phi_prime") (gn := "decay_rate_phi_prime") (by simp [NucleonArgs.resonances, NucleonArgs.ofValues])).F ht,
   (h.dirac_isoscalar (mn := "mass_phi_double_prime") (gn := "decay_rate_phi_double_prime") (by simp [NucleonArgs.resonances, NucleonArgs.ofValues])).F ht⟩

theorem NTend0.dsC : SixTend l (fun i => (NucleonArgs.ofValues (v i)).cDS) (NucleonArgs.ofValues V).cDS :=
  ⟨(h.dirac_isoscalar (mn := "mass_omega") (gn := "decay_rate_omega") (by simp [NucleonArgs.resonances, NucleonArgs.ofValues])).c,
   (h.dirac_isoscalar (mn := "mass_omega_prime") (gn := "decay_rate_omega_prime") (by simp [NucleonArgs.resonances, NucleonArgs.ofValues])).c,
   (h.dirac_isoscalar (mn := "mass_omega_double_prime") (gn := "decay_rate_omega_double_prime") (by simp [NucleonArgs.resonances, NucleonArgs.ofValues])).c,
   (h.dirac_isoscalar (mn := "mass_phi") (gn := "decay_rate_phi") (by simp [NucleonArgs.resonances, NucleonArgs.ofValues])).c,
   (h.dirac_isoscalar (mn := "mass_phi_prime") (gn := "decay_rate_phi_prime") (by simp [NucleonArgs.resonances, NucleonArgs.ofValues])).c,
   (h.dirac_isoscalar (mn := "mass_phi_double_prime") (gn := "decay_rate_phi_double_prime") (by simp [NucleonArgs.resonances, NucleonArgs.ofValues])).c⟩

theorem NTend0.dvF {t : ℝ} (ht : t ≠ V "t_in_dirac_isovector") :
    ThreeTend l (fun i => Three.F (v i "t_0_dirac_isovector") (v i "t_in_dirac_isovector") ((NucleonArgs.ofValues (v i)).thrT thrNew (v i "t_in_dirac_isovector")) (NucleonArgs.ofValues (v i)).poleT t)
      (Three.F (V "t_0_dirac_isovector") (V "t_in_dirac_isovector") ((NucleonArgs.ofValues V).thrT thrNew (V "t_in_dirac_isovector")) (NucleonArgs.ofValues V).poleT t) :=
  ⟨(h.dirac_isovector (mn := "mass_rho") (gn := "decay_rate_rho") (by simp [NucleonArgs.resonances, NucleonArgs.ofValues])).F ht,
   (h.dirac_isovector (mn := "mass_rho_prime") (gn := "decay_rate_rho_prime") (by simp [NucleonArgs.resonances, NucleonArgs.ofValues])).F ht,
   (h.dirac_isovector (mn := "mass_rho_double_prime") (gn := "decay_rate_rho_double_prime") (by simp [NucleonArgs.resonances, NucleonArgs.ofValues])).F ht⟩

theorem NTend0.dvC : ThreeTend l (fun i => (NucleonArgs.ofValues (v i)).cDV) (NucleonArgs.ofValues V).cDV :=
  ⟨(h.dirac_isovector (mn := "mass_rho") (gn := "decay_rate_rho") (by simp [NucleonArgs.resonances, NucleonArgs.ofValues])).c,
   (h.dirac_isovector (mn := "mass_rho_prime") (gn := "decay_rate_rho_prime") (by simp [NucleonArgs.resonances, NucleonArgs.ofValues])).c,
   (h.dirac_isovector (mn := "mass_rho_double_prime") (gn := "decay_rate_rho_double_prime") (by simp [NucleonArgs.resonances, NucleonArgs.ofValues])).c⟩

theorem NTend0.psF {t : ℝ} (ht : t ≠ V "t_in_pauli_isoscalar") :
    SixTend l (fun i => Six.F (v i "t_0_pauli_isoscalar") (v i "t_in_pauli_isoscalar") ((NucleonArgs.ofValues (v i)).thrS thrNew (v i "t_in_pauli_isoscalar")) (NucleonArgs.ofValues (v i)).poleS t)
      (Six.F (V "t_0_pauli_isoscalar") (V "t_in_pauli_isoscalar") ((NucleonArgs.ofValues V).thrS thrNew (V "t_in_pauli_isoscalar")) (NucleonArgs.ofValues V).poleS t) :=
  ⟨(h.pauli_isoscalar (mn := "mass_omega") (gn := "decay_rate_omega") (by simp [NucleonArgs.resonances, NucleonArgs.ofValues])).F ht,
   (h.pauli_isoscalar (mn := "mass_omega_prime") (gn := "decay_rate_omega_prime") (by simp [NucleonArgs.resonances, NucleonArgs.ofValues])).F ht,
   (h.pauli_isoscalar (mn := "mass_omega_double_prime") (gn := "decay_rate_omega_double_prime") (by simp [NucleonArgs.resonances, NucleonArgs.ofValues])).F ht,
   (h.pauli_isoscalar (mn := "mass_phi") (gn := "decay_rate_phi") (by simp [NucleonArgs.resonances, NucleonArgs.ofValues])).F ht,
   (h.pauli_isoscalar (mn := "mass_phi_prime") (gn := "decay_rate_phi_prime") (by simp [NucleonArgs.resonances, NucleonArgs.ofValues])).F ht,
   (h.pauli_isoscalar (mn := "mass_phi_double_prime") (gn := "decay_rate_phi_double_prime") (by simp [NucleonArgs.resonances, NucleonArgs.ofValues])).F ht⟩

theorem NTend0.psC : SixTend l (fun i => (NucleonArgs.ofValues (v i)).cPS) (NucleonArgs.ofValues V).cPS :=
  ⟨(h.pauli_isoscalar (mn := "mass_omega") (gn := "decay_rate_omega") (by simp [NucleonArgs.resonances, NucleonArgs.ofValues])).c,
   (h.pauli_isoscalar (mn := "mass_omega_prime") (gn := "decay_rate_omega_prime") (by simp [NucleonArgs.resonances, NucleonArgs.ofValues])).c,
   (h.pauli_isoscalar (mn := "mass_omega_double_prime") (gn := "decay_rate_omega_double_prime") (by simp [NucleonArgs.resonances, NucleonArgs.ofValues])).c,
   (h.pauli_isoscalar (mn := "mass_phi") (gn := "decay_rate_phi") (by simp [NucleonArgs.resonances, NucleonArgs.ofValues])).c,
   (h.pauli_isoscalar (mn := "mass_phi_prime") (gn := "decay_rate_phi_prime") (by simp [NucleonArgs.resonances, NucleonArgs.ofValues])).c,
   (h.pauli_isoscalar (mn := "mass_phi_double_prime") (gn := "decay_rate_phi_double_prime") (by simp [NucleonArgs.resonances, NucleonArgs.ofValues])).c⟩

theorem NTend0.formula (pr el : Bool) {t : ℝ} (h1 : t ≠ V "t_in_dirac_isoscalar") (h2 : t ≠ V "t_in_dirac_isovector")
    (h3 : t ≠ V "t_in_pauli_isoscalar") (hel : el = true → V "nucleon_mass" ≠ 0)
    (k1 : DSok (NucleonArgs.ofValues V).cDS) (k2 : DVok (NucleonArgs.ofValues V).cDV) (k3 : PSok (NucleonArgs.ofValues V).cPS) {F : Three ℂ}
    (hF : ThreeTend l (fun i => Three.F (v i "t_0_pauli_isovector") (v i "t_in_pauli_isovector")
      ((NucleonArgs.ofValues (v i)).thrT thrNew (v i "t_in_pauli_isovector")) (NucleonArgs.ofValues (v i)).poleT t) F) :
    Tendsto (fun i => (NucleonArgs.ofValues (v i)).formula pr el t) l (𝓝 (nVal (NucleonArgs.ofValues V) pr el t
      (dsAt thrNew (NucleonArgs.ofValues V) (NucleonArgs.ofValues V).cDS t) (dvAt thrNew (NucleonArgs.ofValues V) (NucleonArgs.ofValues V).cDV t)
      (psAt thrNew (NucleonArgs.ofValues V) (NucleonArgs.ofValues V).cPS t) (pvVal (NucleonArgs.ofValues V) F))) := by
  refine nVal_tendsto pr el t hel (h.tend _) ?_ ?_ ?_ ?_
  · exact dsVal_tendsto (h.dsF h1) h.dsC k1 (h.tend _) (h.tend _) (h.tend _) (h.tend _)
  · exact dvVal_tendsto (h.dvF h2) h.dvC k2 (h.tend _)
  · exact psVal_tendsto (h.psF h3) h.psC k3 (h.tend _) (h.tend _) (h.tend _) (h.tend _) (h.tend _)
  · exact pvVal_tendsto hF (h.tend _) (h.tend _)

end

section
variable {v : ι → String → ℝ} {V : String → ℝ} (h : NTend l v V)
include h

theorem NTend.pauli_isovector {mn gn : String} (hr : (V mn, V gn) ∈ (NucleonArgs.ofValues V).resonances.drop 6) :
    ResTend l (fun i => v i "t_0_pauli_isovector") (fun i => v i "t_in_pauli_isovector") (fun i => v i mn) (fun i => v i gn)
      (V "t_0_pauli_isovector") (V "t_in_pauli_isovector") (V mn) (V gn) :=
  ⟨h.t0.2.2.2, h.proper.2.2.2, h.tend _, h.tend _, h.tend _, h.tend _, (h.res _ (List.mem_of_mem_drop hr)).1, (h.res _ (List.mem_of_mem_drop hr)).2,
    h.off.2 _ hr _ (by simp [NucleonArgs.ofValues])⟩

theorem NTend.pvF {t : ℝ} (ht : t ≠ V "t_in_pauli_isovector") :
    ThreeTend l (fun i => Three.F (v i "t_0_pauli_isovector") (v i "t_in_pauli_isovector") ((NucleonArgs.ofValues (v i)).thrT thrNew (v i "t_in_pauli_isovector")) (NucleonArgs.ofValues (v i)).poleT t)
      (Three.F (V "t_0_pauli_isovector") (V "t_in_pauli_isovector") ((NucleonArgs.ofValues V).thrT thrNew (V "t_in_pauli_isovector")) (NucleonArgs.ofValues V).poleT t) :=
  ⟨(h.pauli_isovector (mn := "mass_rho") (gn := "decay_rate_rho") (by simp [NucleonArgs.resonances, NucleonArgs.ofValues])).F ht,
   (h.pauli_isovector (mn := "mass_rho_prime") (gn := "decay_rate_rho_prime") (by simp [NucleonArgs.resonances, NucleonArgs.ofValues])).F ht,
   (h.pauli_isovector (mn := "mass_rho_double_prime") (gn := "decay_rate_rho_double_prime") (by simp [NucleonArgs.resonances, NucleonArgs.ofValues])).F ht⟩

theorem NTend.formula (pr el : Bool) {t : ℝ} (h1 : t ≠ V "t_in_dirac_isoscalar") (h2 : t ≠ V "t_in_dirac_isovector")
    (h3 : t ≠ V "t_in_pauli_isoscalar") (h4 : t ≠ V "t_in_pauli_isovector") (hel : el = true → V "nucleon_mass" ≠ 0)
    (k1 : DSok (NucleonArgs.ofValues V).cDS) (k2 : DVok (NucleonArgs.ofValues V).cDV) (k3 : PSok (NucleonArgs.ofValues V).cPS) :
    Tendsto (fun i => (NucleonArgs.ofValues (v i)).formula pr el t) l (𝓝 ((NucleonArgs.ofValues V).formula pr el t)) :=
  h.toNTend0.formula pr el h1 h2 h3 hel k1 k2 k3 (h.pvF h4)

end

/-! ### When a model can be built -/

/-- The poles lie at or above the lower thresholds of their channels. -/
def NucleonArgs.PolesAbove (x : NucleonArgs) : Prop :=
  (∀ r ∈ x.resonances.take 6, x.t_0_dirac_isoscalar ≤ poleRealPart r ∧ x.t_0_pauli_isoscalar ≤ poleRealPart r) ∧
  (∀ r ∈ x.resonances.drop 6, x.t_0_dirac_isovector ≤ poleRealPart r ∧ x.t_0_pauli_isovector ≤ poleRealPart r)

theorem nucleonBuild_re {t_0 t_in m g : ℝ} (h0 : 0 ≤ t_0) (h : t_0 < t_in) {c : UAComponent} (hb : nucleonBuildComponent t_0 t_in m g = .ok c) :
    t_0 ≤ poleRealPart (m, g) := by
  have := (nucleonBuildComponent_built h0 h hb).2
  rwa [tMesonPole_re] at this

theorem nucleonBuild_ok {t_0 t_in m g : ℝ} (h0 : 0 ≤ t_0) (h : t_0 < t_in) (hm : m ≠ 0) (hg : g ≠ 0) (hr : t_0 ≤ poleRealPart (m, g)) :
    ∃ c, nucleonBuildComponent t_0 t_in m g = .ok c := by
  have him : (tMesonPole m g).im ≠ 0 := by rw [tMesonPole_eq]; simp [polePosition, hm, hg]
  rw [nucleonBuildComponent_eq]
  exact ⟨_, buildWith_ok h0 h (fun hh => him (by rw [hh]; simp)) (fun hh => him (by rw [hh]; simp)) (by rw [tMesonPole_re]; exact hr)⟩

theorem initSix_re {x : NucleonArgs} {t_0 t_in : ℝ} (h0 : 0 ≤ t_0) (h : t_0 < t_in) {K : Six UAComponent}
    (hK : initIsoscalarComponents nucleonBuildComponent x t_0 t_in = .ok K) : ∀ r ∈ x.resonances.take 6, t_0 ≤ poleRealPart r := by
  unfold initIsoscalarComponents at hK
  refine bindE hK fun k1 e1 hK => ?_
  refine bindE hK fun k2 e2 hK => ?_
  refine bindE hK fun k3 e3 hK => ?_
  refine bindE hK fun k4 e4 hK => ?_
  refine bindE hK fun k5 e5 hK => ?_
  refine bindE hK fun k6 e6 hK => ?_
  intro r hr
  simp only [NucleonArgs.resonances, List.take_succ_cons, List.take_zero, List.mem_cons, List.not_mem_nil, or_false] at hr
  rcases hr with rfl | rfl | rfl | rfl | rfl | rfl
  · exact nucleonBuild_re h0 h e1
  · exact nucleonBuild_re h0 h e2
  · exact nucleonBuild_re h0 h e3
  · exact nucleonBuild_re h0 h e4
  · exact nucleonBuild_re h0 h e5
  · exact nucleonBuild_re h0 h e6

theorem initThree_re {x : NucleonArgs} {t_0 t_in : ℝ} (h0 : 0 ≤ t_0) (h : t_0 < t_in) {K : Three UAComponent}
    (hK : initIsovectorComponents nucleonBuildComponent x t_0 t_in = .ok K) : ∀ r ∈ x.resonances.drop 6, t_0 ≤ poleRealPart r := by
  unfold initIsovectorComponents at hK
  refine bindE hK fun k1 e1 hK => ?_
  refine bindE hK fun k2 e2 hK => ?_
  refine bindE hK fun k3 e3 hK => ?_
  intro r hr
  simp only [NucleonArgs.resonances, List.drop_succ_cons, List.drop_zero, List.mem_cons, List.not_mem_nil, or_false] at hr
  rcases hr with rfl | rfl | rfl
  · exact nucleonBuild_re h0 h e1
  · exact nucleonBuild_re h0 h e2
  · exact nucleonBuild_re h0 h e3

theorem NucleonClass.builds_above {pr el : Bool} {x : NucleonArgs} (hx : x.Proper) (hb : NucleonClass.new.Builds pr el x) : x.PolesAbove := by
  obtain ⟨m, hm⟩ := hb
  unfold NucleonUAModel.init at hm
  refine bindE hm fun b h _ => ?_
  unfold NucleonBase.init at h
  refine bindE h fun m1 e1 h => ?_
  refine bindE h fun m2 e2 h => ?_
  refine bindE h fun m3 e3 h => ?_
  refine bindE h fun m4 e4 h => ?_
  refine bindE h fun k1 f1 h => ?_
  refine bindE h fun k2 f2 h => ?_
  refine bindE h fun k3 f3 h => ?_
  refine bindE h fun k4 f4 h => ?_
  obtain ⟨x1, x2, x3, x4⟩ := hx
  have p1 := (TtoW_init_eq_ok e1).1
  have p2 := (TtoW_init_eq_ok e2).1
  have p3 := (TtoW_init_eq_ok e3).1
  have p4 := (TtoW_init_eq_ok e4).1
  exact ⟨fun r hr => ⟨initSix_re p1 x1 f1 r hr, initSix_re p3 x3 f3 r hr⟩, fun r hr => ⟨initThree_re p2 x2 f2 r hr, initThree_re p4 x4 f4 r hr⟩⟩

theorem NucleonClass.builds_of_above {x : NucleonArgs} (h1 : 0 ≤ x.t_0_dirac_isoscalar) (h2 : 0 ≤ x.t_0_dirac_isovector)
    (h3 : 0 ≤ x.t_0_pauli_isoscalar) (h4 : 0 ≤ x.t_0_pauli_isovector) (hx : x.Proper) (hres : ∀ r ∈ x.resonances, r.1 ≠ 0 ∧ r.2 ≠ 0)
    (ha : x.PolesAbove) (pr el : Bool) : NucleonClass.new.Builds pr el x := by
  obtain ⟨s, w⟩ := ha
  simp only [NucleonArgs.resonances, List.take_succ_cons, List.take_zero, List.drop_succ_cons, List.drop_zero, List.forall_mem_cons, List.not_mem_nil,
    false_imp_iff, implies_true, and_true] at s w hres
  obtain ⟨⟨s1, s1'⟩, ⟨s2, s2'⟩, ⟨s3, s3'⟩, ⟨s4, s4'⟩, ⟨s5, s5'⟩, s6, s6'⟩ := s
  obtain ⟨⟨w1, w1'⟩, ⟨w2, w2'⟩, w3, w3'⟩ := w
  obtain ⟨r1, r2, r3, r4, r5, r6, r7, r8, r9⟩ := hres
  obtain ⟨x1, x2, x3, x4⟩ := hx
  have hb : ∃ m, NucleonBase.init nucleonBuildComponent pr el x = .ok m := by
    refine NucleonBase.init_ok h1 h2 h3 h4 ⟨x1, x2, x3, x4⟩ ?_ ?_ ?_ ?_
    · exact initSix_ok (nucleonBuild_ok h1 x1 r1.1 r1.2 s1) (nucleonBuild_ok h1 x1 r2.1 r2.2 s2) (nucleonBuild_ok h1 x1 r3.1 r3.2 s3)
        (nucleonBuild_ok h1 x1 r4.1 r4.2 s4) (nucleonBuild_ok h1 x1 r5.1 r5.2 s5) (nucleonBuild_ok h1 x1 r6.1 r6.2 s6)
    · exact initThree_ok (nucleonBuild_ok h2 x2 r7.1 r7.2 w1) (nucleonBuild_ok h2 x2 r8.1 r8.2 w2) (nucleonBuild_ok h2 x2 r9.1 r9.2 w3)
    · exact initSix_ok (nucleonBuild_ok h3 x3 r1.1 r1.2 s1') (nucleonBuild_ok h3 x3 r2.1 r2.2 s2') (nucleonBuild_ok h3 x3 r3.1 r3.2 s3')
        (nucleonBuild_ok h3 x3 r4.1 r4.2 s4') (nucleonBuild_ok h3 x3 r5.1 r5.2 s5') (nucleonBuild_ok h3 x3 r6.1 r6.2 s6')
    · exact initThree_ok (nucleonBuild_ok h4 x4 r7.1 r7.2 w1') (nucleonBuild_ok h4 x4 r8.1 r8.2 w2') (nucleonBuild_ok h4 x4 r9.1 r9.2 w3')
  obtain ⟨m, hm⟩ := hb
  refine ⟨{ m with mass_terms_cache := fun _ => none }, ?_⟩
  unfold NucleonUAModel.init
  rw [hm]
  rfl

section
variable {v : ι → String → ℝ} {V : String → ℝ} (h : NTend l v V)
include h

/-- A pole strictly above a threshold stays above it. -/
theorem NTend.above_one {mn gn tn : String} (hr : V tn < poleRealPart (V mn, V gn)) : ∀ᶠ i in l, v i tn ≤ poleRealPart (v i mn, v i gn) := by
  have hm := h.tend mn
  have hg := h.tend gn
  filter_upwards [(h.tend tn).eventually_lt ((hm.pow 2).sub ((hg.pow 2).div_const 4)) hr] with i hi
  exact hi.le

theorem NTend.above (ha : (NucleonArgs.ofValues V).PolesAbove) : ∀ᶠ i in l, (NucleonArgs.ofValues (v i)).PolesAbove := by
  have key : ∀ (tn : String) (L : List (String × String)), (∀ q ∈ L, V tn ≤ poleRealPart (V q.1, V q.2) ∧ poleRealPart (V q.1, V q.2) ≠ V tn) →
      ∀ᶠ i in l, ∀ q ∈ L, v i tn ≤ poleRealPart (v i q.1, v i q.2) := by
    intro tn L
    induction L with
    | nil => exact fun _ => Eventually.of_forall fun i => by simp
    | cons q L ih =>
      intro hL
      have hq := hL q (by simp)
      filter_upwards [h.above_one (lt_of_le_of_ne hq.1 hq.2.symm), ih fun q' hq' => hL q' (List.mem_cons_of_mem _ hq')] with i h1 h2
      exact List.forall_mem_cons.mpr ⟨h1, h2⟩
  have eS : ∀ u : String → ℝ, (NucleonArgs.ofValues u).resonances.take 6 =
      [("mass_omega", "decay_rate_omega"), ("mass_omega_prime", "decay_rate_omega_prime"), ("mass_omega_double_prime", "decay_rate_omega_double_prime"),
       ("mass_phi", "decay_rate_phi"), ("mass_phi_prime", "decay_rate_phi_prime"), ("mass_phi_double_prime", "decay_rate_phi_double_prime")].map
        fun q => (u q.1, u q.2) := fun u => rfl
  have eV : ∀ u : String → ℝ, (NucleonArgs.ofValues u).resonances.drop 6 =
      [("mass_rho", "decay_rate_rho"), ("mass_rho_prime", "decay_rate_rho_prime"), ("mass_rho_double_prime", "decay_rate_rho_double_prime")].map
        fun q => (u q.1, u q.2) := fun u => rfl
  obtain ⟨a1, a2⟩ := ha
  obtain ⟨o1, o2⟩ := h.off
  simp only [NucleonArgs.PolesAbove, eS, eV, List.forall_mem_map] at a1 a2 o1 o2 ⊢
  filter_upwards [key "t_0_dirac_isoscalar" _ fun q hq => ⟨(a1 q hq).1, o1 q hq _ (by simp [NucleonArgs.ofValues])⟩,
    key "t_0_pauli_isoscalar" _ fun q hq => ⟨(a1 q hq).2, o1 q hq _ (by simp [NucleonArgs.ofValues])⟩,
    key "t_0_dirac_isovector" _ fun q hq => ⟨(a2 q hq).1, o2 q hq _ (by simp [NucleonArgs.ofValues])⟩,
    key "t_0_pauli_isovector" _ fun q hq => ⟨(a2 q hq).2, o2 q hq _ (by simp [NucleonArgs.ofValues])⟩] with i b1 b2 b3 b4
  exact ⟨fun q hq => ⟨b1 q hq, b2 q hq⟩, fun q hq => ⟨b3 q hq, b4 q hq⟩⟩

end

section
variable {v : ι → String → ℝ} {V : String → ℝ} (h : NTend0 l v V)
include h

theorem NTend0.terms (k1 : DSok (NucleonArgs.ofValues V).cDS) (k2 : DVok (NucleonArgs.ofValues V).cDV) (k3 : PSok (NucleonArgs.ofValues V).cPS) :
    ∀ᶠ i in l, DSok (NucleonArgs.ofValues (v i)).cDS ∧ DVok (NucleonArgs.ofValues (v i)).cDV ∧ PSok (NucleonArgs.ofValues (v i)).cPS := by
  have ne : ∀ {f g : ι → ℂ} {a b : ℂ}, Tendsto f l (𝓝 a) → Tendsto g l (𝓝 b) → a ≠ b → ∀ᶠ i in l, f i ≠ g i := fun hf hg hab =>
    ((hf.sub hg).eventually_ne (sub_ne_zero.mpr hab)).mono fun i hi => sub_ne_zero.mp hi
  filter_upwards [ne h.dsC.phi_double_prime h.dsC.omega_double_prime k1, ne h.dvC.rho_prime h.dvC.rho_double_prime k2,
    ne h.psC.phi_double_prime h.psC.omega_double_prime k3.1, ne h.psC.omega_prime h.psC.omega_double_prime k3.2.1,
    ne h.psC.omega_prime h.psC.phi_double_prime k3.2.2] with i a1 a2 a3 a4 a5
  exact ⟨a1, a2, a3, a4, a5⟩

end

/-! ### The fitted functions -/

/-- What the two functions make of a point. -/
noncomputable def nucleonValue (x : NucleonArgs) : PartialKind → ℝ × Bool × Bool → ℝ
  | .formFactor, d => ‖x.formula d.2.1 d.2.2 d.1‖
  | .crossSection m a h, d => ‖((h * 4 * Real.pi * a ^ 2 / 3 * Real.sqrt (1 - 4 * m ^ 2 / ‖(d.1 : ℂ)‖) : ℝ) : ℂ) / (d.1 : ℂ) *
      (((‖x.formula d.2.1 false d.1‖ : ℝ) : ℂ) ^ 2 + ((4 * m ^ 2 * ‖x.formula d.2.1 true d.1‖ ^ 2 : ℝ) : ℂ) / (2 * (d.1 : ℂ)))‖

/-- The points at which they can be evaluated. -/
def NucleonInside.Allowed (p : ModelParameters ℝ) (x : NucleonArgs) : PartialKind → ℝ × Bool × Bool → Prop
  | .formFactor, d => ¬ NucleonInside.Bad p x d.2.2 d.1
  | .crossSection m _ _, d => ¬ NucleonInside.Bad p x true d.1 ∧ d.1 ≠ 0 ∧ 4 * m ^ 2 ≤ d.1

theorem NucleonInside.run_eq {p : ModelParameters ℝ} {x : NucleonArgs} (hx : NucleonInside p x) (pr el : Bool) {t : ℝ} (ht : 0 ≤ t)
    (h : ¬ NucleonInside.Bad p x el t) : NucleonClass.new.run pr el x t = .ok (x.formula pr el t) := by
  obtain ⟨y, hy⟩ := (hx.run_ok pr el ht).mpr h
  rw [hy, NucleonClass.run_value hx.proper hy]
  rfl

theorem NucleonInside.Bad.mono {p : ModelParameters ℝ} {x : NucleonArgs} {t : ℝ} (h : ¬ NucleonInside.Bad p x true t) (el : Bool) :
    ¬ NucleonInside.Bad p x el t := by
  rintro (h' | h' | h')
  · exact h (Or.inl h')
  · exact h (Or.inr (Or.inl h'))
  · exact h (Or.inr (Or.inr ⟨rfl, h'.2⟩))

theorem NucleonInside.eval_eq {p : ModelParameters ℝ} {x : NucleonArgs} (hx : NucleonInside p x) (kind : PartialKind) {points : List (ℝ × Bool × Bool)}
    (h0 : ∀ d ∈ points, 0 ≤ d.1) (h : ∀ d ∈ points, NucleonInside.Allowed p x kind d) :
    kind.eval (points.map fun d => .nucleon d.1 d.2.1 d.2.2) p = .ok (points.map (nucleonValue x kind)) := by
  cases kind with
  | formFactor =>
    show functionFormFactor _ p = _
    rw [hx.wiring.ff, hx.check, except_ok_bind, mapM_map]
    refine mapM_ok_of fun d hd => ?_
    show (do let F ← NucleonClass.new.run d.2.1 d.2.2 x d.1; return ‖F‖) = _
    rw [hx.run_eq d.2.1 d.2.2 (h0 d hd) (h d hd)]
    rfl
  | crossSection m a hc2 =>
    show functionCrossSection _ m a hc2 p = _
    rw [hx.wiring.cs, hx.check, except_ok_bind, mapM_map]
    refine mapM_ok_of fun d hd => ?_
    obtain ⟨k1, k2, k3⟩ := h d hd
    show (do let σ ← (do
          let GE ← NucleonClass.new.run d.2.1 true x d.1
          let GM ← NucleonClass.new.run d.2.1 false x d.1
          (NucleonCS.init m a hc2).formula d.1 ‖GE‖ ‖GM‖); return ‖σ‖) = _
    have hn : ‖(d.1 : ℂ)‖ = d.1 := by rw [Complex.norm_real, Real.norm_eq_abs, abs_of_nonneg (h0 d hd)]
    rw [hx.run_eq d.2.1 true (h0 d hd) k1, except_ok_bind, hx.run_eq d.2.1 false (h0 d hd) (NucleonInside.Bad.mono k1 false), except_ok_bind,
      NucleonCS.formula_ok (by exact_mod_cast k2) (by rw [hn]; exact k3)]
    rfl

theorem NucleonInside.eval_allowed {p : ModelParameters ℝ} {x : NucleonArgs} (hx : NucleonInside p x) (kind : PartialKind)
    {points : List (ℝ × Bool × Bool)} (h0 : ∀ d ∈ points, 0 ≤ d.1) {rs : List ℝ}
    (h : kind.eval (points.map fun d => .nucleon d.1 d.2.1 d.2.2) p = .ok rs) : ∀ d ∈ points, NucleonInside.Allowed p x kind d := by
  cases kind with
  | formFactor =>
    have h : functionFormFactor _ p = _ := h
    rw [hx.wiring.ff, hx.check, except_ok_bind, mapM_map] at h
    intro d hd
    obtain ⟨y, hy⟩ := mapM_exists_ok.mp ⟨rs, h⟩ d hd
    have hy : (do let F ← NucleonClass.new.run d.2.1 d.2.2 x d.1; return ‖F‖) = Except.ok y := hy
    obtain ⟨F, hF, -⟩ := except_bind_eq_ok.mp hy
    exact (hx.run_ok d.2.1 d.2.2 (h0 d hd)).mp ⟨F, hF⟩
  | crossSection m a hc2 =>
    have h : functionCrossSection _ m a hc2 p = _ := h
    rw [hx.wiring.cs, hx.check, except_ok_bind, mapM_map] at h
    intro d hd
    obtain ⟨y, hy⟩ := mapM_exists_ok.mp ⟨rs, h⟩ d hd
    have hy : (do let σ ← (do
          let GE ← NucleonClass.new.run d.2.1 true x d.1
          let GM ← NucleonClass.new.run d.2.1 false x d.1
          (NucleonCS.init m a hc2).formula d.1 ‖GE‖ ‖GM‖); return ‖σ‖) = Except.ok y := hy
    obtain ⟨σ, hσ, -⟩ := except_bind_eq_ok.mp hy
    exact (hx.cs d.2.1 (h0 d hd) m a hc2).1.mp ⟨σ, hσ⟩

/-- A model can be built whenever a function returns. -/
theorem nucleon_eval_model {p : ModelParameters ℝ} (h : Reachable p) (hc : p.cls = .nucleon) (kind : PartialKind) {ts : List Datapoint} {rs : List ℝ}
    (hr : kind.eval ts p = .ok rs) : ∃ m, getFFModel p = .ok m := by
  have hw := reachable_wellFormed h
  obtain ⟨v, hv⟩ := hw.exists_values
  have hx := nucleon_wiring hw hv hc
  have hcheck : (NucleonArgs.ofValues v).check = .ok () := by
    cases kind with
    | formFactor =>
      have hr : functionFormFactor _ p = _ := hr
      rw [hx.ff] at hr
      obtain ⟨u, hu, -⟩ := except_bind_eq_ok.mp hr
      exact hu
    | crossSection m a hc2 =>
      have hr : functionCrossSection _ m a hc2 p = _ := hr
      rw [hx.cs] at hr
      obtain ⟨u, hu, -⟩ := except_bind_eq_ok.mp hr
      exact hu
  rw [← hx.build] at hcheck
  obtain ⟨m, hm, -⟩ := except_bind_eq_ok.mp hcheck
  exact ⟨m, hm⟩

theorem nucleon_values_facts {p : ModelParameters ℝ} (h : Reachable p) (hc : p.cls = .nucleon) (hi : p.InsideMaximal) {v : String → ℝ}
    (hv : ∀ q ∈ p.data, q.value = v q.name) :
    (0 ≤ v "t_0_dirac_isoscalar" ∧ 0 ≤ v "t_0_dirac_isovector" ∧ 0 ≤ v "t_0_pauli_isoscalar" ∧ 0 ≤ v "t_0_pauli_isovector") ∧
    (NucleonArgs.ofValues v).Proper ∧ ∀ r ∈ (NucleonArgs.ofValues v).resonances, r.1 ≠ 0 ∧ r.2 ≠ 0 := by
  have hin := inside_values h (by rw [hc]; trivial) hv hi
  rw [hc] at hin
  have mass : ∀ n ∈ ParamClass.nucleon.table.initArgs, "mass_".toList <+: n.toList → v n ≠ 0 := fun n hn hp => by
    refine (lt_of_le_of_lt ?_ (hin.mass n hn hp)).ne'
    unfold massThreshold
    split_ifs <;> simp [Real.sqrt_nonneg]
  have width : ∀ n ∈ ParamClass.nucleon.table.initArgs, "decay_rate_".toList <+: n.toList → v n ≠ 0 := fun n hn hp => (hin.decay n hn hp).ne'
  have tin : ∀ n m s, n ∈ ParamClass.nucleon.table.initArgs → n.toList = "t_in_".toList ++ s → m.toList = "t_0_".toList ++ s → v m < v n :=
    fun n m s hn h1 h2 => hin.tin n hn m s h1 h2
  refine ⟨⟨hin.t0 _ (by decide +kernel) (by decide), hin.t0 _ (by decide +kernel) (by decide), hin.t0 _ (by decide +kernel) (by decide),
    hin.t0 _ (by decide +kernel) (by decide)⟩, ⟨?_, ?_, ?_, ?_⟩, ?_⟩
  · exact tin "t_in_dirac_isoscalar" "t_0_dirac_isoscalar" "dirac_isoscalar".toList (by decide +kernel) (by decide) (by decide)
  · exact tin "t_in_dirac_isovector" "t_0_dirac_isovector" "dirac_isovector".toList (by decide +kernel) (by decide) (by decide)
  · exact tin "t_in_pauli_isoscalar" "t_0_pauli_isoscalar" "pauli_isoscalar".toList (by decide +kernel) (by decide) (by decide)
  · exact tin "t_in_pauli_isovector" "t_0_pauli_isovector" "pauli_isovector".toList (by decide +kernel) (by decide) (by decide)
  · intro r hr
    simp only [NucleonArgs.resonances, List.mem_cons, List.not_mem_nil, or_false] at hr
    rcases hr with rfl | rfl | rfl | rfl | rfl | rfl | rfl | rfl | rfl <;>
      exact ⟨mass _ (by decide +kernel) (by decide), width _ (by decide +kernel) (by decide)⟩

theorem results_tend' {α : Type*} {f : ι → α → ℝ} {y : α → ℝ} {points : List α}
    (h : ∀ d ∈ points, Tendsto (fun i => f i d) l (𝓝 (y d))) {F : ι → Except PyErr (List ℝ)} {r : Except PyErr (List ℝ)}
    (hF : ∀ᶠ i in l, F i = .ok (points.map (f i))) (hr : r = .ok (points.map y)) : ResultsTendTo F l r := by
  refine ⟨_, hr, fun ε hε => ?_⟩
  have key : ∀ᶠ i in l, List.Forall₂ (fun y' y => |y' - y| < ε) (points.map (f i)) (points.map y) := by
    clear hF hr
    induction points with
    | nil => exact Eventually.of_forall fun i => by simp
    | cons d ps ih =>
      have h1 := Metric.tendsto_nhds.mp (h d (by simp)) ε hε
      filter_upwards [h1, ih fun d' hd' => h d' (List.mem_cons_of_mem _ hd')] with i hi hi'
      exact List.Forall₂.cons (by simpa [Real.dist_eq] using hi) hi'
  filter_upwards [hF, key] with i hi hk
  exact ⟨_, hi, hk⟩

theorem nucleonValue_tendsto {v : ι → String → ℝ} {V : String → ℝ} (h : NTend l v V) {p : ModelParameters ℝ}
    (hx : NucleonInside p (NucleonArgs.ofValues V)) (kind : PartialKind) {d : ℝ × Bool × Bool}
    (ha : NucleonInside.Allowed p (NucleonArgs.ofValues V) kind d) :
    Tendsto (fun i => nucleonValue (NucleonArgs.ofValues (v i)) kind d) l (𝓝 (nucleonValue (NucleonArgs.ofValues V) kind d)) := by
  have key : ∀ el, ¬ NucleonInside.Bad p (NucleonArgs.ofValues V) el d.1 →
      Tendsto (fun i => (NucleonArgs.ofValues (v i)).formula d.2.1 el d.1) l (𝓝 ((NucleonArgs.ofValues V).formula d.2.1 el d.1)) := by
    intro el hb
    unfold NucleonInside.Bad at hb
    rw [not_or, not_or, ← hx.tin, NucleonClass.degenerate_iff hx.proper (hx.builds true true), not_not] at hb
    obtain ⟨b1, ⟨k1, k2, k3⟩, b3⟩ := hb
    push Not at b1 b3
    exact h.formula d.2.1 el b1.1 b1.2.1 b1.2.2.1 b1.2.2.2 b3 k1 k2 k3
  cases kind with
  | formFactor => exact (key _ ha).norm
  | crossSection m a hc2 =>
    have g1 := key true ha.1
    have g2 := key false (NucleonInside.Bad.mono ha.1 false)
    exact (tendsto_const_nhds.mul (((tendsto_ofReal g2.norm).pow 2).add
      ((tendsto_ofReal (tendsto_const_nhds.mul (g1.norm.pow 2))).div_const _))).norm

theorem nucleon_eval_tends {p : ModelParameters ℝ} (h : Reachable p) (hc : p.cls = .nucleon) (hi : p.InsideMaximal) {x : NucleonArgs}
    (hx : p.HoldsExactly x.byName) (hoff : x.OffThresholds) {P : ι → ModelParameters ℝ}
    (hP : ∀ i, Reachable (P i) ∧ (P i).cls = .nucleon ∧ (P i).InsideMaximal) (ht : ValuesTendTo P l p)
    (kind : PartialKind) {points : List (ℝ × Bool × Bool)} (h0 : ∀ d ∈ points, 0 ≤ d.1) {rs : List ℝ}
    (hr : kind.eval (points.map fun d => .nucleon d.1 d.2.1 d.2.2) p = .ok rs) :
    ResultsTendTo (fun i => kind.eval (points.map fun d => .nucleon d.1 d.2.1 d.2.2) (P i)) l (.ok rs) := by
  have hw := reachable_wellFormed h
  have hm := nucleon_eval_model h hc kind hr
  obtain ⟨v, V, hV, hv, htend⟩ := values_tend hw (fun i => ⟨reachable_wellFormed (hP i).1, by rw [(hP i).2.1, hc]⟩) ht
  have hn : ∀ n, Tendsto (fun i => v i n) l (𝓝 (V n)) := fun n => (continuous_apply n).continuousAt.tendsto.comp htend
  obtain rfl := nucleonArgs_unique hw hV hx
  have hX := nucleon_inside_args h hc hi hm hx
  obtain ⟨f1, f2, f3⟩ := nucleon_values_facts h hc hi hV
  have hT : NTend l v V := ⟨⟨hn, f2, f1, f3, fun r hr => ⟨hoff.1 r hr _ (by simp [NucleonArgs.ofValues]), hoff.1 r hr _ (by simp [NucleonArgs.ofValues])⟩,
    fun r hr => hoff.2 r hr _ (by simp [NucleonArgs.ofValues])⟩, hoff⟩
  have hall := hX.eval_allowed kind h0 hr
  have hb := NucleonClass.builds_above f2 (hX.builds true true)
  have hbuild : ∀ᶠ i in l, NucleonInside (P i) (.ofValues (v i)) := by
    filter_upwards [hT.above hb] with i ha
    obtain ⟨r1, r2, r3⟩ := hP i
    have hw' := reachable_wellFormed r1
    obtain ⟨f1', f2', f3'⟩ := nucleon_values_facts r1 r2 r3 (hv i)
    have hbi := NucleonClass.builds_of_above f1'.1 f1'.2.1 f1'.2.2.1 f1'.2.2.2 f2' f3' ha true true
    have hwire := nucleon_wiring hw' (hv i) r2
    have hcheck : (NucleonArgs.ofValues (v i)).check = .ok () := by
      obtain ⟨m, hm⟩ := hbi
      unfold NucleonArgs.check
      rw [hm]; rfl
    rw [← hwire.build] at hcheck
    obtain ⟨m, hm', -⟩ := except_bind_eq_ok.mp hcheck
    exact nucleon_inside_args r1 r2 r3 ⟨m, hm'⟩ hwire.holds
  have hok := hX.eval_eq kind h0 hall
  rw [hr] at hok
  refine results_tend' (fun d hd => nucleonValue_tendsto hT hX kind (hall d hd)) ?_ hok
  -- near the limit the points stay allowed
  have hbad : ∀ (el : Bool) (t : ℝ), ¬ NucleonInside.Bad p (NucleonArgs.ofValues V) el t →
      ∀ᶠ i in l, NucleonInside (P i) (.ofValues (v i)) → ¬ NucleonInside.Bad (P i) (.ofValues (v i)) el t := by
    intro el t hb
    unfold NucleonInside.Bad at hb
    rw [not_or, not_or, ← hX.tin, NucleonClass.degenerate_iff hX.proper (hX.builds true true), not_not] at hb
    obtain ⟨b1, ⟨k1, k2, k3⟩, b3⟩ := hb
    push Not at b1 b3
    have hmass : ∀ᶠ i in l, el = true → v i "nucleon_mass" ≠ 0 := by
      cases el
      · exact Eventually.of_forall fun i hh => by cases hh
      · exact ((hn "nucleon_mass").eventually_ne (b3 rfl)).mono fun i hi _ => hi
    filter_upwards [(hn "t_in_dirac_isoscalar").eventually_ne b1.1.symm, (hn "t_in_dirac_isovector").eventually_ne b1.2.1.symm,
      (hn "t_in_pauli_isoscalar").eventually_ne b1.2.2.1.symm, (hn "t_in_pauli_isovector").eventually_ne b1.2.2.2.symm,
      hT.toNTend0.terms k1 k2 k3, hmass] with i c1 c2 c3 c4 c5 c6 hxi
    unfold NucleonInside.Bad
    rw [not_or, not_or, ← hxi.tin, NucleonClass.degenerate_iff hxi.proper (hxi.builds true true), not_not]
    refine ⟨?_, c5, fun hh => c6 hh.1 hh.2⟩
    rintro (hh | hh | hh | hh)
    · exact c1 hh.symm
    · exact c2 hh.symm
    · exact c3 hh.symm
    · exact c4 hh.symm
  have hev : ∀ᶠ i in l, NucleonInside (P i) (.ofValues (v i)) → ∀ d ∈ points, NucleonInside.Allowed (P i) (.ofValues (v i)) kind d := by
    clear hok hr h0
    induction points with
    | nil => exact Eventually.of_forall fun i _ => by simp
    | cons d ps ih =>
      have hd := hall d (by simp)
      have h1 : ∀ᶠ i in l, NucleonInside (P i) (.ofValues (v i)) → NucleonInside.Allowed (P i) (.ofValues (v i)) kind d := by
        cases kind with
        | formFactor => exact hbad _ _ hd
        | crossSection m a hc2 => exact (hbad _ _ hd.1).mono fun i hi hxi => ⟨hi hxi, hd.2⟩
      filter_upwards [h1, ih fun d' hd' => hall d' (List.mem_cons_of_mem _ hd')] with i h1 h2 hxi
      exact List.forall_mem_cons.mpr ⟨h1 hxi, h2 hxi⟩
  filter_upwards [hbuild, hev] with i hxi hi'
  exact hxi.eval_eq kind h0 (hi' hxi)

end UA
