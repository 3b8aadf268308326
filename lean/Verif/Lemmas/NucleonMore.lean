import Verif.Lemmas.NucleonEval
import Verif.Lemmas.ComponentsAnalytic
import Mathlib.Analysis.Asymptotics.Lemmas

/-! Helper lemmas: zero widths, reflection and asymptotics of the nucleon models. -/

namespace UA

open Complex ComplexConjugate Filter Asymptotics Bornology

/-! ### Zero width -/

theorem norm_sub_inv_sq {t_0 t_in x : ℝ} (h : t_0 < t_in) (hx : t_0 < x) (hxin : x ≠ t_in) :
    ‖Wval t_0 t_in x - 1 / Wval t_0 t_in x‖ ^ 2 = 4 * (t_in - t_0) / (x - t_0) := by
  have hne : (x : ℂ) ≠ t_in := by intro h'; exact hxin (by exact_mod_cast h')
  have hne0 : (x : ℂ) ≠ t_0 := by intro h'; exact hx.ne' (by exact_mod_cast h')
  have hw : Wval t_0 t_in x ≠ 0 := fun h' => hne0 ((Wval_eq_zero h hne).mp h')
  have hi := Wval_identity h hne
  set w := Wval t_0 t_in x
  have hd : (x : ℂ) - t_0 ≠ 0 := sub_ne_zero.mpr hne0
  have e : (w - 1 / w) ^ 2 = ((-(4 * (t_in - t_0) / (x - t_0)) : ℝ) : ℂ) := by
    push_cast
    field_simp
    linear_combination hi
  rw [← norm_pow, e, Complex.norm_real, Real.norm_eq_abs, abs_neg, abs_of_pos]
  exact div_pos (by linarith) (by linarith)

theorem massTerm_zero_width {t_0 t_in x : ℝ} (h0 : 0 ≤ t_0) (h : t_0 < t_in) (hx : t_0 < x) (hxin : x ≠ t_in) :
    massTerm (if x < t_in then .A else .B) t_0 t_in x =
      (-(1 - Wval t_0 t_in 0 ^ 2) ^ 2 / (4 * (t_in - t_0))) * x := by
  have i0 := quart_zero_width h hx hxin (zero_ne_tin h0 h)
  unfold massTerm
  rw [norm_sub_inv_sq h hx hxin]
  have hd : (x : ℂ) - t_0 ≠ 0 := by rw [← ofReal_sub]; exact ofReal_ne_zero.mpr (by linarith)
  have hd2 := tin_sub_ne h
  push_cast
  field_simp
  linear_combination -i0

/-- The common factor between mass terms and squared masses at zero width. -/
noncomputable def kFac (t_0 t_in : ℝ) : ℂ := -(1 - Wval t_0 t_in 0 ^ 2) ^ 2 / (4 * (t_in - t_0))

theorem kFac_ne {t_0 t_in : ℝ} (h0 : 0 ≤ t_0) (h : t_0 < t_in) : kFac t_0 t_in ≠ 0 := by
  unfold kFac
  exact div_ne_zero (neg_ne_zero.mpr (pow_ne_zero 2 (Wval_sq_ne_one h (zero_ne_tin h0 h)))) (mul_ne_zero (by norm_num) (tin_sub_ne h))

theorem Built.massTerm_zero {t_0 t_in m g : ℝ} {c : UAComponent} (hg : g = 0) (hm : t_0 ≤ (tMesonPole m g).re)
    (b : Built t_0 t_in (tMesonPole m g) (if (tMesonPole m g).re < t_in then .A else .B) c) :
    massTerm (if (tMesonPole m g).re < t_in then .A else .B) t_0 t_in (tMesonPole m g) = kFac t_0 t_in * (m : ℂ) ^ 2 := by
  subst hg
  have hp0 := b.hp0
  have hpin := b.hpin
  rw [tMesonPole_zero_width] at hp0 hpin hm ⊢
  rw [ofReal_re] at hm ⊢
  have h1 : t_0 < m ^ 2 := lt_of_le_of_ne hm fun h => hp0 (by rw [← h])
  have h2 : m ^ 2 ≠ t_in := fun h => hpin (by rw [h])
  rw [massTerm_zero_width b.h0 b.hlt h1 h2, kFac]
  push_cast
  rfl

theorem dTerm_scale {k : ℂ} (hk : k ≠ 0) (O P R cO cP cR : ℂ) : dTerm O P R (k * cO) (k * cP) (k * cR) = dTerm O P R cO cP cR := by
  unfold dTerm
  simp only [← mul_sub]
  have e : ∀ a b d : ℂ, a * (k * b) / (k * d) = a * b / d := by
    intro a b d
    rw [mul_left_comm, mul_div_mul_left _ _ hk]
  rw [e, e]

theorem pTerm_scale {k : ℂ} (hk : k ≠ 0) (O P Q R cO cP cQ cR : ℂ) :
    pTerm O P Q R (k * cO) (k * cP) (k * cQ) (k * cR) = pTerm O P Q R cO cP cQ cR := by
  unfold pTerm
  simp only [← mul_sub, mul_div_mul_left _ _ hk]

def Six.scale (k : ℂ) (c : Six ℂ) : Six ℂ := c.map (k * ·)
def Three.scale (k : ℂ) (c : Three ℂ) : Three ℂ := c.map (k * ·)

theorem dsVal_scale {k : ℂ} (hk : k ≠ 0) (x : NucleonArgs) (F c : Six ℂ) : dsVal x F (c.scale k) = dsVal x F c := by
  simp only [dsVal, Six.scale, Six.map, dTerm_scale hk]
theorem dvVal_scale {k : ℂ} (hk : k ≠ 0) (x : NucleonArgs) (F c : Three ℂ) : dvVal x F (c.scale k) = dvVal x F c := by
  simp only [dvVal, Three.scale, Three.map, dTerm_scale hk]
theorem psVal_scale {k : ℂ} (hk : k ≠ 0) (x : NucleonArgs) (F c : Six ℂ) : psVal x F (c.scale k) = psVal x F c := by
  simp only [psVal, Six.scale, Six.map, pTerm_scale hk]
theorem DSok_scale {k : ℂ} (hk : k ≠ 0) (c : Six ℂ) : DSok (c.scale k) ↔ DSok c := by
  simp [DSok, Six.scale, Six.map, hk]
theorem DVok_scale {k : ℂ} (hk : k ≠ 0) (c : Three ℂ) : DVok (c.scale k) ↔ DVok c := by
  simp [DVok, Three.scale, Three.map, hk]
theorem PSok_scale {k : ℂ} (hk : k ≠ 0) (c : Six ℂ) : PSok (c.scale k) ↔ PSok c := by
  simp [PSok, Six.scale, Six.map, hk]

/-! ### Reflection -/

theorem massTerm_conj {v : Variant} {t_0 t_in : ℝ} (h0 : 0 ≤ t_0) (h : t_0 < t_in) (p : ℂ) :
    conj (massTerm v t_0 t_in p) = massTerm v t_0 t_in p := by
  have hn := Wval_real_below h h0
  rw [ofReal_zero] at hn
  have hq := quart_conj v (Wval t_0 t_in p) (Wval t_0 t_in 0)
  rw [hn] at hq
  unfold massTerm
  rw [map_div₀, ← hq, map_neg, conj_ofReal]

/-- All six numbers are real. -/
def Six.Real (c : Six ℂ) : Prop := c.map conj = c
def Three.Real (c : Three ℂ) : Prop := c.map conj = c

theorem dTerm_conj (O P R cO cP cR : ℂ) :
    dTerm (conj O) (conj P) (conj R) (conj cO) (conj cP) (conj cR) = conj (dTerm O P R cO cP cR) := by
  simp only [dTerm, map_add, map_sub, map_mul, map_div₀]
theorem pTerm_conj (O P Q R cO cP cQ cR : ℂ) :
    pTerm (conj O) (conj P) (conj Q) (conj R) (conj cO) (conj cP) (conj cQ) (conj cR) = conj (pTerm O P Q R cO cP cQ cR) := by
  simp only [pTerm, map_add, map_sub, map_mul, map_div₀]

theorem conj_half : conj (1 / 2 : ℂ) = 1 / 2 := by rw [map_div₀, map_one, map_ofNat]

theorem dsVal_conj (x : NucleonArgs) (F c : Six ℂ) : dsVal x (F.map conj) (c.map conj) = conj (dsVal x F c) := by
  simp only [dsVal, Six.map, dTerm_conj, map_add, map_mul, conj_ofReal, conj_half]
theorem dvVal_conj (x : NucleonArgs) (F c : Three ℂ) : dvVal x (F.map conj) (c.map conj) = conj (dvVal x F c) := by
  simp only [dvVal, Three.map, dTerm_conj, map_add, map_mul, conj_ofReal, conj_half]
theorem psVal_conj (x : NucleonArgs) (F c : Six ℂ) : psVal x (F.map conj) (c.map conj) = conj (psVal x F c) := by
  simp only [psVal, Six.map, pTerm_conj, map_add, map_mul, map_sub, map_one, conj_ofReal, conj_half]
theorem pvVal_conj (x : NucleonArgs) (F : Three ℂ) : pvVal x (F.map conj) = conj (pvVal x F) := by
  simp only [pvVal, Three.map, map_mul, map_sub, map_one, conj_ofReal, conj_half]

theorem SixF_conj {t_0 t_in : ℝ} (h0 : 0 ≤ t_0) (h : t_0 < t_in) (V : Six Variant) (P : Six ℂ) {t : ℂ}
    (ht : ¬ (t.im = 0 ∧ t_0 ≤ t.re)) : Six.F t_0 t_in V P (conj t) = (Six.F t_0 t_in V P t).map conj := by
  simp only [Six.F, Six.map₂, Six.map, Fval_conj h0 h ht]
theorem ThreeF_conj {t_0 t_in : ℝ} (h0 : 0 ≤ t_0) (h : t_0 < t_in) (V : Three Variant) (P : Three ℂ) {t : ℂ}
    (ht : ¬ (t.im = 0 ∧ t_0 ≤ t.re)) : Three.F t_0 t_in V P (conj t) = (Three.F t_0 t_in V P t).map conj := by
  simp only [Three.F, Three.map₂, Three.map, Fval_conj h0 h ht]

theorem cS_real {t_0 t_in : ℝ} (h0 : 0 ≤ t_0) (h : t_0 < t_in) (x : NucleonArgs) : (x.cS t_0 t_in).map conj = x.cS t_0 t_in := by
  simp only [NucleonArgs.cS, Six.map₂, Six.map, massTerm_conj h0 h]
theorem cV_real {t_0 t_in : ℝ} (h0 : 0 ≤ t_0) (h : t_0 < t_in) (x : NucleonArgs) : (x.cV t_0 t_in).map conj = x.cV t_0 t_in := by
  simp only [NucleonArgs.cV, Three.map₂, Three.map, massTerm_conj h0 h]

theorem squaresS_real (x : NucleonArgs) : x.squaresS.map conj = x.squaresS := by
  simp only [NucleonArgs.squaresS, Six.map, map_pow, conj_ofReal]
theorem squaresV_real (x : NucleonArgs) : x.squaresV.map conj = x.squaresV := by
  simp only [NucleonArgs.squaresV, Three.map, map_pow, conj_ofReal]

theorem nVal_conj (x : NucleonArgs) (proton electric : Bool) (t ds dv ps pv : ℂ) :
    nVal x proton electric (conj t) (conj ds) (conj dv) (conj ps) (conj pv) = conj (nVal x proton electric t ds dv ps pv) := by
  unfold nVal
  cases proton <;> cases electric <;> simp only [map_add, map_mul, map_div₀, map_pow, conj_ofReal, map_one, map_neg, map_ofNat,
    if_true, Bool.false_eq_true, if_false]

theorem conj_eq_iff' (u v : ℂ) : conj u = v ↔ u = conj v := by
  constructor
  · intro h; rw [← h, conj_conj]
  · rintro rfl; simp

theorem NSingular_conj {x : NucleonArgs} {electric : Bool} {cDS : Six ℂ} {cDV : Three ℂ} {cPS : Six ℂ} {t : ℂ} :
    NSingular x electric cDS cDV cPS (conj t) ↔ NSingular x electric cDS cDV cPS t := by
  unfold NSingular
  simp only [conj_eq_iff', conj_ofReal, conj_conj]
  refine or_congr Iff.rfl (or_congr ?_ Iff.rfl)
  constructor
  · rintro ⟨p, hp, h | h⟩
    · exact ⟨p, hp, Or.inr h⟩
    · exact ⟨p, hp, Or.inl h⟩
  · rintro ⟨p, hp, h | h⟩
    · exact ⟨p, hp, Or.inr h⟩
    · exact ⟨p, hp, Or.inl h⟩

/-! ### Asymptotics -/

theorem Built.bigO {t_0 t_in : ℝ} {p : ℂ} {v : Variant} {c : UAComponent} (b : Built t_0 t_in p v c) :
    (fun t => Fval v t_0 t_in p t) =O[cobounded ℂ] (fun t : ℂ => t⁻¹) := by
  obtain ⟨C, R, hC, hR, h⟩ := b.fall_off
  apply IsBigO.of_bound C
  rw [← comap_norm_atTop, eventually_comap]
  filter_upwards [eventually_ge_atTop R]
  rintro r hr t rfl
  have := (h t hr).2.2.2
  rwa [norm_inv, ← div_eq_mul_inv]

theorem Built.eventually {t_0 t_in : ℝ} {p : ℂ} {v : Variant} {c : UAComponent} (b : Built t_0 t_in p v c) :
    ∀ᶠ t : ℂ in cobounded ℂ, t ≠ t_in ∧ t ≠ p ∧ t ≠ conj p := by
  obtain ⟨C, R, hC, hR, h⟩ := b.fall_off
  rw [← comap_norm_atTop, eventually_comap]
  filter_upwards [eventually_ge_atTop R]
  rintro r hr t rfl
  have := h t hr
  exact ⟨this.1, this.2.1, this.2.2.1⟩

theorem dTerm_bigO {O P R : ℂ → ℂ} (hO : O =O[cobounded ℂ] (fun t : ℂ => t⁻¹)) (hP : P =O[cobounded ℂ] (fun t : ℂ => t⁻¹))
    (hR : R =O[cobounded ℂ] (fun t : ℂ => t⁻¹)) (cO cP cR : ℂ) :
    (fun t => dTerm (O t) (P t) (R t) cO cP cR) =O[cobounded ℂ] (fun t : ℂ => t⁻¹ * t⁻¹) := by
  unfold dTerm
  have e1 := (hP.mul hR).const_mul_left ((cP - cR) / (cP - cO))
  have e2 := (hO.mul hR).const_mul_left ((cO - cR) / (cO - cP))
  refine ((e1.add e2).sub (hO.mul hP)).congr_left fun t => ?_
  ring

theorem pTerm_bigO {O P Q R : ℂ → ℂ} (hO : O =O[cobounded ℂ] (fun t : ℂ => t⁻¹)) (hP : P =O[cobounded ℂ] (fun t : ℂ => t⁻¹))
    (hQ : Q =O[cobounded ℂ] (fun t : ℂ => t⁻¹)) (hR : R =O[cobounded ℂ] (fun t : ℂ => t⁻¹)) (cO cP cQ cR : ℂ) :
    (fun t => pTerm (O t) (P t) (Q t) (R t) cO cP cQ cR) =O[cobounded ℂ] (fun t : ℂ => t⁻¹ * t⁻¹ * t⁻¹) := by
  unfold pTerm
  have e1 := ((hP.mul hQ).mul hR).const_mul_left (((cP - cR) / (cP - cO)) * ((cQ - cR) / (cQ - cO)))
  have e2 := ((hO.mul hQ).mul hR).const_mul_left (((cO - cR) / (cO - cP)) * ((cQ - cR) / (cQ - cP)))
  have e3 := ((hO.mul hP).mul hR).const_mul_left (((cO - cR) / (cO - cQ)) * ((cP - cR) / (cP - cQ)))
  refine (((e1.add e2).add e3).sub ((hO.mul hP).mul hQ)).congr_left fun t => ?_
  ring

theorem SixBuilt.ds_bigO {t_0 t_in : ℝ} {P : Six ℂ} {V : Six Variant} {K : Six UAComponent} (b : SixBuilt t_0 t_in P V K)
    (x : NucleonArgs) (c : Six ℂ) : (fun t => dsVal x (Six.F t_0 t_in V P t) c) =O[cobounded ℂ] (fun t : ℂ => t⁻¹ * t⁻¹) := by
  simp only [dsVal, Six.F, Six.map₂]
  have hO := b.omega_double_prime.bigO
  have hP := b.phi_double_prime.bigO
  have e0 := (hO.mul hP).const_mul_left (1 / 2 : ℂ)
  have e1 := (dTerm_bigO hO hP b.omega_prime.bigO c.omega_double_prime c.phi_double_prime c.omega_prime).const_mul_left (x.a_dirac_omega_prime : ℂ)
  have e2 := (dTerm_bigO hO hP b.phi_prime.bigO c.omega_double_prime c.phi_double_prime c.phi_prime).const_mul_left (x.a_dirac_phi_prime : ℂ)
  have e3 := (dTerm_bigO hO hP b.omega.bigO c.omega_double_prime c.phi_double_prime c.omega).const_mul_left (x.a_dirac_omega : ℂ)
  have e4 := (dTerm_bigO hO hP b.phi.bigO c.omega_double_prime c.phi_double_prime c.phi).const_mul_left (x.a_dirac_phi : ℂ)
  exact ((((e0.add e1).add e2).add e3).add e4).congr_left fun t => by ring

theorem SixBuilt.ps_bigO {t_0 t_in : ℝ} {P : Six ℂ} {V : Six Variant} {K : Six UAComponent} (b : SixBuilt t_0 t_in P V K)
    (x : NucleonArgs) (c : Six ℂ) : (fun t => psVal x (Six.F t_0 t_in V P t) c) =O[cobounded ℂ] (fun t : ℂ => t⁻¹ * t⁻¹ * t⁻¹) := by
  simp only [psVal, Six.F, Six.map₂]
  have hO := b.omega_double_prime.bigO
  have hP := b.phi_double_prime.bigO
  have hQ := b.omega_prime.bigO
  have e0 := ((hO.mul hP).mul hQ).const_mul_left (1 / 2 * (x.magnetic_moment_proton + x.magnetic_moment_neutron - 1) : ℂ)
  have e1 := (pTerm_bigO hO hP hQ b.phi_prime.bigO c.omega_double_prime c.phi_double_prime c.omega_prime c.phi_prime).const_mul_left (x.a_pauli_phi_prime : ℂ)
  have e2 := (pTerm_bigO hO hP hQ b.omega.bigO c.omega_double_prime c.phi_double_prime c.omega_prime c.omega).const_mul_left (x.a_pauli_omega : ℂ)
  have e3 := (pTerm_bigO hO hP hQ b.phi.bigO c.omega_double_prime c.phi_double_prime c.omega_prime c.phi).const_mul_left (x.a_pauli_phi : ℂ)
  exact (((e0.add e1).add e2).add e3).congr_left fun t => by ring

theorem ThreeBuilt.dv_bigO {t_0 t_in : ℝ} {P : Three ℂ} {V : Three Variant} {K : Three UAComponent} (b : ThreeBuilt t_0 t_in P V K)
    (x : NucleonArgs) (c : Three ℂ) : (fun t => dvVal x (Three.F t_0 t_in V P t) c) =O[cobounded ℂ] (fun t : ℂ => t⁻¹ * t⁻¹) := by
  simp only [dvVal, Three.F, Three.map₂]
  have hO := b.rho_double_prime.bigO
  have hP := b.rho_prime.bigO
  have e0 := (hP.mul hO).const_mul_left (1 / 2 : ℂ)
  have e1 := (dTerm_bigO hO hP b.rho.bigO c.rho_double_prime c.rho_prime c.rho).const_mul_left (x.a_dirac_rho : ℂ)
  exact (e0.add e1).congr_left fun t => by ring

theorem ThreeBuilt.pv_bigO {t_0 t_in : ℝ} {P : Three ℂ} {V : Three Variant} {K : Three UAComponent} (b : ThreeBuilt t_0 t_in P V K)
    (x : NucleonArgs) : (fun t => pvVal x (Three.F t_0 t_in V P t)) =O[cobounded ℂ] (fun t : ℂ => t⁻¹ * t⁻¹ * t⁻¹) := by
  simp only [pvVal, Three.F, Three.map₂]
  have e0 := ((b.rho.bigO.mul b.rho_prime.bigO).mul b.rho_double_prime.bigO).const_mul_left
    (1 / 2 * (x.magnetic_moment_proton - x.magnetic_moment_neutron - 1) : ℂ)
  exact e0.congr_left fun t => by ring

/-- From `IsBigO` at infinity to explicit constants. -/
theorem bigO_bound {f : ℂ → ℂ} {n : ℕ} (h : f =O[cobounded ℂ] (fun t : ℂ => t⁻¹ ^ n)) :
    ∃ C R : ℝ, 0 < C ∧ 0 < R ∧ ∀ t : ℂ, R ≤ ‖t‖ → ‖f t‖ ≤ C / ‖t‖ ^ n := by
  obtain ⟨C, hC, h⟩ := h.exists_pos
  have h := h.bound
  rw [← comap_norm_atTop, eventually_comap, eventually_atTop] at h
  obtain ⟨R, h⟩ := h
  refine ⟨C, max R 1, hC, by positivity, fun t ht => ?_⟩
  have := h ‖t‖ (le_trans (le_max_left _ _) ht) t rfl
  rwa [norm_pow, norm_inv, inv_pow, ← div_eq_mul_inv] at this

theorem eventually_bound {p : ℂ → Prop} (h : ∀ᶠ t in cobounded ℂ, p t) : ∃ R : ℝ, 0 < R ∧ ∀ t : ℂ, R ≤ ‖t‖ → p t := by
  rw [← comap_norm_atTop, eventually_comap, eventually_atTop] at h
  obtain ⟨R, h⟩ := h
  exact ⟨max R 1, by positivity, fun t ht => h ‖t‖ (le_trans (le_max_left _ _) ht) t rfl⟩

end UA
