import Verif.Lemmas.NucleonInside

/-!
# Helper lemmas: mass terms of the nucleon model that coincide
-/

namespace UA

open Complex ComplexConjugate

theorem Wval_self {t_in : ℝ} (h : 0 < t_in) : Wval 0 t_in 0 = 0 :=
  (Wval_eq_zero (t_0 := 0) h (by exact_mod_cast h.ne)).mpr (by simp)

/-- `1 / |W - 1/W|²` at a pole, with `t_0 = 0`. -/
theorem massTerm_factor {t_in : ℝ} (h : 0 < t_in) {p : ℂ} (hp0 : p ≠ 0) (hp : p ≠ t_in) :
    Wval 0 t_in p ≠ 0 ∧ 1 / ‖Wval 0 t_in p - 1 / Wval 0 t_in p‖ ^ 2 = ‖p‖ / (4 * t_in) := by
  have hw : Wval 0 t_in p ≠ 0 := fun h' => hp0 (by simpa using (Wval_eq_zero (t_0 := 0) h hp).mp h')
  refine ⟨hw, ?_⟩
  have hT := Tval_Wval (t_0 := 0) h (t := p) (by simpa using hp0) hp
  have hd := wsub_ne hw (Wval_sq_ne_one (t_0 := 0) h hp)
  unfold Tval at hT
  have : ‖p‖ = 4 * t_in / ‖Wval 0 t_in p - 1 / Wval 0 t_in p‖ ^ 2 := by
    conv_lhs => rw [← hT]
    rw [ofReal_zero, zero_sub, sub_zero, norm_neg, norm_div, norm_mul, norm_pow, Complex.norm_real, Real.norm_eq_abs, abs_of_pos h]
    norm_num
  rw [this]
  have hn : ‖Wval 0 t_in p - 1 / Wval 0 t_in p‖ ≠ 0 := norm_ne_zero_iff.mpr hd
  field_simp

/-- The mass terms with `t_0 = 0`. -/
theorem massTerm_A {t_in : ℝ} (h : 0 < t_in) {p : ℂ} (hp0 : p ≠ 0) (hp : p ≠ t_in) :
    massTerm .A 0 t_in p = ((-(‖p‖ / (4 * t_in)) : ℝ) : ℂ) := by
  obtain ⟨hw, hf⟩ := massTerm_factor h hp0 hp
  rw [← hf]
  unfold massTerm quart
  rw [Wval_self h]
  have hc : conj (Wval 0 t_in p) ≠ 0 := by simpa using hw
  have : (0 - Wval 0 t_in p) * (0 - conj (Wval 0 t_in p)) * (0 - 1 / Wval 0 t_in p) * (0 - 1 / conj (Wval 0 t_in p)) = 1 := by
    field_simp
    ring
  rw [this]
  push_cast
  rw [div_neg]

theorem massTerm_B {t_in : ℝ} (h : 0 < t_in) {p : ℂ} (hp0 : p ≠ 0) (hp : p ≠ t_in) :
    massTerm .B 0 t_in p = ((-(‖Wval 0 t_in p‖ ^ 4 * ‖p‖ / (4 * t_in)) : ℝ) : ℂ) := by
  obtain ⟨hw, hf⟩ := massTerm_factor h hp0 hp
  rw [mul_div_assoc, ← hf]
  unfold massTerm quart
  rw [Wval_self h]
  have : (0 - Wval 0 t_in p) * (0 - conj (Wval 0 t_in p)) * (0 + Wval 0 t_in p) * (0 + conj (Wval 0 t_in p)) = ((‖Wval 0 t_in p‖ ^ 4 : ℝ) : ℂ) := by
    have := Complex.mul_conj' (Wval 0 t_in p)
    push_cast
    linear_combination (Wval 0 t_in p * conj (Wval 0 t_in p) + (‖Wval 0 t_in p‖ : ℂ) ^ 2) * this
  rw [this]
  push_cast
  rw [div_neg, mul_one_div]

theorem norm_tMesonPole (m g : ℝ) : ‖tMesonPole m g‖ = m ^ 2 + g ^ 2 / 4 := by
  have : tMesonPole m g = (((m : ℂ) - 0.5 * I * g) ^ 2) := by unfold tMesonPole; norm_num; ring
  rw [this, norm_pow, ← Complex.normSq_eq_norm_sq, Complex.normSq_apply]
  simp
  ring

/-- The two rho resonances below and above the inelastic threshold `100 / 49`. -/
theorem degenerate_massTerms : massTerm .A 0 (100 / 49) (tMesonPole (29 / 21) (4 / 21)) = massTerm .B 0 (100 / 49) (tMesonPole (464 / 273) (64 / 273)) := by
  have h : (0 : ℝ) < 100 / 49 := by norm_num
  have ne : ∀ m g x : ℝ, m * g ≠ 0 → tMesonPole m g ≠ (x : ℂ) := fun m g x h' he => by
    have := congrArg Complex.im he
    rw [tMesonPole_im, ofReal_im, neg_eq_zero] at this
    exact h' this
  have ne0 : ∀ m g : ℝ, m * g ≠ 0 → tMesonPole m g ≠ 0 := fun m g h' => by
    have := ne m g 0 h'
    rwa [ofReal_zero] at this
  rw [massTerm_A h (ne0 _ _ (by norm_num)) (ne _ _ _ (by norm_num)), massTerm_B h (ne0 _ _ (by norm_num)) (ne _ _ _ (by norm_num))]
  have hw : Wval 0 (100 / 49) (tMesonPole (464 / 273) (64 / 273)) = ⟨-1 / 2, -3 / 4⟩ := by
    have hT : Tval 0 (100 / 49) ⟨-1 / 2, -3 / 4⟩ = tMesonPole (464 / 273) (64 / 273) := by
      have hw0 : (⟨-1 / 2, -3 / 4⟩ : ℂ) ≠ 0 := fun h => by have := congrArg Complex.re h; norm_num at this
      have hw1 : 1 - (⟨-1 / 2, -3 / 4⟩ : ℂ) ^ 2 ≠ 0 := fun h => by
        have := congrArg Complex.re h
        norm_num [pow_two, Complex.mul_re] at this
      rw [Tval_iff hw0 hw1]
      apply Complex.ext
      · simp [pow_two, tMesonPole_re, tMesonPole_im]
        norm_num
      · simp [pow_two, tMesonPole_re, tMesonPole_im]
        norm_num
    rw [← hT]
    refine Wval_Tval (by norm_num) ?_ (by norm_num)
    rw [Complex.norm_def, Real.sqrt_lt' (by norm_num), Complex.normSq_apply]
    norm_num
  have hn : ‖Wval 0 (100 / 49) (tMesonPole (464 / 273) (64 / 273))‖ ^ 4 = 169 / 256 := by
    rw [hw, show (4 : ℕ) = 2 * 2 from rfl, pow_mul, ← Complex.normSq_eq_norm_sq, Complex.normSq_apply]
    norm_num
  rw [hn, norm_tMesonPole, norm_tMesonPole]
  norm_num

/-- Starting values like those of the nucleon script, with other numbers for the inelastic thresholds and two rho resonances. -/
def otherScript (t_in : String → ℚ) (mass_rho_prime decay_rate_rho_prime mass_rho_double_prime decay_rate_rho_double_prime : ℚ) : FitScript :=
  { fitNucleonCSIterative with
    literals := [
    ("t_in_dirac_isoscalar", t_in "t_in_dirac_isoscalar"), ("t_in_dirac_isovector", t_in "t_in_dirac_isovector"),
    ("t_in_pauli_isoscalar", t_in "t_in_pauli_isoscalar"), ("t_in_pauli_isovector", t_in "t_in_pauli_isovector"),
    ("a_dirac_omega", 1.0), ("a_pauli_omega", -0.2), ("mass_omega", 0.78266), ("decay_rate_omega", 0.00868),
    ("a_dirac_omega_prime", 0.2), ("mass_omega_prime", 1.410), ("decay_rate_omega_prime", 0.29),
    ("mass_omega_double_prime", 1.670), ("decay_rate_omega_double_prime", 0.315),
    ("a_dirac_phi", -1.0), ("a_pauli_phi", 0.2), ("mass_phi", 1.019461), ("decay_rate_phi", 0.004249),
    ("a_dirac_phi_prime", 0.2), ("a_pauli_phi_prime", 0.2), ("mass_phi_prime", 1.680), ("decay_rate_phi_prime", 0.150),
    ("mass_phi_double_prime", 2.159), ("decay_rate_phi_double_prime", 0.137),
    ("a_dirac_rho", 0.4), ("mass_rho", 0.77526), ("decay_rate_rho", 0.1474),
    ("mass_rho_prime", mass_rho_prime), ("decay_rate_rho_prime", decay_rate_rho_prime),
    ("mass_rho_double_prime", mass_rho_double_prime), ("decay_rate_rho_double_prime", decay_rate_rho_double_prime)] }

/-- The object made by such a script for massless pions, and the arguments of its model. -/
theorem otherScript_object {t_in : String → ℚ} {a b c d : ℚ} (hf : (otherScript t_in a b c d).Fits nucleonConstants) :
    ∃ p, GoodObject .nucleon true ∅ p ∧ ∃ x, NucleonInside p x ∧ ∀ n y, (n, y) ∈ x.byName →
      (nucleonScriptConstants 0 0.938 2.79 (-1.91) ++ (otherScript t_in a b c d).literals.map fun q => (q.1, (q.2 : ℝ))).lookup n = some y := by
  obtain ⟨v, h1, h2, h3⟩ := FitScript.Fits.make (script := otherScript t_in a b c d) (consts := nucleonScriptConstants 0 0.938 2.79 (-1.91)) trivial
    hf (by
      intro q hq ht
      simp only [nucleonScriptConstants, List.mem_cons, List.not_mem_nil, or_false] at hq
      rcases hq with rfl | rfl | rfl | rfl | rfl | rfl | rfl
      · exact absurd ht (by show ¬ "t_0_".toList <+: "nucleon_mass".toList; decide)
      · exact absurd ht (by show ¬ "t_0_".toList <+: "magnetic_moment_proton".toList; decide)
      · exact absurd ht (by show ¬ "t_0_".toList <+: "magnetic_moment_neutron".toList; decide)
      all_goals norm_num)
  have hg : GoodObject .nucleon true ∅ ⟨.nucleon, ParamClass.nucleon.table.alwaysFixed, freshData .nucleon v⟩ := h3
  refine ⟨_, hg, ?_⟩
  obtain ⟨hr, hcls, hin, -⟩ := (goodObject_iff (c := .nucleon) trivial).mp hg
  obtain ⟨x, hx⟩ := nucleon_inside hr hcls hin.1 hg.nucleon
  refine ⟨x, hx, fun n y hm => ?_⟩
  have hw := reachable_wellFormed hr
  have hv : ∀ q ∈ freshData .nucleon v, q.value = v q.name := by
    intro q hq
    obtain ⟨e, -, rfl⟩ := List.mem_map.mp hq
    rfl
  obtain ⟨k1, k2⟩ := (hw.holds_iff hv).mp (hx.wiring.holds.1 _ hm)
  have k2 : y = v n := k2
  rw [k2]
  exact h2 n k1

/-- Inelastic thresholds of the first example: all but one those of the script. -/
def degenerateThresholds (n : String) : ℚ :=
  if n = "t_in_dirac_isovector" then 100 / 49 else if n = "t_in_pauli_isovector" then 2 else 1

/-- An object inside the handpicked bounds whose mass terms coincide. -/
theorem degenerate_object : ∃ p, GoodObject .nucleon true ∅ p ∧ ∃ x, NucleonInside p x ∧ NucleonClass.new.Degenerate true true x := by
  obtain ⟨p, hg, x, hx, hval⟩ := otherScript_object (t_in := degenerateThresholds) (a := 29 / 21) (b := 4 / 21) (c := 464 / 273) (d := 64 / 273)
    (by constructor <;> decide +kernel)
  refine ⟨p, hg, x, hx, ?_⟩
  rw [NucleonClass.degenerate_iff hx.proper (hx.builds true true)]
  rintro ⟨-, hne, -⟩
  apply hne
  have e1 : x.t_0_dirac_isovector = 0 := by
    have h := hval "t_0_dirac_isovector" x.t_0_dirac_isovector (by simp [NucleonArgs.byName])
    rw [← Option.some.inj h]; norm_num
  have e2 : x.t_in_dirac_isovector = 100 / 49 := by
    have h := hval "t_in_dirac_isovector" x.t_in_dirac_isovector (by simp [NucleonArgs.byName])
    rw [← Option.some.inj h]; norm_num [degenerateThresholds]
  have e3 : x.mass_rho_prime = 29 / 21 := by
    have h := hval "mass_rho_prime" x.mass_rho_prime (by simp [NucleonArgs.byName])
    rw [← Option.some.inj h]; norm_num
  have e4 : x.decay_rate_rho_prime = 4 / 21 := by
    have h := hval "decay_rate_rho_prime" x.decay_rate_rho_prime (by simp [NucleonArgs.byName])
    rw [← Option.some.inj h]; norm_num
  have e5 : x.mass_rho_double_prime = 464 / 273 := by
    have h := hval "mass_rho_double_prime" x.mass_rho_double_prime (by simp [NucleonArgs.byName])
    rw [← Option.some.inj h]; norm_num
  have e6 : x.decay_rate_rho_double_prime = 64 / 273 := by
    have h := hval "decay_rate_rho_double_prime" x.decay_rate_rho_double_prime (by simp [NucleonArgs.byName])
    rw [← Option.some.inj h]; norm_num
  show massTerm (if (tMesonPole x.mass_rho_prime x.decay_rate_rho_prime).re < x.t_in_dirac_isovector then .A else .B) x.t_0_dirac_isovector
      x.t_in_dirac_isovector (tMesonPole x.mass_rho_prime x.decay_rate_rho_prime) =
    massTerm (if (tMesonPole x.mass_rho_double_prime x.decay_rate_rho_double_prime).re < x.t_in_dirac_isovector then .A else .B) x.t_0_dirac_isovector
      x.t_in_dirac_isovector (tMesonPole x.mass_rho_double_prime x.decay_rate_rho_double_prime)
  rw [e1, e2, e3, e4, e5, e6, if_pos (by rw [tMesonPole_re]; norm_num), if_neg (by rw [tMesonPole_re]; norm_num)]
  exact degenerate_massTerms

/-- Mass terms of resonances below the inelastic threshold, with `t_0 = 0`, coincide only if the poles have the same modulus. -/
theorem massTerm_below_ne {t_in : ℝ} (h : 0 < t_in) {m g m' g' : ℝ} (h1 : m * g ≠ 0) (h2 : m' * g' ≠ 0) (hne : m ^ 2 + g ^ 2 / 4 ≠ m' ^ 2 + g' ^ 2 / 4) :
    massTerm .A 0 t_in (tMesonPole m g) ≠ massTerm .A 0 t_in (tMesonPole m' g') := by
  have ne : ∀ m g x : ℝ, m * g ≠ 0 → tMesonPole m g ≠ (x : ℂ) := fun m g x h' he => by
    have := congrArg Complex.im he
    rw [tMesonPole_im, ofReal_im, neg_eq_zero] at this
    exact h' this
  have ne0 : ∀ m g : ℝ, m * g ≠ 0 → tMesonPole m g ≠ 0 := fun m g h' => by
    have := ne m g 0 h'
    rwa [ofReal_zero] at this
  rw [massTerm_A h (ne0 _ _ h1) (ne _ _ _ h1), massTerm_A h (ne0 _ _ h2) (ne _ _ _ h2), norm_tMesonPole, norm_tMesonPole]
  intro he
  have he := Complex.ofReal_inj.mp he
  rw [neg_inj, div_left_inj' (by positivity)] at he
  exact hne he

/-- An object inside the handpicked bounds whose mass terms do not coincide: all inelastic thresholds at 10. -/
theorem separate_object : ∃ p, GoodObject .nucleon true ∅ p ∧ (∀ q ∈ p.toList, "t_in_".toList <+: q.name.toList → q.value = 10) ∧
    ∃ x, NucleonInside p x ∧ x.nucleon_mass = 0.938 ∧ ¬ NucleonClass.new.Degenerate true true x := by
  obtain ⟨p, hg, x, hx, hval⟩ := otherScript_object (t_in := fun _ => 10) (a := 1.465) (b := 0.4) (c := 1.72) (d := 0.25)
    (by constructor <;> decide +kernel)
  have read : ∀ n y, (n, y) ∈ x.byName → ∀ z : ℝ,
      (nucleonScriptConstants 0 0.938 2.79 (-1.91) ++ (otherScript (fun _ => 10) 1.465 0.4 1.72 0.25).literals.map fun q => (q.1, (q.2 : ℝ))).lookup n = some z →
      y = z := fun n y hm z hz => by
    have := hval n y hm
    rw [hz] at this
    exact (Option.some.inj this).symm
  have f1 : x.t_in_dirac_isoscalar = 10 := (read "t_in_dirac_isoscalar" _ (by simp [NucleonArgs.byName]) _ rfl).trans (by norm_num)
  have f2 : x.t_in_dirac_isovector = 10 := (read "t_in_dirac_isovector" _ (by simp [NucleonArgs.byName]) _ rfl).trans (by norm_num)
  have f3 : x.t_in_pauli_isoscalar = 10 := (read "t_in_pauli_isoscalar" _ (by simp [NucleonArgs.byName]) _ rfl).trans (by norm_num)
  have f4 : x.t_in_pauli_isovector = 10 := (read "t_in_pauli_isovector" _ (by simp [NucleonArgs.byName]) _ rfl).trans (by norm_num)
  refine ⟨p, hg, fun q hq hn => ?_, x, hx, (read "nucleon_mass" _ (by simp [NucleonArgs.byName]) _ rfl), ?_⟩
  · rcases (hx.tin q.value).mpr ⟨q, hq, hn, rfl⟩ with h | h | h | h
    · rw [h, f1]
    · rw [h, f2]
    · rw [h, f3]
    · rw [h, f4]
  rw [NucleonClass.degenerate_iff hx.proper (hx.builds true true), not_not]
  have e1 : x.t_0_dirac_isoscalar = 0 := (read "t_0_dirac_isoscalar" _ (by simp [NucleonArgs.byName]) _ rfl).trans (by norm_num)
  have e2 : x.t_0_dirac_isovector = 0 := (read "t_0_dirac_isovector" _ (by simp [NucleonArgs.byName]) _ rfl).trans (by norm_num)
  have e3 : x.t_0_pauli_isoscalar = 0 := (read "t_0_pauli_isoscalar" _ (by simp [NucleonArgs.byName]) _ rfl).trans (by norm_num)
  have m1 : x.mass_omega_prime = 1.410 := (read "mass_omega_prime" _ (by simp [NucleonArgs.byName]) _ rfl).trans (by norm_num)
  have g1 : x.decay_rate_omega_prime = 0.29 := (read "decay_rate_omega_prime" _ (by simp [NucleonArgs.byName]) _ rfl).trans (by norm_num)
  have m2 : x.mass_omega_double_prime = 1.670 := (read "mass_omega_double_prime" _ (by simp [NucleonArgs.byName]) _ rfl).trans (by norm_num)
  have g2 : x.decay_rate_omega_double_prime = 0.315 := (read "decay_rate_omega_double_prime" _ (by simp [NucleonArgs.byName]) _ rfl).trans (by norm_num)
  have m3 : x.mass_phi_double_prime = 2.159 := (read "mass_phi_double_prime" _ (by simp [NucleonArgs.byName]) _ rfl).trans (by norm_num)
  have g3 : x.decay_rate_phi_double_prime = 0.137 := (read "decay_rate_phi_double_prime" _ (by simp [NucleonArgs.byName]) _ rfl).trans (by norm_num)
  have m4 : x.mass_rho_prime = 1.465 := (read "mass_rho_prime" _ (by simp [NucleonArgs.byName]) _ rfl).trans (by norm_num)
  have g4 : x.decay_rate_rho_prime = 0.4 := (read "decay_rate_rho_prime" _ (by simp [NucleonArgs.byName]) _ rfl).trans (by norm_num)
  have m5 : x.mass_rho_double_prime = 1.72 := (read "mass_rho_double_prime" _ (by simp [NucleonArgs.byName]) _ rfl).trans (by norm_num)
  have g5 : x.decay_rate_rho_double_prime = 0.25 := (read "decay_rate_rho_double_prime" _ (by simp [NucleonArgs.byName]) _ rfl).trans (by norm_num)
  have A : ∀ {m g m' g' t_0 t_in : ℝ}, t_0 = 0 → t_in = 10 → m ^ 2 - g ^ 2 / 4 < 10 → m' ^ 2 - g' ^ 2 / 4 < 10 → m * g ≠ 0 → m' * g' ≠ 0 →
      m ^ 2 + g ^ 2 / 4 ≠ m' ^ 2 + g' ^ 2 / 4 →
      massTerm (if (tMesonPole m g).re < t_in then .A else .B) t_0 t_in (tMesonPole m g) ≠
        massTerm (if (tMesonPole m' g').re < t_in then .A else .B) t_0 t_in (tMesonPole m' g') := by
    rintro m g m' g' t_0 t_in rfl rfl h1 h2 h3 h4 h5
    rw [if_pos (by rw [tMesonPole_re]; exact h1), if_pos (by rw [tMesonPole_re]; exact h2)]
    exact massTerm_below_ne (by norm_num) h3 h4 h5
  refine ⟨A e1 f1 ?_ ?_ ?_ ?_ ?_, A e2 f2 ?_ ?_ ?_ ?_ ?_, A e3 f3 ?_ ?_ ?_ ?_ ?_, A e3 f3 ?_ ?_ ?_ ?_ ?_, A e3 f3 ?_ ?_ ?_ ?_ ?_⟩
  all_goals (simp only [m1, m2, m3, m4, m5, g1, g2, g3, g4, g5]; norm_num)

end UA
