import Verif.Lemmas.ContinuityNucleon
import Verif.Lemmas.NucleonDegenerate
import Verif.Lemmas.AlternateMaps

/-! Nucleon objects on which the fitted functions are continuous, and objects where they jump. -/

namespace UA

open Complex ComplexConjugate Filter Topology

/-! ### The two variants above the inelastic threshold -/

theorem variants_norm {w m : ℂ} (hw : ‖w‖ = 1) (hwr : w.re ≤ 0) (hm : ‖m‖ < 1) (hmr : m.re < 0) :
    ‖quart .B m 0 / quart .B m w‖ < ‖quart .A m 0 / quart .A m w‖ := by
  have hm0 : m ≠ 0 := by rintro rfl; simp at hmr
  have hcm : conj m ≠ 0 := by simpa using hm0
  have hpos : 0 < ‖m‖ := norm_pos_iff.mpr hm0
  have ne : ∀ u : ℂ, ‖u‖ < 1 → 0 < ‖w - u‖ := fun u hu => norm_pos_iff.mpr fun h => by
    rw [sub_eq_zero.mp h] at hw; exact hu.ne hw
  have n1 := ne m hm
  have n2 := ne (conj m) (by simpa using hm)
  have n3 : 0 < ‖w + m‖ := by simpa using ne (-m) (by simpa using hm)
  have n4 : 0 < ‖w + conj m‖ := by simpa using ne (-conj m) (by simpa using hm)
  have inv : ∀ u : ℂ, u ≠ 0 → ‖w - 1 / u‖ = ‖w - conj u‖ / ‖u‖ := fun u hu => by
    have hww : w * conj w = 1 := by rw [Complex.mul_conj, Complex.normSq_eq_norm_sq, hw]; simp
    have : w - 1 / u = w * (conj (conj u - w)) / u := by
      rw [map_sub, Complex.conj_conj, mul_sub, hww]
      field_simp
    rw [this, norm_div, norm_mul, hw, one_mul, Complex.norm_conj, norm_sub_rev]
  have qA0 : quart .A m 0 = 1 := by
    simp only [quart]
    field_simp
    ring
  have qB0 : ‖quart .B m 0‖ = ‖m‖ ^ 4 := by
    simp only [quart, zero_sub, zero_add, norm_mul, norm_neg, Complex.norm_conj]
    ring
  have qA : ‖quart .A m w‖ = (‖w - m‖ * ‖w - conj m‖) ^ 2 / ‖m‖ ^ 2 := by
    simp only [quart, norm_mul]
    rw [inv m hm0, inv (conj m) hcm, Complex.conj_conj, Complex.norm_conj]
    field_simp
  have qB : ‖quart .B m w‖ = ‖w - m‖ * ‖w - conj m‖ * (‖w + m‖ * ‖w + conj m‖) := by
    simp only [quart, norm_mul]
    ring
  have hle : ‖w - m‖ * ‖w - conj m‖ ≤ ‖w + m‖ * ‖w + conj m‖ := by
    rw [← norm_mul, ← norm_mul]
    refine abs_le_of_sq_le_sq' ?_ (norm_nonneg _) |>.2
    rw [← Complex.normSq_eq_norm_sq, ← Complex.normSq_eq_norm_sq, Complex.normSq_mul, Complex.normSq_mul]
    simp only [Complex.normSq_apply, sub_re, sub_im, add_re, add_im, conj_re, conj_im]
    nlinarith [mul_nonneg_of_nonpos_of_nonpos hwr hmr.le, sq_nonneg w.re, sq_nonneg w.im, sq_nonneg m.re, sq_nonneg m.im,
      mul_nonneg (mul_nonneg_of_nonpos_of_nonpos hwr hmr.le) (add_nonneg (add_nonneg (sq_nonneg w.re) (sq_nonneg w.im)) (add_nonneg (sq_nonneg m.re) (sq_nonneg m.im)))]
  rw [norm_div, norm_div, qA0, qB0, qA, qB, norm_one, div_lt_div_iff₀ (by positivity) (by positivity)]
  set N := ‖w - m‖ * ‖w - conj m‖
  set M := ‖w + m‖ * ‖w + conj m‖
  have hN : 0 < N := mul_pos n1 n2
  have hM : 0 < M := mul_pos n3 n4
  have h2 : ‖m‖ ^ 2 < 1 := by nlinarith
  have : ‖m‖ ^ 4 * (N ^ 2 / ‖m‖ ^ 2) = ‖m‖ ^ 2 * N ^ 2 := by field_simp
  rw [this, one_mul]
  nlinarith [mul_pos hN hN, mul_le_mul_of_nonneg_left hle hN.le]

/-- With `t_0 = 0` the two variants have different moduli above the inelastic threshold. -/
theorem Fval_norm_lt {t_in : ℝ} (h : 0 < t_in) {p : ℂ} (hp : p.im ≠ 0) {t : ℝ} (ht : t_in < t) :
    ‖Fval .B 0 t_in p t‖ < ‖Fval .A 0 t_in p t‖ := by
  have hoff : ¬ (p.im = 0 ∧ 0 ≤ p.re) := fun hh => hp hh.1
  obtain ⟨m1, m2⟩ := Wval_offCut h hoff
  have htc : (t : ℂ) ≠ t_in := fun hh => ht.ne' (by exact_mod_cast hh)
  unfold Fval
  rw [Wval_self h, norm_mul, norm_mul]
  refine mul_lt_mul_of_pos_left (variants_norm (Wval_above_tin h ht).1 (Wval_re_nonpos _) m1 m2) ?_
  rw [norm_pos_iff]
  exact div_ne_zero (pow_ne_zero 2 (Wval_sq_ne_one h htc)) (by norm_num)

theorem Fval_ne_zero (v : Variant) {t_in : ℝ} (h : 0 < t_in) {p : ℂ} (hp : p.im ≠ 0) {t : ℝ} (ht : t ≠ t_in) : Fval v 0 t_in p t ≠ 0 := by
  have hpin : p ≠ t_in := fun hh => hp (by rw [hh]; simp)
  have hp0 : p ≠ (0 : ℝ) := fun hh => hp (by rw [hh]; simp)
  have htc : (t : ℂ) ≠ t_in := fun hh => ht (by exact_mod_cast hh)
  have hz : (0 : ℂ) ≠ t_in := by exact_mod_cast h.ne
  have q : ∀ s : ℝ, (s : ℂ) ≠ t_in → quart v (Wval 0 t_in p) (Wval 0 t_in s) ≠ 0 := fun s hs hq => by
    rcases (quart_eq_zero h hp0 hpin hs v).mp hq with hq | hq
    · exact hp (by rw [← hq]; simp)
    · exact hp (by have := congrArg Complex.im hq; simpa using this.symm)
  unfold Fval
  refine mul_ne_zero (div_ne_zero (pow_ne_zero 2 (Wval_sq_ne_one h htc)) (pow_ne_zero 2 (Wval_sq_ne_one h hz))) (div_ne_zero ?_ (q t htc))
  have := q 0 (by simpa using hz)
  simpa using this

/-- If one of the Pauli isovector parts is changed to another modulus, one of the four form factors changes its modulus. -/
theorem one_of_four {k : ℝ} (h0 : k ≠ 0) (h1 : k ≠ 1) {ds dv ps pA pB : ℂ} (h : ‖pA‖ ≠ ‖pB‖) :
    ∃ pr el : Bool, ‖(ds + (if pr then 1 else -1) * dv) + (if el then (k : ℂ) else 1) * (ps + (if pr then 1 else -1) * pA)‖ ≠
      ‖(ds + (if pr then 1 else -1) * dv) + (if el then (k : ℂ) else 1) * (ps + (if pr then 1 else -1) * pB)‖ := by
  by_contra hall
  push Not at hall
  have sq : ∀ {a b : ℂ}, ‖a‖ = ‖b‖ → a.re * a.re + a.im * a.im = b.re * b.re + b.im * b.im := fun {a b} hab => by
    rw [← Complex.normSq_apply, ← Complex.normSq_apply, Complex.normSq_eq_norm_sq, Complex.normSq_eq_norm_sq, hab]
  have e1 := sq (hall true false)
  have e2 := sq (hall false false)
  have e3 := sq (hall true true)
  have e4 := sq (hall false true)
  simp only [if_true, Bool.false_eq_true, if_false, one_mul, neg_mul, add_re, add_im, mul_re, mul_im, neg_re, neg_im, ofReal_re, ofReal_im, zero_mul,
    sub_zero, add_zero] at e1 e2 e3 e4
  apply h
  rw [← sq_eq_sq₀ (norm_nonneg _) (norm_nonneg _), ← Complex.normSq_eq_norm_sq, ← Complex.normSq_eq_norm_sq, Complex.normSq_apply, Complex.normSq_apply]
  have hk : k * (k - 1) ≠ 0 := mul_ne_zero h0 (sub_ne_zero.mpr h1)
  refine mul_left_cancel₀ hk ?_
  linear_combination (1 / 2) * (e3 + e4) - (k / 2) * (e1 + e2)

/-! ### The objects -/

/-- The values: thresholds 0 and 10, except that the inelastic threshold of the Pauli isovector part is `T`; widths 1; masses as
listed, that of the rho `m`; couplings 0. -/
noncomputable def nucleonCase (T m : ℝ) (n : String) : ℝ :=
  (([("nucleon_mass", 1), ("magnetic_moment_proton", 3), ("magnetic_moment_neutron", -2),
    ("t_in_dirac_isoscalar", 10), ("t_in_dirac_isovector", 10), ("t_in_pauli_isoscalar", 10), ("t_in_pauli_isovector", T),
    ("mass_omega", 2), ("decay_rate_omega", 1), ("mass_omega_prime", 3), ("decay_rate_omega_prime", 1),
    ("mass_omega_double_prime", 2), ("decay_rate_omega_double_prime", 1), ("mass_phi", 2), ("decay_rate_phi", 1),
    ("mass_phi_prime", 2), ("decay_rate_phi_prime", 1), ("mass_phi_double_prime", 5 / 2), ("decay_rate_phi_double_prime", 1),
    ("mass_rho", m), ("decay_rate_rho", 1), ("mass_rho_prime", 5 / 2), ("decay_rate_rho_prime", 1),
    ("mass_rho_double_prime", 3), ("decay_rate_rho_double_prime", 1)] : List (String × ℝ)).lookup n).getD 0

noncomputable def nucleonCaseObject (T m : ℝ) : ModelParameters ℝ :=
  ⟨.nucleon, ParamClass.nucleon.table.alwaysFixed, freshData .nucleon (nucleonCase T m)⟩

theorem nucleonCase_reachable (T m : ℝ) : Reachable (nucleonCaseObject T m) :=
  .init (init_eq .nucleon (kw := ParamClass.nucleon.table.initArgs.map fun n => (n, nucleonCase T m n)) (fun _ hn => lookup_map_self hn) fun p hp => by
    obtain ⟨n, hn, rfl⟩ := List.mem_map.mp hp
    exact hn)

theorem nucleonCase_values (T m : ℝ) : ∀ q ∈ (nucleonCaseObject T m).data, q.value = nucleonCase T m q.name := by
  intro q hq
  obtain ⟨n, -, rfl⟩ := List.mem_map.mp hq
  rfl

theorem nucleon_t0_names : ∀ n ∈ ParamClass.nucleon.table.initArgs, "t_0_".toList <+: n.toList →
    n = "t_0_dirac_isoscalar" ∨ n = "t_0_dirac_isovector" ∨ n = "t_0_pauli_isoscalar" ∨ n = "t_0_pauli_isovector" := by decide +kernel

theorem nucleon_mass_list : ∀ n ∈ ParamClass.nucleon.table.initArgs, "mass_".toList <+: n.toList →
    n = "mass_omega" ∨ n = "mass_omega_prime" ∨ n = "mass_omega_double_prime" ∨ n = "mass_phi" ∨ n = "mass_phi_prime" ∨
    n = "mass_phi_double_prime" ∨ n = "mass_rho" ∨ n = "mass_rho_prime" ∨ n = "mass_rho_double_prime" := by decide +kernel

theorem nucleon_width_names : ∀ n ∈ ParamClass.nucleon.table.initArgs, "decay_rate_".toList <+: n.toList →
    n = "decay_rate_omega" ∨ n = "decay_rate_omega_prime" ∨ n = "decay_rate_omega_double_prime" ∨ n = "decay_rate_phi" ∨ n = "decay_rate_phi_prime" ∨
    n = "decay_rate_phi_double_prime" ∨ n = "decay_rate_rho" ∨ n = "decay_rate_rho_prime" ∨ n = "decay_rate_rho_double_prime" := by decide +kernel

theorem nucleonCase_inside {T m : ℝ} (hT : 0 < T) (hm : 0 < m) : (nucleonCaseObject T m).InsideMaximal := by
  refine insideMaximal_of_values (nucleonCase_reachable T m) trivial (nucleonCase_values T m) ⟨?_, ?_, ?_, ?_⟩
  · intro n hn hp
    rcases nucleon_t0_names n hn hp with rfl | rfl | rfl | rfl <;> exact le_refl (0 : ℝ)
  · intro n hn hp
    have hth : massThreshold .nucleon (nucleonCase T m) n = 0 := by
      unfold massThreshold
      rw [if_pos rfl, show nucleonCase T m "t_0_dirac_isoscalar" = 0 from rfl, show nucleonCase T m "t_0_pauli_isoscalar" = 0 from rfl,
        show nucleonCase T m "t_0_dirac_isovector" = 0 from rfl, show nucleonCase T m "t_0_pauli_isovector" = 0 from rfl]
      simp
    show massThreshold .nucleon (nucleonCase T m) n < _
    rw [hth]
    rcases nucleon_mass_list n hn hp with rfl | rfl | rfl | rfl | rfl | rfl | rfl | rfl | rfl
    · exact show (0 : ℝ) < 2 by norm_num
    · exact show (0 : ℝ) < 3 by norm_num
    · exact show (0 : ℝ) < 2 by norm_num
    · exact show (0 : ℝ) < 2 by norm_num
    · exact show (0 : ℝ) < 2 by norm_num
    · exact show (0 : ℝ) < 5 / 2 by norm_num
    · exact hm
    · exact show (0 : ℝ) < 5 / 2 by norm_num
    · exact show (0 : ℝ) < 3 by norm_num
  · intro n hn hp
    rcases nucleon_width_names n hn hp with rfl | rfl | rfl | rfl | rfl | rfl | rfl | rfl | rfl <;> exact zero_lt_one (α := ℝ)
  · intro n hn k s h1 h2
    have hk : ∀ r : String, n.toList = "t_in_".toList ++ r.toList → k = "t_0_" ++ r := fun r hr => by
      rw [hr] at h1
      rw [← String.toList_inj, h2, String.toList_append, List.append_cancel_left h1]
    rcases nucleon_tin_names n hn ⟨s, h1.symm⟩ with rfl | rfl | rfl | rfl
    · rw [hk "dirac_isoscalar" (by decide)]; exact show (0 : ℝ) < 10 by norm_num
    · rw [hk "dirac_isovector" (by decide)]; exact show (0 : ℝ) < 10 by norm_num
    · rw [hk "pauli_isoscalar" (by decide)]; exact show (0 : ℝ) < 10 by norm_num
    · rw [hk "pauli_isovector" (by decide)]; exact hT

theorem nucleonCase_resonances (T m : ℝ) : (NucleonArgs.ofValues (nucleonCase T m)).resonances =
    [(2, 1), (3, 1), (2, 1), (2, 1), (2, 1), (5 / 2, 1), (m, 1), (5 / 2, 1), (3, 1)] := rfl

theorem nucleonCase_holds (T m : ℝ) : (nucleonCaseObject T m).HoldsExactly (NucleonArgs.ofValues (nucleonCase T m)).byName :=
  (nucleon_wiring (reachable_wellFormed (nucleonCase_reachable T m)) (nucleonCase_values T m) rfl).holds

theorem nucleonCase_above (T : ℝ) {m : ℝ} (hm : 1 / 2 ≤ m) : (NucleonArgs.ofValues (nucleonCase T m)).PolesAbove := by
  unfold NucleonArgs.PolesAbove
  rw [nucleonCase_resonances]
  simp only [List.take_succ_cons, List.take_zero, List.drop_succ_cons, List.drop_zero, List.forall_mem_cons, List.not_mem_nil,
    false_imp_iff, implies_true, and_true, poleRealPart]
  rw [show (NucleonArgs.ofValues (nucleonCase T m)).t_0_dirac_isoscalar = 0 from rfl, show (NucleonArgs.ofValues (nucleonCase T m)).t_0_pauli_isoscalar = 0 from rfl,
    show (NucleonArgs.ofValues (nucleonCase T m)).t_0_dirac_isovector = 0 from rfl, show (NucleonArgs.ofValues (nucleonCase T m)).t_0_pauli_isovector = 0 from rfl]
  have : 0 ≤ m ^ 2 - 1 ^ 2 / 4 := by nlinarith
  refine ⟨?_, ⟨this, this⟩, ?_⟩ <;> norm_num

theorem nucleonCase_args {T m : ℝ} (hT : 0 < T) (hm : 1 / 2 ≤ m) : NucleonInside (nucleonCaseObject T m) (.ofValues (nucleonCase T m)) := by
  have hin := nucleonCase_inside hT (m := m) (by linarith)
  obtain ⟨f1, f2, f3⟩ := nucleon_values_facts (nucleonCase_reachable T m) rfl hin (nucleonCase_values T m)
  obtain ⟨M, hM⟩ := NucleonClass.builds_of_above f1.1 f1.2.1 f1.2.2.1 f1.2.2.2 f2 f3 (nucleonCase_above T hm) true true
  have hcheck : (NucleonArgs.ofValues (nucleonCase T m)).check = .ok () := by
    unfold NucleonArgs.check
    rw [hM]; rfl
  rw [← (nucleon_wiring (reachable_wellFormed (nucleonCase_reachable T m)) (nucleonCase_values T m) rfl).build] at hcheck
  obtain ⟨M', hM', -⟩ := except_bind_eq_ok.mp hcheck
  exact nucleon_inside_args (nucleonCase_reachable T m) rfl hin ⟨M', hM'⟩ (nucleonCase_holds T m)

theorem nucleonCase_terms (T m : ℝ) : DSok (NucleonArgs.ofValues (nucleonCase T m)).cDS ∧ DVok (NucleonArgs.ofValues (nucleonCase T m)).cDV ∧
    PSok (NucleonArgs.ofValues (nucleonCase T m)).cPS := by
  have A : ∀ {m m' : ℝ}, m ^ 2 < 10 → m' ^ 2 < 10 → m ≠ 0 → m' ≠ 0 → m ^ 2 ≠ m' ^ 2 →
      massTerm (if thrNew m 1 < (10 : ℝ) then .A else .B) 0 10 (tMesonPole m 1) ≠
        massTerm (if thrNew m' 1 < (10 : ℝ) then .A else .B) 0 10 (tMesonPole m' 1) := by
    intro m m' h1 h2 h3 h4 h5
    rw [if_pos (show (tMesonPole m 1).re < 10 by rw [tMesonPole_re]; linarith), if_pos (show (tMesonPole m' 1).re < 10 by rw [tMesonPole_re]; linarith)]
    exact massTerm_below_ne (by norm_num) (by simpa using h3) (by simpa using h4) fun hh => h5 (by linarith)
  have a1 := A (m := 5 / 2) (m' := 2) (by norm_num) (by norm_num) (by norm_num) (by norm_num) (by norm_num)
  have a2 := A (m := 5 / 2) (m' := 3) (by norm_num) (by norm_num) (by norm_num) (by norm_num) (by norm_num)
  have a3 := A (m := 3) (m' := 2) (by norm_num) (by norm_num) (by norm_num) (by norm_num) (by norm_num)
  exact ⟨a1, a2, a1, a3, a2.symm⟩

theorem nucleonCase_good {T m : ℝ} (hT : 0 < T) (hm : 1 / 2 ≤ m) (el : Bool) {t : ℝ} (h1 : t ≠ 10) (h2 : t ≠ T) :
    ¬ NucleonInside.Bad (nucleonCaseObject T m) (.ofValues (nucleonCase T m)) el t := by
  have hx := nucleonCase_args hT hm
  unfold NucleonInside.Bad
  rw [not_or, not_or, ← hx.tin, NucleonClass.degenerate_iff hx.proper (hx.builds true true), not_not]
  refine ⟨?_, nucleonCase_terms T m, fun hh => one_ne_zero (α := ℝ) hh.2⟩
  rintro (hh | hh | hh | hh)
  · exact h1 hh
  · exact h1 hh
  · exact h1 hh
  · exact h2 hh

theorem nucleonCase_tend {T : ℝ} {M : ℕ → ℝ} {m : ℝ} (hM : Tendsto M atTop (𝓝 m)) (n : String) :
    Tendsto (fun i => nucleonCase T (M i) n) atTop (𝓝 (nucleonCase T m n)) := by
  by_cases hn : n = "mass_rho"
  · subst hn
    exact hM
  · have : ∀ i, nucleonCase T (M i) n = nucleonCase T m n := fun i => by
      unfold nucleonCase
      simp only [List.lookup]
      have hb : (n == "mass_rho") = false := by simpa using hn
      simp only [hb]
    simp only [this]
    exact tendsto_const_nhds

theorem nucleonCase_values_tend {T : ℝ} {M : ℕ → ℝ} {m : ℝ} (hM : Tendsto M atTop (𝓝 m)) :
    ValuesTendTo (fun i => nucleonCaseObject T (M i)) atTop (nucleonCaseObject T m) := by
  intro q hq ε hε
  obtain ⟨n, hn, rfl⟩ := List.mem_map.mp hq
  have := Metric.tendsto_nhds.mp (nucleonCase_tend (T := T) hM n.1) ε hε
  filter_upwards [this] with i hi
  exact ⟨_, List.mem_map.mpr ⟨n, hn, rfl⟩, rfl, by simpa [Real.dist_eq] using hi⟩

theorem nucleonCase_off_mass {m : ℝ} (h1 : 1 / 2 < m) (h2 : m < 3) : (NucleonArgs.ofValues (nucleonCase 10 m)).OffThresholds := by
  unfold NucleonArgs.OffThresholds
  rw [nucleonCase_resonances]
  simp only [List.take_succ_cons, List.take_zero, List.drop_succ_cons, List.drop_zero, List.forall_mem_cons, List.not_mem_nil,
    false_imp_iff, implies_true, and_true, poleRealPart]
  rw [show (NucleonArgs.ofValues (nucleonCase 10 m)).t_0_dirac_isoscalar = 0 from rfl, show (NucleonArgs.ofValues (nucleonCase 10 m)).t_0_pauli_isoscalar = 0 from rfl,
    show (NucleonArgs.ofValues (nucleonCase 10 m)).t_0_dirac_isovector = 0 from rfl, show (NucleonArgs.ofValues (nucleonCase 10 m)).t_0_pauli_isovector = 0 from rfl,
    show (NucleonArgs.ofValues (nucleonCase 10 m)).t_in_dirac_isoscalar = 10 from rfl, show (NucleonArgs.ofValues (nucleonCase 10 m)).t_in_pauli_isoscalar = 10 from rfl,
    show (NucleonArgs.ofValues (nucleonCase 10 m)).t_in_dirac_isovector = 10 from rfl, show (NucleonArgs.ofValues (nucleonCase 10 m)).t_in_pauli_isovector = 10 from rfl]
  have h3 : 0 < m ^ 2 - 1 ^ 2 / 4 := by nlinarith
  have h4 : m ^ 2 - 1 ^ 2 / 4 < 10 := by nlinarith
  refine ⟨by norm_num, ⟨h3.ne', h4.ne, h3.ne', h4.ne⟩, by norm_num⟩

theorem nucleonCase_off : (NucleonArgs.ofValues (nucleonCase 10 2)).OffThresholds := nucleonCase_off_mass (by norm_num) (by norm_num)

/-! ### The jump -/

/-- Masses of the rho approaching 2 from below. -/
noncomputable def approachingMass (i : ℕ) : ℝ := 2 - 1 / ((i : ℝ) + 1)

theorem approachingMass_bounds (i : ℕ) : 1 ≤ approachingMass i ∧ approachingMass i < 2 := by
  have h : (0 : ℝ) < (i : ℝ) + 1 := by positivity
  have h1 : 1 / ((i : ℝ) + 1) ≤ 1 := by rw [div_le_one h]; linarith [(Nat.cast_nonneg i : (0 : ℝ) ≤ i)]
  have h2 : 0 < 1 / ((i : ℝ) + 1) := by positivity
  unfold approachingMass
  constructor <;> linarith

theorem approachingMass_tendsto : Tendsto approachingMass atTop (𝓝 2) := by
  have := (tendsto_const_nhds (x := (2 : ℝ)) (f := atTop)).sub (tendsto_one_div_add_atTop_nhds_zero_nat (𝕜 := ℝ))
  rw [sub_zero] at this
  exact this

theorem nucleonCase_tends0 : NTend0 atTop (fun i => nucleonCase (15 / 4) (approachingMass i)) (nucleonCase (15 / 4) 2) := by
  obtain ⟨f1, f2, f3⟩ := nucleon_values_facts (nucleonCase_reachable (15 / 4) 2) rfl (nucleonCase_inside (by norm_num) (by norm_num))
    (nucleonCase_values (15 / 4) 2)
  refine ⟨nucleonCase_tend approachingMass_tendsto, f2, f1, f3, ?_, ?_⟩
  · rw [nucleonCase_resonances, show nucleonCase (15 / 4) 2 "t_in_dirac_isoscalar" = 10 from rfl,
      show nucleonCase (15 / 4) 2 "t_in_pauli_isoscalar" = 10 from rfl]
    simp only [List.take_succ_cons, List.take_zero, List.forall_mem_cons, List.not_mem_nil, false_imp_iff, implies_true, and_true, poleRealPart]
    norm_num
  · rw [nucleonCase_resonances, show nucleonCase (15 / 4) 2 "t_in_dirac_isovector" = 10 from rfl]
    simp only [List.drop_succ_cons, List.drop_zero, List.forall_mem_cons, List.not_mem_nil, false_imp_iff, implies_true, and_true, poleRealPart]
    norm_num

/-- The Pauli isovector components at 5 with variant `v` for the rho. -/
noncomputable def jumpThree (v : Variant) : Three ℂ :=
  ⟨Fval v 0 (15 / 4 : ℝ) (tMesonPole 2 1) (5 : ℝ), Fval .B 0 (15 / 4 : ℝ) (tMesonPole (5 / 2) 1) (5 : ℝ), Fval .B 0 (15 / 4 : ℝ) (tMesonPole 3 1) (5 : ℝ)⟩

theorem pole_im_ne {m : ℝ} (hm : m ≠ 0) : (tMesonPole m 1).im ≠ 0 := by
  rw [tMesonPole_eq]; simp [polePosition, hm]

theorem Fval_tendsto_mass (v : Variant) {M : ℕ → ℝ} {m : ℝ} (hM : Tendsto M atTop (𝓝 m)) (hm : m ≠ 0) :
    Tendsto (fun i => Fval v 0 (15 / 4 : ℝ) (tMesonPole (M i) 1) (5 : ℝ)) atTop (𝓝 (Fval v 0 (15 / 4 : ℝ) (tMesonPole m 1) (5 : ℝ))) := by
  have him := pole_im_ne hm
  have hp : Tendsto (fun i => tMesonPole (M i) 1) atTop (𝓝 (tMesonPole m 1)) := by
    simp only [tMesonPole_eq]
    exact polePosition_tendsto hM tendsto_const_nhds
  exact Fval_tendsto v le_rfl (by norm_num) tendsto_const_nhds tendsto_const_nhds hp him (by norm_num) tendsto_const_nhds
    (fun hh => him (by rw [← hh]; simp)) (fun hh => him (by
      have := congrArg Complex.im hh
      simpa using this.symm))

theorem nucleonCase_pv : ThreeTend atTop (fun i => Three.F (nucleonCase (15 / 4) (approachingMass i) "t_0_pauli_isovector")
      (nucleonCase (15 / 4) (approachingMass i) "t_in_pauli_isovector")
      ((NucleonArgs.ofValues (nucleonCase (15 / 4) (approachingMass i))).thrT thrNew (nucleonCase (15 / 4) (approachingMass i) "t_in_pauli_isovector"))
      (NucleonArgs.ofValues (nucleonCase (15 / 4) (approachingMass i))).poleT (5 : ℝ)) (jumpThree .A) := by
  have above : ∀ {m : ℝ}, 2 ≤ m → ¬ thrNew m 1 < (15 / 4 : ℝ) := fun {m} h => by
    show ¬ (tMesonPole m 1).re < 15 / 4
    rw [tMesonPole_re]; nlinarith
  refine ⟨?_, ?_, ?_⟩
  · refine (Fval_tendsto_mass .A approachingMass_tendsto two_ne_zero).congr fun i => ?_
    have : thrNew (approachingMass i) 1 < (15 / 4 : ℝ) := by
      show (tMesonPole _ 1).re < 15 / 4
      rw [tMesonPole_re]
      obtain ⟨h1, h2⟩ := approachingMass_bounds i
      nlinarith
    show _ = Fval (if thrNew (approachingMass i) 1 < (15 / 4 : ℝ) then .A else .B) 0 (15 / 4 : ℝ) (tMesonPole (approachingMass i) 1) (5 : ℝ)
    rw [if_pos this]
  · refine tendsto_const_nhds.congr fun i => ?_
    show _ = Fval (if thrNew (5 / 2) 1 < (15 / 4 : ℝ) then .A else .B) 0 (15 / 4 : ℝ) (tMesonPole (5 / 2) 1) (5 : ℝ)
    rw [if_neg (above (by norm_num))]
    rfl
  · refine tendsto_const_nhds.congr fun i => ?_
    show _ = Fval (if thrNew 3 1 < (15 / 4 : ℝ) then .A else .B) 0 (15 / 4 : ℝ) (tMesonPole 3 1) (5 : ℝ)
    rw [if_neg (above (by norm_num))]
    rfl

theorem nucleonCase_pvAt : pvAt thrNew (NucleonArgs.ofValues (nucleonCase (15 / 4) 2)) (5 : ℝ) =
    pvVal (NucleonArgs.ofValues (nucleonCase (15 / 4) 2)) (jumpThree .B) := by
  have above : ∀ {m : ℝ}, 2 ≤ m → ¬ thrNew m 1 < (15 / 4 : ℝ) := fun {m} h => by
    show ¬ (tMesonPole m 1).re < 15 / 4
    rw [tMesonPole_re]; nlinarith
  have e : ∀ m : ℝ, 2 ≤ m → Fval (if thrNew m 1 < (15 / 4 : ℝ) then .A else .B) 0 (15 / 4 : ℝ) (tMesonPole m 1) (5 : ℝ) =
      Fval .B 0 (15 / 4 : ℝ) (tMesonPole m 1) (5 : ℝ) := fun m h => by rw [if_neg (above h)]
  show pvVal (NucleonArgs.ofValues (nucleonCase (15 / 4) 2)) ⟨Fval (if thrNew 2 1 < (15 / 4 : ℝ) then .A else .B) 0 (15 / 4 : ℝ) (tMesonPole 2 1) (5 : ℝ),
    Fval (if thrNew (5 / 2) 1 < (15 / 4 : ℝ) then .A else .B) 0 (15 / 4 : ℝ) (tMesonPole (5 / 2) 1) (5 : ℝ),
    Fval (if thrNew 3 1 < (15 / 4 : ℝ) then .A else .B) 0 (15 / 4 : ℝ) (tMesonPole 3 1) (5 : ℝ)⟩ = _
  rw [e 2 le_rfl, e (5 / 2) (by norm_num), e 3 (by norm_num)]
  rfl

theorem jump_pv_ne : ‖pvVal (NucleonArgs.ofValues (nucleonCase (15 / 4) 2)) (jumpThree .A)‖ ≠
    ‖pvVal (NucleonArgs.ofValues (nucleonCase (15 / 4) 2)) (jumpThree .B)‖ := by
  have n1 := norm_pos_iff.mpr (Fval_ne_zero .B (t_in := 15 / 4) (by norm_num) (pole_im_ne (m := 5 / 2) (by norm_num)) (t := 5) (by norm_num))
  have n2 := norm_pos_iff.mpr (Fval_ne_zero .B (t_in := 15 / 4) (by norm_num) (pole_im_ne (m := 3) (by norm_num)) (t := 5) (by norm_num))
  have n3 := Fval_norm_lt (t_in := 15 / 4) (by norm_num) (pole_im_ne (m := 2) (by norm_num)) (t := 5) (by norm_num)
  unfold pvVal jumpThree
  rw [show (NucleonArgs.ofValues (nucleonCase (15 / 4) 2)).magnetic_moment_proton = 3 from rfl,
    show (NucleonArgs.ofValues (nucleonCase (15 / 4) 2)).magnetic_moment_neutron = -2 from rfl]
  simp only [norm_mul]
  refine ne_of_gt (mul_lt_mul_of_pos_right (mul_lt_mul_of_pos_right (mul_lt_mul_of_pos_left n3 ?_) n1) n2)
  norm_num

/-- The Pauli isovector variant of the rho changes the limit. -/
theorem nucleon_jump_limit : ∃ (pr el : Bool) (y y' : ℝ), y ≠ y' ∧
    functionFormFactor [.nucleon (5 : ℝ) pr el] (nucleonCaseObject (15 / 4) 2) = .ok [y] ∧
    ResultsTendTo (fun i => functionFormFactor [.nucleon (5 : ℝ) pr el] (nucleonCaseObject (15 / 4) (approachingMass i))) atTop (.ok [y']) := by
  obtain ⟨pr, el, hne⟩ := one_of_four (k := 5 / 4) (by norm_num) (by norm_num)
    (ds := dsAt thrNew (NucleonArgs.ofValues (nucleonCase (15 / 4) 2)) (NucleonArgs.ofValues (nucleonCase (15 / 4) 2)).cDS (5 : ℝ))
    (dv := dvAt thrNew (NucleonArgs.ofValues (nucleonCase (15 / 4) 2)) (NucleonArgs.ofValues (nucleonCase (15 / 4) 2)).cDV (5 : ℝ))
    (ps := psAt thrNew (NucleonArgs.ofValues (nucleonCase (15 / 4) 2)) (NucleonArgs.ofValues (nucleonCase (15 / 4) 2)).cPS (5 : ℝ)) jump_pv_ne
  obtain ⟨k1, k2, k3⟩ := nucleonCase_terms (15 / 4) 2
  have hlim := nucleonCase_tends0.formula pr el (t := 5) (by show (5 : ℝ) ≠ 10; norm_num) (by show (5 : ℝ) ≠ 10; norm_num)
    (by show (5 : ℝ) ≠ 10; norm_num) (fun _ => one_ne_zero (α := ℝ)) k1 k2 k3 nucleonCase_pv
  have hform : ∀ pv : ℂ, nVal (NucleonArgs.ofValues (nucleonCase (15 / 4) 2)) pr el (5 : ℝ)
      (dsAt thrNew (NucleonArgs.ofValues (nucleonCase (15 / 4) 2)) (NucleonArgs.ofValues (nucleonCase (15 / 4) 2)).cDS (5 : ℝ))
      (dvAt thrNew (NucleonArgs.ofValues (nucleonCase (15 / 4) 2)) (NucleonArgs.ofValues (nucleonCase (15 / 4) 2)).cDV (5 : ℝ))
      (psAt thrNew (NucleonArgs.ofValues (nucleonCase (15 / 4) 2)) (NucleonArgs.ofValues (nucleonCase (15 / 4) 2)).cPS (5 : ℝ)) pv =
    (dsAt thrNew (NucleonArgs.ofValues (nucleonCase (15 / 4) 2)) (NucleonArgs.ofValues (nucleonCase (15 / 4) 2)).cDS (5 : ℝ) + (if pr then 1 else -1) *
      dvAt thrNew (NucleonArgs.ofValues (nucleonCase (15 / 4) 2)) (NucleonArgs.ofValues (nucleonCase (15 / 4) 2)).cDV (5 : ℝ)) +
      (if el then ((5 / 4 : ℝ) : ℂ) else 1) *
      (psAt thrNew (NucleonArgs.ofValues (nucleonCase (15 / 4) 2)) (NucleonArgs.ofValues (nucleonCase (15 / 4) 2)).cPS (5 : ℝ) + (if pr then 1 else -1) * pv) := by
    intro pv
    unfold nVal
    rw [show (NucleonArgs.ofValues (nucleonCase (15 / 4) 2)).nucleon_mass = 1 from rfl]
    push_cast
    rw [one_pow, mul_one]
  have good : ∀ {m : ℝ}, 1 ≤ m → functionFormFactor [.nucleon (5 : ℝ) pr el] (nucleonCaseObject (15 / 4) m) =
      .ok [‖(NucleonArgs.ofValues (nucleonCase (15 / 4) m)).formula pr el (5 : ℝ)‖] := fun hm =>
    (nucleonCase_args (by norm_num) (by linarith)).eval_eq .formFactor (points := [(5, pr, el)]) (by simp) (by
      intro d hd
      obtain rfl : d = (5, pr, el) := by simpa using hd
      exact nucleonCase_good (by norm_num) (by linarith) el (by norm_num) (by norm_num))
  refine ⟨pr, el, _, _, ?_, good one_le_two, results_tend' (points := [()]) (f := fun i _ =>
    ‖(NucleonArgs.ofValues (nucleonCase (15 / 4) (approachingMass i))).formula pr el (5 : ℝ)‖) (y := fun _ => _) (fun _ _ => hlim.norm)
    (Eventually.of_forall fun i => good (approachingMass_bounds i).1) rfl⟩
  unfold NucleonArgs.formula
  rw [nucleonCase_pvAt, hform, hform]
  exact hne.symm

end UA
