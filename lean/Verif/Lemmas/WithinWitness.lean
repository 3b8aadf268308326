import Verif.Lemmas.BoundaryValues
import Verif.Lemmas.NucleonDegenerate
import Verif.Lemmas.FitScriptsWitness
import Verif.Lemmas.Within
import Verif.Props.Nucleon
import Verif.Props.RunsNucleon

/-!
# Concrete data for the examples of C98
-/

namespace UA

open Complex ComplexConjugate

/-! ### A region that the library does not leave -/

theorem idleEnv_within (S : Set ℝ) (V : Set (List (String × ℝ))) : (idleEnv S).FitsWithin V := by
  intro k problem p _ _ hV h0 _ _ _ _
  unfold idleEnv
  dsimp only
  have key : ∀ p', p.updateFreeValues problem.p0 = (.ok (), p') → p'.assignment ∈ V := by
    intro p' h
    rw [h0, C40_write_back] at h
    injection h with _ h
    rw [← h]; exact hV
  split_ifs
  · exact ⟨key, fun _ => key⟩
  · trivial

/-! ### Mass terms above the inelastic thresholds -/

/-- The modulus of the coordinate. -/
theorem Wval_norm_relation {t_in : ℝ} (h : 0 < t_in) {p : ℂ} (hp : p ≠ t_in) :
    (1 + (‖Wval 0 t_in p‖ ^ 2) ^ 2) * ‖p‖ = 2 * ‖Wval 0 t_in p‖ ^ 2 * (t_in + ‖p - t_in‖) := by
  have id := Wval_identity h hp
  generalize Wval 0 t_in p = w at *
  rw [ofReal_zero, sub_zero, sub_zero] at id
  have e2 : (p - t_in) * (1 - w ^ 2) ^ 2 = -t_in * (1 + w ^ 2) ^ 2 := by linear_combination id
  have n1 := congrArg norm id
  have n2 := congrArg norm e2
  rw [norm_mul, norm_mul, norm_mul, norm_neg, norm_pow, norm_pow, norm_real, Real.norm_of_nonneg h.le, show ‖(4 : ℂ)‖ = 4 by norm_num] at n1
  rw [norm_mul, norm_mul, norm_neg, norm_pow, norm_pow, norm_real, Real.norm_of_nonneg h.le] at n2
  have par : ∀ z : ℂ, ‖1 + z‖ ^ 2 + ‖1 - z‖ ^ 2 = 2 * (1 + ‖z‖ ^ 2) := fun z => by
    rw [Complex.sq_norm, Complex.sq_norm, Complex.sq_norm, normSq_apply, normSq_apply, normSq_apply, add_re, add_im, sub_re, sub_im, one_re, one_im]
    ring
  replace par := par (w ^ 2)
  rw [norm_pow w 2] at par
  generalize ‖1 - w ^ 2‖ = a at *
  generalize ‖1 + w ^ 2‖ = b at *
  generalize ‖w‖ ^ 2 = u at *
  generalize ‖p - t_in‖ = d at *
  generalize ‖p‖ = r at *
  have n3 : t_in * (r * b ^ 2) = t_in * (4 * d * u) := by
    linear_combination (-r) * n2 + d * n1
  have n3 := mul_left_cancel₀ h.ne' n3
  have : 2 * ((1 + u ^ 2) * r) = 2 * (2 * u * (t_in + d)) := by linear_combination n1 + n3 - r * par
  linarith

/-- A lower bound for the modulus. -/
theorem Wval_norm_ge {t_in : ℝ} (h : 0 < t_in) {p : ℂ} (hp0 : p ≠ 0) (hp : p ≠ t_in) {l : ℝ} (hl : 0 < l) (hl1 : l ≤ 1)
    (hd : 2 * l * (t_in + ‖p - t_in‖) ≤ (1 + l ^ 2) * ‖p‖) : l ≤ ‖Wval 0 t_in p‖ ^ 2 := by
  have rel := Wval_norm_relation h hp
  have hle := Wval_norm_le h p
  have hr : 0 < ‖p‖ := norm_pos_iff.mpr hp0
  have hu0 : 0 ≤ ‖Wval 0 t_in p‖ ^ 2 := by positivity
  have hu1 : ‖Wval 0 t_in p‖ ^ 2 ≤ 1 := by nlinarith [norm_nonneg (Wval 0 t_in p)]
  generalize ‖Wval 0 t_in p‖ ^ 2 = u at *
  generalize ‖p - t_in‖ = d at *
  by_contra hc
  rw [not_le] at hc
  -- (1+u²) l r ≤ u (1+l²) r
  have h1 : (1 + u ^ 2) * l * ‖p‖ ≤ u * (1 + l ^ 2) * ‖p‖ := by nlinarith
  have h2 : (1 + u ^ 2) * l ≤ u * (1 + l ^ 2) := le_of_mul_le_mul_right h1 hr
  nlinarith [mul_pos (sub_pos.mpr hc) (show 0 < 1 - u * l by nlinarith)]

/-- An upper bound. -/
theorem Wval_norm_le' {t_in : ℝ} (h : 0 < t_in) {p : ℂ} (hp0 : p ≠ 0) (hp : p ≠ t_in) {l : ℝ} (hl : 0 < l) (hl1 : l < 1)
    (hd : (1 + l ^ 2) * ‖p‖ ≤ 2 * l * (t_in + ‖p - t_in‖)) : ‖Wval 0 t_in p‖ ^ 2 ≤ l := by
  have rel := Wval_norm_relation h hp
  have hle := Wval_norm_le h p
  have hr : 0 < ‖p‖ := norm_pos_iff.mpr hp0
  have hu0 : 0 ≤ ‖Wval 0 t_in p‖ ^ 2 := by positivity
  have hu1 : ‖Wval 0 t_in p‖ ^ 2 ≤ 1 := by nlinarith [norm_nonneg (Wval 0 t_in p)]
  generalize ‖Wval 0 t_in p‖ ^ 2 = u at *
  generalize ‖p - t_in‖ = d at *
  by_contra hc
  rw [not_le] at hc
  have h1 : u * (1 + l ^ 2) * ‖p‖ ≤ (1 + u ^ 2) * l * ‖p‖ := by nlinarith
  have h2 : u * (1 + l ^ 2) ≤ (1 + u ^ 2) * l := le_of_mul_le_mul_right h1 hr
  nlinarith [mul_pos (sub_pos.mpr hc) (show 0 < 1 - u * l by nlinarith)]

theorem tMesonPole_ne_real {m g x : ℝ} (h : m * g ≠ 0) : tMesonPole m g ≠ (x : ℂ) := fun he => by
  have := congrArg Complex.im he
  rw [tMesonPole_im, ofReal_im, neg_eq_zero] at this
  exact h this

theorem tMesonPole_ne_zero' {m g : ℝ} (h : m * g ≠ 0) : tMesonPole m g ≠ 0 := by
  have := tMesonPole_ne_real (x := 0) h
  rwa [ofReal_zero] at this

/-- Mass terms of resonances above the inelastic threshold, with `t_0 = 0`, are in the order of these quantities. -/
theorem massTerm_above_ne {t_in : ℝ} (h : 0 < t_in) {m g m' g' : ℝ} (h1 : m * g ≠ 0) (h2 : m' * g' ≠ 0)
    (hlt : (‖Wval 0 t_in (tMesonPole m g)‖ ^ 2) ^ 2 * (m ^ 2 + g ^ 2 / 4) < (‖Wval 0 t_in (tMesonPole m' g')‖ ^ 2) ^ 2 * (m' ^ 2 + g' ^ 2 / 4)) :
    massTerm .B 0 t_in (tMesonPole m g) ≠ massTerm .B 0 t_in (tMesonPole m' g') := by
  rw [massTerm_B h (tMesonPole_ne_zero' h1) (tMesonPole_ne_real h1), massTerm_B h (tMesonPole_ne_zero' h2) (tMesonPole_ne_real h2), norm_tMesonPole, norm_tMesonPole]
  intro he
  have he := Complex.ofReal_inj.mp he
  rw [neg_inj, div_left_inj' (by positivity)] at he
  rw [← pow_mul, ← pow_mul] at hlt
  exact hlt.ne he

/-- Distance of a pole from a threshold. -/
theorem pole_distance (m g t : ℝ) : ‖tMesonPole m g - t‖ = Real.sqrt ((m ^ 2 - g ^ 2 / 4 - t) ^ 2 + (m * g) ^ 2) := by
  rw [Complex.norm_def, Complex.normSq_apply, sub_re, sub_im, tMesonPole_re, tMesonPole_im, ofReal_re, ofReal_im]
  congr 1; ring

/-- The mass terms of the values of the nucleon script do not coincide. -/
theorem script_massTerms :
    massTerm .B 0 1 (tMesonPole 1.410 0.29) ≠ massTerm .B 0 1 (tMesonPole 1.670 0.315) ∧
    massTerm .B 0 1 (tMesonPole 1.670 0.315) ≠ massTerm .B 0 1 (tMesonPole 2.159 0.137) ∧
    massTerm .B 0 1 (tMesonPole 1.410 0.29) ≠ massTerm .B 0 1 (tMesonPole 2.159 0.137) ∧
    massTerm .B 0 2 (tMesonPole 1.465 0.4) ≠ massTerm .B 0 2 (tMesonPole 1.72 0.25) := by
  have le1 : ∀ {t_in : ℝ} (_ : 0 < t_in) (p : ℂ), ‖Wval 0 t_in p‖ ^ 2 ≤ 1 := fun {t_in} h p => by
    nlinarith [norm_nonneg (Wval 0 t_in p), Wval_norm_le h p]
  have a1 := le1 one_pos (tMesonPole 1.410 0.29)
  have a2 := le1 one_pos (tMesonPole 1.670 0.315)
  have b2 : 0.865 ≤ ‖Wval 0 1 (tMesonPole 1.670 0.315)‖ ^ 2 := by
    refine Wval_norm_ge one_pos (tMesonPole_ne_zero' (by norm_num)) (tMesonPole_ne_real (by norm_num)) (by norm_num) (by norm_num) ?_
    have : ‖tMesonPole 1.670 0.315 - ((1 : ℝ) : ℂ)‖ ≤ 1.841 := by
      rw [pole_distance, Real.sqrt_le_left (by norm_num)]; norm_num
    rw [norm_tMesonPole]
    nlinarith
  have b3 : 0.9 ≤ ‖Wval 0 1 (tMesonPole 2.159 0.137)‖ ^ 2 := by
    refine Wval_norm_ge one_pos (tMesonPole_ne_zero' (by norm_num)) (tMesonPole_ne_real (by norm_num)) (by norm_num) (by norm_num) ?_
    have : ‖tMesonPole 2.159 0.137 - ((1 : ℝ) : ℂ)‖ ≤ 3.67 := by
      rw [pole_distance, Real.sqrt_le_left (by norm_num)]; norm_num
    rw [norm_tMesonPole]
    nlinarith
  have c1 : ‖Wval 0 2 (tMesonPole 1.465 0.4)‖ ^ 2 ≤ 0.7 := by
    refine Wval_norm_le' two_pos (tMesonPole_ne_zero' (by norm_num)) (tMesonPole_ne_real (by norm_num)) (by norm_num) (by norm_num) ?_
    have : 0.595 ≤ ‖tMesonPole 1.465 0.4 - ((2 : ℝ) : ℂ)‖ := by
      rw [pole_distance]; refine Real.le_sqrt_of_sq_le ?_; norm_num
    rw [norm_tMesonPole]
    nlinarith
  have c2 : 0.7 ≤ ‖Wval 0 2 (tMesonPole 1.72 0.25)‖ ^ 2 := by
    refine Wval_norm_ge two_pos (tMesonPole_ne_zero' (by norm_num)) (tMesonPole_ne_real (by norm_num)) (by norm_num) (by norm_num) ?_
    have : ‖tMesonPole 1.72 0.25 - ((2 : ℝ) : ℂ)‖ ≤ 1.04 := by
      rw [pole_distance, Real.sqrt_le_left (by norm_num)]; norm_num
    rw [norm_tMesonPole]
    nlinarith
  have n1 : 0 ≤ ‖Wval 0 1 (tMesonPole 1.410 0.29)‖ ^ 2 := by positivity
  have n2 : 0 ≤ ‖Wval 0 2 (tMesonPole 1.465 0.4)‖ ^ 2 := by positivity
  refine ⟨massTerm_above_ne one_pos (by norm_num) (by norm_num) ?_, massTerm_above_ne one_pos (by norm_num) (by norm_num) ?_,
    massTerm_above_ne one_pos (by norm_num) (by norm_num) ?_, massTerm_above_ne two_pos (by norm_num) (by norm_num) ?_⟩
  · nlinarith [pow_le_pow_left₀ n1 a1 2, pow_le_pow_left₀ (by norm_num) b2 2]
  · nlinarith [pow_le_pow_left₀ (by positivity) a2 2, pow_le_pow_left₀ (by norm_num) b3 2]
  · nlinarith [pow_le_pow_left₀ n1 a1 2, pow_le_pow_left₀ (by norm_num) b3 2]
  · nlinarith [pow_le_pow_left₀ n2 c1 2, pow_le_pow_left₀ (by norm_num) c2 2]

/-! ### The unperturbed start of the nucleon script -/

/-- The values of the start if every draw is 1/2. -/
theorem nucleon_half_values {m μp μn : ℝ} {w : World} {p : ModelParameters ℝ}
    (hr : Reachable p) (h : fitNucleonStart (fun _ => 1 / 2) 0 m μp μn w = (.ok w.heap.length, { w with heap := w.heap ++ [p] })) {n : String} {y : ℝ}
    (hy : p.Holds n y) : (nucleonScriptConstants 0 m μp μn ++ fitNucleonCSIterative.literals.map fun q => (q.1, (q.2 : ℝ))).lookup n = some y := by
  have hk : ScriptConstants fitNucleonCSIterative.cls (nucleonScriptConstants 0 m μp μn) := by
    refine ⟨rfl, fun q hq ht => ?_⟩
    simp only [nucleonScriptConstants, List.mem_cons, List.not_mem_nil, or_false] at hq
    rcases hq with rfl | rfl | rfl | rfl | rfl | rfl | rfl
    · exact absurd ht (by show ¬ "t_0_".toList <+: "nucleon_mass".toList; decide)
    · exact absurd ht (by show ¬ "t_0_".toList <+: "magnetic_moment_proton".toList; decide)
    · exact absurd ht (by show ¬ "t_0_".toList <+: "magnetic_moment_neutron".toList; decide)
    all_goals norm_num
  obtain ⟨p₀, h1, h2, h3, -⟩ := script_make (script := fitNucleonCSIterative) (by simp [fitScripts]) hk
  obtain ⟨p₁, k1, k2, k3⟩ := C47_fix_resonances_any h2.1 (by rw [h2.2.1]; trivial)
  have hr₁ : Reachable p₁ := (congrArg (fun x : Mutation ℝ => Reachable x.2) k1).mp (Reachable.step .fixResonances h2.1)
  have hg₁ := h2.flags hr₁ k2 k3
  obtain ⟨-, -, ⟨-, ⟨dict, hd, -⟩, -⟩, -⟩ := (goodObject_iff (c := .nucleon) trivial).mp hg₁
  obtain ⟨p₂, h4, h5⟩ := perturb_half hr₁ hd fitNucleonCSIterative.perturbation_size (some fitNucleonCSIterative.perturbation_size_resonances)
  have hrun : fitNucleonStart (fun _ => 1 / 2) 0 m μp μn w = (.ok w.heap.length, { w with heap := w.heap ++ [p₂] }) := by
    unfold fitNucleonStart
    rw [h1, PyM.bind_ok (PyM.lift_run _ _), PyM.bind_ok (newParams_run p₀ w)]
    have e1 : mutateParams w.heap.length (fun p => p.fixResonances) { w with heap := w.heap ++ [p₀] } = (.ok (), { w with heap := w.heap ++ [p₁] }) := by
      rw [mutateParams_run (p := p₀) (by simp), k1]
      dsimp only
      congr 2
      simp
    have e2 : mutateParams w.heap.length (fun p => perturbModelParameters p fitNucleonCSIterative.perturbation_size
        (some fitNucleonCSIterative.perturbation_size_resonances) fitNucleonCSIterative.use_handpicked_bounds fun _ => 1 / 2)
        { w with heap := w.heap ++ [p₁] } = (.ok (), { w with heap := w.heap ++ [p₂] }) := by
      rw [mutateParams_run (p := p₁) (by simp), h4]
      dsimp only
      congr 2
      simp
    rw [PyM.bind_ok e1, PyM.bind_ok e2]
    rfl
  have hpp : p = p₂ := by
    rw [h] at hrun
    injection hrun with _ hrun
    injection hrun with hrun
    simpa using hrun
  subst hpp
  obtain ⟨flag, hy⟩ := hy
  obtain ⟨q, hq, e1, e2⟩ := h5 _ ((getItem_eq_ok (reachable_wellFormed hr).nodup).mp hy).1
  rw [k3] at hq
  obtain ⟨q₀, hq₀, rfl⟩ := List.mem_map.mp hq
  dsimp only at e1 e2
  obtain ⟨⟨n', z⟩, hz, hn⟩ := List.mem_map.mp (h3.2 q₀.name (List.mem_map_of_mem hq₀))
  obtain ⟨flag', hz'⟩ := h3.1 _ hz
  obtain ⟨hm, -⟩ := (getItem_eq_ok (reachable_wellFormed h2.1).nodup).mp hz'
  have := List.inj_on_of_nodup_map (reachable_wellFormed h2.1).nodup hq₀ hm hn.symm
  dsimp only at hn
  subst hn
  rw [e1, e2]
  refine lookup_of_mem (by rw [this] at hz ⊢; exact hz) ?_
  rw [List.map_append, List.map_map]
  show (["nucleon_mass", "magnetic_moment_proton", "magnetic_moment_neutron", "t_0_dirac_isoscalar", "t_0_dirac_isovector", "t_0_pauli_isoscalar",
    "t_0_pauli_isovector"] ++ fitNucleonCSIterative.literals.map (·.1)).Nodup
  decide +kernel

/-- The arguments of the model then. -/
noncomputable def halfArgs (m μp μn : ℝ) : NucleonArgs :=
  .ofValues fun n => ((nucleonScriptConstants 0 m μp μn ++ fitNucleonCSIterative.literals.map fun q => (q.1, (q.2 : ℝ))).lookup n).getD 0

theorem nucleon_half_start (m μp μn : ℝ) (w : World) :
    ∃ p, fitNucleonStart (fun _ => 1 / 2) 0 m μp μn w = (.ok w.heap.length, { w with heap := w.heap ++ [p] }) ∧ GoodObject .nucleon true ∅ p ∧
      NucleonInside p (halfArgs m μp μn) := by
  obtain ⟨p, -, h, hr, hcls, hin, -⟩ := C79_nucleon_start (random := fun _ => 1 / 2) (fun _ => by norm_num) (pion_mass := 0) (by norm_num) m μp μn w
  have hg := (goodObject_iff (c := .nucleon) (S := ∅) trivial).mpr ⟨hr, hcls, hin, fun _ _ _ => id⟩
  refine ⟨p, h, hg, ?_⟩
  obtain ⟨x, hx⟩ := nucleon_inside hr hcls hin.1 hg.nucleon
  have hw := reachable_wellFormed hr
  have := nucleonArgs_unique hw (v := fun n => ((nucleonScriptConstants 0 m μp μn ++ fitNucleonCSIterative.literals.map fun q => (q.1, (q.2 : ℝ))).lookup n).getD 0)
    (fun q hq => by
      rw [nucleon_half_values hr h (n := q.name) (y := q.value) ⟨q.is_fixed, getItem_mem hw.nodup hq⟩]
      rfl) hx.wiring.holds
  rw [halfArgs, ← this]
  exact hx

theorem halfArgs_mass (m m' μp μn : ℝ) : halfArgs m μp μn = { halfArgs m' μp μn with nucleon_mass := m } := rfl

theorem halfArgs_fields (m μp μn : ℝ) : (halfArgs m μp μn).nucleon_mass = m ∧ (halfArgs m μp μn).magnetic_moment_proton = μp ∧
    (halfArgs m μp μn).t_in_dirac_isoscalar = 1 ∧ (halfArgs m μp μn).t_in_dirac_isovector = 2 ∧
    (halfArgs m μp μn).t_in_pauli_isoscalar = 1 ∧ (halfArgs m μp μn).t_in_pauli_isovector = 2 := by
  refine ⟨rfl, rfl, ?_, ?_, ?_, ?_⟩
  · show (((1.0 : ℚ) : ℝ)) = 1; norm_num
  · show (((2.0 : ℚ) : ℝ)) = 2; norm_num
  · show (((1.0 : ℚ) : ℝ)) = 1; norm_num
  · show (((2.0 : ℚ) : ℝ)) = 2; norm_num

theorem halfArgs_separate {m μp μn : ℝ} (hx : ∃ p, NucleonInside p (halfArgs m μp μn)) : ¬ NucleonClass.new.Degenerate true true (halfArgs m μp μn) := by
  obtain ⟨p, hx⟩ := hx
  rw [NucleonClass.degenerate_iff hx.proper (hx.builds true true), not_not]
  have r0 : (halfArgs m μp μn).mass_omega_prime = 1.410 := by show (((1.410 : ℚ) : ℝ)) = 1.410; norm_num
  have r1 : (halfArgs m μp μn).decay_rate_omega_prime = 0.29 := by show (((0.29 : ℚ) : ℝ)) = 0.29; norm_num
  have r2 : (halfArgs m μp μn).mass_omega_double_prime = 1.670 := by show (((1.670 : ℚ) : ℝ)) = 1.670; norm_num
  have r3 : (halfArgs m μp μn).decay_rate_omega_double_prime = 0.315 := by show (((0.315 : ℚ) : ℝ)) = 0.315; norm_num
  have r4 : (halfArgs m μp μn).mass_phi_double_prime = 2.159 := by show (((2.159 : ℚ) : ℝ)) = 2.159; norm_num
  have r5 : (halfArgs m μp μn).decay_rate_phi_double_prime = 0.137 := by show (((0.137 : ℚ) : ℝ)) = 0.137; norm_num
  have r6 : (halfArgs m μp μn).mass_rho_prime = 1.465 := by show (((1.465 : ℚ) : ℝ)) = 1.465; norm_num
  have r7 : (halfArgs m μp μn).decay_rate_rho_prime = 0.4 := by show (((0.4 : ℚ) : ℝ)) = 0.4; norm_num
  have r8 : (halfArgs m μp μn).mass_rho_double_prime = 1.72 := by show (((1.72 : ℚ) : ℝ)) = 1.72; norm_num
  have r9 : (halfArgs m μp μn).decay_rate_rho_double_prime = 0.25 := by show (((0.25 : ℚ) : ℝ)) = 0.25; norm_num
  have f0 : (halfArgs m μp μn).t_in_dirac_isoscalar = 1 := by show (((1.0 : ℚ) : ℝ)) = 1; norm_num
  have f1 : (halfArgs m μp μn).t_in_dirac_isovector = 2 := by show (((2.0 : ℚ) : ℝ)) = 2; norm_num
  have f2 : (halfArgs m μp μn).t_in_pauli_isoscalar = 1 := by show (((1.0 : ℚ) : ℝ)) = 1; norm_num
  have z0 : (halfArgs m μp μn).t_0_dirac_isoscalar = 0 := by show (((3 * 0) ^ 2 : ℝ)) = 0; norm_num
  have z1 : (halfArgs m μp μn).t_0_dirac_isovector = 0 := by show (((2 * 0) ^ 2 : ℝ)) = 0; norm_num
  have z2 : (halfArgs m μp μn).t_0_pauli_isoscalar = 0 := by show (((3 * 0) ^ 2 : ℝ)) = 0; norm_num
  obtain ⟨k1, k2, k3, k4⟩ := script_massTerms
  have B : ∀ {m g t_in : ℝ}, t_in ≤ m ^ 2 - g ^ 2 / 4 → (if (tMesonPole m g).re < t_in then Variant.A else .B) = .B := fun h => by
    rw [if_neg (by rw [tMesonPole_re]; exact not_lt.mpr h)]
  have b1 : (if (tMesonPole 1.410 0.29).re < 1 then Variant.A else .B) = .B := B (by norm_num)
  have b2 : (if (tMesonPole 1.670 0.315).re < 1 then Variant.A else .B) = .B := B (by norm_num)
  have b3 : (if (tMesonPole 2.159 0.137).re < 1 then Variant.A else .B) = .B := B (by norm_num)
  have b4 : (if (tMesonPole 1.465 0.4).re < 2 then Variant.A else .B) = .B := B (by norm_num)
  have b5 : (if (tMesonPole 1.72 0.25).re < 2 then Variant.A else .B) = .B := B (by norm_num)
  generalize halfArgs m μp μn = x at *
  have A : ∀ {m g m' g' t_0 t_in M G M' G' T : ℝ}, t_0 = 0 → t_in = T → m = M → g = G → m' = M' → g' = G' →
      (if (tMesonPole M G).re < T then Variant.A else .B) = .B → (if (tMesonPole M' G').re < T then Variant.A else .B) = .B →
      massTerm .B 0 T (tMesonPole M G) ≠ massTerm .B 0 T (tMesonPole M' G') →
      massTerm (if (tMesonPole m g).re < t_in then .A else .B) t_0 t_in (tMesonPole m g) ≠
        massTerm (if (tMesonPole m' g').re < t_in then .A else .B) t_0 t_in (tMesonPole m' g') := by
    rintro m g m' g' t_0 t_in M G M' G' T rfl rfl rfl rfl rfl rfl h1 h2 h3
    rw [h1, h2]; exact h3
  exact ⟨A z0 f0 r4 r5 r2 r3 b3 b2 k2.symm, A z1 f1 r6 r7 r8 r9 b4 b5 k4, A z2 f2 r4 r5 r2 r3 b3 b2 k2.symm, A z2 f2 r0 r1 r2 r3 b1 b2 k1,
    A z2 f2 r0 r1 r4 r5 b1 b3 k3⟩

attribute [irreducible] halfArgs

/-! ### Points where the cross section is positive -/

/-- The magnetic form factor does not depend on the nucleon mass. -/
theorem magnetic_mass {k : NucleonClass} {proton : Bool} {x : NucleonArgs} {m : ℝ} (hx : x.Proper) (hx' : ({ x with nucleon_mass := m } : NucleonArgs).Proper)
    (hb : k.Builds proton false x) (hb' : k.Builds proton false { x with nucleon_mass := m }) {t : ℂ} (ht : 0 ≤ t.re) :
    k.run proton false { x with nucleon_mass := m } t = k.run proton false x t := by
  obtain ⟨a, ba, ha⟩ := NucleonClass.run_built hx hb
  obtain ⟨b, bb, hb⟩ := NucleonClass.run_built hx' hb'
  rw [ha, hb]
  by_cases hs : NSingular x false (k.cDS x) (k.cDV x) (k.cPS x) t
  · have hs' : NSingular { x with nucleon_mass := m } false (k.cDS { x with nucleon_mass := m }) (k.cDV { x with nucleon_mass := m })
        (k.cPS { x with nucleon_mass := m }) t := by
      rcases hs with h | h | h | h
      · exact Or.inl h
      · exact Or.inr (Or.inl h)
      · cases k <;> exact Or.inr (Or.inr (Or.inl h))
      · exact absurd h.1 (by decide)
    rw [ba.evalC_zde ht hs, bb.evalC_zde ht hs']
  · have hs' : ¬ NSingular { x with nucleon_mass := m } false (k.cDS { x with nucleon_mass := m }) (k.cDV { x with nucleon_mass := m })
        (k.cPS { x with nucleon_mass := m }) t := by
      refine mt ?_ hs
      rintro (h | h | h | h)
      · exact Or.inl h
      · exact Or.inr (Or.inl h)
      · cases k <;> exact Or.inr (Or.inr (Or.inl h))
      · exact absurd h.1 (by decide)
    rw [ba.evalC_ok ht hs, bb.evalC_ok ht hs']
    cases k <;> rfl

/-- The cross section vanishes above the threshold only where the form factors do. -/
theorem NucleonInside.cs_positive {p : ModelParameters ℝ} {x : NucleonArgs} (hx : NucleonInside p x) {m α hc2 : ℝ} (hα : α ≠ 0) (hh : 0 < hc2)
    {points : List (ℝ × Bool × Bool)} (h0 : ∀ d ∈ points, 0 < d.1 ∧ 4 * m ^ 2 < d.1 ∧ ∃ G, NucleonClass.new.run d.2.1 false x d.1 = .ok G ∧ G ≠ 0)
    {rs : List ℝ} (hr : functionCrossSection (points.map fun d => .nucleon d.1 d.2.1 d.2.2) m α hc2 p = .ok rs) : ∀ r ∈ rs, 0 < r := by
  rw [hx.wiring.cs, hx.check, except_ok_bind, mapM_map] at hr
  rw [mapM_eq_ok] at hr
  intro r hrm
  obtain ⟨d, hd, hp⟩ := forall₂_mem_right hr r hrm
  obtain ⟨h1, h2, G, hG, hG0⟩ := h0 d hd
  have hp : (do
      let σ ← (do
        let GE ← NucleonClass.new.run d.2.1 true x d.1
        let GM ← NucleonClass.new.run d.2.1 false x d.1
        (NucleonCS.init m α hc2).formula d.1 ‖GE‖ ‖GM‖)
      return ‖σ‖ : Except PyErr ℝ) = .ok r := hp
  obtain ⟨σ, hσ, hrσ⟩ := except_bind_eq_ok.mp hp
  obtain ⟨GE, -, hσ⟩ := except_bind_eq_ok.mp hσ
  obtain ⟨GM, hGM, hσ⟩ := except_bind_eq_ok.mp hσ
  rw [hG] at hGM
  injection hGM with hGM
  subst hGM
  rw [NucleonCS.formula_real h1 h2.le] at hσ
  injection hσ with hσ
  injection hrσ with hrσ
  have hpos : 0 < 1 - 4 * m ^ 2 / d.1 := by rw [sub_pos, div_lt_one h1]; exact h2
  have hg : 0 < ‖G‖ := norm_pos_iff.mpr hG0
  have hpi := Real.pi_pos
  have hs := Real.sqrt_pos.mpr hpos
  have hα2 : 0 < α ^ 2 := by positivity
  rw [← hrσ, ← hσ, norm_pos_iff, ofReal_ne_zero]
  positivity

/-- Forty points at the same place, values 1, errors 0.1. -/
noncomputable def fortySame (t : ℝ) : List (ℝ × ℝ × ℝ) := List.replicate 40 (t, 1, 0.1)

/-- A proton mass and a place above the threshold where the cross section of the unperturbed start is positive. -/
theorem halfArgs_positive : ∃ m t : ℝ, 0 < m ∧ m ≤ 1 ∧ t = 16 * m ^ 2 ∧ t < 1 ∧ ∀ p, NucleonInside p (halfArgs m 2.79 (-1.91)) → Reachable p → p.cls = .nucleon →
    p.InsideFor true → ∀ points : List (ℝ × Bool × Bool), (∀ d ∈ points, d.1 = t ∧ d.2.1 = true) →
      ∃ rs, functionCrossSection (points.map fun d => .nucleon d.1 d.2.1 d.2.2) m 1 1 p = .ok rs ∧ ∀ r ∈ rs, 0 < r := by
  obtain ⟨p₁, -, hg₁, hx₁⟩ := nucleon_half_start 1 2.79 (-1.91) (startWorld [])
  have hsep := halfArgs_separate ⟨p₁, hx₁⟩
  obtain ⟨u, hu⟩ : ∃ u, NucleonClass.new.run true false (halfArgs 1 2.79 (-1.91)) ((0 : ℝ) : ℂ) = .ok u := by
    have := (hx₁.run_ok true false (le_refl 0)).mpr
    refine this ?_
    rintro (h | h | h)
    · obtain ⟨-, -, f1, f2, f3, f4⟩ := halfArgs_fields 1 2.79 (-1.91)
      rcases (hx₁.tin 0).mpr h with h | h | h | h
      · rw [f1] at h; norm_num at h
      · rw [f2] at h; norm_num at h
      · rw [f3] at h; norm_num at h
      · rw [f4] at h; norm_num at h
    · exact hsep h
    · exact absurd h.1 (by decide)
  have hres : ∀ r ∈ (halfArgs 1 2.79 (-1.91)).resonances, ((0 : ℝ) : ℂ) ≠ polePosition r.1 r.2 := by
    intro r hr h
    rw [← tMesonPole_eq, ofReal_zero] at h
    exact tMesonPole_ne_zero' (mul_ne_zero (hx₁.res r hr).1 (hx₁.res r hr).2) h.symm
  obtain ⟨y, hlim, huy⟩ := nucleon_above .new true false _ hx₁.proper hu hres
  have hy : y = 2.79 := by
    rw [← huy u hu]
    rw [ofReal_zero] at hu
    rw [(C23_nucleon_normalisation .new _ hx₁.proper u).2.2.1 hu]
    rw [(halfArgs_fields 1 2.79 (-1.91)).2.1]
    norm_num
  obtain ⟨δ, hδ, hnear⟩ := hlim 1 one_pos
  obtain ⟨m, hm0, hm1, hm2, hm3⟩ : ∃ m : ℝ, 0 < m ∧ m ≤ 1 ∧ 16 * m ^ 2 < δ ∧ 16 * m ^ 2 < 1 := by
    refine ⟨min (1 / 8) (min 1 δ / 16), by positivity, ?_, ?_, ?_⟩
    · exact (min_le_left _ _).trans (by norm_num)
    all_goals
      have a1 : min (1 / 8) (min 1 δ / 16) ≤ 1 / 8 := min_le_left _ _
      have a2 : min (1 / 8) (min 1 δ / 16) ≤ δ / 16 := (min_le_right _ _).trans (by have := min_le_right 1 δ; linarith)
      have a3 : 0 < min (1 / 8) (min 1 δ / 16) := by positivity
      nlinarith
  refine ⟨m, 16 * m ^ 2, hm0, hm1, rfl, hm3, fun p hx hr hc hin points hpts => ?_⟩
  have ht0 : 0 < 16 * m ^ 2 := by positivity
  obtain ⟨G, hG, hGn⟩ := hnear ((16 * m ^ 2 : ℝ) : ℂ) (by rw [ofReal_re]; exact ht0.le) (by rw [ofReal_im]) (by
      rw [Ne, ofReal_inj]; exact ht0.ne') (by rw [ofReal_zero, sub_zero, norm_real, Real.norm_of_nonneg ht0.le]; exact hm2)
  have hG0 : G ≠ 0 := by
    rintro rfl
    rw [hy, zero_sub, norm_neg] at hGn
    norm_num at hGn
  have hrun : NucleonClass.new.run true false (halfArgs m 2.79 (-1.91)) ((16 * m ^ 2 : ℝ) : ℂ) = .ok G := by
    rw [halfArgs_mass m 1 2.79 (-1.91), magnetic_mass hx₁.proper (by rw [← halfArgs_mass]; exact hx.proper) (hx₁.builds _ _)
      (by rw [← halfArgs_mass]; exact hx.builds _ _) (by rw [ofReal_re]; exact ht0.le)]
    exact hG
  have hg := (goodObject_iff (c := .nucleon) (S := ∅) trivial).mpr ⟨hr, hc, hin, fun _ _ _ => id⟩
  obtain ⟨rs, hrs⟩ := (C82_cross_sections_partial hr hc hin.1 hg.nucleon hx.wiring.holds (points := points) (fun d hd => by rw [(hpts d hd).1]; exact ht0.le) m 1 1).1.mpr
    (fun d hd => by
      rw [(hpts d hd).1]
      obtain ⟨f0, -, f1, f2, f3, f4⟩ := halfArgs_fields m 2.79 (-1.91)
      refine ⟨fun h => ?_, halfArgs_separate ⟨p, hx⟩, by rw [f0]; exact hm0.ne', ht0.ne', by nlinarith⟩
      rcases (hx.tin _).mpr h with h | h | h | h
      · rw [f1] at h; linarith
      · rw [f2] at h; linarith
      · rw [f3] at h; linarith
      · rw [f4] at h; linarith)
  refine ⟨rs, hrs, hx.cs_positive one_ne_zero one_pos (fun d hd => ?_) hrs⟩
  rw [(hpts d hd).1, (hpts d hd).2]
  exact ⟨ht0, by nlinarith, G, hrun, hG0⟩

/-- Objects with the same names and values hold the same. -/
theorem holdsExactly_assignment {p p' : ModelParameters ℝ} (hr : Reachable p) (hr' : Reachable p') (hc : p'.cls = p.cls)
    (ha : p'.assignment = p.assignment) {l : List (String × ℝ)} (h : p.HoldsExactly l) : p'.HoldsExactly l := by
  have hw := reachable_wellFormed hr
  have hw' := reachable_wellFormed hr'
  obtain ⟨x, hx⟩ := hw.exists_values
  have hx' : ∀ q ∈ p'.data, q.value = x q.name := by
    intro q hq
    have hq' : (q.name, q.value) ∈ p'.assignment := List.mem_map_of_mem hq
    rw [ha] at hq'
    obtain ⟨r, hr, he⟩ := List.mem_map.mp hq'
    injection he with h1 h2
    rw [← h1, ← h2]
    exact hx r hr
  refine ⟨fun e he => (hw'.holds_iff hx').mpr (by rw [hc]; exact (hw.holds_iff hx).mp (h.1 e he)), fun n hn => h.2 n ?_⟩
  rw [hw'.names, hc, ← hw.names] at hn
  exact hn

theorem NucleonInside.assignment {p p' : ModelParameters ℝ} (hg : GoodObject .nucleon true ∅ p) (hg' : GoodObject .nucleon true ∅ p')
    (ha : p'.assignment = p.assignment) {x : NucleonArgs} (hx : NucleonInside p x) : NucleonInside p' x := by
  obtain ⟨hr, hcls, -, -⟩ := (goodObject_iff (c := .nucleon) trivial).mp hg
  obtain ⟨hr', hcls', hin', -⟩ := (goodObject_iff (c := .nucleon) trivial).mp hg'
  exact nucleon_inside_args hr' hcls' hin'.1 hg'.nucleon (holdsExactly_assignment hr hr' (hcls'.trans hcls.symm) ha hx.wiring.holds)

/-- The forty points of `fortyPipeline` can be evaluated for the values of `separate_object`. -/
theorem forty_evaluates : ∃ p, GoodObject .nucleon true ∅ p ∧ p.HasFree ∧
    (∀ tasks, (fortyPipeline .nucleonFF tasks).EvaluatesOn {p.assignment}) ∧ ∀ tasks, (fortyPipeline .nucleonCS tasks).EvaluatesOn {p.assignment} := by
  obtain ⟨p₀, hg₀, htin, x, hx, hmass, hdeg⟩ := separate_object
  have hfree : p₀.releaseAllParameters.HasFree :=
    hasFree_release_of hg₀.1 (n := "t_in_dirac_isoscalar") (by rw [hg₀.2.1]; exact nucleon_tin_free.1) (by rw [hg₀.2.1]; exact nucleon_tin_free.2)
  have hg : GoodObject .nucleon true ∅ p₀.releaseAllParameters :=
    hg₀.flags (releaseAll_spec hg₀.1).1 (releaseAll_spec hg₀.1).2.1 (releaseAll_spec hg₀.1).2.2
  have ha : p₀.releaseAllParameters.assignment = p₀.assignment := assignment_flags (releaseAll_spec hg₀.1).2.2
  generalize p₀.releaseAllParameters = p at hfree hg ha
  have hev : ∀ p', Reachable p' → p'.cls = .nucleon → p'.InsideFor true → p'.assignment = p.assignment →
      (∀ q ∈ p'.toList, "t_in_".toList <+: q.name.toList → q.value = 10) ∧ GoodObject .nucleon true ∅ p' ∧ NucleonInside p' x := by
    intro p' hr hc hi he
    have hg' := (goodObject_iff (c := .nucleon) (S := ∅) trivial).mpr ⟨hr, hc, hi, fun _ _ _ => id⟩
    refine ⟨fun q hq hn => ?_, hg', hx.assignment hg₀ hg' (he.trans ha)⟩
    have : (q.name, q.value) ∈ p'.assignment := List.mem_map_of_mem hq
    rw [he, ha] at this
    obtain ⟨r, hr, e⟩ := List.mem_map.mp this
    injection e with e1 e2
    rw [← e2]
    exact htin r hr (by rw [e1]; exact hn)
  have hm0 : x.nucleon_mass ≠ 0 := by rw [hmass]; norm_num
  have hpts : ∀ d ∈ fortyPoints.map fun d => ((d.1, true, true) : ℝ × Bool × Bool), 4 ≤ d.1 ∧ d.1 < 10 := by
    intro e he
    obtain ⟨d, hd, rfl⟩ := List.mem_map.mp he
    obtain ⟨k, hk, rfl⟩ := List.mem_map.mp hd
    have h0 : (0 : ℝ) ≤ k := Nat.cast_nonneg k
    have h1 : (k : ℝ) < 40 := by exact_mod_cast List.mem_range.mp hk
    dsimp only
    constructor <;> linarith
  refine ⟨p, hg, hfree, fun tasks p' hr hc hi he => ?_, fun tasks p' hr hc hi he => ?_⟩
  · obtain ⟨h1, h2, h3⟩ := hev p' hr hc hi he
    refine (C82_form_factors_partial hr hc hi.1 h2.nucleon h3.wiring.holds (points := fortyPoints.map fun d => (d.1, true, true))
      fun d hd => by linarith [(hpts d hd).1]).1.mpr fun d hd => ⟨?_, hdeg, fun _ => hm0⟩
    rintro ⟨q, hq, hn, e⟩
    rw [h1 q hq hn] at e
    exact absurd e (hpts d hd).2.ne
  · obtain ⟨h1, h2, h3⟩ := hev p' hr hc hi he
    refine (C82_cross_sections_partial hr hc hi.1 h2.nucleon h3.wiring.holds (points := fortyPoints.map fun d => (d.1, true, true))
      (fun d hd => by linarith [(hpts d hd).1]) 0.938 1 1).1.mpr fun d hd => ⟨?_, hdeg, hm0, by linarith [(hpts d hd).1], by
        have := (hpts d hd).1
        norm_num
        linarith⟩
    rintro ⟨q, hq, hn, e⟩
    rw [h1 q hq hn] at e
    exact absurd e (hpts d hd).2.ne

/-- A pipeline for forty equal points. -/
noncomputable def samePipeline (m t : ℝ) : Pipeline where
  kind := .nucleonCS
  name := "P"
  parameters := 0
  tasks := []
  ts := ((fortySame t).map fun d => ((d.1, true, true) : ℝ × Bool × Bool)).map fun d => .nucleon d.1 d.2.1 d.2.2
  ys := (fortySame t).map (·.2.1)
  errors := (fortySame t).map (·.2.2)
  reports_dir := "reports/P"
  plot := false
  use_handpicked_bounds := true
  constants := ⟨m, 1, 1⟩
  report := ""
  best_fit := .nothing

/-- The points of `halfArgs_positive`. -/
theorem fortySame_spec {m t : ℝ} (hm : 0 < m) (ht : t = 16 * m ^ 2) (ht1 : t < 1) :
    (∀ d ∈ fortySame t, 4 * m ^ 2 < d.1 ∧ 0 < d.2.1 ∧ d.2.2 ≠ 0) ∧ (∀ d ∈ fortySame t, d.1 / (2 * m) - m < Real.sqrt (25 + m ^ 2)) ∧
      (fortySame t).length = 40 := by
  refine ⟨fun d hd => ?_, fun d hd => ?_, List.length_replicate⟩
  · rw [List.eq_of_mem_replicate hd]
    dsimp only
    exact ⟨by nlinarith, by norm_num, by norm_num⟩
  · rw [List.eq_of_mem_replicate hd]
    dsimp only
    have h7 : t / (2 * m) - m = 7 * m := by rw [ht]; field_simp; ring
    rw [h7, Real.lt_sqrt (by positivity)]
    nlinarith

theorem samePipeline_data {m t : ℝ} (hm : 0 < m) (ht : t = 16 * m ^ 2) (ht1 : t < 1) {p : ModelParameters ℝ} (hr : Reachable p) (hc : p.cls = .nucleon) :
    (samePipeline m t).NucleonData p ((fortySame t).map fun d => (d.1, true, true)) ∧
      (samePipeline m t).ResidualData ((fortySame t).map fun d => (d.1, true, true)) := by
  obtain ⟨h1, h5, h3⟩ := fortySame_spec hm ht ht1
  have hd5 : (t, 1, 0.1) ∈ fortySame t := List.mem_replicate.mpr ⟨by norm_num, rfl⟩
  refine ⟨⟨Or.inl rfl, rfl, rfl, by simp [samePipeline], by simp [samePipeline], ?_, ?_, ?_⟩,
    ⟨hm, one_ne_zero, ?_, ?_, ⟨_, List.mem_map_of_mem hd5, h5 _ hd5⟩⟩⟩
  · intro e he
    obtain ⟨d, hd, rfl⟩ := List.mem_map.mp he
    exact (h1 d hd).2.2
  · intro e he
    obtain ⟨d, hd, rfl⟩ := List.mem_map.mp he
    have h4 := (h1 d hd).1
    have h5 : (0 : ℝ) < 4 * m ^ 2 := by positivity
    exact ⟨by dsimp only; linarith, fun _ => ⟨by dsimp only; linarith, h4.le⟩⟩
  · rw [(reachable_wellFormed hr).names, hc, nucleon_count, List.length_map, h3]; norm_num
  · intro e he
    obtain ⟨d, hd, rfl⟩ := List.mem_map.mp he
    exact (h1 d hd).1
  · intro e he
    obtain ⟨d, hd, rfl⟩ := List.mem_map.mp he
    exact (h1 d hd).2.1

end UA
