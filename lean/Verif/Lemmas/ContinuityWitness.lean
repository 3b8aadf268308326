import Verif.Lemmas.ContinuityRun

/-! A kaon object, of any class, where the form factor jumps. -/

namespace UA

open Complex ComplexConjugate Filter Topology

theorem quart_pos (v : Variant) (m : ℂ) {w : ℂ} (hw : conj w = w) (h : quart v m w ≠ 0) : ∃ r : ℝ, 0 < r ∧ quart v m w = r := by
  have key : ∃ r : ℝ, 0 ≤ r ∧ quart v m w = r := by
    cases v
    · refine ⟨normSq (w - m) * normSq (w - 1 / m), mul_nonneg (normSq_nonneg _) (normSq_nonneg _), ?_⟩
      rw [ofReal_mul, ← mul_conj, ← mul_conj]
      simp only [map_sub, map_div₀, map_one, hw, quart]
      ring
    · refine ⟨normSq (w - m) * normSq (w + m), mul_nonneg (normSq_nonneg _) (normSq_nonneg _), ?_⟩
      rw [ofReal_mul, ← mul_conj, ← mul_conj]
      simp only [map_sub, map_add, hw, quart]
      ring
  obtain ⟨r, hr, he⟩ := key
  exact ⟨r, hr.lt_of_ne fun h0 => h (by rw [he, ← h0]; simp), he⟩

/-- Below the lowest branch point the components are positive. -/
theorem Fval_pos (v : Variant) {t_0 t_in x : ℝ} (hn : 0 ≤ t_0) (h : t_0 < t_in) {p : ℂ} (hp : p.im ≠ 0) (hx : x ≤ t_0) :
    ∃ r : ℝ, 0 < r ∧ Fval v t_0 t_in p x = r := by
  have hpin : p ≠ t_in := fun hh => hp (by rw [hh]; simp)
  have hp0 : p ≠ t_0 := fun hh => hp (by rw [hh]; simp)
  have hq : ∀ y : ℝ, y ≤ t_0 → ∃ r : ℝ, 0 < r ∧ quart v (Wval t_0 t_in p) (Wval t_0 t_in y) = r := fun y hy => by
    have hyin : (y : ℂ) ≠ t_in := fun hh => (hy.trans_lt h).ne (by exact_mod_cast hh)
    refine quart_pos v _ (Wval_real_below h hy) fun hz => ?_
    rcases (quart_eq_zero h hp0 hpin hyin v).mp hz with hz | hz
    · exact hp (by rw [← hz]; simp)
    · exact hp (by have := congrArg Complex.im hz; simpa using this.symm)
  have hs : ∀ y : ℝ, y ≤ t_0 → ∃ r : ℝ, 0 < r ∧ (1 - Wval t_0 t_in y ^ 2) ^ 2 = (r : ℂ) := fun y hy => by
    have hyin : (y : ℂ) ≠ t_in := fun hh => (hy.trans_lt h).ne (by exact_mod_cast hh)
    have hne := Wval_sq_ne_one h hyin
    obtain ⟨s, hs⟩ := Complex.conj_eq_iff_real.mp (Wval_real_below h hy)
    rw [hs] at hne ⊢
    refine ⟨(1 - s ^ 2) ^ 2, ?_, by push_cast; ring⟩
    have : (1 - s ^ 2 : ℝ) ≠ 0 := fun hz => hne (by exact_mod_cast hz)
    positivity
  obtain ⟨a, ha, ea⟩ := hq x hx
  obtain ⟨b, hb, eb⟩ := hq 0 hn
  obtain ⟨c, hc, ec⟩ := hs x hx
  obtain ⟨d, hd, ed⟩ := hs 0 hn
  rw [Complex.ofReal_zero] at eb ed
  refine ⟨c / d * (b / a), by positivity, ?_⟩
  unfold Fval
  rw [ea, eb, ec, ed]
  push_cast
  ring

/-- The values: every threshold 1 and 2, every mass 2 except that of the `rho_prime`, every width 1, the coupling of the
`rho_prime` one half and the other free couplings zero. -/
noncomputable def jumpValue (m : ℝ) (n : String) : ℝ :=
  if n = "mass_rho_prime" then m else if n.toList.head? = some 'a' then (if n = "a_rho_prime" then 1 / 2 else 0) else typicalValue 1 n

/-- The object. -/
noncomputable def jumpObject (c : ParamClass) (m : ℝ) : ModelParameters ℝ := ⟨c, c.table.alwaysFixed, freshData c (jumpValue m)⟩

theorem jump_reachable (c : ParamClass) (m : ℝ) : Reachable (jumpObject c m) :=
  .init (init_eq c (kw := c.table.initArgs.map fun n => (n, jumpValue m n)) (fun _ hn => lookup_map_self hn) fun p hp => by
    obtain ⟨n, hn, rfl⟩ := List.mem_map.mp hp
    exact hn)

theorem jump_values (c : ParamClass) (m : ℝ) : ∀ q ∈ (jumpObject c m).data, q.value = jumpValue m q.name := by
  intro q hq
  obtain ⟨n, -, rfl⟩ := List.mem_map.mp hq
  rfl

theorem jumpValue_other {m : ℝ} {n : String} (h1 : n ≠ "mass_rho_prime") (h2 : n.toList.head? ≠ some 'a') :
    jumpValue m n = typicalValue 1 n := by
  unfold jumpValue
  rw [if_neg h1, if_neg h2]

theorem jump_inside {c : ParamClass} (hc : IsKaonClass c) {m : ℝ} (hm : 1 < m) : (jumpObject c m).InsideMaximal := by
  have hr : IsResonanceClass c := by revert hc; cases c <;> simp [IsKaonClass, IsResonanceClass]
  have hcn : c ≠ .nucleon := by rintro rfl; exact hc
  have hin : InsideValues c (typicalValue 1) := typical_inside c one_pos
  have hhead : ∀ {s : List Char} {n : String} {a : Char}, s <+: n.toList → s.head? = some a → n.toList.head? = some a := by
    rintro s n a ⟨r, hr⟩ ha
    rw [← hr]
    cases s with
    | nil => cases ha
    | cons b s => simpa using ha
  have other : ∀ {s : List Char} {n : String} {a : Char}, s <+: n.toList → s.head? = some a → a ≠ 'a' → a ≠ 'm' →
      jumpValue m n = typicalValue 1 n := fun hs ha h1 h2 => by
    have := hhead hs ha
    refine jumpValue_other ?_ ?_
    · rintro rfl
      exact h2 (Option.some.inj (this.symm.trans (by decide)))
    · rw [this]
      exact fun h => h1 (Option.some.inj h)
  have t0 : ∀ {n : String}, "t_0_".toList <+: n.toList → jumpValue m n = typicalValue 1 n := fun h => other h (a := 't') (by decide) (by decide) (by decide)
  have t1 : ∀ {n : String}, "t_0_".toList <+: n.toList → typicalValue 1 n = 1 := fun h => by unfold typicalValue; rw [if_pos h]
  refine insideMaximal_of_values (jump_reachable c m) hr (jump_values c m) ⟨?_, ?_, ?_, ?_⟩
  · intro n hn h
    rw [t0 h]
    exact hin.t0 n hn h
  · intro n hn h
    have hth : massThreshold c (jumpValue m) n = 1 := by
      unfold massThreshold
      rw [if_neg hcn, t0 (n := "t_0_isoscalar") (by decide), t0 (n := "t_0_isovector") (by decide), t1 (n := "t_0_isoscalar") (by decide),
        t1 (n := "t_0_isovector") (by decide)]
      simp
    have hth' : massThreshold c (typicalValue 1) n = 1 := by
      unfold massThreshold
      rw [if_neg hcn, t1 (n := "t_0_isoscalar") (by decide), t1 (n := "t_0_isovector") (by decide)]
      simp
    have := hin.mass n hn h
    rw [hth'] at this
    show massThreshold c (jumpValue m) n < jumpValue m n
    rw [hth]
    by_cases hne : n = "mass_rho_prime"
    · unfold jumpValue
      rwa [if_pos hne]
    · rw [jumpValue_other hne]
      · exact this
      · rw [hhead h (a := 'm') (by decide)]
        decide
  · intro n hn h
    rw [other h (a := 'd') (by decide) (by decide) (by decide)]
    exact hin.decay n hn h
  · intro n hn m' s h1 h2
    rw [t0 (n := m') ⟨s, h2.symm⟩, other (n := n) (s := "t_in_".toList) ⟨s, h1.symm⟩ (a := 't') (by decide) (by decide) (by decide)]
    exact hin.tin n hn m' s h1 h2

/-- The form factor of these objects. -/
theorem jump_formula {c : ParamClass} (hc : IsKaonClass c) (m : ℝ) (t : ℝ) : (KaonArgs.ofValues c (jumpValue m)).formula true t =
    1 / 2 * Fval .B 1 2 (polePosition 2 1) t + 1 / 2 * Fval (if m ^ 2 < 2 then .A else .B) 1 2 (polePosition m 1) t := by
  have zero : ∀ n ∈ ["a_omega", "a_omega_prime", "a_omega_double_prime", "a_phi", "a_phi_prime", "a_rho", "a_rho_double_prime"], jumpValue m n = 0 := by
    intro n hn
    simp only [List.mem_cons, List.not_mem_nil, or_false] at hn
    rcases hn with rfl | rfl | rfl | rfl | rfl | rfl | rfl <;> simp [jumpValue]
  have half : jumpValue m "a_rho_prime" = 1 / 2 := by simp [jumpValue]
  have hm : jumpValue m "mass_rho_prime" = m := by simp [jumpValue]
  have one : ∀ n ∈ ["t_0_isoscalar", "t_0_isovector", "decay_rate_rho_prime", "decay_rate_phi_double_prime"], jumpValue m n = 1 := by
    intro n hn
    simp only [List.mem_cons, List.not_mem_nil, or_false] at hn
    rcases hn with rfl | rfl | rfl | rfl <;> simp [jumpValue, typicalValue]
  have two : ∀ n ∈ ["t_in_isoscalar", "t_in_isovector", "mass_phi_double_prime"], jumpValue m n = 2 := by
    intro n hn
    simp only [List.mem_cons, List.not_mem_nil, or_false] at hn
    rcases hn with rfl | rfl | rfl <;> simp [jumpValue, typicalValue]
  simp only [List.forall_mem_cons, List.not_mem_nil, false_imp_iff, implies_true, and_true] at zero one two
  obtain ⟨z1, z2, z3, z4, z5, z6, z7⟩ := zero
  obtain ⟨o1, o2, o3, o4⟩ := one
  obtain ⟨w1, w2, w3⟩ := two
  have hB : ¬ ((2 : ℝ) ^ 2 < 2) := by norm_num
  cases c <;> first | exact hc.elim | skip
  all_goals
    simp only [KaonArgs.formula, KaonArgs.ofValues, KaonArgs.resS, KaonArgs.resV, KaonArgs.t0S, KaonArgs.tinS, KaonArgs.t0V, KaonArgs.tinV,
      KaonUAModel.Args.resS, KaonUAModel.Args.resV, KaonUAModelB.Args.resS, KaonUAModelB.Args.resV, KaonUAModelSimplified.Args.resS,
      KaonUAModelSimplified.Args.resV, KaonUAModel.Args.ofValues, KaonUAModelB.Args.ofValues, KaonUAModelSimplified.Args.ofValues,
      FsumL, List.map_cons, List.map_nil, List.sum_cons, List.sum_nil, z1, z2, z3, z4, z5, z6, z7, half, hm, o1, o2, o3, o4, w1, w2, w3,
      Res.var, Res.pole, tMesonPole_eq, if_true]
    rw [if_neg hB]
    push_cast
    ring

/-- The masses approaching the change of variant from below. -/
noncomputable def jumpMass (i : ℕ) : ℝ := Real.sqrt 2 - 1 / ((i : ℝ) + 4)

theorem sqrt_two_bounds : (1.4 : ℝ) < Real.sqrt 2 := by
  rw [Real.lt_sqrt (by norm_num)]
  norm_num

theorem jumpMass_bounds (i : ℕ) : 1 < jumpMass i ∧ jumpMass i < Real.sqrt 2 := by
  have h4 : (4 : ℝ) ≤ (i : ℝ) + 4 := by
    have : (0 : ℝ) ≤ i := Nat.cast_nonneg i
    linarith
  have h1 : 1 / ((i : ℝ) + 4) ≤ 1 / 4 := one_div_le_one_div_of_le (by norm_num) h4
  have h2 : 0 < 1 / ((i : ℝ) + 4) := by positivity
  have := sqrt_two_bounds
  unfold jumpMass
  constructor <;> linarith

theorem jumpMass_tendsto : Tendsto jumpMass atTop (𝓝 (Real.sqrt 2)) := by
  have : Tendsto (fun i : ℕ => 1 / ((i : ℝ) + 4)) atTop (𝓝 0) := by
    refine tendsto_const_nhds.div_atTop ?_
    exact tendsto_atTop_add_const_right _ _ tendsto_natCast_atTop_atTop
  have h := (tendsto_const_nhds (x := Real.sqrt 2)).sub this
  rw [sub_zero] at h
  exact h

theorem jump_values_tend (c : ParamClass) {ι : Type*} {l : Filter ι} {m : ι → ℝ} {M : ℝ} (h : Tendsto m l (𝓝 M)) :
    ValuesTendTo (fun i => jumpObject c (m i)) l (jumpObject c M) := by
  intro q hq ε hε
  obtain ⟨n, hn, rfl⟩ := List.mem_map.mp hq
  filter_upwards [Metric.tendsto_nhds.mp h ε hε] with i hi
  refine ⟨⟨n.1, jumpValue (m i) n.1, n.2.2⟩, List.mem_map.mpr ⟨n, hn, rfl⟩, rfl, ?_⟩
  show |jumpValue _ _ - jumpValue _ _| < ε
  unfold jumpValue
  split_ifs
  · exact hi
  all_goals simpa using hε

theorem jump_limit {c : ParamClass} (hc : IsKaonClass c) : ∃ y y' : ℝ, y ≠ y' ∧
    functionFormFactor [.kaon (1 / 2 : ℝ) true] (jumpObject c (Real.sqrt 2)) = .ok [y] ∧
    ResultsTendTo (fun i => functionFormFactor [.kaon (1 / 2 : ℝ) true] (jumpObject c (jumpMass i))) atTop (.ok [y']) := by
  have hin : ∀ {m : ℝ}, 1 < m → KaonInside (jumpObject c m) (.ofValues c (jumpValue m)) := fun hm =>
    kaon_inside_wired (jump_reachable c _) hc (jump_inside hc hm) (kaon_wiring_values (p := jumpObject c _) (reachable_wellFormed (jump_reachable c _)) (jump_values c _) hc)
  have htin : ∀ {m : ℝ}, 1 < m → ¬ ∃ q ∈ (jumpObject c m).toList, "t_in_".toList <+: q.name.toList ∧ (1 / 2 : ℝ) = q.value := by
    intro m hm
    rw [← (hin hm).tin, (thresholds_ofValues c _).2.1, (thresholds_ofValues c _).2.2.2]
    have e1 : jumpValue m "t_in_isoscalar" = 2 := by simp [jumpValue, typicalValue]
    have e2 : jumpValue m "t_in_isovector" = 2 := by simp [jumpValue, typicalValue]
    rw [e1, e2]
    norm_num
  have heval : ∀ {m : ℝ}, 1 < m → functionFormFactor [.kaon (1 / 2 : ℝ) true] (jumpObject c m) =
      .ok [‖(KaonArgs.ofValues c (jumpValue m)).formula true (1 / 2)‖] := fun hm =>
    (hin hm).eval_eq .formFactor (points := [(1 / 2, true)]) (by simp) (by simp) (by simpa using htin hm)
  have him : (polePosition (Real.sqrt 2) 1).im ≠ 0 := by simp [polePosition]
  have him2 : (polePosition 2 1).im ≠ 0 := by simp [polePosition]
  have hne : Fval .A 1 2 (polePosition (Real.sqrt 2) 1) (1 / 2 : ℝ) ≠ Fval .B 1 2 (polePosition (Real.sqrt 2) 1) (1 / 2 : ℝ) := by
    refine Fval_variants_ne zero_le_one (by norm_num) him ?_ ?_ ?_ ?_
    · norm_num
    · norm_num
    · exact fun hh => him (by rw [← hh]; simp)
    · exact fun hh => him (by have := congrArg Complex.im hh; simpa using this.symm)
  obtain ⟨s, hs, es⟩ := Fval_pos .B zero_le_one (by norm_num : (1 : ℝ) < 2) him2 (by norm_num : (1 / 2 : ℝ) ≤ 1)
  obtain ⟨a, ha, ea⟩ := Fval_pos .A zero_le_one (by norm_num : (1 : ℝ) < 2) him (by norm_num : (1 / 2 : ℝ) ≤ 1)
  obtain ⟨b, hb, eb⟩ := Fval_pos .B zero_le_one (by norm_num : (1 : ℝ) < 2) him (by norm_num : (1 / 2 : ℝ) ≤ 1)
  have hab : a ≠ b := fun h => hne (by rw [ea, eb, h])
  have hsq : ¬ (Real.sqrt 2 ^ 2 < 2) := by rw [Real.sq_sqrt (by norm_num)]; exact lt_irrefl _
  have norm_pos : ∀ {r : ℝ}, 0 < r → ‖(1 / 2 * (s : ℂ) + 1 / 2 * (r : ℂ))‖ = 1 / 2 * s + 1 / 2 * r := fun {r} hr => by
    rw [show (1 / 2 * (s : ℂ) + 1 / 2 * (r : ℂ)) = ((1 / 2 * s + 1 / 2 * r : ℝ) : ℂ) by push_cast; ring, Complex.norm_real]
    exact abs_of_pos (by positivity)
  refine ⟨1 / 2 * s + 1 / 2 * b, 1 / 2 * s + 1 / 2 * a, fun h => hab (by linarith), ?_, ?_⟩
  · rw [heval (by have := sqrt_two_bounds; linarith), jump_formula hc, if_neg hsq, es, eb, norm_pos hb]
  · refine results_tend (points := [(1 / 2, true)]) (f := fun i _ => ‖(KaonArgs.ofValues c (jumpValue (jumpMass i))).formula true (1 / 2)‖)
      (y := fun _ => 1 / 2 * s + 1 / 2 * a) ?_ (Eventually.of_forall fun i => heval (jumpMass_bounds i).1) rfl
    intro d _
    have hA : ∀ i, (KaonArgs.ofValues c (jumpValue (jumpMass i))).formula true (1 / 2) =
        1 / 2 * (s : ℂ) + 1 / 2 * Fval .A 1 2 (polePosition (jumpMass i) 1) (1 / 2 : ℝ) := fun i => by
      have hlt : jumpMass i ^ 2 < 2 := by
        have := jumpMass_bounds i
        have h2 : Real.sqrt 2 ^ 2 = 2 := Real.sq_sqrt (by norm_num)
        nlinarith
      rw [jump_formula hc, if_pos hlt, es]
    simp only [hA]
    rw [← norm_pos ha, ← ea]
    refine (tendsto_const_nhds.add (tendsto_const_nhds.mul ?_)).norm
    refine Fval_tendsto .A zero_le_one (by norm_num) tendsto_const_nhds tendsto_const_nhds
      (polePosition_tendsto jumpMass_tendsto tendsto_const_nhds) him ?_ tendsto_const_nhds ?_ ?_
    · norm_num
    · exact fun hh => him (by rw [← hh]; simp)
    · exact fun hh => him (by have := congrArg Complex.im hh; simpa using this.symm)

end UA
