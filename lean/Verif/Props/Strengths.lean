import Verif.Lemmas.Strengths
import Verif.Lemmas.ContinuityNucleonWitness

/-!
# Property C108: how the fitted functions change with couplings and magnetic moments

With the masses, widths and thresholds of a kaon or nucleon object kept, the values of the fitted form factors are convex functions of
its couplings and magnetic moments, and those of the fitted cross sections are convex and quadratic along every line.
-/

namespace UA

/-- The lines on which the claims are made have an object at every place: for two objects that differ in couplings and magnetic
moments only and every real `s`. -/
theorem C108_lines {p₀ p₁ : ModelParameters ℝ} (h₀ : Reachable p₀) (h₁ : Reachable p₁) (hs : p₀.SamePositions p₁) (s : ℝ) :
    ∃ p, Reachable p ∧ p₀.OnLine p₁ s p :=
  line_exists h₀ h₁ hs s

/-- **C108** kaon form factors. Take a kaon object inside the maximal bounds whose form factors can be evaluated at some points `t ≥ 0`
(charged or neutral), and a second object that differs from it in couplings only. Then they can be evaluated for the second object, and
for every object between the two they can be evaluated and every result is at most the weighted mean of the results at the ends. -/
theorem C108_kaon_form_factors {p₀ p₁ : ModelParameters ℝ} (h₀ : Reachable p₀) (hc : IsKaonClass p₀.cls) (hi : p₀.InsideMaximal)
    (h₁ : Reachable p₁) (hs : p₀.SamePositions p₁) {points : List (ℝ × Bool)} (h0 : ∀ d ∈ points, 0 ≤ d.1) {rs₀ : List ℝ}
    (hr : functionFormFactor (points.map fun d => .kaon d.1 d.2) p₀ = .ok rs₀) :
    ∃ rs₁, functionFormFactor (points.map fun d => .kaon d.1 d.2) p₁ = .ok rs₁ ∧ ∀ s p, 0 ≤ s → s ≤ 1 → Reachable p → p₀.OnLine p₁ s p →
      ∃ rs, functionFormFactor (points.map fun d => .kaon d.1 d.2) p = .ok rs ∧ rs.length = rs₀.length ∧ rs.length = rs₁.length ∧
        ∀ i, rs.getD i 0 ≤ (1 - s) * rs₀.getD i 0 + s * rs₁.getD i 0 := by
  obtain ⟨f₀, f₁, hf⟩ := kaon_line h₀ hc hi h₁ hs .formFactor h0 hr
  have e₀ := hf 0 p₀ h₀ onLine_start
  have e₁ := hf 1 p₁ h₁ (onLine_end hs)
  obtain rfl : rs₀ = _ := Except.ok.inj (hr.symm.trans e₀)
  refine ⟨_, e₁, fun s p hs0 hs1 hp hl => ⟨_, hf s p hp hl, by simp, by simp, fun i => ?_⟩⟩
  rw [getD_map_zero, getD_map_zero, getD_map_zero]
  rcases points[i]? with _ | d
  · simp
  · simpa [pointValue] using norm_mix_le hs0 hs1 (f₀ d) (f₁ d)

/-- **C108** kaon cross sections. As before, for any values of the mass and the constants: at every place `s` of the line, inside or
outside the segment, the cross sections can be evaluated, and each is a quadratic function of `s` whose leading coefficient, the same
for all objects of the line, is not negative. -/
theorem C108_kaon_cross_sections {p₀ p₁ : ModelParameters ℝ} (h₀ : Reachable p₀) (hc : IsKaonClass p₀.cls) (hi : p₀.InsideMaximal)
    (h₁ : Reachable p₁) (hs : p₀.SamePositions p₁) (m a h : ℝ) {points : List (ℝ × Bool)} (h0 : ∀ d ∈ points, 0 ≤ d.1) {rs₀ : List ℝ}
    (hr : functionCrossSection (points.map fun d => .kaon d.1 d.2) m a h p₀ = .ok rs₀) :
    ∃ rs₁ ds : List ℝ, functionCrossSection (points.map fun d => .kaon d.1 d.2) m a h p₁ = .ok rs₁ ∧ (∀ δ ∈ ds, 0 ≤ δ) ∧
      ∀ s p, Reachable p → p₀.OnLine p₁ s p → ∃ rs, functionCrossSection (points.map fun d => .kaon d.1 d.2) m a h p = .ok rs ∧
        rs.length = rs₀.length ∧ rs.length = rs₁.length ∧
        ∀ i, rs.getD i 0 = (1 - s) * rs₀.getD i 0 + s * rs₁.getD i 0 - s * (1 - s) * ds.getD i 0 := by
  obtain ⟨f₀, f₁, hf⟩ := kaon_line h₀ hc hi h₁ hs (.crossSection m a h) h0 hr
  have e₀ := hf 0 p₀ h₀ onLine_start
  have e₁ := hf 1 p₁ h₁ (onLine_end hs)
  obtain rfl : rs₀ = _ := Except.ok.inj (hr.symm.trans e₀)
  refine ⟨_, points.map fun d => pointValue (.crossSection m a h) d.1 (f₀ d - f₁ d), e₁, fun δ hδ => ?_,
    fun s p hp hl => ⟨_, hf s p hp hl, by simp, by simp, fun i => ?_⟩⟩
  · obtain ⟨d, -, rfl⟩ := List.mem_map.mp hδ
    exact norm_nonneg _
  rw [getD_map_zero, getD_map_zero, getD_map_zero, getD_map_zero]
  rcases points[i]? with _ | d
  · simp
  · have sq : ∀ F : ℂ, ‖((‖F‖ : ℝ) : ℂ) ^ 2‖ = ‖F‖ ^ 2 := fun F => by rw [norm_pow, Complex.norm_real, norm_norm]
    simp only [Option.map_some, Option.getD_some, pointValue, norm_mul, sq, norm_sq_mix]
    simp
    ring

/-- **C108** nucleon form factors: as for kaons, for objects that differ in couplings and magnetic moments. -/
theorem C108_nucleon_form_factors {p₀ p₁ : ModelParameters ℝ} (h₀ : Reachable p₀) (hc : p₀.cls = .nucleon) (hi : p₀.InsideMaximal)
    (h₁ : Reachable p₁) (hs : p₀.SamePositions p₁) {points : List (ℝ × Bool × Bool)} (h0 : ∀ d ∈ points, 0 ≤ d.1) {rs₀ : List ℝ}
    (hr : functionFormFactor (points.map fun d => .nucleon d.1 d.2.1 d.2.2) p₀ = .ok rs₀) :
    ∃ rs₁, functionFormFactor (points.map fun d => .nucleon d.1 d.2.1 d.2.2) p₁ = .ok rs₁ ∧
      ∀ s p, 0 ≤ s → s ≤ 1 → Reachable p → p₀.OnLine p₁ s p →
        ∃ rs, functionFormFactor (points.map fun d => .nucleon d.1 d.2.1 d.2.2) p = .ok rs ∧ rs.length = rs₀.length ∧ rs.length = rs₁.length ∧
          ∀ i, rs.getD i 0 ≤ (1 - s) * rs₀.getD i 0 + s * rs₁.getD i 0 := by
  obtain ⟨x₀, x₁, -, hf⟩ := nucleon_line h₀ hc hi h₁ hs .formFactor h0 hr
  obtain ⟨y₀, e₀, g₀⟩ := hf 0 p₀ h₀ onLine_start
  obtain ⟨y₁, e₁, g₁⟩ := hf 1 p₁ h₁ (onLine_end hs)
  obtain rfl : rs₀ = _ := Except.ok.inj (hr.symm.trans e₀)
  refine ⟨_, e₁, fun s p hs0 hs1 hp hl => ?_⟩
  obtain ⟨y, e, g⟩ := hf s p hp hl
  refine ⟨_, e, by simp, by simp, fun i => ?_⟩
  rw [getD_map_zero, getD_map_zero, getD_map_zero]
  rcases hd : points[i]? with _ | d
  · simp
  · have hm := List.mem_of_getElem? hd
    simp only [Option.map_some, Option.getD_some, nucleonValue]
    rw [g d hm _ (.inr rfl), g₀ d hm _ (.inr rfl), g₁ d hm _ (.inr rfl)]
    simpa using norm_mix_le hs0 hs1 (x₀.formula d.2.1 d.2.2 d.1) (x₁.formula d.2.1 d.2.2 d.1)

/-- **C108** nucleon cross sections: as for kaons, for objects that differ in couplings and magnetic moments. -/
theorem C108_nucleon_cross_sections {p₀ p₁ : ModelParameters ℝ} (h₀ : Reachable p₀) (hc : p₀.cls = .nucleon) (hi : p₀.InsideMaximal)
    (h₁ : Reachable p₁) (hs : p₀.SamePositions p₁) (m a h : ℝ) {points : List (ℝ × Bool × Bool)} (h0 : ∀ d ∈ points, 0 ≤ d.1) {rs₀ : List ℝ}
    (hr : functionCrossSection (points.map fun d => .nucleon d.1 d.2.1 d.2.2) m a h p₀ = .ok rs₀) :
    ∃ rs₁ ds : List ℝ, functionCrossSection (points.map fun d => .nucleon d.1 d.2.1 d.2.2) m a h p₁ = .ok rs₁ ∧ (∀ δ ∈ ds, 0 ≤ δ) ∧
      ∀ s p, Reachable p → p₀.OnLine p₁ s p → ∃ rs, functionCrossSection (points.map fun d => .nucleon d.1 d.2.1 d.2.2) m a h p = .ok rs ∧
        rs.length = rs₀.length ∧ rs.length = rs₁.length ∧
        ∀ i, rs.getD i 0 = (1 - s) * rs₀.getD i 0 + s * rs₁.getD i 0 - s * (1 - s) * ds.getD i 0 := by
  obtain ⟨x₀, x₁, hpos, hf⟩ := nucleon_line h₀ hc hi h₁ hs (.crossSection m a h) h0 hr
  have hk : PartialKind.crossSection m a h ≠ .formFactor := nofun
  obtain ⟨y₀, e₀, g₀⟩ := hf 0 p₀ h₀ onLine_start
  obtain ⟨y₁, e₁, g₁⟩ := hf 1 p₁ h₁ (onLine_end hs)
  obtain rfl : rs₀ = _ := Except.ok.inj (hr.symm.trans e₀)
  refine ⟨_, points.map fun d => (nucleonWeights m a h d.1).1 * ‖x₀.formula d.2.1 false d.1 - x₁.formula d.2.1 false d.1‖ ^ 2 +
    (nucleonWeights m a h d.1).2 * ‖x₀.formula d.2.1 true d.1 - x₁.formula d.2.1 true d.1‖ ^ 2, e₁, fun δ hδ => ?_, fun s p hp hl => ?_⟩
  · obtain ⟨d, hd, rfl⟩ := List.mem_map.mp hδ
    have := hpos d hd hk
    unfold nucleonWeights
    positivity
  obtain ⟨y, e, g⟩ := hf s p hp hl
  refine ⟨_, e, by simp, by simp, fun i => ?_⟩
  rw [getD_map_zero, getD_map_zero, getD_map_zero, getD_map_zero]
  rcases hd : points[i]? with _ | d
  · simp
  · have hm := List.mem_of_getElem? hd
    simp only [Option.map_some, Option.getD_some]
    rw [nucleonValue_cs _ _ _ _ (hpos d hm hk), nucleonValue_cs _ _ _ _ (hpos d hm hk), nucleonValue_cs _ _ _ _ (hpos d hm hk)]
    rw [g d hm _ (.inl hk), g d hm _ (.inl hk), g₀ d hm _ (.inl hk), g₀ d hm _ (.inl hk), g₁ d hm _ (.inl hk), g₁ d hm _ (.inl hk),
      norm_sq_mix, norm_sq_mix]
    simp
    ring

/-- Cases: a kaon object and the same with all couplings 3, form factors at 0 and at 5 and cross sections at 5; a nucleon object and
the same with all couplings and magnetic moments 3, form factors at 0 and 12 and cross sections at 5. -/
example : ∃ p₀ p₁ q₀ q₁ : ModelParameters ℝ, (Reachable p₀ ∧ IsKaonClass p₀.cls ∧ p₀.InsideMaximal ∧ Reachable p₁ ∧ p₀.SamePositions p₁ ∧ p₀ ≠ p₁) ∧
    (Reachable q₀ ∧ q₀.cls = .nucleon ∧ q₀.InsideMaximal ∧ Reachable q₁ ∧ q₀.SamePositions q₁ ∧ q₀ ≠ q₁) ∧
    (∃ rs, functionFormFactor ([((0 : ℝ), true), (5, false)].map fun d => .kaon d.1 d.2) p₀ = .ok rs) ∧
    (∃ rs, functionCrossSection ([((5 : ℝ), true)].map fun d => .kaon d.1 d.2) 1 2 3 p₀ = .ok rs) ∧
    (∃ rs, functionFormFactor ([((0 : ℝ), true, true), (12, true, false)].map fun d => .nucleon d.1 d.2.1 d.2.2) q₀ = .ok rs) ∧
    ∃ rs, functionCrossSection ([((5 : ℝ), true, true)].map fun d => .nucleon d.1 d.2.1 d.2.2) 1 2 3 q₀ = .ok rs := by
  have hne : ∀ {c : ParamClass} {v v' : String → ℝ} (n : String), n ∈ c.table.initArgs → v n ≠ v' n → valueObject c v ≠ valueObject c v' := by
    intro c v v' n hn hv h
    exact hv (by rw [← valueObject_entry (c := c) (v := v) hn, ← valueObject_entry (c := c) (v := v') hn, h])
  have htin : ∀ t : ℝ, t ≠ 2 → ¬ ∃ q ∈ (jumpObject .kaon 2).toList, "t_in_".toList <+: q.name.toList ∧ t = q.value := by
    intro t ht
    have hin : KaonInside (jumpObject .kaon 2) (.ofValues .kaon (jumpValue 2)) :=
      kaon_inside_wired (jump_reachable _ _) (p := jumpObject .kaon 2) trivial (jump_inside (c := .kaon) trivial one_lt_two)
        (kaon_wiring_values (p := jumpObject .kaon 2) (reachable_wellFormed (jump_reachable _ _)) (jump_values _ _) trivial)
    rw [← hin.tin, (thresholds_ofValues .kaon _).2.1, (thresholds_ofValues .kaon _).2.2.2]
    have e1 : jumpValue 2 "t_in_isoscalar" = 2 := by simp [jumpValue, typicalValue]
    have e2 : jumpValue 2 "t_in_isovector" = 2 := by simp [jumpValue, typicalValue]
    rw [e1, e2]
    simpa using ht
  refine ⟨jumpObject .kaon 2, valueObject .kaon fun n => if IsStrengthName n then 3 else jumpValue 2 n, nucleonCaseObject 10 2,
    valueObject .nucleon fun n => if IsStrengthName n then 3 else nucleonCase 10 2 n,
    ⟨jump_reachable _ _, trivial, jump_inside (c := .kaon) trivial one_lt_two, valueObject_reachable _ _,
      valueObject_same fun n hn => if_neg hn, hne (v := jumpValue 2) "a_omega" (by decide) ?_⟩,
    ⟨nucleonCase_reachable _ _, rfl, nucleonCase_inside (by norm_num) (by norm_num), valueObject_reachable _ _,
      valueObject_same fun n hn => if_neg hn, hne (v := nucleonCase 10 2) "a_dirac_omega" (by decide) ?_⟩, ?_, ?_, ?_, ?_⟩
  · have : jumpValue 2 "a_omega" = 0 := by simp [jumpValue]
    rw [this, if_pos (by decide)]
    norm_num
  · have : nucleonCase 10 2 "a_dirac_omega" = 0 := by simp [nucleonCase, List.lookup]
    rw [this, if_pos (by decide)]
    norm_num
  · refine (eval_domain (jump_reachable _ _) (p := jumpObject .kaon 2) trivial (jump_inside (c := .kaon) trivial one_lt_two) .formFactor ?_).1.mpr ?_
    · simp
    · intro d hd
      simp only [List.mem_cons, List.not_mem_nil, or_false] at hd
      rcases hd with rfl | rfl <;> exact ⟨fun hk => absurd rfl hk, htin _ (by norm_num)⟩
  · refine (eval_domain (jump_reachable _ _) (p := jumpObject .kaon 2) trivial (jump_inside (c := .kaon) trivial one_lt_two) (.crossSection 1 2 3) ?_).1.mpr ?_
    · simp
    · intro d hd
      simp only [List.mem_cons, List.not_mem_nil, or_false] at hd
      subst hd
      exact ⟨fun _ => by norm_num, htin _ (by norm_num)⟩
  · refine ⟨_, (nucleonCase_args (T := 10) (m := 2) (by norm_num) (by norm_num)).eval_eq .formFactor ?_ ?_⟩
    · simp
    · intro d hd
      simp only [List.mem_cons, List.not_mem_nil, or_false] at hd
      rcases hd with rfl | rfl <;> exact nucleonCase_good (by norm_num) (by norm_num) _ (by norm_num) (by norm_num)
  · refine ⟨_, (nucleonCase_args (T := 10) (m := 2) (by norm_num) (by norm_num)).eval_eq (.crossSection 1 2 3) ?_ ?_⟩
    · simp
    · intro d hd
      simp only [List.mem_cons, List.not_mem_nil, or_false] at hd
      subst hd
      exact ⟨nucleonCase_good (by norm_num) (by norm_num) _ (by norm_num) (by norm_num), by norm_num, by norm_num⟩

end UA
