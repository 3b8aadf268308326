import Verif.Props.Runs
import Verif.Props.Within
import Verif.Lemmas.Content
import Verif.Spec.NoWorse

/-!
# Helper lemmas: runs as in property C112
-/

namespace UA

theorem idleEnv_neverWorse (S : Set ℝ) : (idleEnv S).NeverWorse := by
  intro k problem g opt cov start fs h h1 h2
  unfold idleEnv at h
  dsimp only at h
  split_ifs at h with hS
  · unfold FitProc.outcome at h
    rw [h1] at h
    dsimp only at h
    unfold FitProc.outcome at h
    injection h with h
    injection h with h _
    rw [← h, h1] at h2
    injection h2 with h2
    rw [h2]
  · unfold FitProc.outcome at h
    cases h

/-- A library that tries its starting values and their halves and returns the better ones. -/
noncomputable def halvingEnv : Env where
  curve_fit _ problem := .ask problem.p0 fun ys => .ask (problem.p0.map (· / 2)) fun zs =>
    if weightedSquares problem.ydata problem.sigma zs < weightedSquares problem.ydata problem.sigma ys then
      .done (.ok (problem.p0.map (· / 2), [])) else .done (.ok (problem.p0, []))
  plot _ := .ok ()
  sample _ names k := names.take k
  strFloat _ := "1"
  strParameters _ := ""
  strNames _ := ""
  strReport _ := ""
  strBestFit _ := ""
  mkdirFails _ := false
  numpy _ := true

theorem halvingEnv_neverWorse : halvingEnv.NeverWorse := by
  intro k problem g opt cov start fs h h1 h2
  unfold halvingEnv at h
  dsimp only at h
  unfold FitProc.outcome at h
  rw [h1] at h
  dsimp only at h
  unfold FitProc.outcome at h
  rcases h3 : g (problem.p0.map (· / 2)) with e | zs
  · rw [h3] at h; cases h
  · rw [h3] at h
    dsimp only at h
    split_ifs at h with hlt
    · unfold FitProc.outcome at h
      injection h with h
      injection h with h _
      rw [← h, h3] at h2
      injection h2 with h2
      rw [← h2]
      exact hlt.le
    · unfold FitProc.outcome at h
      injection h with h
      injection h with h _
      rw [← h, h1] at h2
      injection h2 with h2
      rw [h2]

/-- The kaon cross sections of sixty points can be evaluated. -/
theorem sixty_evaluated (k : Constants) : ∃ fs, (PartialKind.crossSection k.mass k.alpha k.hc_squared).eval (sixty.map fun d => .kaon d.1 d.2) (typical .kaonB 1) = .ok fs := by
  refine (eval_domain (typical_reachable .kaonB 1) trivial (typical_insideMaximal .kaonB trivial one_pos) _ ?_).1.mpr ?_
  · intro d hd
    obtain ⟨k, -, rfl⟩ := List.mem_map.mp hd
    have : (0 : ℝ) ≤ k := Nat.cast_nonneg k
    dsimp only; linarith
  · intro d hd
    obtain ⟨k, -, rfl⟩ := List.mem_map.mp hd
    have hk : (0 : ℝ) ≤ k := Nat.cast_nonneg k
    refine ⟨fun _ => by dsimp only; linarith, ?_⟩
    rintro ⟨q, hq, hn, he⟩
    have : q.value = 2 := by
      rw [typical_values .kaonB 1 q hq]
      unfold typicalValue
      rw [if_neg, if_pos hn]
      exact fun h0 => absurd ((List.prefix_of_prefix_length_le h0 hn (by decide))) (by decide)
    rw [this] at he
    dsimp only at he
    linarith

/-- Complete runs of the two kinds of kaon pipelines. -/
theorem sixty_runs : (∃ self' w', (sixtyPoints .kaonCS [.kaonCSFull, .kaonCSFixedCouplings, .kaonCSFixAccording]).run
      (idleEnv {t | ∃ d ∈ sixty, t = d.1}) (startWorld [typical .kaonB 1]) = (.ok self', w')) ∧
    ∃ self' w', (sixtyPoints .kaonCS [.kaonCSFull, .kaonCSFixedCouplings, .kaonCSFixAccording]).runIterative
      (idleEnv {t | ∃ d ∈ sixty, t = d.1}) ⟨[2, 5, 3], 1⟩ (startWorld [typical .kaonB 1]) = (.ok self', w') := by
  have hr := typical_reachable .kaonB 1
  have hw := reachable_wellFormed hr
  obtain ⟨h1, h2⟩ := C81_completes (self := sixtyPoints .kaonCS [.kaonCSFull, .kaonCSFixedCouplings, .kaonCSFixAccording])
    (its := ⟨[2, 5, 3], 1⟩) (w := startWorld [typical .kaonB 1]) (p := typical .kaonB 1) rfl hr trivial
    (typical_insideFor .kaonB trivial) (by
      rintro q hq hn ⟨d, hd, he⟩
      obtain ⟨k, -, rfl⟩ := List.mem_map.mp hd
      have : q.value = 2 := by
        rw [typical_values .kaonB 1 q hq]
        unfold typicalValue
        rw [if_neg, if_pos hn]
        exact fun h0 => absurd ((List.prefix_of_prefix_length_le h0 hn (by decide))) (by decide)
      rw [this] at he
      dsimp only at he
      have : (0 : ℝ) ≤ k := Nat.cast_nonneg k
      linarith)
    ⟨Or.inl rfl, rfl, by simp [sixtyPoints, sixty], by simp [sixtyPoints, sixty],
      fun e he => by rw [List.eq_of_mem_replicate he]; exact one_ne_zero,
      fun d hd => by
        obtain ⟨k, -, rfl⟩ := List.mem_map.mp hd
        have : (0 : ℝ) ≤ k := Nat.cast_nonneg k
        dsimp only; linarith,
      ⟨_, List.mem_map_of_mem (List.mem_range.mpr (show 0 < 60 by norm_num)), rfl⟩,
      by rw [hw.names, sixty, List.length_map, List.length_range]; show ParamClass.kaonB.table.initArgs.length < 60; decide +kernel⟩
    (idleEnv_fits _) (fun _ => rfl)
  refine ⟨h1 ?_ (by decide), h2 ?_ (idleEnv_samples _)⟩
  · have he : ("t_in_isoscalar", "t_in_isoscalar", false) ∈ ParamClass.kaonB.table.entries := by decide +kernel
    exact ⟨_, List.mem_map_of_mem he, rfl⟩
  · intro i k hk
    rw [freezable_count hr]
    show 1 ≤ k ∧ k ≤ ((ParamClass.kaonB.table.initArgs.filter fun m =>
      decide (¬ DeclaredFixed .kaonB m ∧ ¬ (decide ((i : ℤ) < 1) = true ∧ IsResonanceName m))).length : ℤ)
    match i, hk with
    | 0, hk => injection hk with hk; subst hk; decide +kernel
    | 1, hk => injection hk with hk; subst hk; decide +kernel
    | 2, hk => injection hk with hk; subst hk; decide +kernel
    | i + 3, hk => cases hk

/-- Sixty points at `t = 10, 11, …`, alternately charged and neutral. -/
noncomputable def alternating : List (ℝ × Bool) := (List.range 60).map fun k : ℕ => ((k : ℝ) + 10, k % 2 == 0)

/-- A pipeline with two fits of the charged ones among them. -/
noncomputable def alternatingPoints : Pipeline :=
  { sixtyPoints .kaonFF [.kaonFFFullOnlyCharged, .kaonFFFixAccordingOnlyCharged] with ts := alternating.map fun d => .kaon d.1 d.2 }

theorem alternating_off {q : Parameter ℝ} (hq : q ∈ (typical .kaonB 1).toList) (hn : "t_in_".toList <+: q.name.toList) {d : ℝ × Bool} (hd : d ∈ alternating) :
    q.value ≠ d.1 := by
  intro he
  obtain ⟨k, -, rfl⟩ := List.mem_map.mp hd
  have : q.value = 2 := by
    rw [typical_values .kaonB 1 q hq]
    unfold typicalValue
    rw [if_neg, if_pos hn]
    exact fun h0 => absurd ((List.prefix_of_prefix_length_le h0 hn (by decide))) (by decide)
  rw [this] at he
  dsimp only at he
  have : (0 : ℝ) ≤ k := Nat.cast_nonneg k
  linarith

theorem alternating_run : ∃ self' w', alternatingPoints.run (idleEnv {t | ∃ d ∈ alternating, t = d.1}) (startWorld [typical .kaonB 1]) = (.ok self', w') := by
  have hr := typical_reachable .kaonB 1
  have hw := reachable_wellFormed hr
  obtain ⟨h1, -⟩ := C81_completes (self := alternatingPoints) (its := ⟨[], 0⟩) (w := startWorld [typical .kaonB 1]) (p := typical .kaonB 1) rfl hr trivial
    (typical_insideFor .kaonB trivial) (by
      rintro q hq hn ⟨d, hd, he⟩
      exact alternating_off hq hn hd he)
    ⟨Or.inr rfl, rfl, by simp [alternatingPoints, sixtyPoints, alternating], by simp [alternatingPoints, sixtyPoints, alternating],
      fun e he => by rw [List.eq_of_mem_replicate he]; exact one_ne_zero,
      fun d hd => by
        obtain ⟨k, -, rfl⟩ := List.mem_map.mp hd
        have : (0 : ℝ) ≤ k := Nat.cast_nonneg k
        dsimp only; linarith,
      ⟨_, List.mem_map_of_mem (List.mem_range.mpr (show 0 < 60 by norm_num)), rfl⟩,
      by rw [hw.names, alternating, List.length_map, List.length_range]; show ParamClass.kaonB.table.initArgs.length < 60; decide +kernel⟩
    (idleEnv_fits _) (fun _ => rfl)
  refine h1 ?_ (by decide)
  have he : ("t_in_isoscalar", "t_in_isoscalar", false) ∈ ParamClass.kaonB.table.entries := by decide +kernel
  exact ⟨_, List.mem_map_of_mem he, rfl⟩

theorem alternating_evaluated : ∃ fs, PartialKind.formFactor.eval (alternating.map fun d => .kaon d.1 d.2) (typical .kaonB 1) = .ok fs := by
  refine (eval_domain (typical_reachable .kaonB 1) trivial (typical_insideMaximal .kaonB trivial one_pos) _ ?_).1.mpr ?_
  · intro d hd
    obtain ⟨k, -, rfl⟩ := List.mem_map.mp hd
    have : (0 : ℝ) ≤ k := Nat.cast_nonneg k
    dsimp only; linarith
  · intro d hd
    exact ⟨fun h => absurd rfl h, fun ⟨q, hq, hn, he⟩ => alternating_off hq hn hd he.symm⟩

theorem sixty_formFactor : ∃ fs, functionFormFactor (sixty.map fun d => .kaon d.1 d.2) (typical .kaonB 1) = .ok fs := by
  refine (eval_domain (typical_reachable .kaonB 1) trivial (typical_insideMaximal .kaonB trivial one_pos) .formFactor ?_).1.mpr ?_
  · intro d hd
    obtain ⟨k, -, rfl⟩ := List.mem_map.mp hd
    have : (0 : ℝ) ≤ k := Nat.cast_nonneg k
    dsimp only; linarith
  · intro d hd
    obtain ⟨k, -, rfl⟩ := List.mem_map.mp hd
    have hk : (0 : ℝ) ≤ k := Nat.cast_nonneg k
    refine ⟨fun h => absurd rfl h, ?_⟩
    rintro ⟨q, hq, hn, he⟩
    have : q.value = 2 := by
      rw [typical_values .kaonB 1 q hq]
      unfold typicalValue
      rw [if_neg, if_pos hn]
      exact fun h0 => absurd ((List.prefix_of_prefix_length_le h0 hn (by decide))) (by decide)
    rw [this] at he
    dsimp only at he
    linarith

/-- The iterative pipeline for kaon form factors with sixty charged points. -/
theorem sixty_formFactor_run : ∃ self' w', (sixtyPoints .kaonFF []).runIterative (idleEnv {t | ∃ d ∈ sixty, t = d.1}) ⟨[2, 5, 3], 1⟩
    (startWorld [typical .kaonB 1]) = (.ok self', w') := by
  have hr := typical_reachable .kaonB 1
  have hw := reachable_wellFormed hr
  obtain ⟨-, h2⟩ := C81_completes (self := sixtyPoints .kaonFF [])
    (its := ⟨[2, 5, 3], 1⟩) (w := startWorld [typical .kaonB 1]) (p := typical .kaonB 1) rfl hr trivial
    (typical_insideFor .kaonB trivial) (by
      rintro q hq hn ⟨d, hd, he⟩
      obtain ⟨k, -, rfl⟩ := List.mem_map.mp hd
      have : q.value = 2 := by
        rw [typical_values .kaonB 1 q hq]
        unfold typicalValue
        rw [if_neg, if_pos hn]
        exact fun h0 => absurd ((List.prefix_of_prefix_length_le h0 hn (by decide))) (by decide)
      rw [this] at he
      dsimp only at he
      have : (0 : ℝ) ≤ k := Nat.cast_nonneg k
      linarith)
    ⟨Or.inr rfl, rfl, by simp [sixtyPoints, sixty], by simp [sixtyPoints, sixty],
      fun e he => by rw [List.eq_of_mem_replicate he]; exact one_ne_zero,
      fun d hd => by
        obtain ⟨k, -, rfl⟩ := List.mem_map.mp hd
        have : (0 : ℝ) ≤ k := Nat.cast_nonneg k
        dsimp only; linarith,
      ⟨_, List.mem_map_of_mem (List.mem_range.mpr (show 0 < 60 by norm_num)), rfl⟩,
      by rw [hw.names, sixty, List.length_map, List.length_range]; show ParamClass.kaonB.table.initArgs.length < 60; decide +kernel⟩
    (idleEnv_fits _) (fun _ => rfl)
  refine h2 ?_ (idleEnv_samples _)
  intro i k hk
  rw [freezable_count hr]
  show 1 ≤ k ∧ k ≤ ((ParamClass.kaonB.table.initArgs.filter fun m =>
    decide (¬ DeclaredFixed .kaonB m ∧ ¬ (decide ((i : ℤ) < 1) = true ∧ IsResonanceName m))).length : ℤ)
  match i, hk with
  | 0, hk => injection hk with hk; subst hk; decide +kernel
  | 1, hk => injection hk with hk; subst hk; decide +kernel
  | 2, hk => injection hk with hk; subst hk; decide +kernel
  | i + 3, hk => cases hk

/-- The iterative pipeline for kaon cross sections with any values at the sixty points. -/
theorem sixty_ys_run {ys : List ℝ} (hys : ys.length = 60) : ∃ self' w', { sixtyPoints .kaonCS [] with ys := ys }.runIterative (idleEnv {t | ∃ d ∈ sixty, t = d.1}) ⟨[2, 5, 3], 1⟩
    (startWorld [typical .kaonB 1]) = (.ok self', w') := by
  have hr := typical_reachable .kaonB 1
  have hw := reachable_wellFormed hr
  obtain ⟨-, h2⟩ := C81_completes (self := { sixtyPoints .kaonCS [] with ys := ys })
    (its := ⟨[2, 5, 3], 1⟩) (w := startWorld [typical .kaonB 1]) (p := typical .kaonB 1) rfl hr trivial
    (typical_insideFor .kaonB trivial) (by
      rintro q hq hn ⟨d, hd, he⟩
      obtain ⟨k, -, rfl⟩ := List.mem_map.mp hd
      have : q.value = 2 := by
        rw [typical_values .kaonB 1 q hq]
        unfold typicalValue
        rw [if_neg, if_pos hn]
        exact fun h0 => absurd ((List.prefix_of_prefix_length_le h0 hn (by decide))) (by decide)
      rw [this] at he
      dsimp only at he
      have : (0 : ℝ) ≤ k := Nat.cast_nonneg k
      linarith)
    ⟨Or.inl rfl, rfl, by simp [hys, sixty], by simp [sixtyPoints, sixty],
      fun e he => by rw [List.eq_of_mem_replicate he]; exact one_ne_zero,
      fun d hd => by
        obtain ⟨k, -, rfl⟩ := List.mem_map.mp hd
        have : (0 : ℝ) ≤ k := Nat.cast_nonneg k
        dsimp only; linarith,
      ⟨_, List.mem_map_of_mem (List.mem_range.mpr (show 0 < 60 by norm_num)), rfl⟩,
      by rw [hw.names, sixty, List.length_map, List.length_range]; show ParamClass.kaonB.table.initArgs.length < 60; decide +kernel⟩
    (idleEnv_fits _) (fun _ => rfl)
  refine h2 ?_ (idleEnv_samples _)
  intro i k hk
  rw [freezable_count hr]
  show 1 ≤ k ∧ k ≤ ((ParamClass.kaonB.table.initArgs.filter fun m =>
    decide (¬ DeclaredFixed .kaonB m ∧ ¬ (decide ((i : ℤ) < 1) = true ∧ IsResonanceName m))).length : ℤ)
  match i, hk with
  | 0, hk => injection hk with hk; subst hk; decide +kernel
  | 1, hk => injection hk with hk; subst hk; decide +kernel
  | 2, hk => injection hk with hk; subst hk; decide +kernel
  | i + 3, hk => cases hk

end UA
