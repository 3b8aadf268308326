import Verif.Lemmas.RunsWitness

/-!
# Property C81: a whole run of a kaon pipeline does not fail
-/

namespace UA

open Complex

/-- **C81** `Pipeline.run` of a kaon pipeline with its own task classes, the starting values being strictly inside the bounds and the
fitting library never leaving them (nor proposing or returning a value in `S`): if the run raises at all, it is a
`ZeroDivisionError` and some data point has its `t` outside `S`. If it completes, the object's values are again strictly inside
the bounds and its inelastic thresholds outside `S`. -/
theorem C81_run {self : Pipeline} {env : Env} {w : World} {p : ModelParameters ℝ} {points : List (ℝ × Bool)} {S : Set ℝ}
    (hp : w.heap[self.parameters]? = some p) (hr : Reachable p) (hc : IsKaonClass p.cls) (hin : p.InsideFor self.use_handpicked_bounds)
    (hav : p.Avoids S) (hfree : ∃ q ∈ p.toList, q.is_fixed = false) (hd : self.KaonData p points) (ht : ∀ t ∈ self.tasks, t ∈ self.kind.kaonTasks)
    (hfit : env.FitsInside S) (hplot : ∀ k, env.plot k = .ok ()) :
    (∀ e w', self.run env w = (.error e, w') → e = .zeroDivisionError ∧ ∃ d ∈ points, d.1 ∉ S) ∧
    (∀ self' w', self.run env w = (.ok self', w') → ∃ p', w'.heap[self.parameters]? = some p' ∧ self'.parameters = self.parameters ∧ Reachable p' ∧
      p'.cls = p.cls ∧ p'.InsideFor self.use_handpicked_bounds ∧ p'.Avoids S) := by
  have hg := (goodObject_iff (S := S) hc.resonance).mpr ⟨hr, rfl, hin, hav⟩
  have := run_sat (kaon_tasksGood hc hfit hplot) self w ht hd.run ⟨p, hp, hg, hfree, rfl⟩
  unfold PyM.Sat at this
  constructor
  · intro e w' h
    rw [h] at this; exact this
  · intro self' w' h
    rw [h] at this
    obtain ⟨hs, p', hp', hg', -⟩ := this
    obtain ⟨k1, k2, k3, k4⟩ := (goodObject_iff hc.resonance).mp hg'
    exact ⟨p', by rw [← hs.parameters]; exact hp', hs.parameters, k1, k2, by rw [← hs.bounds]; exact k3, k4⟩

/-- **C81** the iterative kaon pipelines: the same, when every round asks for at least one and at most as many free parameters as
there are to choose from. -/
theorem C81_iterative {self : Pipeline} {env : Env} {its : Iterations} {w : World} {p : ModelParameters ℝ} {points : List (ℝ × Bool)} {S : Set ℝ}
    (hp : w.heap[self.parameters]? = some p) (hr : Reachable p) (hc : IsKaonClass p.cls) (hin : p.InsideFor self.use_handpicked_bounds)
    (hav : p.Avoids S) (hd : self.KaonData p points)
    (hnum : ∀ (i : ℕ) (k : ℤ), its.free_params_numbers[i]? = some k → 1 ≤ k ∧
      k ≤ (p.freezable (decide ((i : ℤ) < its.nr_initial_rounds_with_fixed_resonances))).length)
    (hs : env.Samples) (hfit : env.FitsInside S) (hplot : ∀ k, env.plot k = .ok ()) :
    (∀ e w', self.runIterative env its w = (.error e, w') → e = .zeroDivisionError ∧ ∃ d ∈ points, d.1 ∉ S) ∧
    (∀ self' w', self.runIterative env its w = (.ok self', w') → ∃ p', w'.heap[self.parameters]? = some p' ∧ self'.parameters = self.parameters ∧
      Reachable p' ∧ p'.cls = p.cls ∧ p'.InsideFor self.use_handpicked_bounds ∧ p'.Avoids S) := by
  have hg := (goodObject_iff (S := S) hc.resonance).mpr ⟨hr, rfl, hin, hav⟩
  have := runIterative_sat (kaon_tasksGood hc hfit hplot) hs its self w hd.run ⟨p, hp, hg, rfl⟩ kaon_fullFit (fun j k hj => by
    have := hnum j k hj
    rw [freezable_count hr] at this
    exact this)
  unfold PyM.Sat at this
  constructor
  · intro e w' h
    rw [h] at this; exact this
  · intro self' w' h
    rw [h] at this
    obtain ⟨hs, p', hp', hg', -⟩ := this
    obtain ⟨k1, k2, k3, k4⟩ := (goodObject_iff hc.resonance).mp hg'
    exact ⟨p', by rw [← hs.parameters]; exact hp', hs.parameters, k1, k2, by rw [← hs.bounds]; exact k3, k4⟩

/-- **C81** if the fitting library never proposes or returns one of the `t` of the data, both kinds of run complete. -/
theorem C81_completes {self : Pipeline} {env : Env} {its : Iterations} {w : World} {p : ModelParameters ℝ} {points : List (ℝ × Bool)}
    (hp : w.heap[self.parameters]? = some p) (hr : Reachable p) (hc : IsKaonClass p.cls) (hin : p.InsideFor self.use_handpicked_bounds)
    (hav : p.Avoids {t | ∃ d ∈ points, t = d.1}) (hd : self.KaonData p points) (hfit : env.FitsInside {t | ∃ d ∈ points, t = d.1})
    (hplot : ∀ k, env.plot k = .ok ()) :
    ((∃ q ∈ p.toList, q.is_fixed = false) → (∀ t ∈ self.tasks, t ∈ self.kind.kaonTasks) → ∃ self' w', self.run env w = (.ok self', w')) ∧
    ((∀ (i : ℕ) (k : ℤ), its.free_params_numbers[i]? = some k → 1 ≤ k ∧
      k ≤ (p.freezable (decide ((i : ℤ) < its.nr_initial_rounds_with_fixed_resonances))).length) → env.Samples →
      ∃ self' w', self.runIterative env its w = (.ok self', w')) := by
  constructor
  · intro h1 h2
    rcases h : self.run env w with ⟨e | self', w'⟩
    · obtain ⟨-, d, hd1, hd2⟩ := (C81_run hp hr hc hin hav h1 hd h2 hfit hplot).1 e w' h
      exact absurd ⟨d, hd1, rfl⟩ hd2
    · exact ⟨_, _, rfl⟩
  · intro h1 h2
    rcases h : self.runIterative env its w with ⟨e | self', w'⟩
    · obtain ⟨-, d, hd1, hd2⟩ := (C81_iterative hp hr hc hin hav hd h1 h2 hfit hplot).1 e w' h
      exact absurd ⟨d, hd1, rfl⟩ hd2
    · exact ⟨_, _, rfl⟩

/-! ### A run meeting the hypotheses -/

/-- All hypotheses are met by a kaon object with masses 2, widths 1, thresholds 1 and 2: a full fit, one with fixed couplings and one
as given complete, and so do three iterative rounds with 2, 5 and 3 free parameters (the first with fixed resonances). -/
example : (∃ self' w', (sixtyPoints .kaonCS [.kaonCSFull, .kaonCSFixedCouplings, .kaonCSFixAccording]).run
      (idleEnv {t | ∃ d ∈ sixty, t = d.1}) (startWorld [typical .kaonB 1]) = (.ok self', w')) ∧
    ∃ self' w', (sixtyPoints .kaonCS [.kaonCSFull, .kaonCSFixedCouplings, .kaonCSFixAccording]).runIterative
      (idleEnv {t | ∃ d ∈ sixty, t = d.1}) ⟨[2, 5, 3], 1⟩ (startWorld [typical .kaonB 1]) = (.ok self', w') := by
  have hr := typical_reachable .kaonB 1
  have hw := reachable_wellFormed hr
  obtain ⟨h1, h2⟩ := C81_completes (self := sixtyPoints .kaonCS [.kaonCSFull, .kaonCSFixedCouplings, .kaonCSFixAccording])
    (its := ⟨[2, 5, 3], 1⟩) (w := startWorld [typical .kaonB 1]) (p := typical .kaonB 1) rfl hr trivial
    (typical_insideFor .kaonB trivial) (by
      rintro q hq hn ⟨d, hd, he⟩
      obtain ⟨k, -, rfl⟩ := List.mem_map.mp hd
      have : q.value = 2 := by
        rw [typical_values .kaonB 1 q hq]
        unfold typicalValue
        rw [if_neg, if_pos hn]
        exact fun h0 => absurd ((List.prefix_of_prefix_length_le h0 hn (by decide))) (by decide)
      rw [this] at he
      dsimp only at he
      have : (0 : ℝ) ≤ k := Nat.cast_nonneg k
      linarith)
    ⟨Or.inl rfl, rfl, by simp [sixtyPoints, sixty], by simp [sixtyPoints, sixty],
      fun e he => by rw [List.eq_of_mem_replicate he]; exact one_ne_zero,
      fun d hd => by
        obtain ⟨k, -, rfl⟩ := List.mem_map.mp hd
        have : (0 : ℝ) ≤ k := Nat.cast_nonneg k
        dsimp only; linarith,
      ⟨_, List.mem_map_of_mem (List.mem_range.mpr (show 0 < 60 by norm_num)), rfl⟩,
      by rw [hw.names, sixty, List.length_map, List.length_range]; show ParamClass.kaonB.table.initArgs.length < 60; decide +kernel⟩
    (idleEnv_fits _) (fun _ => rfl)
  refine ⟨h1 ?_ (by decide), h2 ?_ (idleEnv_samples _)⟩
  · have he : ("t_in_isoscalar", "t_in_isoscalar", false) ∈ ParamClass.kaonB.table.entries := by decide +kernel
    exact ⟨_, List.mem_map_of_mem he, rfl⟩
  · intro i k hk
    rw [freezable_count hr]
    show 1 ≤ k ∧ k ≤ ((ParamClass.kaonB.table.initArgs.filter fun m =>
      decide (¬ DeclaredFixed .kaonB m ∧ ¬ (decide ((i : ℤ) < 1) = true ∧ IsResonanceName m))).length : ℤ)
    match i, hk with
    | 0, hk => injection hk with hk; subst hk; decide +kernel
    | 1, hk => injection hk with hk; subst hk; decide +kernel
    | 2, hk => injection hk with hk; subst hk; decide +kernel
    | i + 3, hk => cases hk

end UA
