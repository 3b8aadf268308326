import Verif.Lemmas.WithinWitness
import Verif.Props.BestFit

/-!
# Property C98: nucleon pipelines complete if the library stays where the model can be evaluated
-/

namespace UA

/-- **C98** `Pipeline.run` of a nucleon pipeline completes if the starting values lie in a region of values for which the model can be evaluated
at all points, and the fitting library stays inside the bounds and in the region. The object is in the region at the end. -/
theorem C98_run {self : Pipeline} {env : Env} {w : World} {p : ModelParameters ℝ} {points : List (ℝ × Bool × Bool)} {V : Set (List (String × ℝ))}
    (hp : w.heap[self.parameters]? = some p) (hr : Reachable p) (hc : p.cls = .nucleon) (hin : p.InsideFor true) (hV : p.assignment ∈ V)
    (hfree : ∃ q ∈ p.toList, q.is_fixed = false) (hd : self.NucleonData p points) (ht : ∀ t ∈ self.tasks, t ∈ self.kind.nucleonTasks)
    (hev : self.EvaluatesOn V) (hfit : env.FitsInside ∅) (hwithin : env.FitsWithin V) (hplot : ∀ k, env.plot k = .ok ()) :
    ∃ self' w' p', self.run env w = (.ok self', w') ∧ self'.parameters = self.parameters ∧ w'.heap[self.parameters]? = some p' ∧ Reachable p' ∧
      p'.cls = .nucleon ∧ p'.InsideFor true ∧ p'.assignment ∈ V := by
  have hg := (goodObject_iff (c := .nucleon) (S := ∅) trivial).mpr ⟨hr, hc, hin, fun _ _ _ => id⟩
  obtain ⟨self', w', h, hs, p', hp', ⟨hg', hv'⟩, -⟩ := (run_sat (nucleon_tasksWithin hfit hwithin hplot) self w ht ⟨hd.run, hev⟩
    ⟨p, hp, ⟨by rw [hd.bounds]; exact hg, hV⟩, hfree, rfl⟩).completes
  obtain ⟨k1, k2, k3, -⟩ := (goodObject_iff (c := .nucleon) trivial).mp hg'
  exact ⟨self', w', p', h, hs.parameters, by rw [← hs.parameters]; exact hp', k1, k2, by rw [← hd.bounds, ← hs.bounds]; exact k3, hv'⟩

/-- Met with the region consisting of one assignment of values, and a library that returns its starting values: forty points of the proton, the
three tasks in turn. -/
example : ∃ p, Reachable p ∧ p.cls = .nucleon ∧ p.InsideFor true ∧ ∃ self' w',
    (fortyPipeline .nucleonCS [.nucleonCSFull, .nucleonCSFixedCouplings, .nucleonCSFixAccording]).run (idleEnv ∅) (startWorld [p]) = (.ok self', w') := by
  obtain ⟨p, hg, hfree, -, hcs⟩ := forty_evaluates
  obtain ⟨hr, hcls, hin, -⟩ := (goodObject_iff (c := .nucleon) trivial).mp hg
  obtain ⟨self', w', -, h, -⟩ := C98_run (p := p) (w := startWorld [p]) (V := {p.assignment}) rfl hr hcls hin rfl hfree
    (fortyPipeline_data (Or.inl rfl) [.nucleonCSFull, .nucleonCSFixedCouplings, .nucleonCSFixAccording] hr hcls).1 (by decide) (hcs _) (idleEnv_fits _)
    (idleEnv_within _ _) fun _ => rfl
  exact ⟨p, hr, hcls, hin, self', w', h⟩

/-- **C98** the iterative pipeline for form factors, for rounds with at least one parameter and not more than there are. -/
theorem C98_ff_iterative {self : Pipeline} {env : Env} {its : Iterations} {w : World} {p : ModelParameters ℝ} {points : List (ℝ × Bool × Bool)}
    {V : Set (List (String × ℝ))} (hp : w.heap[self.parameters]? = some p) (hr : Reachable p) (hc : p.cls = .nucleon) (hin : p.InsideFor true)
    (hV : p.assignment ∈ V) (hd : self.NucleonData p points) (hkind : self.kind = .nucleonFF)
    (hnum : ∀ (i : ℕ) (k : ℤ), its.free_params_numbers[i]? = some k → 1 ≤ k ∧
      k ≤ (p.freezable (decide ((i : ℤ) < its.nr_initial_rounds_with_fixed_resonances))).length)
    (hev : self.EvaluatesOn V) (hs : env.Samples) (hfit : env.FitsInside ∅) (hwithin : env.FitsWithin V) (hplot : ∀ k, env.plot k = .ok ()) :
    ∃ self' w' p', self.runIterative env its w = (.ok self', w') ∧ self'.parameters = self.parameters ∧ w'.heap[self.parameters]? = some p' ∧
      Reachable p' ∧ p'.cls = .nucleon ∧ p'.InsideFor true ∧ p'.assignment ∈ V := by
  have hg := (goodObject_iff (c := .nucleon) (S := ∅) trivial).mpr ⟨hr, hc, hin, fun _ _ _ => id⟩
  obtain ⟨self', w', h, hs, p', hp', ⟨hg', hv'⟩, -⟩ := (runIterative_sat (nucleonFF_tasksWithin hfit hwithin hplot) hs its self w ⟨⟨hd.run, hev⟩, hkind⟩
    ⟨p, hp, ⟨by rw [hd.bounds]; exact hg, hV⟩, rfl⟩ (fun s h => nucleonFF_fullFit s ⟨h.1.1, h.2⟩) (fun j k hj => by
      have := hnum j k hj
      rw [freezable_count hr, hc] at this
      exact this)).completes
  obtain ⟨k1, k2, k3, -⟩ := (goodObject_iff (c := .nucleon) trivial).mp hg'
  exact ⟨self', w', p', h, hs.parameters, by rw [← hs.parameters]; exact hp', k1, k2, by rw [← hd.bounds, ← hs.bounds]; exact k3, hv'⟩

/-- Likewise, with rounds of 2, 5 and 3 parameters. -/
example : ∃ p, Reachable p ∧ p.cls = .nucleon ∧ p.InsideFor true ∧ ∃ self' w',
    (fortyPipeline .nucleonFF []).runIterative (idleEnv ∅) ⟨[2, 5, 3], 1⟩ (startWorld [p]) = (.ok self', w') := by
  obtain ⟨p, hg, hfree, hff, -⟩ := forty_evaluates
  obtain ⟨hr, hcls, hin, -⟩ := (goodObject_iff (c := .nucleon) trivial).mp hg
  obtain ⟨self', w', -, h, -⟩ := C98_ff_iterative (p := p) (w := startWorld [p]) (its := ⟨[2, 5, 3], 1⟩) (V := {p.assignment}) rfl hr hcls hin rfl
    (fortyPipeline_data (Or.inr rfl) [] hr hcls).1 rfl (fun i k hk => by
      rw [freezable_count hr, hcls]
      show 1 ≤ k ∧ k ≤ ((ParamClass.nucleon.table.initArgs.filter fun m =>
        decide (¬ DeclaredFixed .nucleon m ∧ ¬ (decide ((i : ℤ) < 1) = true ∧ IsResonanceName m))).length : ℤ)
      match i, hk with
      | 0, hk => injection hk with hk; subst hk; decide +kernel
      | 1, hk => injection hk with hk; subst hk; decide +kernel
      | 2, hk => injection hk with hk; subst hk; decide +kernel
      | i + 3, hk => cases hk) (hff _) (idleEnv_samples _) (idleEnv_fits _) (idleEnv_within _ _) fun _ => rfl
  exact ⟨p, hr, hcls, hin, self', w', h⟩

/-- **C98** the iterative pipeline for cross sections with its final fit of the residual oscillations. For the latter the cross sections have to be
positive in the region. -/
theorem C98_cs_iterative {self : Pipeline} {env : Env} {its : Iterations} {w : World} {p : ModelParameters ℝ} {points : List (ℝ × Bool × Bool)}
    {V : Set (List (String × ℝ))} (hp : w.heap[self.parameters]? = some p) (hr : Reachable p) (hc : p.cls = .nucleon) (hin : p.InsideFor true)
    (hV : p.assignment ∈ V) (hd : self.NucleonData p points) (hkind : self.kind = .nucleonCS) (hres : self.ResidualData points)
    (hnum : ∀ k ∈ its.free_params_numbers, 1 ≤ k)
    (hev : ∀ p, Reachable p → p.cls = .nucleon → p.InsideFor true → p.assignment ∈ V → ∃ rs,
      functionCrossSection self.ts self.constants.mass self.constants.alpha self.constants.hc_squared p = .ok rs ∧ ∀ r ∈ rs, 0 < r)
    (hs : env.Samples) (hfit : env.FitsInside ∅) (hwithin : env.FitsWithin V) (hplot : ∀ k, env.plot k = .ok ()) :
    ∃ self' w' p', self.runNucleonCSIterative env its w = (.ok self', w') ∧ self'.parameters = self.parameters ∧
      w'.heap[self.parameters]? = some p' ∧ Reachable p' ∧ p'.cls = .nucleon ∧ p'.InsideFor true ∧ p'.assignment ∈ V := by
  have hg := (goodObject_iff (c := .nucleon) (S := ∅) trivial).mpr ⟨hr, hc, hin, fun _ _ _ => id⟩
  obtain ⟨self', w', h, hs, p', hp', ⟨hg', hv'⟩, -⟩ := (runNucleonCSIterative_within hfit hwithin hplot hs its self w hd.run hkind hres
    (fun p h1 h2 h3 h4 => by
      unfold Pipeline.fittedValues
      rw [if_neg (by rw [hkind]; decide)]
      exact hev p h1 h2 h3 h4) ⟨p, hp, ⟨by rw [hd.bounds]; exact hg, hV⟩, rfl⟩ hnum).completes
  obtain ⟨k1, k2, k3, -⟩ := (goodObject_iff (c := .nucleon) trivial).mp hg'
  exact ⟨self', w', p', h, hs.parameters, by rw [← hs.parameters]; exact hp', k1, k2, by rw [← hd.bounds, ← hs.bounds]; exact k3, hv'⟩

/-- Met by the unperturbed starting values of the nucleon script, for a suitable proton mass and forty equal points. -/
example : ∃ p m t, Reachable p ∧ p.cls = .nucleon ∧ p.InsideFor true ∧ ∃ self' w',
    (samePipeline m t).runNucleonCSIterative (idleEnv ∅) ⟨[2, 50, 3], 1⟩ (startWorld [p]) = (.ok self', w') := by
  obtain ⟨m, t, hm, -, ht, ht1, hpos⟩ := halfArgs_positive
  obtain ⟨p, -, hg, hx⟩ := nucleon_half_start m 2.79 (-1.91) (startWorld [])
  obtain ⟨hr, hcls, hin, -⟩ := (goodObject_iff (c := .nucleon) trivial).mp hg
  obtain ⟨h1, h2⟩ := samePipeline_data hm ht ht1 hr hcls
  obtain ⟨-, hsmall, hlen⟩ := fortySame_spec hm ht ht1
  obtain ⟨self', w', -, h, -⟩ := C98_cs_iterative (p := p) (w := startWorld [p]) (its := ⟨[2, 50, 3], 1⟩) (V := {p.assignment}) rfl hr hcls hin rfl
    h1 rfl h2 (by decide) (fun p' hr' hc' hi' he => by
      have hg' := (goodObject_iff (c := .nucleon) (S := ∅) trivial).mpr ⟨hr', hc', hi', fun _ _ _ => id⟩
      refine hpos p' (hx.assignment hg hg' he) hr' hc' hi' ((fortySame t).map fun d => (d.1, true, true)) fun d hd => ?_
      obtain ⟨e, he, rfl⟩ := List.mem_map.mp hd
      rw [List.eq_of_mem_replicate he]
      exact ⟨rfl, rfl⟩) (idleEnv_samples _) (idleEnv_fits _) (idleEnv_within _ _) fun _ => rfl
  exact ⟨p, m, t, hr, hcls, hin, self', w', h⟩

/-- **C98** a whole call of `f` in the nucleon script: it completes if its perturbed start is in the region, the cross section is positive at
each point for all values in the region, and the library stays there. -/
theorem C98_script {env : Env} {random : ℕ → ℝ} (hr : ∀ k, 0 < random k ∧ random k < 1) {pion_mass : ℝ} (hp : 0 ≤ pion_mass ∧ pion_mass ≤ 0.24)
    {proton_mass alpha hc_squared : ℝ} (hm : 0 < proton_mass) (ha : alpha ≠ 0) {proton_magnetic_moment neutron_magnetic_moment : ℝ}
    {data : List (ℝ × ℝ × ℝ)} (hdata : ∀ d ∈ data, 4 * proton_mass ^ 2 < d.1 ∧ 0 < d.2.1 ∧ d.2.2 ≠ 0)
    (hsmall : ∃ d ∈ data, d.1 / (2 * proton_mass) - proton_mass < Real.sqrt (25 + proton_mass ^ 2)) (hlen : 37 < data.length)
    {path_to_reports name : String} {w : World} (hdir : w.fs.exists (pathJoin path_to_reports name) = false)
    (hmk : env.mkdirFails (pathJoin path_to_reports name) = false) {V : Set (List (String × ℝ))}
    (hstart : ∀ p, fitNucleonStart random pion_mass proton_mass proton_magnetic_moment neutron_magnetic_moment w =
      (.ok w.heap.length, { w with heap := w.heap ++ [p] }) → p.assignment ∈ V)
    (hev : ∀ p, Reachable p → p.cls = .nucleon → p.InsideFor true → p.assignment ∈ V → ∀ d ∈ data, ∃ r,
      functionCrossSection [.nucleon (d.1 : ℝ) true true] proton_mass alpha hc_squared p = .ok [r] ∧ 0 < r)
    (hfit : env.FitsInside ∅) (hwithin : env.FitsWithin V) (hplot : ∀ k, env.plot k = .ok ()) (hsamp : env.Samples) :
    ∃ best w' p', fitNucleonF env random pion_mass proton_mass proton_magnetic_moment neutron_magnetic_moment alpha hc_squared (data.map (·.1))
        (data.map (·.2.1)) (data.map (·.2.2)) path_to_reports name w = (.ok best, w') ∧
      w'.heap[w.heap.length]? = some p' ∧ Reachable p' ∧ p'.cls = .nucleon ∧ p'.InsideFor true ∧ p'.assignment ∈ V := by
  have key : (fitNucleonF env random pion_mass proton_mass proton_magnetic_moment neutron_magnetic_moment alpha hc_squared (data.map (·.1))
        (data.map (·.2.1)) (data.map (·.2.2)) path_to_reports name).Sat w
      (fun _ w' => ∃ p', w'.heap[w.heap.length]? = some p' ∧ InRegion V true p') (fun _ => False) := by
    refine fitNucleonF_steps hr hp hm ha _ _ hdata hsmall hlen hdir hmk fun p P points w₁ hst hg hkind hpar hb hcon hperm hd hres hw₁ => ?_
    refine (runNucleonCSIterative_within hfit hwithin hplot hsamp _ P w₁ hd hkind hres ?_
      ⟨p, by rw [hpar, hw₁]; simp, by rw [hb]; exact ⟨hg, hstart p hst⟩, rfl⟩ nucleon_schedule).mono ?_
    · intro p h1 h2 h3 h4
      unfold Pipeline.fittedValues
      rw [if_neg (by rw [hkind]; decide), hcon, hd.ts]
      dsimp only
      have hpt : ∀ d ∈ points, ∃ r, functionCrossSection [.nucleon (d.1 : ℝ) d.2.1 d.2.2] proton_mass alpha hc_squared p = .ok [r] ∧ 0 < r := by
        intro d hdm
        obtain ⟨e, he, rfl⟩ := List.mem_map.mp (hperm.mem_iff.mp hdm)
        exact hev p h1 h2 h3 h4 e he
      obtain ⟨d₀, hd₀, -⟩ := hsmall
      obtain ⟨r₀, hr₀, -⟩ := hev p h1 h2 h3 h4 d₀ hd₀
      have h0 := ((C51_pointwise h1 (.crossSection proton_mass alpha hc_squared)).1.mp hr₀).1
      have hrs : ∃ rs, List.Forall₂ (fun (d : ℝ × Bool × Bool) r => functionCrossSection [.nucleon (d.1 : ℝ) d.2.1 d.2.2] proton_mass alpha hc_squared p =
          .ok [r] ∧ 0 < r) points rs := by
        clear * - hpt
        induction points with
        | nil => exact ⟨[], .nil⟩
        | cons d points ih =>
          obtain ⟨r, hr⟩ := hpt d (by simp)
          obtain ⟨rs, hrs⟩ := ih fun d hd => hpt d (List.mem_cons_of_mem _ hd)
          exact ⟨r :: rs, .cons hr hrs⟩
      obtain ⟨rs, hrs⟩ := hrs
      refine ⟨rs, (C51_pointwise h1 (.crossSection proton_mass alpha hc_squared)).1.mpr ⟨h0, ?_⟩, fun r hrm => ?_⟩
      · rw [List.forall₂_map_left_iff]
        exact hrs.imp fun _ _ h => h.1
      · obtain ⟨d, -, h⟩ := forall₂_mem_right hrs r hrm
        exact h.2
    · rintro self' w' ⟨hsame, p', hp', hg', -⟩
      exact ⟨p', by rw [hsame.parameters, hpar] at hp'; exact hp', by rw [hsame.bounds, hb] at hg'; exact hg'⟩
  obtain ⟨best, w', h, p', hp', hg', hv'⟩ := key.completes
  obtain ⟨k1, k2, k3, -⟩ := (goodObject_iff (c := .nucleon) trivial).mp hg'
  exact ⟨best, w', p', h, hp', k1, k2, k3, hv'⟩

/-- Met by the start of the script with draws of 1/2 and the same points. -/
theorem same_script : ∃ m t, 0 < m ∧ ∃ best w', fitNucleonF (idleEnv ∅) (fun _ => 1 / 2) 0 m 2.79 (-1.91) 1 1 ((fortySame t).map (·.1))
    ((fortySame t).map (·.2.1)) ((fortySame t).map (·.2.2)) "reports" "P" (startWorld []) = (.ok best, w') := by
  obtain ⟨m, t, hm, -, ht, ht1, hpos⟩ := halfArgs_positive
  obtain ⟨p, hst, hg, hx⟩ := nucleon_half_start m 2.79 (-1.91) (startWorld [])
  obtain ⟨hdata, hsmall, hlen⟩ := fortySame_spec hm ht ht1
  have hmem : (t, 1, 0.1) ∈ fortySame t := List.mem_replicate.mpr ⟨by norm_num, rfl⟩
  obtain ⟨best, w', -, h, -⟩ := C98_script (random := fun _ => 1 / 2) (fun _ => by norm_num) (pion_mass := 0) (by norm_num) hm (alpha := 1) one_ne_zero
    (proton_magnetic_moment := 2.79) (neutron_magnetic_moment := -1.91) (hc_squared := 1) hdata ⟨_, hmem, hsmall _ hmem⟩ (by rw [hlen]; norm_num) (path_to_reports := "reports") (name := "P") (w := startWorld []) (env := idleEnv ∅) rfl rfl (V := {p.assignment})
    (fun p' hp' => by
      have : [p] = [p'] := congrArg (fun r => r.2.heap) (hst.symm.trans hp')
      rw [(List.cons.inj this).1]
      exact Set.mem_singleton _)
    (fun p' hr' hc' hi' he d hd => by
      have hg' := (goodObject_iff (c := .nucleon) (S := ∅) trivial).mpr ⟨hr', hc', hi', fun _ _ _ => id⟩
      obtain ⟨rs, hrs, hp⟩ := hpos p' (hx.assignment hg hg' he) hr' hc' hi' [(d.1, true, true)] fun e he => by
        rw [List.mem_singleton.mp he, List.eq_of_mem_replicate hd]; exact ⟨rfl, rfl⟩
      have hrs' : functionCrossSection [.nucleon (d.1 : ℝ) true true] m 1 1 p' = .ok rs := hrs
      have := ((C51_pointwise hr' (.crossSection m 1 1)).1.mp hrs').2
      obtain ⟨r, us, -, h2, hu⟩ := List.forall₂_cons_left_iff.mp this
      rw [hu, List.forall₂_nil_left_iff.mp h2] at hrs' hp
      exact ⟨r, hrs', hp r (by simp)⟩) (idleEnv_fits _) (idleEnv_within _ _) (fun _ => rfl) (idleEnv_samples _)
  exact ⟨m, t, hm, best, w', h⟩

/-- **C96** whatever `f` of the nucleon script returns, likewise. -/
theorem C96_nucleon_script {env : Env} (hs : env.Samples) (hstr : ∀ x, env.strFloat x ≠ "") {random : ℕ → ℝ}
    {pion_mass proton_mass proton_magnetic_moment neutron_magnetic_moment alpha hc_squared : ℝ} {data : List (ℝ × ℝ × ℝ)}
    {path_to_reports name : String} {w w' : World} (hreach : ∀ p ∈ w.heap, Reachable p) {best : BestFit}
    (h : fitNucleonF env random pion_mass proton_mass proton_magnetic_moment neutron_magnetic_moment alpha hc_squared (data.map (·.1))
      (data.map (·.2.1)) (data.map (·.2.2)) path_to_reports name w = (.ok best, w')) :
    best.TrueOf env.strFloat (.crossSection proton_mass alpha hc_squared) .nucleon (data.map fun q => (.nucleon (q.1 : ℝ) true true, q.2)) := by
  unfold fitNucleonF at h
  obtain ⟨ref, w₁, h1, hA⟩ := PyM.bind_eq_ok.mp h
  obtain ⟨p, g1, p1, hcls⟩ := nucleonStart_inv h1 hreach
  obtain ⟨⟨ts, ys, errors⟩, w₄, h4, hD⟩ := PyM.bind_eq_ok.mp hA
  rw [PyM.lift_run] at h4
  injection h4 with hprep hw
  subst hw
  obtain ⟨s, w₅, h5, hE⟩ := PyM.bind_eq_ok.mp hD
  obtain ⟨e5, hs5⟩ := pipelineInit_inv h5
  obtain ⟨s', w₆, h6, hF⟩ := PyM.bind_eq_ok.mp hE
  rw [PyM.pure_run] at hF
  injection hF with hF _
  injection hF with hF
  subst hF
  by_cases hne : data ≠ []
  · obtain ⟨out, k1, k2, -⟩ := C58_nucleon data [] [] [] (.inl hne)
    have k1' := Except.ok.inj (hprep.symm.trans k1)
    injection k1' with hts k1'
    injection k1' with hys herr
    obtain ⟨reports, residual, chis, chi, -, -, -, hc⟩ := C96_nucleonCS hs (self := s) (by rw [hs5]; rfl) (w := w₅) (by rw [e5]; exact g1)
      (by rw [e5, hs5]; exact p1) (by rw [hs5]) hstr (by rw [hs5, hts, hys]; simp) h6
    rw [hcls] at hc
    have := hc.points (out := out.map fun q => (Datapoint.nucleon (q.1.1 : ℝ) q.1.2.1 q.1.2.2, q.2)) (points := data.map fun q => (.nucleon (q.1 : ℝ) true true, q.2))
      (by rw [hs5, List.map_map]; exact hts) (by rw [hs5, List.map_map]; exact hys) (by rw [hs5, List.map_map]; exact herr)
      (by
        simp only [List.map_nil, List.append_nil] at k2
        have := k2.map fun q : (ℝ × Bool × Bool) × ℝ × ℝ => (Datapoint.nucleon (q.1.1 : ℝ) q.1.2.1 q.1.2.2, q.2)
        rw [List.map_map] at this
        exact this)
    rw [hs5] at this
    exact this
  · push Not at hne
    rw [hne] at hprep
    have := hprep.symm.trans C58_empty.2
    cases this

/-- The call of `same_script`: its best fit is true of the forty points. -/
example : ∃ m t, ∃ best w', fitNucleonF (idleEnv ∅) (fun _ => 1 / 2) 0 m 2.79 (-1.91) 1 1 ((fortySame t).map (·.1)) ((fortySame t).map (·.2.1))
      ((fortySame t).map (·.2.2)) "reports" "P" (startWorld []) = (.ok best, w') ∧
    best.TrueOf (idleEnv ∅).strFloat (.crossSection m 1 1) .nucleon ((fortySame t).map fun q => (.nucleon (q.1 : ℝ) true true, q.2)) := by
  obtain ⟨m, t, -, best, w', h⟩ := same_script
  exact ⟨m, t, best, w', h, C96_nucleon_script (idleEnv_samples _) (fun _ => by show "1" ≠ ""; decide) (fun p hp => absurd hp List.not_mem_nil) h⟩

end UA
