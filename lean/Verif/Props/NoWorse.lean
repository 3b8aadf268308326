import Verif.Lemmas.NoWorseRun
import Verif.Lemmas.NoWorseCharged
import Verif.Lemmas.NoWorseWitness
import Verif.Lemmas.ChargedRun
import Verif.Lemmas.PipelinesGood
import Verif.Lemmas.MainNucleon
import Verif.Props.Utils

/-!
# Property C112: completed runs do not get worse
-/

namespace UA

/-- **C112** the hypothesis on the library is met by one that tries two vectors and returns the better one. -/
example : halvingEnv.NeverWorse := halvingEnv_neverWorse

/-- **C112** the iterative pipelines for kaon cross sections and nucleon form factors: if the library never returns anything worse than its
start, a completed run leaves the pipeline with parameters whose weighted sum of squares over all points is not larger than before. -/
theorem C112_iterative {env : Env} (hs : env.Samples) (hn : env.NeverWorse) {self self' : Pipeline} (hkind : self.kind = .kaonCS ∨ self.kind = .nucleonFF)
    {its : Iterations} {w w' : World} {p : ModelParameters ℝ} (hreach : ∀ p ∈ w.heap, Reachable p) (hp : w.heap[self.parameters]? = some p)
    (h : self.runIterative env its w = (.ok self', w')) {fs : List ℝ} (hfs : (self.kind.fitted self.constants).eval self.ts p = .ok fs) :
    ∃ p' fs', w'.heap[self.parameters]? = some p' ∧ (self.kind.fitted self.constants).eval self.ts p' = .ok fs' ∧
      weightedSquares self.ys self.errors fs' ≤ weightedSquares self.ys self.errors fs := by
  obtain ⟨p', h1, h2⟩ := runIterative_noWorse hs hn hkind hreach hp h
  obtain ⟨fs', h3, h4⟩ := h2 fs hfs
  exact ⟨p', fs', h1, h3, h4⟩

/-- Met by three rounds and a full fit of kaon cross sections at sixty points. -/
example : (idleEnv {t | ∃ d ∈ sixty, t = d.1}).NeverWorse ∧ (∀ p ∈ (startWorld [typical .kaonB 1]).heap, Reachable p) ∧
    (∃ fs, (PipelineKind.kaonCS.fitted ⟨1, 1, 1⟩).eval (sixtyPoints .kaonCS []).ts (typical .kaonB 1) = .ok fs) ∧
    ∃ self' w', (sixtyPoints .kaonCS [.kaonCSFull, .kaonCSFixedCouplings, .kaonCSFixAccording]).runIterative
      (idleEnv {t | ∃ d ∈ sixty, t = d.1}) ⟨[2, 5, 3], 1⟩ (startWorld [typical .kaonB 1]) = (.ok self', w') :=
  ⟨idleEnv_neverWorse _, fun p hp => by rw [List.mem_singleton.mp hp]; exact typical_reachable .kaonB 1, sixty_evaluated ⟨1, 1, 1⟩, sixty_runs.2⟩

/-- **C112** if the data are the values at the starting parameters, they are the values at the parameters left behind. -/
theorem C112_exact {env : Env} (hs : env.Samples) (hn : env.NeverWorse) {self self' : Pipeline} (hkind : self.kind = .kaonCS ∨ self.kind = .nucleonFF)
    (hel : self.errors.length = self.ts.length) (he : ∀ e ∈ self.errors, e ≠ 0) {its : Iterations} {w w' : World} {p : ModelParameters ℝ}
    (hreach : ∀ p ∈ w.heap, Reachable p) (hp : w.heap[self.parameters]? = some p) (h : self.runIterative env its w = (.ok self', w'))
    (hfs : (self.kind.fitted self.constants).eval self.ts p = .ok self.ys) :
    ∃ p', w'.heap[self.parameters]? = some p' ∧ (self.kind.fitted self.constants).eval self.ts p' = .ok self.ys := by
  obtain ⟨p', fs', h1, h2, h3⟩ := C112_iterative hs hn hkind hreach hp h hfs
  have hg : w'.Good := by
    have := runIterative_good self env its w
    rw [h] at this
    exact this hreach
  have l1 := ((C51_pointwise (hg.read h1) _).2 h2).1
  have l2 := ((C51_pointwise (World.Good.read hreach hp) _).2 hfs).1
  rw [weightedSquares_self] at h3
  refine ⟨p', h1, ?_⟩
  rw [h2, eq_of_weightedSquares (l1.trans l2.symm) (hel.trans l2.symm) he h3]

/-- Met by the values at sixty points of the starting object itself. -/
example : ∃ ys self' w', (PipelineKind.kaonCS.fitted ⟨1, 1, 1⟩).eval (sixtyPoints .kaonCS []).ts (typical .kaonB 1) = .ok ys ∧
    (sixtyPoints .kaonCS []).errors.length = (sixtyPoints .kaonCS []).ts.length ∧ (∀ e ∈ (sixtyPoints .kaonCS []).errors, e ≠ 0) ∧
    { sixtyPoints .kaonCS [] with ys := ys }.runIterative (idleEnv {t | ∃ d ∈ sixty, t = d.1}) ⟨[2, 5, 3], 1⟩ (startWorld [typical .kaonB 1]) =
      (.ok self', w') := by
  obtain ⟨ys, hys⟩ := sixty_evaluated ⟨1, 1, 1⟩
  have hl := ((C51_pointwise (typical_reachable .kaonB 1) _).2 hys).1
  obtain ⟨self', w', h⟩ := sixty_ys_run (ys := ys) (by rw [hl]; simp [sixty])
  exact ⟨ys, self', w', hys, by simp [sixtyPoints, sixty], fun e he => by rw [List.eq_of_mem_replicate he]; exact one_ne_zero, h⟩

/-- **C112** the iterative pipeline for nucleon cross sections likewise; its fit of the residual oscillations keeps the values. -/
theorem C112_nucleonCS {env : Env} (hs : env.Samples) (hn : env.NeverWorse) {self self' : Pipeline} (hkind : self.kind = .nucleonCS)
    {its : Iterations} {w w' : World} {p : ModelParameters ℝ} (hreach : ∀ p ∈ w.heap, Reachable p) (hp : w.heap[self.parameters]? = some p)
    (h : self.runNucleonCSIterative env its w = (.ok self', w')) {fs : List ℝ}
    (hfs : functionCrossSection self.ts self.constants.mass self.constants.alpha self.constants.hc_squared p = .ok fs) :
    ∃ p' fs', w'.heap[self.parameters]? = some p' ∧
      functionCrossSection self.ts self.constants.mass self.constants.alpha self.constants.hc_squared p' = .ok fs' ∧
      weightedSquares self.ys self.errors fs' ≤ weightedSquares self.ys self.errors fs := by
  obtain ⟨p', h1, h2⟩ := runNucleonCS_noWorse hs hn hkind hreach hp h
  rw [show self.kind.fitted self.constants = .crossSection self.constants.mass self.constants.alpha self.constants.hc_squared by
    rw [hkind]; rfl] at h2
  obtain ⟨fs', h3, h4⟩ := h2 fs hfs
  exact ⟨p', fs', h1, h3, h4⟩

/-- Met by the unperturbed starting values of the nucleon script, for a suitable proton mass and forty equal points. -/
example : ∃ p m t, (∀ q ∈ (startWorld [p]).heap, Reachable q) ∧ (idleEnv ∅).NeverWorse ∧
    (∃ fs, functionCrossSection (samePipeline m t).ts m 1 1 p = .ok fs) ∧ ∃ self' w',
    (samePipeline m t).runNucleonCSIterative (idleEnv ∅) ⟨[2, 50, 3], 1⟩ (startWorld [p]) = (.ok self', w') := by
  obtain ⟨m, t, hm, -, ht, ht1, hpos⟩ := halfArgs_positive
  obtain ⟨p, -, hg, hx⟩ := nucleon_half_start m 2.79 (-1.91) (startWorld [])
  obtain ⟨hr, hcls, hin, -⟩ := (goodObject_iff (c := .nucleon) trivial).mp hg
  obtain ⟨h1, h2⟩ := samePipeline_data hm ht ht1 hr hcls
  have hev : ∀ p', Reachable p' → p'.cls = .nucleon → p'.InsideFor true → p'.assignment ∈ ({p.assignment} : Set _) → ∃ rs,
      functionCrossSection (samePipeline m t).ts m 1 1 p' = .ok rs ∧ ∀ r ∈ rs, 0 < r := fun p' hr' hc' hi' he => by
    have hg' := (goodObject_iff (c := .nucleon) (S := ∅) trivial).mpr ⟨hr', hc', hi', fun _ _ _ => id⟩
    refine hpos p' (hx.assignment hg hg' he) hr' hc' hi' ((fortySame t).map fun d => (d.1, true, true)) fun d hd => ?_
    obtain ⟨e, he, rfl⟩ := List.mem_map.mp hd
    rw [List.eq_of_mem_replicate he]
    exact ⟨rfl, rfl⟩
  obtain ⟨self', w', -, h, -⟩ := C98_cs_iterative (p := p) (w := startWorld [p]) (its := ⟨[2, 50, 3], 1⟩) (V := {p.assignment}) rfl hr hcls hin rfl
    h1 rfl h2 (by decide) hev (idleEnv_samples _) (idleEnv_fits _) (idleEnv_within _ _) fun _ => rfl
  obtain ⟨fs, hfs, -⟩ := hev p hr hcls hin rfl
  exact ⟨p, m, t, fun q hq => (List.mem_singleton.mp hq : q = p) ▸ hr, idleEnv_neverWorse _, ⟨fs, hfs⟩, self', w', h⟩

/-- **C112** and the pipeline for nucleon cross sections. -/
theorem C112_exact_nucleonCS {env : Env} (hs : env.Samples) (hn : env.NeverWorse) {self self' : Pipeline} (hkind : self.kind = .nucleonCS)
    (hel : self.errors.length = self.ts.length) (he : ∀ e ∈ self.errors, e ≠ 0) {its : Iterations} {w w' : World} {p : ModelParameters ℝ}
    (hreach : ∀ p ∈ w.heap, Reachable p) (hp : w.heap[self.parameters]? = some p) (h : self.runNucleonCSIterative env its w = (.ok self', w'))
    (hfs : functionCrossSection self.ts self.constants.mass self.constants.alpha self.constants.hc_squared p = .ok self.ys) :
    ∃ p', w'.heap[self.parameters]? = some p' ∧
      functionCrossSection self.ts self.constants.mass self.constants.alpha self.constants.hc_squared p' = .ok self.ys := by
  obtain ⟨p', fs', h1, h2, h3⟩ := C112_nucleonCS hs hn hkind hreach hp h hfs
  have hg : w'.Good := by
    have := runNucleonCSIterative_good self env its w
    rw [h] at this
    exact this hreach
  have l1 := ((C51_pointwise (hg.read h1) (.crossSection _ _ _)).2 h2).1
  have l2 := ((C51_pointwise (World.Good.read hreach hp) (.crossSection _ _ _)).2 hfs).1
  rw [weightedSquares_self] at h3
  refine ⟨p', h1, ?_⟩
  rw [h2, eq_of_weightedSquares (l1.trans l2.symm) (hel.trans l2.symm) he h3]

/-- Met by the same run with the values of the starting object as data. -/
example : ∃ p m t ys, (∀ q ∈ (startWorld [p]).heap, Reachable q) ∧ (idleEnv ∅).NeverWorse ∧
    functionCrossSection (samePipeline m t).ts m 1 1 p = .ok ys ∧ (samePipeline m t).errors.length = (samePipeline m t).ts.length ∧
    (∀ e ∈ (samePipeline m t).errors, e ≠ 0) ∧ ∃ self' w',
    { samePipeline m t with ys := ys }.runNucleonCSIterative (idleEnv ∅) ⟨[2, 50, 3], 1⟩ (startWorld [p]) = (.ok self', w') := by
  obtain ⟨m, t, hm, -, ht, ht1, hpos⟩ := halfArgs_positive
  obtain ⟨p, -, hg, hx⟩ := nucleon_half_start m 2.79 (-1.91) (startWorld [])
  obtain ⟨hr, hcls, hin, -⟩ := (goodObject_iff (c := .nucleon) trivial).mp hg
  obtain ⟨h1, h2⟩ := samePipeline_data hm ht ht1 hr hcls
  have hev : ∀ p', Reachable p' → p'.cls = .nucleon → p'.InsideFor true → p'.assignment ∈ ({p.assignment} : Set _) → ∃ rs,
      functionCrossSection (samePipeline m t).ts m 1 1 p' = .ok rs ∧ ∀ r ∈ rs, 0 < r := fun p' hr' hc' hi' he => by
    have hg' := (goodObject_iff (c := .nucleon) (S := ∅) trivial).mpr ⟨hr', hc', hi', fun _ _ _ => id⟩
    refine hpos p' (hx.assignment hg hg' he) hr' hc' hi' ((fortySame t).map fun d => (d.1, true, true)) fun d hd => ?_
    obtain ⟨e, he, rfl⟩ := List.mem_map.mp hd
    rw [List.eq_of_mem_replicate he]
    exact ⟨rfl, rfl⟩
  obtain ⟨ys, hys, hypos⟩ := hev p hr hcls hin rfl
  have hl : ys.length = _ := ((C51_pointwise hr (.crossSection _ _ _)).2 hys).1
  have hl' : ys.length = ((fortySame t).map fun d => ((d.1, true, true) : ℝ × Bool × Bool)).length := by rw [hl, h1.ts, List.length_map]
  obtain ⟨self', w', -, h, -⟩ := C98_cs_iterative (self := { samePipeline m t with ys := ys }) (p := p) (w := startWorld [p]) (its := ⟨[2, 50, 3], 1⟩)
    (V := {p.assignment}) rfl hr hcls hin rfl ⟨h1.kind, h1.bounds, h1.ts, hl', h1.errors, h1.nonzero, h1.above, h1.enough⟩ rfl
    ⟨h2.mass, h2.alpha, h2.above, hypos, h2.small⟩ (by decide) hev (idleEnv_samples _) (idleEnv_fits _) (idleEnv_within _ _) fun _ => rfl
  exact ⟨p, m, t, ys, fun q hq => (List.mem_singleton.mp hq : q = p) ▸ hr, idleEnv_neverWorse _, hys, by simp [samePipeline],
    h1.nonzero, self', w', h⟩

/-- **C112** a run of a plain pipeline whose tasks all fit the same function to all points. -/
theorem C112_run {env : Env} (hn : env.NeverWorse) {f : PartialKind} {self self' : Pipeline}
    (htasks : ∀ c ∈ self.tasks, c ≠ .residual ∧ ¬ c.IsOnlyCharged ∧ c.fitted self.constants = f)
    {w w' : World} {p : ModelParameters ℝ} (hreach : ∀ p ∈ w.heap, Reachable p) (hp : w.heap[self.parameters]? = some p)
    (h : self.run env w = (.ok self', w')) {fs : List ℝ} (hfs : f.eval self.ts p = .ok fs) :
    ∃ p' fs', w'.heap[self.parameters]? = some p' ∧ f.eval self.ts p' = .ok fs' ∧
      weightedSquares self.ys self.errors fs' ≤ weightedSquares self.ys self.errors fs := by
  obtain ⟨p', h1, h2⟩ := run_plain_noWorse (fit := self.fitData env f) hn (fun c hc => by
    obtain ⟨x1, x2, x3⟩ := htasks c hc
    exact ⟨x1, fun _ _ _ _ _ _ _ _ _ h => taskInit_allPoints (fit := self.fitData env f) x1 x2 h, x3⟩) hreach hp h
  obtain ⟨fs', h3, h4⟩ := h2 fs hfs
  exact ⟨p', fs', h1, h3, h4⟩

/-- Met by a full fit of kaon cross sections, one with fixed couplings and one as given. -/
example : (∀ c ∈ (sixtyPoints .kaonCS [.kaonCSFull, .kaonCSFixedCouplings, .kaonCSFixAccording]).tasks,
      c ≠ .residual ∧ ¬ c.IsOnlyCharged ∧ c.fitted ⟨1, 1, 1⟩ = .crossSection 1 1 1) ∧
    (∃ fs, (PartialKind.crossSection 1 1 1).eval (sixtyPoints .kaonCS []).ts (typical .kaonB 1) = .ok fs) ∧
    ∃ self' w', (sixtyPoints .kaonCS [.kaonCSFull, .kaonCSFixedCouplings, .kaonCSFixAccording]).run
      (idleEnv {t | ∃ d ∈ sixty, t = d.1}) (startWorld [typical .kaonB 1]) = (.ok self', w') := by
  refine ⟨fun c hc => ?_, sixty_evaluated ⟨1, 1, 1⟩, sixty_runs.1⟩
  simp only [sixtyPoints, List.mem_cons, List.not_mem_nil, or_false] at hc
  rcases hc with rfl | rfl | rfl <;> exact ⟨by decide, by decide +kernel, rfl⟩

/-- **C112** the iterative pipeline for kaon form factors, given kaon points `l` with their values and errors, some of them charged: the rounds
lead to parameters `p₁` that are no worse than the given ones over all points, and the last task, which fits the charged points, from `p₁`
to parameters that are no worse over the charged points. Without rounds `p₁` are the given parameters. -/
theorem C112_kaonFF {env : Env} (hs : env.Samples) (hn : env.NeverWorse) {self self' : Pipeline} (hkind : self.kind = .kaonFF)
    {l : List ((ℂ × Bool) × ℝ × ℝ)} (hne : ∃ q ∈ l, q.1.2 = true) (hts : self.ts = l.map fun q => .kaon q.1.1 q.1.2) (hys : self.ys = l.map (·.2.1))
    (hes : self.errors = l.map (·.2.2)) {its : Iterations} {w w' : World} {p : ModelParameters ℝ} (hreach : ∀ p ∈ w.heap, Reachable p)
    (hp : w.heap[self.parameters]? = some p) (h : self.runIterative env its w = (.ok self', w')) {fs : List ℝ}
    (hfs : functionFormFactor self.ts p = .ok fs) :
    ∃ p₁ p' fs₁ cs₁ cs', w'.heap[self.parameters]? = some p' ∧ functionFormFactor self.ts p₁ = .ok fs₁ ∧
      weightedSquares self.ys self.errors fs₁ ≤ weightedSquares self.ys self.errors fs ∧
      functionFormFactor ((l.filter fun q => q.1.2).map fun q => .kaon q.1.1 q.1.2) p₁ = .ok cs₁ ∧
      functionFormFactor ((l.filter fun q => q.1.2).map fun q => .kaon q.1.1 q.1.2) p' = .ok cs' ∧
      weightedSquares ((l.filter fun q => q.1.2).map (·.2.1)) ((l.filter fun q => q.1.2).map (·.2.2)) cs' ≤
        weightedSquares ((l.filter fun q => q.1.2).map (·.2.1)) ((l.filter fun q => q.1.2).map (·.2.2)) cs₁ ∧
      (its.free_params_numbers = [] → p₁ = p) := by
  obtain ⟨p₁, p', hr, h1, h2, h3, h4⟩ := runKaonFF_noWorse hs hn hkind hne hts hys hes hreach hp h
  obtain ⟨fs₁, k1, k2⟩ := h2 fs hfs
  obtain ⟨cs₁, k3⟩ := eval_sub hr .formFactor (ts' := (l.filter fun q => q.1.2).map fun q => .kaon q.1.1 q.1.2) (fun d hd => by
    obtain ⟨q, hq, rfl⟩ := List.mem_map.mp hd
    show _ ∈ self.ts
    rw [hts]
    exact List.mem_map.mpr ⟨q, (List.mem_filter.mp hq).1, rfl⟩) k1
  obtain ⟨cs', k4, k5⟩ := h3 cs₁ k3
  exact ⟨p₁, p', fs₁, cs₁, cs', h1, k1, k2, k3, k4, k5, h4⟩

/-- Met by the run with a charged and a neutral point that is used below. -/
example : ∃ (a t : ℝ) (l : List ((ℂ × Bool) × ℝ × ℝ)), (∃ q ∈ l, q.1.2 = true) ∧ (∃ q ∈ l, q.1.2 = false) ∧
    (offerEnv (rhoObject a).getFreeValues).NeverWorse ∧
    (twoPointPipeline t (rhoNorm a t true) 0 1).ts = l.map (fun q => .kaon q.1.1 q.1.2) ∧
    (twoPointPipeline t (rhoNorm a t true) 0 1).ys = l.map (·.2.1) ∧ (twoPointPipeline t (rhoNorm a t true) 0 1).errors = l.map (·.2.2) ∧
    (∀ p ∈ (startWorld [rhoObject (1 / 2)]).heap, Reachable p) ∧
    (∃ fs, functionFormFactor (twoPointPipeline t (rhoNorm a t true) 0 1).ts (rhoObject (1 / 2)) = .ok fs) ∧
    ∃ self' w', (twoPointPipeline t (rhoNorm a t true) 0 1).runIterative (offerEnv (rhoObject a).getFreeValues) ⟨[], 0⟩
      (startWorld [rhoObject (1 / 2)]) = (.ok self', w') := by
  refine ⟨0, 1 / 2, [((((1 / 2 : ℝ) : ℂ), true), rhoNorm 0 (1 / 2) true, 1), ((((1 / 2 : ℝ) : ℂ), false), 0, 1)], ⟨_, List.mem_cons_self, rfl⟩,
    ⟨_, List.mem_cons_of_mem _ List.mem_cons_self, rfl⟩, offerEnv_neverWorse _, rfl, rfl, rfl, fun p hp => ?_,
    ⟨_, rho_eval (1 / 2) (by norm_num) (by norm_num) [true, false]⟩, ?_⟩
  · rw [List.mem_singleton.mp hp]
    exact rho_reachable _
  · obtain ⟨self', w', h, -⟩ := charged_run (a := 0) (t := 1 / 2) (yn := 0) (en := 1) (by norm_num) (by norm_num)
    exact ⟨self', w', h⟩

/-- **C112** with charged points only, the iterative pipeline for kaon form factors is no exception. -/
theorem C112_kaonFF_charged {env : Env} (hs : env.Samples) (hn : env.NeverWorse) {self self' : Pipeline} (hkind : self.kind = .kaonFF)
    (hts : ∀ d ∈ self.ts, ∃ t, d = .kaon t true) (hne : self.ts ≠ []) (hys : self.ys.length = self.ts.length)
    (hes : self.errors.length = self.ts.length) {its : Iterations} {w w' : World} {p : ModelParameters ℝ} (hreach : ∀ p ∈ w.heap, Reachable p)
    (hp : w.heap[self.parameters]? = some p) (h : self.runIterative env its w = (.ok self', w')) {fs : List ℝ}
    (hfs : functionFormFactor self.ts p = .ok fs) :
    ∃ p' fs', w'.heap[self.parameters]? = some p' ∧ functionFormFactor self.ts p' = .ok fs' ∧
      weightedSquares self.ys self.errors fs' ≤ weightedSquares self.ys self.errors fs := by
  obtain ⟨ts, h1⟩ : ∃ ts : List ℂ, self.ts = ts.map fun t => .kaon t true := by
    generalize self.ts = l at hts
    clear hne hys hes hfs h
    induction l with
    | nil => exact ⟨[], rfl⟩
    | cons d l ih =>
      obtain ⟨t, rfl⟩ := hts d List.mem_cons_self
      obtain ⟨ts, rfl⟩ := ih fun d hd => hts d (List.mem_cons_of_mem _ hd)
      exact ⟨t :: ts, rfl⟩
  rw [h1, List.length_map] at hys hes
  have hl : (ts.map fun t => (t, true)).length = (self.ys.zip self.errors).length := by rw [List.length_map, List.length_zip, hys, hes, min_self]
  generalize hL : (ts.map fun t => (t, true)).zip (self.ys.zip self.errors) = l
  have e1 : l.map (·.1) = ts.map fun t => (t, true) := by rw [← hL]; exact List.map_fst_zip hl.le
  have e2 : l.map (·.2) = self.ys.zip self.errors := by rw [← hL]; exact List.map_snd_zip hl.ge
  have k1 : self.ts = l.map fun q => .kaon q.1.1 q.1.2 := by
    rw [show (l.map fun q => Datapoint.kaon q.1.1 q.1.2) = (l.map (·.1)).map fun q => Datapoint.kaon q.1 q.2 by rw [List.map_map]; rfl, e1, List.map_map, h1]
    rfl
  have k2 : self.ys = l.map (·.2.1) := by
    rw [show l.map (·.2.1) = (l.map (·.2)).map (·.1) by rw [List.map_map]; rfl, e2, List.map_fst_zip (hys.trans hes.symm).le]
  have k3 : self.errors = l.map (·.2.2) := by
    rw [show l.map (·.2.2) = (l.map (·.2)).map (·.2) by rw [List.map_map]; rfl, e2, List.map_snd_zip (hes.trans hys.symm).le]
  have hall : ∀ q ∈ l, q.1.2 = true := fun q hq => by
    have : q.1 ∈ ts.map fun t => (t, true) := e1 ▸ List.mem_map_of_mem hq
    obtain ⟨t, -, h⟩ := List.mem_map.mp this
    rw [← h]
  have hf : (l.filter fun q => q.1.2) = l := List.filter_eq_self.mpr hall
  have hex : ∃ q ∈ l, q.1.2 = true := by
    cases l with
    | nil => exact absurd k1 hne
    | cons q l => exact ⟨q, List.mem_cons_self, hall q List.mem_cons_self⟩
  obtain ⟨p₁, p', fs₁, cs₁, cs', g1, g2, g3, g4, g5, g6, -⟩ := C112_kaonFF hs hn hkind hex k1 k2 k3 hreach hp h hfs
  rw [hf, ← k1] at g4 g5
  rw [hf, ← k2, ← k3] at g6
  obtain rfl := Except.ok.inj (g2.symm.trans g4)
  exact ⟨p', cs', g1, g5, g6.trans g3⟩

/-- Met by three rounds and the last task with sixty charged points. -/
example : (∀ d ∈ (sixtyPoints .kaonFF []).ts, ∃ t, d = .kaon t true) ∧ (sixtyPoints .kaonFF []).ts ≠ [] ∧
    (sixtyPoints .kaonFF []).ys.length = (sixtyPoints .kaonFF []).ts.length ∧ (sixtyPoints .kaonFF []).errors.length = (sixtyPoints .kaonFF []).ts.length ∧
    (∃ fs, functionFormFactor (sixtyPoints .kaonFF []).ts (typical .kaonB 1) = .ok fs) ∧
    ∃ self' w', (sixtyPoints .kaonFF []).runIterative (idleEnv {t | ∃ d ∈ sixty, t = d.1}) ⟨[2, 5, 3], 1⟩ (startWorld [typical .kaonB 1]) = (.ok self', w') := by
  refine ⟨fun d hd => ?_, by simp [sixtyPoints, sixty], by simp [sixtyPoints, sixty], by simp [sixtyPoints, sixty], sixty_formFactor, sixty_formFactor_run⟩
  obtain ⟨e, he, rfl⟩ := List.mem_map.mp hd
  obtain ⟨k, -, rfl⟩ := List.mem_map.mp he
  exact ⟨_, rfl⟩

/-- **C112** a run of a plain pipeline whose tasks all fit the charged points, over these points. -/
theorem C112_charged_run {env : Env} (hn : env.NeverWorse) {self self' : Pipeline}
    (htasks : ∀ c ∈ self.tasks, c = .kaonFFFullOnlyCharged ∨ c = .kaonFFFixAccordingOnlyCharged)
    {l : List ((ℂ × Bool) × ℝ × ℝ)} (hne : ∃ q ∈ l, q.1.2 = true) (hts : self.ts = l.map fun q => .kaon q.1.1 q.1.2) (hys : self.ys = l.map (·.2.1))
    (hes : self.errors = l.map (·.2.2)) {w w' : World} {p : ModelParameters ℝ} (hreach : ∀ p ∈ w.heap, Reachable p)
    (hp : w.heap[self.parameters]? = some p) (h : self.run env w = (.ok self', w')) {cs : List ℝ}
    (hcs : functionFormFactor ((l.filter fun q => q.1.2).map fun q => .kaon q.1.1 q.1.2) p = .ok cs) :
    ∃ p' cs', w'.heap[self.parameters]? = some p' ∧
      functionFormFactor ((l.filter fun q => q.1.2).map fun q => .kaon q.1.1 q.1.2) p' = .ok cs' ∧
      weightedSquares ((l.filter fun q => q.1.2).map (·.2.1)) ((l.filter fun q => q.1.2).map (·.2.2)) cs' ≤
        weightedSquares ((l.filter fun q => q.1.2).map (·.2.1)) ((l.filter fun q => q.1.2).map (·.2.2)) cs := by
  obtain ⟨p', h1, h2⟩ := run_plain_noWorse (fit := chargedFit env.strFloat l) hn (fun c hc => by
    have hx : c ≠ .residual ∧ c.IsOnlyCharged ∧ c.fitted self.constants = .formFactor := by
      rcases htasks c hc with rfl | rfl <;> exact ⟨by decide, by decide +kernel, rfl⟩
    exact ⟨hx.1, fun _ _ _ _ _ _ _ _ _ h => by rw [hts, hys, hes] at h; exact taskInit_charged hx.1 hx.2.1 hne h, hx.2.2⟩) hreach hp h
  obtain ⟨cs', h3, h4⟩ := h2 cs hcs
  exact ⟨p', cs', h1, h3, h4⟩

/-- Met by two fits to the charged ones of sixty points, every other of which is neutral. -/
example : (∀ c ∈ alternatingPoints.tasks, c = .kaonFFFullOnlyCharged ∨ c = .kaonFFFixAccordingOnlyCharged) ∧
    (∃ l : List ((ℂ × Bool) × ℝ × ℝ), (∃ q ∈ l, q.1.2 = true) ∧ (∃ q ∈ l, q.1.2 = false) ∧
      alternatingPoints.ts = l.map (fun q => .kaon q.1.1 q.1.2) ∧ alternatingPoints.ys = l.map (·.2.1) ∧ alternatingPoints.errors = l.map (·.2.2) ∧
      ∃ cs, functionFormFactor ((l.filter fun q => q.1.2).map fun q => .kaon q.1.1 q.1.2) (typical .kaonB 1) = .ok cs) ∧
    ∃ self' w', alternatingPoints.run (idleEnv {t | ∃ d ∈ alternating, t = d.1}) (startWorld [typical .kaonB 1]) = (.ok self', w') := by
  refine ⟨fun c hc => ?_, ⟨alternating.map fun d => (((d.1 : ℂ), d.2), 0, 1), ⟨_, List.mem_map_of_mem (List.mem_map_of_mem
    (List.mem_range.mpr (show 0 < 60 by norm_num))), rfl⟩, ⟨_, List.mem_map_of_mem (List.mem_map_of_mem (List.mem_range.mpr (show 1 < 60 by norm_num))), rfl⟩,
    ?_, ?_, ?_, ?_⟩, alternating_run⟩
  · simpa [alternatingPoints, sixtyPoints] using hc
  · rw [List.map_map]; rfl
  · rw [List.map_map]; simp [alternatingPoints, sixtyPoints, alternating, Function.comp_def]
  · rw [List.map_map]; simp [alternatingPoints, sixtyPoints, alternating, Function.comp_def]
  · obtain ⟨fs, hfs⟩ := alternating_evaluated
    refine eval_sub (typical_reachable .kaonB 1) .formFactor (fun d hd => ?_) hfs
    obtain ⟨q, hq, rfl⟩ := List.mem_map.mp hd
    obtain ⟨d, h, rfl⟩ := List.mem_map.mp (List.mem_filter.mp hq).1
    exact List.mem_map.mpr ⟨d, h, rfl⟩

/-- **C112** no more can be said of the iterative pipeline for kaon form factors. Starting inside
the maximal bounds, with a library that never returns anything worse than its start, a completed run can make the weighted sum of squares over
all points larger. -/
theorem C112_kaonFF_worse : ∃ (env : Env) (self self' : Pipeline) (its : Iterations) (w w' : World) (p p' : ModelParameters ℝ) (fs fs' : List ℝ),
    env.Samples ∧ env.NeverWorse ∧ self.kind = .kaonFF ∧ (∀ e ∈ self.errors, 0 < e) ∧ (∀ q ∈ w.heap, Reachable q) ∧ p.InsideMaximal ∧
    w.heap[self.parameters]? = some p ∧ self.runIterative env its w = (.ok self', w') ∧ w'.heap[self.parameters]? = some p' ∧
    functionFormFactor self.ts p = .ok fs ∧ functionFormFactor self.ts p' = .ok fs' ∧
    weightedSquares self.ys self.errors fs < weightedSquares self.ys self.errors fs' := by
  obtain ⟨a, t, h0, h1, hne⟩ := rho_norms
  have hd : 0 < |rhoNorm (1 / 2) t false - rhoNorm a t false| := abs_pos.mpr (sub_ne_zero.mpr fun h => hne h.symm)
  generalize hD : rhoNorm (1 / 2) t false - rhoNorm a t false = D at hd
  have hc : 0 < |rhoNorm a t true - rhoNorm (1 / 2) t true| + 1 := by positivity
  generalize hC : rhoNorm a t true - rhoNorm (1 / 2) t true = C at hc
  obtain ⟨self', w', hrun, hp'⟩ := charged_run (a := a) (yn := rhoNorm (1 / 2) t false) (en := |D| / (|C| + 1)) h0 h1
  refine ⟨offerEnv (rhoObject a).getFreeValues, twoPointPipeline t (rhoNorm a t true) (rhoNorm (1 / 2) t false) (|D| / (|C| + 1)), self', ⟨[], 0⟩,
    startWorld [rhoObject (1 / 2)], w', rhoObject (1 / 2), rhoObject a, _, _, offerEnv_samples _, offerEnv_neverWorse _, rfl, ?_, ?_, rho_inside _, rfl,
    hrun, hp', rho_eval (1 / 2) h0 h1 [true, false], rho_eval a h0 h1 [true, false], ?_⟩
  · intro e he
    rcases List.mem_pair.mp he with rfl | rfl
    · exact one_pos
    · positivity
  · intro q hq
    rw [List.mem_singleton.mp hq]
    exact rho_reachable _
  · show weightedSquares [rhoNorm a t true, rhoNorm (1 / 2) t false] [1, |D| / (|C| + 1)] [rhoNorm (1 / 2) t true, rhoNorm (1 / 2) t false] <
      weightedSquares [rhoNorm a t true, rhoNorm (1 / 2) t false] [1, |D| / (|C| + 1)] [rhoNorm a t true, rhoNorm a t false]
    rw [weightedSquares_two, weightedSquares_two, hC, hD, sub_self, sub_self, zero_div, zero_div, div_one, div_pow, div_pow, sq_abs,
      div_div_eq_mul_div, mul_comm, mul_div_assoc, div_self (pow_ne_zero 2 (abs_pos.mp hd)), mul_one]
    have := sq_abs C
    nlinarith [abs_nonneg C]

end UA
