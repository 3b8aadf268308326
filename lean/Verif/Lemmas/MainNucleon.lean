import Verif.Spec.MainNucleon
import Verif.Lemmas.MainRuns
import Verif.Lemmas.Shipped
import Verif.Props.Within
import Verif.Props.RunsNucleon

/-!
# Lemmas for C99
-/

namespace UA

theorem runNucleonCSIterative_good (self : Pipeline) (env : Env) (its : Iterations) : (self.runNucleonCSIterative env its).Keeps KeepsGood := by
  unfold Pipeline.runNucleonCSIterative
  refine good_bind (readParams_good _) fun p => good_bind (log_good _ _) fun _ => good_bind (runRounds_good _ _ _ _ _) fun self =>
    good_bind (release_good _) fun _ => ?_
  dsimp only
  split_ifs
  all_goals
    try refine good_bind (mutateParams_good _ (f := fun p => p.fixResonances) fun _ hp => .step .fixResonances hp) fun _ => ?_
    refine good_bind (log_good _ _) fun _ => good_bind (iterativeTask_good _ _ _ _) fun q => ?_
    obtain ⟨task, self⟩ := q
    exact good_bind (log_good _ _) fun _ => good_bind (flush_good _) fun _ => good_bind (save_good _ _ _ _) fun _ => good_bind (log_good _ _) fun _ =>
      good_bind (newTask_keeps _ _ _) fun _ => good_bind (log_good _ _) fun _ => good_bind (run_good _ _) fun _ => good_bind (log_good _ _) fun _ =>
      good_bind (save_good _ _ _ _) fun _ => good_pure _

theorem nucleonStart_ok {random : ℕ → ℝ} {pion_mass proton_mass proton_magnetic_moment neutron_magnetic_moment : ℝ} {w w' : World} {ref : ℕ}
    (h : fitNucleonStart random pion_mass proton_mass proton_magnetic_moment neutron_magnetic_moment w = (.ok ref, w')) :
    ∃ p, NucleonStartsWith random pion_mass proton_mass proton_magnetic_moment neutron_magnetic_moment p ∧ Reachable p ∧
      ref = w.heap.length ∧ w' = { w with heap := w.heap ++ [p] } := by
  unfold fitNucleonStart at h
  obtain ⟨p, w₁, h1, hA⟩ := PyM.bind_eq_ok.mp h
  rw [PyM.lift_run] at h1
  injection h1 with hp hw
  subst hw
  rw [PyM.bind_ok (newParams_run p w)] at hA
  obtain ⟨u, w₃, h3, hC⟩ := PyM.bind_eq_ok.mp hA
  rw [mutateParams_run (p := p) (by simp)] at h3
  injection h3 with h3 hw3
  subst hw3
  obtain ⟨u', w₄, h4, hD⟩ := PyM.bind_eq_ok.mp hC
  rw [mutateParams_run (p := p.fixResonances.2) (by simp)] at h4
  injection h4 with h4 hw4
  subst hw4
  rw [PyM.pure_run] at hD
  injection hD with hD hw
  injection hD with hD
  have hr : Reachable p.fixResonances.2 := .step .fixResonances (.init hp)
  have hk := C48_only_free hr fitNucleonCSIterative.use_handpicked_bounds fitNucleonCSIterative.perturbation_size
    (some fitNucleonCSIterative.perturbation_size_resonances) random
  refine ⟨_, ⟨p, p.fixResonances.2, hp, Prod.ext h3 rfl, Prod.ext h4 rfl⟩, hk.1, hD.symm, ?_⟩
  rw [← hw]; simp

/-- The start does what `NucleonStartsWith` says. -/
theorem nucleonStart_run {random : ℕ → ℝ} {pion_mass proton_mass proton_magnetic_moment neutron_magnetic_moment : ℝ} {p : ModelParameters ℝ}
    (h : NucleonStartsWith random pion_mass proton_mass proton_magnetic_moment neutron_magnetic_moment p) (w : World) :
    fitNucleonStart random pion_mass proton_mass proton_magnetic_moment neutron_magnetic_moment w =
      (.ok w.heap.length, { w with heap := w.heap ++ [p] }) := by
  obtain ⟨p₀, p₁, h0, h1, h2⟩ := h
  unfold fitNucleonStart
  rw [h0, PyM.bind_ok (PyM.lift_run _ _), PyM.bind_ok (newParams_run p₀ w)]
  have hm : mutateParams w.heap.length (fun p => p.fixResonances) { w with heap := w.heap ++ [p₀] } = (.ok (), { w with heap := w.heap ++ [p₁] }) := by
    rw [mutateParams_run (p := p₀) (by simp), h1]
    dsimp only
    congr 2
    simp
  have hm' : mutateParams w.heap.length (fun p => perturbModelParameters p fitNucleonCSIterative.perturbation_size
      (some fitNucleonCSIterative.perturbation_size_resonances) fitNucleonCSIterative.use_handpicked_bounds random)
      { w with heap := w.heap ++ [p₁] } = (.ok (), { w with heap := w.heap ++ [p] }) := by
    rw [mutateParams_run (p := p₁) (by simp), h2]
    dsimp only
    congr 2
    simp
  rw [PyM.bind_ok hm, PyM.bind_ok hm', PyM.pure_run]

theorem nucleon_f_inv {env : Env} {random : ℕ → ℝ} {pion_mass proton_mass proton_magnetic_moment neutron_magnetic_moment alpha hc_squared : ℝ}
    {a b c : List ℝ} {path name : String} {w w' : World} {best : BestFit}
    (h : fitNucleonF env random pion_mass proton_mass proton_magnetic_moment neutron_magnetic_moment alpha hc_squared a b c path name w = (.ok best, w')) :
    ∃ (p : ModelParameters ℝ) (ts : List Datapoint) (ys errors : List ℝ) (s' : Pipeline),
      NucleonStartsWith random pion_mass proton_mass proton_magnetic_moment neutron_magnetic_moment p ∧ Reachable p ∧
      w.fs.exists (pathJoin path name) = false ∧ s'.best_fit = best ∧
      Pipeline.runNucleonCSIterative ⟨fitNucleonCSIterative.kind, name, w.heap.length, [], ts, ys, errors, pathJoin path name, false,
        fitNucleonCSIterative.use_handpicked_bounds, ⟨proton_mass, alpha, hc_squared⟩, "Report " ++ name ++ ":\n", .nothing⟩ env nucleonRounds
        { w with heap := w.heap ++ [p], fs := { w.fs with dirs := fun q => q == pathJoin path name || w.fs.dirs q } } = (.ok s', w') := by
  unfold fitNucleonF at h
  obtain ⟨ref, w₁, h1, hA⟩ := PyM.bind_eq_ok.mp h
  obtain ⟨p, hp, hr, rfl, hw1⟩ := nucleonStart_ok h1
  obtain ⟨⟨ts, ys, errors⟩, w₄, h4, hD⟩ := PyM.bind_eq_ok.mp hA
  rw [PyM.lift_run] at h4
  injection h4 with hprep hw
  subst hw
  obtain ⟨s, w₅, h5, hE⟩ := PyM.bind_eq_ok.mp hD
  obtain ⟨-, hs5⟩ := pipelineInit_inv h5
  obtain ⟨k1, k2, k3⟩ := setUp_inv h5
  obtain ⟨s', w₆, h6, hF⟩ := PyM.bind_eq_ok.mp hE
  rw [PyM.pure_run] at hF
  injection hF with hF hw6
  injection hF with hF
  subst hw6
  rw [hw1] at k1 k3
  refine ⟨p, ts, ys, errors, s', hp, hr, k1, hF, ?_⟩
  rw [k3, hs5] at h6
  exact h6

def nucleonSpec (env : Env) (its : Iterations) : RunSpec NucleonRecord :=
  ⟨(·.result), fun run => run.messages env its ++ run.residualMessages env, fun name dir before run fs => run.Left env name dir before its fs⟩

theorem nucleonSpec_stable (env : Env) (its : Iterations) : (nucleonSpec env its).Stable := by
  intro name dir before run fs fs' h hf hd
  refine ⟨hd h.made, h.starts, h.names, h.outcomes, h.residual, h.best, fun k r hr => ?_, ?_⟩
  · rw [hf _ (task_inside dir k)]
    exact h.files k r hr
  · obtain ⟨rest, h1, h2⟩ := h.log
    exact ⟨rest, by rw [hf _ (report_inside dir)]; exact h1, h2⟩

theorem nucleon_call {env : Env} (hstr : ∀ x, env.strFloat x ≠ "")
    {random : ℕ → ℝ} {pion_mass proton_mass proton_magnetic_moment neutron_magnetic_moment alpha hc_squared : ℝ} {a b c : List ℝ}
    {base stem : String} (hd : base ≠ "") (hd' : ¬ ['/'] <:+ base.toList) (hst : '/' ∉ stem.toList) (i : ℕ) {w w' : World} (hg : w.Good) {best : BestFit}
    (h : fitNucleonF env random pion_mass proton_mass proton_magnetic_moment neutron_magnetic_moment alpha hc_squared a b c base (stem ++ toString i) w =
      (.ok best, w')) :
    ∃ run : NucleonRecord, run.result = best ∧
      (∃ p, NucleonStartsWith random pion_mass proton_mass proton_magnetic_moment neutron_magnetic_moment p ∧ run.initial = p.toList) ∧
      CallLeft (nucleonSpec env nucleonRounds) base stem i run w w' := by
  obtain ⟨p, ts, ys, errors, s', h0, hr, h2, h3, h4⟩ := nucleon_f_inv h
  obtain ⟨hdir, hpath⟩ := runDir_paths hd hd' hst i
  rw [hdir] at h2 h4
  generalize hself : (⟨fitNucleonCSIterative.kind, stem ++ toString i, w.heap.length, [], ts, ys, errors, base ++ "/" ++ stem ++ toString i, false,
    fitNucleonCSIterative.use_handpicked_bounds, ⟨proton_mass, alpha, hc_squared⟩, "Report " ++ (stem ++ toString i) ++ ":\n", .nothing⟩ : Pipeline) = self at h4
  generalize hw5 : ({ w with heap := w.heap ++ [p], fs := { w.fs with dirs := fun q => q == base ++ "/" ++ stem ++ toString i || w.fs.dirs q } } : World) = w₅ at h4
  have g5 : w₅.Good := by rw [← hw5]; exact hg.append hr
  have hgood := runNucleonCSIterative_good self env nucleonRounds w₅ g5
  rw [h4] at hgood
  generalize hits : nucleonRounds = its at h4
  obtain ⟨q, rs, full, res, rest, k1, k2, k3, k3', k4, k5, k6, k7, k8⟩ := runNucleonCSIterative_ok g5 h4
  have hm : List.Forall₂ (fun r n => r.Made env n) (rs.map Prod.snd ++ [full, res])
      (taskNames 0 (its.free_params_numbers.map fun _ => self.kind.fixAccording) ++
        ["Task#" ++ toString its.free_params_numbers.length ++ ":" ++ fullFitName its,
          "Task#" ++ toString (its.free_params_numbers.length + 1) ++ ":" ++ TaskClass.residual.pyName]) :=
    List.rel_append (forall₂_snd k2) (.cons k3 (.cons k3' .nil))
  obtain ⟨⟨chis', r1⟩, r2⟩ := reported_of_traced k5 hm
  rw [taskNames_nucleon] at r1
  obtain ⟨chis, c1⟩ := made_says (List.rel_append (forall₂_snd k2) (.cons k3 .nil))
  obtain ⟨rchi, c2⟩ := made_says (.cons k3' .nil)
  obtain ⟨x, -, c3, -, -⟩ := List.forall₂_cons_left_iff.mp c2
  obtain ⟨f1, f2⟩ := hpath self (by rw [← hself])
  have hq : q = p := by
    rw [← hw5, ← hself] at k1
    simpa using k1.symm
  subst hq
  have hname : self.name = stem ++ toString i := by rw [← hself]
  have hlen : rs.length = its.free_params_numbers.length := by
    have := k2.length_eq
    rw [this, taskNames_length, List.length_map]
  have hb := best_of_texts c1 (foldl_best self.name _ (says_nonempty hstr c1))
  rw [show BestFit.nothing = self.best_fit by rw [← hself], ← k4, h3, hname] at hb
  have hmsg : (("Starting. Initial parameters: " ++ env.strParameters q.toList) ::
        (taskMessages env ". Free parameters: " 0 rs ++ ["Initializing Task#" ++ toString its.free_params_numbers.length ++ ". " ++ fullFitName its ++ ".",
          "Running " ++ full.name, full.name ++ " report: " ++ env.strReport full, "Best fit: " ++ env.strBestFit s'.best_fit])) =
      NucleonRecord.messages ⟨q.toList, rs.map Prod.fst, rs.map Prod.snd, full, res, chis, x, best⟩ env its := by
    unfold NucleonRecord.messages
    rw [← List.zip_of_prod (xs := rs) rfl rfl, List.length_map, hlen, h3]
  have hlost : ["Initializing Task#" ++ toString (its.free_params_numbers.length + 1) ++ ". Residuals.", "Running " ++ res.name,
          res.name ++ " report: " ++ env.strReport res] =
      NucleonRecord.residualMessages ⟨q.toList, rs.map Prod.fst, rs.map Prod.snd, full, res, chis, x, best⟩ env := by
    unfold NucleonRecord.residualMessages
    rw [List.length_map, hlen]
  rw [hmsg] at k7 k8 k5
  rw [hlost] at k5
  refine ⟨⟨q.toList, rs.map Prod.fst, rs.map Prod.snd, full, res, chis, x, best⟩, rfl, ⟨q, h0, rfl⟩, hgood, ⟨?_, ?_, r1.names, c1, c3, hb, ?_, ?_⟩, ?_, ?_, ?_⟩
  · rw [k5.dirs, ← hw5]; simp
  · rw [List.length_map, hlen]
  · intro k r hr
    rw [← f2]
    exact r1.files k r hr
  · refine ⟨rest, ?_, k7, ?_⟩
    · rw [← f1, k6]
      unfold Pipeline.text runLog
      rw [f1, ← hw5, ← hself]
      simp only [String.append_assoc]
    · rw [k8, hlen]; rfl
  · show _ = _ ++ (NucleonRecord.messages _ env _ ++ NucleonRecord.residualMessages _ env).map _
    rw [k5.printed, hname, ← hw5]
  · intro q' hq'
    rw [r2 q', ← hw5]
    · rw [f1]
      rintro rfl
      apply hq'
      exact report_inside _
    · intro k hk'
      rw [f2]
      rintro rfl
      apply hq'
      exact task_inside _ _
  · intro q'
    rw [k5.dirs, ← hw5]

/-- The same for the calls of the script with its data. -/
theorem nucleon_calls {env : Env} (hs : env.Samples) (hstr : ∀ x, env.strFloat x ≠ "")
    {pion_mass proton_mass proton_magnetic_moment neutron_magnetic_moment alpha hc_squared : ℝ} {data : List (ℝ × ℝ × ℝ)}
    {base stem : String} (hd : base ≠ "") (hd' : ¬ ['/'] <:+ base.toList) (hst : '/' ∉ stem.toList) (random : ℕ → ℕ → ℝ) (i : ℕ) (w : World) (b : BestFit)
    (w' : World) (hg : w.Good)
    (h : fitNucleonF env (random i) pion_mass proton_mass proton_magnetic_moment neutron_magnetic_moment alpha hc_squared (data.map (·.1))
      (data.map (·.2.1)) (data.map (·.2.2)) base (stem ++ toString i) w = (.ok b, w')) :
    ∃ run : NucleonRecord, run.result = b ∧
      ((∃ p, NucleonStartsWith (random i) pion_mass proton_mass proton_magnetic_moment neutron_magnetic_moment p ∧ run.initial = p.toList) ∧
        run.result.TrueOf env.strFloat (.crossSection proton_mass alpha hc_squared) .nucleon (data.map fun q => (.nucleon (q.1 : ℝ) true true, q.2))) ∧
      CallLeft (nucleonSpec env nucleonRounds) base stem i run w w' := by
  obtain ⟨run, h1, h2, h3⟩ := nucleon_call hstr hd hd' hst i hg h
  exact ⟨run, h1, ⟨h2, by rw [h1]; exact C96_nucleon_script hs hstr hg h⟩, h3⟩

/-! ### Exceptions -/

theorem nucleon_existing {env : Env} {random : ℕ → ℝ} (hr : ∀ k, 0 < random k ∧ random k < 1) {pion_mass : ℝ} (hp : 0 ≤ pion_mass ∧ pion_mass ≤ 0.24)
    (proton_mass proton_magnetic_moment neutron_magnetic_moment alpha hc_squared : ℝ) {data : List (ℝ × ℝ × ℝ)} (hne : data ≠ [])
    {path name : String} {w : World} (hdir : w.fs.exists (pathJoin path name) = true) :
    ∃ w', fitNucleonF env random pion_mass proton_mass proton_magnetic_moment neutron_magnetic_moment alpha hc_squared (data.map (·.1))
      (data.map (·.2.1)) (data.map (·.2.2)) path name w = (.error .valueError, w') ∧ w'.fs = w.fs ∧ w'.stdout = w.stdout := by
  obtain ⟨p, -, hstart, -⟩ := C79_nucleon_start hr hp proton_mass proton_magnetic_moment neutron_magnetic_moment w
  obtain ⟨out, hout, -⟩ := C58_nucleon data [] [] [] (.inl hne)
  simp only [List.map_nil] at hout
  refine ⟨{ w with heap := w.heap ++ [p] }, ?_, rfl, rfl⟩
  unfold fitNucleonF
  rw [PyM.bind_ok hstart, hout, PyM.bind_ok (PyM.lift_run _ _)]
  exact PyM.bind_error (C60_existing env _ _ _ _ _ _ _ _ _ _ _ _ hdir)

/-- If the runs one after the other raise, a call has raised. -/
theorem calls_errors {env : Env} {f : ℕ → String → PyM World BestFit} {base stem : String} {R : Type} {S : RunSpec R} {Q : ℕ → R → Prop}
    (hcall : ∀ i w b w', w.Good → f i (stem ++ toString i) w = (.ok b, w') → ∃ run : R, S.result run = b ∧ Q i run ∧ CallLeft S base stem i run w w')
    {E : PyErr → Prop} {N : ℕ} (herr : ∀ i < N, ∀ w : World, w.fs.exists (base ++ "/" ++ stem ++ toString i) = false → ∀ e w',
      f i (stem ++ toString i) w = (.error e, w') → E e) (n : ℕ) :
    ∀ (i : ℕ) (w : World), i + n ≤ N → w.Good → (∀ k < n, w.fs.exists (base ++ "/" ++ stem ++ toString (i + k)) = false) →
      ∀ e w', runsFrom env f stem i n w = (.error e, w') → E e := by
  induction n with
  | zero =>
    intro i w _ _ _ e w' h
    unfold runsFrom at h
    rw [PyM.pure_run] at h
    cases h
  | succ n ih =>
    intro i w hN hg hex e w' h
    unfold runsFrom at h
    rcases h1 : f i (stem ++ toString i) w with ⟨e' | b, w₁⟩
    · rw [PyM.bind_error h1] at h
      injection h with h _
      injection h with h
      subst h
      exact herr i (by omega) w (hex 0 (by omega)) _ _ h1
    · obtain ⟨run, -, -, c⟩ := hcall _ _ _ _ hg h1
      rw [PyM.bind_ok h1, PyM.bind_ok (show pyPrint (env.strBestFit b) w₁ = (.ok (), { w₁ with stdout := w₁.stdout ++ [env.strBestFit b] }) from rfl)] at h
      rcases h2 : runsFrom env f stem (i + 1) n { w₁ with stdout := w₁.stdout ++ [env.strBestFit b] } with ⟨e' | rs, w₂⟩
      · rw [PyM.bind_error h2] at h
        injection h with h _
        injection h with h
        subst h
        refine ih (i + 1) { w₁ with stdout := w₁.stdout ++ [env.strBestFit b] } (by omega) c.good (fun k hk => ?_) _ _ h2
        show w₁.fs.exists _ = false
        refine exists_later (by omega) c ?_
        rw [show i + 1 + k = i + (k + 1) by omega]
        exact hex (k + 1) (by omega)
      · rw [PyM.bind_ok h2, PyM.pure_run] at h
        cases h

/-- What is needed of the shipped proton data. -/
theorem proton_rows {data : List (ℝ × ℝ × ℝ)} (h : FileHolds protonCSExtended data) :
    37 < data.length ∧ (∀ d ∈ data, 4 * (0.938272 : ℝ) ^ 2 < d.1 ∧ 0 < d.2.1 ∧ d.2.2 ≠ 0) ∧
      ∃ d ∈ data, d.1 / (2 * (0.938272 : ℝ)) - 0.938272 < Real.sqrt (25 + 0.938272 ^ 2) := by
  obtain ⟨h1, -, -⟩ := file_data protonCSExtended_table protonCSExtended_test
  obtain ⟨data', h', h2, h3⟩ := protonFile_data
  obtain rfl := fileHolds_unique h h'
  refine ⟨by rw [h2]; norm_num, fun d hd => ⟨(h3 d hd).1, (h3 d hd).2.1, (h3 d hd).2.2.ne'⟩, ?_⟩
  rw [fileHolds_unique h h1]
  refine ⟨rowValues (⟨1, 8, 356643225⟩, ⟨1, 8, 80600000⟩, ⟨1, 8, 5491812⟩), List.mem_map_of_mem (by exact List.mem_cons_self), ?_⟩
  refine lt_of_lt_of_le (b := 5) ?_ (Real.le_sqrt_of_sq_le (by norm_num))
  unfold rowValues Numeral.value
  norm_num

/-- The names of the last two tasks of the script. -/
theorem nucleon_lastNames {reports : List Report} {full residual : Report} (h : (reports ++ [full, residual]).map (·.name) = nucleonTaskNames nucleonRounds) :
    reports.length = 175 ∧ full.name = "Task#175:Full fit (Fixed resonances)" ∧ residual.name = "Task#176:ResidualOscillationsTask" := by
  have hl : (nucleonTaskNames nucleonRounds).length = 177 := by decide +kernel
  have h1 : (nucleonTaskNames nucleonRounds)[175]? = some "Task#175:Full fit (Fixed resonances)" := by decide +kernel
  have h2 : (nucleonTaskNames nucleonRounds)[176]? = some "Task#176:ResidualOscillationsTask" := by decide +kernel
  rw [← h, List.length_map, List.length_append] at hl
  have hn : reports.length = 175 := by simpa using hl
  rw [← h, List.getElem?_map, List.getElem?_append_right (by omega), hn] at h1 h2
  exact ⟨hn, Option.some.inj h1, Option.some.inj h2⟩

end UA
