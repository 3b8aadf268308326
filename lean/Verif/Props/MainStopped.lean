import Verif.Lemmas.MainStoppedWitness

/-!
# C102: the scripts with several runs when calls raise
-/

namespace UA

/-- **C102** a kaon script that makes its calls one after the other, whenever it ends with an exception: the calls before the one that raised are complete runs,
documented as in C97, with results true of the data. The call that raised was refused, because of its start, its data or its directory, and has
left nothing, or it left in its own, new directory what it had done before the exception. No call was made after it, nothing else has changed in the
file system, and printed are the messages of the calls and the results of the complete runs, but no best fit. -/
theorem C102_runs {script : FitScript} (hkind : script.kind ≠ .nucleonCS) {env : Env} (hs : env.Samples) (hstr : ∀ x, env.strFloat x ≠ "")
    {random : ℕ → ℕ → ℝ} {pion_mass : ℝ} {constants : Constants} {charged neutral : List (ℝ × ℝ × ℝ)} {base stem : String} (hd : base ≠ "")
    (hd' : ¬ ['/'] <:+ base.toList) (hst : '/' ∉ stem.toList) {n few : ℕ} {w w' : World} (hreach : ∀ p ∈ w.heap, Reachable p) {e : PyErr}
    (h : bestOfRuns env (fun i name => script.f env (random i) pion_mass constants (charged.map (·.1)) (charged.map (·.2.1)) (charged.map (·.2.2))
      (neutral.map (·.1)) (neutral.map (·.2.1)) (neutral.map (·.2.2)) base name) stem n few w = (.error e, w')) :
    ∃ (runs : List IterativeRun) (last : Outcome IterativeRun), runs.length < n ∧ last.error = some e ∧
      (∀ i run, runs[i]? = some run → (∃ p, script.StartsWith (random i) pion_mass p ∧ run.initial = p.toList) ∧
        run.result.TrueOf env.strFloat (script.fitted constants) script.cls (kaonPoints charged neutral)) ∧
      (∀ run, last = .stopped e run → script.StartsWith (random runs.length) pion_mass run.start ∧
        run.Iterative env script.kind (freeParamsNumbers script.nr_free_params script.nr_iterations)) ∧
      OutcomesLeft (fun name dir before run fs => run.Left env name dir before script.kind (freeParamsNumbers script.nr_free_params script.nr_iterations) fs)
        (numberedNames (iterativeClassNames script.kind (freeParamsNumbers script.nr_free_params script.nr_iterations)))
        (script.Refuses env random pion_mass charged neutral base stem) env base stem (runs.map .complete ++ [last]) w.fs w'.fs ∧
      w'.stdout = w.stdout ++ outcomesPrinted (fun run => run.messages env) (fun run => [env.strBestFit run.result]) stem (runs.map .complete ++ [last]) := by
  obtain ⟨runs, last, h1, h2, h3, h4, h5⟩ := runs_stopped (iterativeSpec_stable env script.kind (freeParamsNumbers script.nr_free_params script.nr_iterations))
    (kaon_tried hkind hs hstr hd hd' hst random) hreach h
  refine ⟨runs, last, h1, h2, fun i run hi => (h3 i (.complete run) ?_).1 run rfl, fun run hrun => (h3 runs.length last ?_).2 e run hrun, h4, h5⟩
  · rw [List.getElem?_append_left (by simpa using List.getElem?_eq_some_iff.mp hi |>.1), List.getElem?_map, hi]; rfl
  · rw [List.getElem?_append_right (by simp)]; simp

/-- **C102** the same for the scripts that make their calls in other processes: all calls are made, whatever raises; each has left what it did in its own
directory; the script raises the first of the exceptions, when all calls are done and the results before it have been printed. -/
theorem C102_pool {script : FitScript} (hkind : script.kind ≠ .nucleonCS) {env : Env} (hs : env.Samples) (hstr : ∀ x, env.strFloat x ≠ "")
    {random : ℕ → ℕ → ℝ} {pion_mass : ℝ} {constants : Constants} {charged neutral : List (ℝ × ℝ × ℝ)} {base stem : String} (hd : base ≠ "")
    (hd' : ¬ ['/'] <:+ base.toList) (hst : '/' ∉ stem.toList) {n few : ℕ} {w w' : World} (hreach : ∀ p ∈ w.heap, Reachable p) {e : PyErr}
    (h : bestOfPool env (fun i name => script.f env (random i) pion_mass constants (charged.map (·.1)) (charged.map (·.2.1)) (charged.map (·.2.2))
      (neutral.map (·.1)) (neutral.map (·.2.1)) (neutral.map (·.2.2)) base name) stem n few w = (.error e, w')) :
    ∃ (runs : List IterativeRun) (first : Outcome IterativeRun) (others outcomes : List (Outcome IterativeRun)),
      outcomes = runs.map .complete ++ first :: others ∧ outcomes.length = n ∧ first.error = some e ∧
      (∀ i run, outcomes[i]? = some (.complete run) → (∃ p, script.StartsWith (random i) pion_mass p ∧ run.initial = p.toList) ∧
        run.result.TrueOf env.strFloat (script.fitted constants) script.cls (kaonPoints charged neutral)) ∧
      (∀ i e run, outcomes[i]? = some (.stopped e run) → script.StartsWith (random i) pion_mass run.start ∧
        run.Iterative env script.kind (freeParamsNumbers script.nr_free_params script.nr_iterations)) ∧
      OutcomesLeft (fun name dir before run fs => run.Left env name dir before script.kind (freeParamsNumbers script.nr_free_params script.nr_iterations) fs)
        (numberedNames (iterativeClassNames script.kind (freeParamsNumbers script.nr_free_params script.nr_iterations)))
        (script.Refuses env random pion_mass charged neutral base stem) env base stem outcomes w.fs w'.fs ∧
      w'.stdout = w.stdout ++ outcomesPrinted (fun run => run.messages env) (fun _ => []) stem outcomes ++ runs.map fun run => env.strBestFit run.result := by
  obtain ⟨runs, first, others, h1, h2, h3, h4, h5⟩ := pool_stopped
    (iterativeSpec_stable env script.kind (freeParamsNumbers script.nr_free_params script.nr_iterations)) (kaon_tried hkind hs hstr hd hd' hst random) hreach h
  exact ⟨runs, first, others, _, rfl, h1, h2, fun i run hi => (h3 i _ hi).1 run rfl, fun i e run hi => (h3 i _ hi).2 e run rfl, h4, h5⟩

/-- **C102** for the nucleon script. When the residual fit did not end, the full fit and the best fit before it have been written. -/
theorem C102_nucleon {env : Env} (hs : env.Samples) (hstr : ∀ x, env.strFloat x ≠ "") {random : ℕ → ℕ → ℝ}
    {pion_mass proton_mass proton_magnetic_moment neutron_magnetic_moment alpha hc_squared : ℝ} {data : List (ℝ × ℝ × ℝ)} {base stem : String}
    (hd : base ≠ "") (hd' : ¬ ['/'] <:+ base.toList) (hst : '/' ∉ stem.toList) {n few : ℕ} {w w' : World} (hreach : ∀ p ∈ w.heap, Reachable p) {e : PyErr}
    (h : bestOfRuns env (fun i name => fitNucleonF env (random i) pion_mass proton_mass proton_magnetic_moment neutron_magnetic_moment alpha hc_squared
      (data.map (·.1)) (data.map (·.2.1)) (data.map (·.2.2)) base name) stem n few w = (.error e, w')) :
    ∃ (runs : List NucleonRecord) (last : Outcome NucleonRecord), runs.length < n ∧ last.error = some e ∧
      (∀ i run, runs[i]? = some run →
        (∃ p, NucleonStartsWith (random i) pion_mass proton_mass proton_magnetic_moment neutron_magnetic_moment p ∧ run.initial = p.toList) ∧
        run.result.TrueOf env.strFloat (.crossSection proton_mass alpha hc_squared) .nucleon (data.map fun q => (.nucleon (q.1 : ℝ) true true, q.2))) ∧
      (∀ run, last = .stopped e run →
        NucleonStartsWith (random runs.length) pion_mass proton_mass proton_magnetic_moment neutron_magnetic_moment run.start ∧
        run.Nucleon env (stem ++ toString runs.length) nucleonRounds) ∧
      OutcomesLeft (fun name dir before run fs => run.Left env name dir before nucleonRounds fs) (nucleonTaskNames nucleonRounds)
        (NucleonRefuses env random pion_mass proton_mass proton_magnetic_moment neutron_magnetic_moment data base stem) env base stem
        (runs.map .complete ++ [last]) w.fs w'.fs ∧
      w'.stdout = w.stdout ++ outcomesPrinted (fun run => run.messages env nucleonRounds ++ run.residualMessages env)
        (fun run => [env.strBestFit run.result]) stem (runs.map .complete ++ [last]) := by
  obtain ⟨runs, last, h1, h2, h3, h4, h5⟩ := runs_stopped (nucleonSpec_stable env nucleonRounds) (nucleon_tried hs hstr hd hd' hst random) hreach h
  refine ⟨runs, last, h1, h2, fun i run hi => (h3 i (.complete run) ?_).1 run rfl, fun run hrun => (h3 runs.length last ?_).2 e run hrun, h4, h5⟩
  · rw [List.getElem?_append_left (by simpa using List.getElem?_eq_some_iff.mp hi |>.1), List.getElem?_map, hi]; rfl
  · rw [List.getElem?_append_right (by simp)]; simp

/-- A library that raises `TypeError`: all hypotheses are met, for any number of calls. -/
example {script : FitScript} (hs : script ∈ kaonIterativeScripts) (n few : ℕ) :
    let f := fun (_ : ℕ) name => script.f raisingEnv (fun _ => 1 / 2) 0.13957 ⟨1, 1, 1⟩ (fiftyCharged.map (·.1)) (fiftyCharged.map (·.2.1))
      (fiftyCharged.map (·.2.2)) (tenNeutral.map (·.1)) (tenNeutral.map (·.2.1)) (tenNeutral.map (·.2.2)) "reports" name
    script.kind ≠ .nucleonCS ∧ raisingEnv.Samples ∧ (∀ x, raisingEnv.strFloat x ≠ "") ∧ (∀ p ∈ (startWorld []).heap, Reachable p) ∧
    (∃ e w', bestOfRuns raisingEnv f "run" (n + 1) few (startWorld []) = (.error e, w')) ∧
    ∃ e w', bestOfPool raisingEnv f "run" (n + 1) few (startWorld []) = (.error e, w') := by
  intro f
  refine ⟨?_, raisingEnv_samples, fun _ => (by show "1" ≠ ""; decide), fun p hp => (by cases hp), best_raises (fun i name w b w' h => ?_) n few _⟩
  · simp only [kaonIterativeScripts, List.mem_cons, List.not_mem_nil, or_false] at hs
    rcases hs with rfl | rfl | rfl <;> decide
  · obtain ⟨_, _, _, _, _, s', _, _, _, _, h4⟩ := script_f_inv h
    exact raising_runIterative h4

/-- The same for nucleons. -/
example (n few : ℕ) : raisingEnv.Samples ∧ (∀ x, raisingEnv.strFloat x ≠ "") ∧ (∀ p ∈ (startWorld []).heap, Reachable p) ∧
    ∃ e w', bestOfRuns raisingEnv (fun _ name => fitNucleonF raisingEnv (fun _ => 1 / 2) 0.14 0.94 2.79 (-1.91) 1 1
      ((fortySame 5).map (·.1)) ((fortySame 5).map (·.2.1)) ((fortySame 5).map (·.2.2)) "reports" name) "run" (n + 1) few (startWorld []) = (.error e, w') := by
  refine ⟨raisingEnv_samples, fun _ => (by show "1" ≠ ""; decide), fun p hp => (by cases hp), (best_raises (fun i name w b w' h => ?_) n few _).1⟩
  obtain ⟨_, _, _, _, s', _, _, _, _, h4⟩ := nucleon_f_inv h
  exact raising_runNucleon h4

/-- **C102** the three kaon scripts refuse a call only because of its directory, if there are charged points and the draws are between 0 and 1. -/
theorem C102_refused {script : FitScript} (hs : script ∈ kaonIterativeScripts) {env : Env} {random : ℕ → ℕ → ℝ} {i : ℕ}
    (hr : ∀ k, 0 < random i k ∧ random i k < 1) {pion_mass : ℝ} (hp : 0 ≤ pion_mass ∧ pion_mass ≤ 0.24) {charged neutral : List (ℝ × ℝ × ℝ)}
    (hch : charged ≠ []) {base stem : String} {e : PyErr} (h : script.Refuses env random pion_mass charged neutral base stem i e) :
    env.mkdirFails (base ++ "/" ++ stem ++ toString i) = true ∧ e = .exception := by
  rcases h with h | h | h
  · obtain ⟨p₀, h0, hg, -⟩ := script_make (kaonIterative_mem hs) (scriptConstants_kaon hs hp)
    obtain ⟨p, h1, -⟩ := script_perturb (kaonIterative_mem hs) hg hr
    exact absurd ⟨p, p₀, h0, h1⟩ h
  · exact absurd (List.append_eq_nil_iff.mp h).1 hch
  · exact h

/-- No directory can be made. -/
example (script : FitScript) : script.Refuses { idleEnv ∅ with mkdirFails := fun _ => true } (fun _ _ => 1 / 2) 0.14 fiftyCharged [] "reports" "run" 0
    .exception := .inr (.inr ⟨rfl, rfl⟩)

/-- **C102** when the directory of call number `k` exists and the calls before it can complete (as in C97), both kinds of scripts raise `ValueError`. By
`C102_runs` the runs before it are then complete, and by `C102_pool` also all calls after it have been made. -/
theorem C102_existing {script : FitScript} (hs : script ∈ kaonIterativeScripts) {env : Env} (hsamp : env.Samples) (hstr : ∀ x, env.strFloat x ≠ "")
    {charged neutral : List (ℝ × ℝ × ℝ)} (hfit : env.FitsInside {t | ∃ d ∈ charged ++ neutral, t = d.1}) (hplot : ∀ k, env.plot k = .ok ())
    {random : ℕ → ℕ → ℝ} {k n : ℕ} (hk : k < n) (hr : ∀ i ≤ k, ∀ j, 0 < random i j ∧ random i j < 1) {pion_mass : ℝ} (hp : 0 ≤ pion_mass ∧ pion_mass ≤ 0.24)
    (hav : ∀ i < k, ∀ p, script.StartsWith (random i) pion_mass p → p.Avoids {t | ∃ d ∈ charged ++ neutral, t = d.1}) (constants : Constants)
    (hch : charged ≠ []) (hpos : ∀ d ∈ charged ++ neutral, 0 < d.1 ∧ d.2.2 ≠ 0) (hlen : script.literals.length + 2 < (charged ++ neutral).length)
    {base stem : String} (hd : base ≠ "") (hd' : ¬ ['/'] <:+ base.toList) (hst : '/' ∉ stem.toList) {w : World} (hreach : ∀ p ∈ w.heap, Reachable p)
    (hdir : ∀ i < k, w.fs.exists (base ++ "/" ++ stem ++ toString i) = false ∧ env.mkdirFails (base ++ "/" ++ stem ++ toString i) = false)
    (hex : w.fs.exists (base ++ "/" ++ stem ++ toString k) = true) (few : ℕ) :
    let f := fun i name => script.f env (random i) pion_mass constants (charged.map (·.1)) (charged.map (·.2.1)) (charged.map (·.2.2))
      (neutral.map (·.1)) (neutral.map (·.2.1)) (neutral.map (·.2.2)) base name
    (∃ w', bestOfRuns env f stem n few w = (.error .valueError, w')) ∧ ∃ w', bestOfPool env f stem n few w = (.error .valueError, w') := by
  have hkind : script.kind ≠ .nucleonCS := by
    simp only [kaonIterativeScripts, List.mem_cons, List.not_mem_nil, or_false] at hs
    rcases hs with rfl | rfl | rfl <;> decide
  intro f
  refine best_existing (S := iterativeSpec env script.kind (freeParamsNumbers script.nr_free_params script.nr_iterations))
    (kaon_tried hkind hsamp hstr hd hd' hst random) (fun i hi w hw => ?_) (fun w hw => ?_) hk hreach (fun i hi => (hdir i hi).1) hex
  · have hpath := (runDir_paths hd hd' hst i).1
    obtain ⟨p₀, h0, hg, -⟩ := script_make (kaonIterative_mem hs) (scriptConstants_kaon hs hp)
    obtain ⟨p, h1, -⟩ := script_perturb (kaonIterative_mem hs) hg (hr i hi.le)
    exact C79_completes hs (hr i hi.le) hp h0 h1 constants (hav i hi p ⟨p₀, h0, h1⟩) hch hpos hlen (by rw [hpath]; exact hw) (by rw [hpath]; exact (hdir i hi).2)
      hfit hplot hsamp
  · obtain ⟨w', h1, -⟩ := call_existing (env := env) hs (hr k le_rfl) hp constants (neutral := neutral) hch (path := base) (name := stem ++ toString k) (w := w)
      (by rw [(runDir_paths hd hd' hst k).1]; exact hw)
    exact ⟨w', h1⟩

/-- The directory of the third call is there, and the two before it complete. -/
example {script : FitScript} (hs : script ∈ kaonIterativeScripts) (n few : ℕ) (hn : 2 < n) :
    let env := idleEnv {t | ∃ d ∈ fiftyCharged ++ tenNeutral, t = d.1}
    let f := fun (_ : ℕ) name => script.f env (fun _ => 1 / 2) 0.13957 ⟨1, 1, 1⟩ (fiftyCharged.map (·.1)) (fiftyCharged.map (·.2.1))
      (fiftyCharged.map (·.2.2)) (tenNeutral.map (·.1)) (tenNeutral.map (·.2.1)) (tenNeutral.map (·.2.2)) "reports" name
    let w : World := { startWorld [] with fs := ⟨fun q => q == "reports/run2", fun _ => none⟩ }
    (∃ w', bestOfRuns env f "run" n few w = (.error .valueError, w')) ∧ ∃ w', bestOfPool env f "run" n few w = (.error .valueError, w') := by
  intro env f w
  exact C102_existing hs (idleEnv_samples _) (fun _ => (by show "1" ≠ ""; decide)) (idleEnv_fits {t | ∃ d ∈ fiftyCharged ++ tenNeutral, t = d.1})
    (fun _ => rfl) (random := fun _ _ => 1 / 2) hn (fun _ _ _ => by norm_num) (pion_mass := 0.13957) (by norm_num)
    (fun _ _ => half_avoids hs (by norm_num) (by rintro ⟨d, hd, h⟩; linarith [(sixty_from_ten d hd).1])) ⟨1, 1, 1⟩
    (by simp [fiftyCharged, List.range_succ]) (fun d hd => ⟨by linarith [(sixty_from_ten d hd).1], (sixty_from_ten d hd).2⟩)
    (by simpa [fiftyCharged, tenNeutral] using (literals_small hs).2) (base := "reports") (stem := "run") (by decide) (by decide) (by decide)
    (w := w) (by intro p hp; cases hp) (fun i hi => ⟨by interval_cases i <;> decide, rfl⟩) (by decide) few

end UA
