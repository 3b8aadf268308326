import Verif.Lemmas.MainRuns
import Verif.Lemmas.Shipped

/-!
# Property C97: the scripts with several runs
-/

namespace UA

/-- **C97** the runs of a script one after the other, whenever they complete: every run starts with its own perturbed parameters, its result is
true of the data, every run is completely documented in its own directory at the end, nothing else has changed in the file system,
and what has been printed is for each run its messages and its result, then the best result and the few best ones. -/
theorem C97_runs {script : FitScript} (hkind : script.kind ≠ .nucleonCS) {env : Env} (hs : env.Samples) (hstr : ∀ x, env.strFloat x ≠ "")
    {random : ℕ → ℕ → ℝ} {pion_mass : ℝ} {constants : Constants} {charged neutral : List (ℝ × ℝ × ℝ)} {base stem : String} (hd : base ≠ "")
    (hd' : ¬ ['/'] <:+ base.toList) (hst : '/' ∉ stem.toList) {n few : ℕ} {w w' : World} (hreach : ∀ p ∈ w.heap, Reachable p) {best : BestFit}
    {printed : List BestFit}
    (h : bestOfRuns env (fun i name => script.f env (random i) pion_mass constants (charged.map (·.1)) (charged.map (·.2.1)) (charged.map (·.2.2))
      (neutral.map (·.1)) (neutral.map (·.2.1)) (neutral.map (·.2.2)) base name) stem n few w = (.ok (best, printed), w')) :
    ∃ runs : List IterativeRun, runs.length = n ∧
      (∀ i run, runs[i]? = some run → (∃ p, script.StartsWith (random i) pion_mass p ∧ run.initial = p.toList) ∧
        run.result.TrueOf env.strFloat (script.fitted constants) script.cls (kaonPoints charged neutral)) ∧
      RunsLeft env base stem script.kind (freeParamsNumbers script.nr_free_params script.nr_iterations) few runs best printed w.fs w'.fs ∧
      w'.stdout = w.stdout ++ runsPrinted env stem (fun b => [env.strBestFit b]) runs ++ endPrinted env best printed := by
  unfold bestOfRuns at h
  obtain ⟨results, w₁, h1, h2⟩ := PyM.bind_eq_ok.mp h
  obtain ⟨hl, hcalls⟩ := runsFrom_calls n h1
  obtain ⟨runs, r1, r2, r3, r4, r5, r6⟩ := end_left (kaon_calls hkind hs hstr hd hd' hst random) hcalls hreach rfl h2
  exact ⟨runs, r2.trans hl, r3, r4, by rw [r6, r5]⟩

/-- **C97** the same for the scripts that make their calls in other processes: the results are printed when all runs are done. -/
theorem C97_pool {script : FitScript} (hkind : script.kind ≠ .nucleonCS) {env : Env} (hs : env.Samples) (hstr : ∀ x, env.strFloat x ≠ "")
    {random : ℕ → ℕ → ℝ} {pion_mass : ℝ} {constants : Constants} {charged neutral : List (ℝ × ℝ × ℝ)} {base stem : String} (hd : base ≠ "")
    (hd' : ¬ ['/'] <:+ base.toList) (hst : '/' ∉ stem.toList) {n few : ℕ} {w w' : World} (hreach : ∀ p ∈ w.heap, Reachable p) {best : BestFit}
    {printed : List BestFit}
    (h : bestOfPool env (fun i name => script.f env (random i) pion_mass constants (charged.map (·.1)) (charged.map (·.2.1)) (charged.map (·.2.2))
      (neutral.map (·.1)) (neutral.map (·.2.1)) (neutral.map (·.2.2)) base name) stem n few w = (.ok (best, printed), w')) :
    ∃ runs : List IterativeRun, runs.length = n ∧
      (∀ i run, runs[i]? = some run → (∃ p, script.StartsWith (random i) pion_mass p ∧ run.initial = p.toList) ∧
        run.result.TrueOf env.strFloat (script.fitted constants) script.cls (kaonPoints charged neutral)) ∧
      RunsLeft env base stem script.kind (freeParamsNumbers script.nr_free_params script.nr_iterations) few runs best printed w.fs w'.fs ∧
      w'.stdout = w.stdout ++ runsPrinted env stem (fun _ => []) runs ++ (runs.map fun run => env.strBestFit run.result) ++ endPrinted env best printed := by
  unfold bestOfPool at h
  obtain ⟨rs, w₁, h1, h2⟩ := PyM.bind_eq_ok.mp h
  obtain ⟨results, w₂, h3, h4⟩ := PyM.bind_eq_ok.mp h2
  obtain ⟨rfl, hw₂⟩ := getResults_ok h3
  obtain ⟨hl, hcalls⟩ := applyAsync_calls n h1
  obtain ⟨runs, r1, r2, r3, r4, r5, r6⟩ := end_left (kaon_calls hkind hs hstr hd hd' hst random) hcalls hreach (by rw [hw₂]) h4
  refine ⟨runs, r2.trans hl, r3, r4, ?_⟩
  rw [r6, hw₂, ← r1, List.map_map]
  dsimp only
  rw [r5]
  rfl

/-- **C97** the runs complete, in both ways, if neither a start nor the fitting library uses one of the `t` of the data and the directories can be
made. -/
theorem C97_completes {script : FitScript} (hs : script ∈ kaonIterativeScripts) {env : Env} (hsamp : env.Samples) (hstr : ∀ x, env.strFloat x ≠ "")
    {charged neutral : List (ℝ × ℝ × ℝ)} (hfit : env.FitsInside {t | ∃ d ∈ charged ++ neutral, t = d.1}) (hplot : ∀ k, env.plot k = .ok ())
    {random : ℕ → ℕ → ℝ} {n : ℕ} (hr : ∀ i < n, ∀ k, 0 < random i k ∧ random i k < 1) {pion_mass : ℝ} (hp : 0 ≤ pion_mass ∧ pion_mass ≤ 0.24)
    (hav : ∀ i < n, ∀ p, script.StartsWith (random i) pion_mass p → p.Avoids {t | ∃ d ∈ charged ++ neutral, t = d.1}) (constants : Constants)
    (hch : charged ≠ []) (hpos : ∀ d ∈ charged ++ neutral, 0 < d.1 ∧ d.2.2 ≠ 0) (hlen : script.literals.length + 2 < (charged ++ neutral).length)
    {base stem : String} (hd : base ≠ "") (hd' : ¬ ['/'] <:+ base.toList) (hst : '/' ∉ stem.toList) {w : World} (hreach : ∀ p ∈ w.heap, Reachable p)
    (hdir : ∀ i < n, w.fs.exists (base ++ "/" ++ stem ++ toString i) = false ∧ env.mkdirFails (base ++ "/" ++ stem ++ toString i) = false) (few : ℕ) :
    let f := fun i name => script.f env (random i) pion_mass constants (charged.map (·.1)) (charged.map (·.2.1)) (charged.map (·.2.2))
      (neutral.map (·.1)) (neutral.map (·.2.1)) (neutral.map (·.2.2)) base name
    (∃ best printed w', bestOfRuns env f stem n few w = (.ok (best, printed), w')) ∧ ∃ best printed w', bestOfPool env f stem n few w = (.ok (best, printed), w') := by
  have hkind : script.kind ≠ .nucleonCS := by
    simp only [kaonIterativeScripts, List.mem_cons, List.not_mem_nil, or_false] at hs
    rcases hs with rfl | rfl | rfl <;> decide
  intro f
  have hdone : ∀ i < n, ∀ w : World, w.fs.exists (base ++ "/" ++ stem ++ toString i) = false → ∃ b w', f i (stem ++ toString i) w = (.ok b, w') := by
    intro i hi w hw
    have hpath := (runDir_paths hd hd' hst i).1
    obtain ⟨p₀, h0, hg, -⟩ := script_make (kaonIterative_mem hs) (scriptConstants_kaon hs hp)
    obtain ⟨p, h1, -⟩ := script_perturb (kaonIterative_mem hs) hg (hr i hi)
    exact C79_completes hs (hr i hi) hp h0 h1 constants (hav i hi p ⟨p₀, h0, h1⟩) hch hpos hlen (by rw [hpath]; exact hw) (by rw [hpath]; exact (hdir i hi).2) hfit hplot hsamp
  obtain ⟨⟨rs, w₁, h1⟩, rs', w₁', h1'⟩ := calls_complete (S := iterativeSpec env script.kind (freeParamsNumbers script.nr_free_params script.nr_iterations))
    (kaon_calls hkind hsamp hstr hd hd' hst random) hdone n 0 w (by omega) hreach
    (fun k hk => by rw [zero_add]; exact (hdir k hk).1)
  constructor
  · obtain ⟨b, p, -, -, h2⟩ := printBest_run env few rs w₁
    exact ⟨b, p, _, by unfold bestOfRuns; rw [PyM.bind_ok h1, h2]⟩
  · obtain ⟨b, p, -, -, h2⟩ := printBest_run env few rs' { w₁' with stdout := w₁'.stdout ++ rs'.map env.strBestFit }
    exact ⟨b, p, _, by unfold bestOfPool; rw [PyM.bind_ok h1', PyM.bind_ok (getResults_run env rs' w₁'), h2]⟩

/-- All hypotheses are met, for all three scripts and any number of runs: draws of 1/2, fifty charged and ten neutral points, and a library that
returns its starting values. So there are completed runs as in `C97_runs` and `C97_pool`. -/
example {script : FitScript} (hs : script ∈ kaonIterativeScripts) (n few : ℕ) :
    let env := idleEnv {t | ∃ d ∈ fiftyCharged ++ tenNeutral, t = d.1}
    let f := fun (_ : ℕ) name => script.f env (fun _ => 1 / 2) 0.13957 ⟨1, 1, 1⟩ (fiftyCharged.map (·.1)) (fiftyCharged.map (·.2.1))
      (fiftyCharged.map (·.2.2)) (tenNeutral.map (·.1)) (tenNeutral.map (·.2.1)) (tenNeutral.map (·.2.2)) "reports" name
    (∃ best printed w', bestOfRuns env f "run" n few (startWorld []) = (.ok (best, printed), w')) ∧
    (∃ best printed w', bestOfPool env f "run" n few (startWorld []) = (.ok (best, printed), w')) ∧
    env.Samples ∧ (∀ x, env.strFloat x ≠ "") ∧ (∀ p ∈ (startWorld []).heap, Reachable p) := by
  intro env f
  have h := C97_completes hs (idleEnv_samples _) (fun _ => (by show "1" ≠ ""; decide)) (idleEnv_fits {t | ∃ d ∈ fiftyCharged ++ tenNeutral, t = d.1})
    (fun _ => rfl) (random := fun _ _ => 1 / 2) (n := n) (fun _ _ _ => by norm_num) (pion_mass := 0.13957) (by norm_num)
    (fun _ _ => half_avoids hs (by norm_num) (by rintro ⟨d, hd, h⟩; linarith [(sixty_from_ten d hd).1])) ⟨1, 1, 1⟩
    (by simp [fiftyCharged, List.range_succ]) (fun d hd => ⟨by linarith [(sixty_from_ten d hd).1], (sixty_from_ten d hd).2⟩)
    (by simpa [fiftyCharged, tenNeutral] using (literals_small hs).2) (base := "reports") (stem := "run") (by decide) (by decide) (by decide)
    (w := startWorld []) (by intro p hp; cases hp) (fun _ _ => ⟨rfl, rfl⟩) few
  exact ⟨h.1, h.2, idleEnv_samples _, fun _ => (by show "1" ≠ ""; decide), by intro p hp; cases hp⟩

/-- **C97** running such a script again: when the directories of the runs are there, it stops with `ValueError` and has printed and changed
nothing. -/
theorem C97_again {script : FitScript} (hs : script ∈ kaonIterativeScripts) (env : Env) {random : ℕ → ℕ → ℝ} {n : ℕ} (hn : 0 < n)
    (hr : ∀ i < n, ∀ k, 0 < random i k ∧ random i k < 1) {pion_mass : ℝ} (hp : 0 ≤ pion_mass ∧ pion_mass ≤ 0.24) (constants : Constants)
    {charged neutral : List (ℝ × ℝ × ℝ)} (hch : charged ≠ []) {base stem : String} (hd : base ≠ "") (hd' : ¬ ['/'] <:+ base.toList)
    (hst : '/' ∉ stem.toList) {w : World} (hdir : ∀ i < n, w.fs.exists (base ++ "/" ++ stem ++ toString i) = true) (few : ℕ) :
    let f := fun i name => script.f env (random i) pion_mass constants (charged.map (·.1)) (charged.map (·.2.1)) (charged.map (·.2.2))
      (neutral.map (·.1)) (neutral.map (·.2.1)) (neutral.map (·.2.2)) base name
    (∃ w', bestOfRuns env f stem n few w = (.error .valueError, w') ∧ w'.fs = w.fs ∧ w'.stdout = w.stdout) ∧
    ∃ w', bestOfPool env f stem n few w = (.error .valueError, w') ∧ w'.fs = w.fs ∧ w'.stdout = w.stdout := by
  intro f
  have hcall : ∀ i < n, ∀ w : World, w.fs.exists (base ++ "/" ++ stem ++ toString i) = true →
      ∃ w', f i (stem ++ toString i) w = (.error .valueError, w') ∧ w'.fs = w.fs ∧ w'.stdout = w.stdout :=
    fun i hi w hw => call_existing hs (hr i hi) hp constants hch (by rw [(runDir_paths hd hd' hst i).1]; exact hw)
  obtain ⟨n, rfl⟩ : ∃ m, n = m + 1 := ⟨n - 1, by omega⟩
  constructor
  · obtain ⟨w', h1, h2, h3⟩ := hcall 0 hn w (hdir 0 hn)
    refine ⟨w', ?_, h2, h3⟩
    unfold bestOfRuns runsFrom
    exact PyM.bind_error (PyM.bind_error h1)
  · obtain ⟨rs, w', h1, h2, h3⟩ := applyAsync_errors hcall n 0 w (by omega) (fun k hk => by rw [zero_add]; exact hdir k hk)
    refine ⟨w', ?_, h2, h3⟩
    unfold bestOfPool
    rw [PyM.bind_ok h1]
    refine PyM.bind_error ?_
    unfold getResults
    exact PyM.bind_error (PyM.lift_run _ _)

/-- All directories are there. -/
example (n : ℕ) : ∀ i < n, ({ startWorld [] with fs := ⟨fun _ => true, fun _ => none⟩ } : World).fs.exists ("reports" ++ "/" ++ "run" ++ toString i) = true :=
  fun _ _ => rfl

/-! ### With the shipped files -/

/-- **C97** `fit_ff_iterative_pipeline.py` with the shipped files. -/
theorem C97_ff {data : List (ℝ × ℝ × ℝ)} (hdata : FileHolds chargedFF2 data) {env : Env} (hsamp : env.Samples) (hstr : ∀ x, env.strFloat x ≠ "")
    (hfit : env.FitsInside {t | ∃ d ∈ data, t = d.1}) (hplot : ∀ k, env.plot k = .ok ()) {random : ℕ → ℕ → ℝ}
    (hr : ∀ i < 15, ∀ k, 0 < random i k ∧ random i k < 1)
    (hav : ∀ i < 15, ∀ p, fitFFIterative.StartsWith (random i) 0.13957039 p → p.Avoids {t | ∃ d ∈ data, t = d.1}) {w : World}
    (hreach : ∀ p ∈ w.heap, Reachable p) (hdir : ∀ i < 15, w.fs.exists ("/home/lukas/reports/ff" ++ "/" ++ "iterative7_" ++ toString i) = false ∧
      env.mkdirFails ("/home/lukas/reports/ff" ++ "/" ++ "iterative7_" ++ toString i) = false) :
    ∃ (best : BestFit) (printed : List BestFit) (w' : World) (runs : List IterativeRun),
      fitFFMain env random configurationIni chargedFF2 w = (.ok (best, printed), w') ∧ runs.length = 15 ∧
      (∀ i run, runs[i]? = some run → (∃ p, fitFFIterative.StartsWith (random i) 0.13957039 p ∧ run.initial = p.toList) ∧
        run.result.TrueOf env.strFloat .formFactor .kaonB (data.map fun q => (.kaon (q.1 : ℝ) true, q.2))) ∧
      RunsLeft env "/home/lukas/reports/ff" "iterative7_" .kaonFF (freeParamsNumbers [3, 3, 5, 2, 7, 5, 8, 12] [10, 40, 30, 20, 30, 40, 30, 30]) 3 runs
        best printed w.fs w'.fs ∧
      w'.stdout = w.stdout ++ runsPrinted env "iterative7_" (fun b => [env.strBestFit b]) runs ++ endPrinted env best printed := by
  have hrow := kaon_rows (f := (chargedFF2, 138, false)) (by simp [kaonFiles]) hdata
  have hS : {t | ∃ d ∈ data ++ [], t = d.1} = {t : ℝ | ∃ d ∈ data, t = d.1} := by rw [List.append_nil]
  obtain ⟨⟨best, printed, w', h⟩, -⟩ := C97_completes (script := fitFFIterative) (charged := data) (neutral := []) (by simp [kaonIterativeScripts]) hsamp
    hstr (by rw [hS]; exact hfit) hplot hr (pion_mass := 0.13957039) (by norm_num) (by rw [hS]; exact hav) ⟨0, 0, 0⟩
    (fun h => by rw [h] at hrow; cases hrow.1) (fun d hd => by rw [List.append_nil] at hd; exact ⟨(hrow.2.1 d hd).pos, (hrow.2.1 d hd).error.ne'⟩)
    (by rw [List.append_nil, hrow.1]; decide) (base := "/home/lukas/reports/ff") (stem := "iterative7_") (by decide) (by decide) (by decide) hreach hdir 3
  obtain ⟨runs, r1, r2, r3, r4⟩ := C97_runs (by decide) hsamp hstr (by decide) (by decide) (by decide) hreach h
  refine ⟨best, printed, w', runs, ?_, r1, fun i run hi => ⟨(r2 i run hi).1, ?_⟩, r3, r4⟩
  · unfold fitFFMain
    rw [PyM.lift_bind config_charged_pion_mass, PyM.lift_bind hdata]
    exact h
  · have := (r2 i run hi).2
    unfold kaonPoints at this
    rw [List.map_nil, List.append_nil] at this
    exact this

example : ∃ data, FileHolds chargedFF2 data ∧ (idleEnv {t | ∃ d ∈ data, t = d.1}).Samples ∧ (∀ x, (idleEnv {t | ∃ d ∈ data, t = d.1}).strFloat x ≠ "") ∧
    (idleEnv {t | ∃ d ∈ data, t = d.1}).FitsInside {t | ∃ d ∈ data, t = d.1} ∧
    (∀ p, fitFFIterative.StartsWith (fun _ => 1 / 2) 0.13957039 p → p.Avoids {t | ∃ d ∈ data, t = d.1}) ∧
    (∀ i : ℕ, (startWorld []).fs.exists ("/home/lukas/reports/ff" ++ "/" ++ "iterative7_" ++ toString i) = false) ∧ (∀ p ∈ (startWorld []).heap, Reachable p) := by
  obtain ⟨data, hd, -, hr, -⟩ := kaonFiles_data (chargedFF2, 138, false) (by simp [kaonFiles])
  refine ⟨data, hd, idleEnv_samples _, fun _ => (by show "1" ≠ ""; decide), idleEnv_fits _,
    half_avoids (by simp [kaonIterativeScripts]) (by norm_num) ?_, fun _ => rfl, by intro p hp; cases hp⟩
  rintro ⟨d, hd, h⟩
  exact (hr d hd).n8 h.symm

/-- **C97** `fit_cs_iterative_pipeline_withneutralkaons_fixed.py` with the shipped files; the errors of the neutral points are multiplied by 4. -/
theorem C97_fixed {charged neutral : List (ℝ × ℝ × ℝ)} (hch : FileHolds chargedNewData2 charged) (hne : FileHolds neutralKaon neutral) {env : Env}
    (hsamp : env.Samples) (hstr : ∀ x, env.strFloat x ≠ "") (hfit : env.FitsInside {t | ∃ d ∈ charged ++ neutral, t = d.1})
    (hplot : ∀ k, env.plot k = .ok ()) {random : ℕ → ℕ → ℝ} (hr : ∀ i < 10, ∀ k, 0 < random i k ∧ random i k < 1)
    (hav : ∀ i < 10, ∀ p, fitCSIterativeFixed.StartsWith (random i) 0.13957039 p → p.Avoids {t | ∃ d ∈ charged ++ neutral, t = d.1}) {w : World}
    (hreach : ∀ p ∈ w.heap, Reachable p) (hdir : ∀ i < 10, w.fs.exists ("/home/lukas/reports" ++ "/" ++ "newdata12_" ++ toString i) = false ∧
      env.mkdirFails ("/home/lukas/reports" ++ "/" ++ "newdata12_" ++ toString i) = false) :
    ∃ (best : BestFit) (printed : List BestFit) (w' : World) (runs : List IterativeRun),
      fitCSFixedMain env random configurationIni chargedNewData2 neutralKaon w = (.ok (best, printed), w') ∧ runs.length = 10 ∧
      (∀ i run, runs[i]? = some run → (∃ p, fitCSIterativeFixed.StartsWith (random i) 0.13957039 p ∧ run.initial = p.toList) ∧
        run.result.TrueOf env.strFloat (.crossSection 0.493677 0.0072973525693 389379.3721) .kaonFixedSelected
          (kaonPoints charged (neutral.map fun d => (d.1, d.2.1, d.2.2 * 4)))) ∧
      RunsLeft env "/home/lukas/reports" "newdata12_" .kaonCS (freeParamsNumbers [5, 3, 5, 2, 7, 5, 10, 15] [10, 40, 20, 5, 25, 20, 30, 20]) 3 runs
        best printed w.fs w'.fs ∧
      w'.stdout = w.stdout ++ runsPrinted env "newdata12_" (fun _ => []) runs ++ (runs.map fun run => env.strBestFit run.result) ++
        endPrinted env best printed := by
  have hc := kaon_rows (f := (chargedNewData2, 138, false)) (by simp [kaonFiles]) hch
  have hn := kaon_rows (f := (neutralKaon, 141, true)) (by simp [kaonFiles]) hne
  have hS : {t | ∃ d ∈ charged ++ neutral.map (fun d => (d.1, d.2.1, d.2.2 * 4)), t = d.1} = {t : ℝ | ∃ d ∈ charged ++ neutral, t = d.1} := by
    ext t
    constructor
    · rintro ⟨d, hd, rfl⟩
      rcases List.mem_append.mp hd with hd | hd
      · exact ⟨d, List.mem_append_left _ hd, rfl⟩
      · obtain ⟨d', hd', rfl⟩ := List.mem_map.mp hd
        exact ⟨d', List.mem_append_right _ hd', rfl⟩
    · rintro ⟨d, hd, rfl⟩
      rcases List.mem_append.mp hd with hd | hd
      · exact ⟨d, List.mem_append_left _ hd, rfl⟩
      · exact ⟨(d.1, d.2.1, d.2.2 * 4), List.mem_append_right _ (List.mem_map_of_mem hd), rfl⟩
  have hpos : ∀ d ∈ charged ++ neutral.map (fun d => (d.1, d.2.1, d.2.2 * 4)), 0 < d.1 ∧ d.2.2 ≠ 0 := by
    intro d hd
    rcases List.mem_append.mp hd with hd | hd
    · exact ⟨(hc.2.1 d hd).pos, (hc.2.1 d hd).error.ne'⟩
    · obtain ⟨d', hd', rfl⟩ := List.mem_map.mp hd
      exact ⟨(hn.2.1 d' hd').pos, mul_ne_zero (hn.2.1 d' hd').error.ne' (by norm_num)⟩
  obtain ⟨-, best, printed, w', h⟩ := C97_completes (script := fitCSIterativeFixed) (charged := charged) (neutral := neutral.map fun d => (d.1, d.2.1, d.2.2 * 4))
    (by simp [kaonIterativeScripts]) hsamp hstr (by rw [hS]; exact hfit) hplot hr (pion_mass := 0.13957039) (by norm_num) (by rw [hS]; exact hav)
    ⟨0.493677, 0.0072973525693, 389379.3721⟩ (fun h => by rw [h] at hc; cases hc.1) hpos
    (by rw [List.length_append, List.length_map, hc.1, hn.1]; decide) (base := "/home/lukas/reports") (stem := "newdata12_") (by decide) (by decide)
    (by decide) hreach hdir 3
  obtain ⟨runs, r1, r2, r3, r4⟩ := C97_pool (by decide) hsamp hstr (by decide) (by decide) (by decide) hreach h
  refine ⟨best, printed, w', runs, ?_, r1, r2, r3, r4⟩
  unfold fitCSFixedMain
  rw [PyM.lift_bind kaonConfiguration_shipped]
  dsimp only
  rw [PyM.lift_bind hch]
  dsimp only
  rw [PyM.lift_bind hne]
  simp only [List.map_map] at h ⊢
  exact h

example : ∃ charged neutral, FileHolds chargedNewData2 charged ∧ FileHolds neutralKaon neutral ∧
    (idleEnv {t | ∃ d ∈ charged ++ neutral, t = d.1}).Samples ∧ (∀ x, (idleEnv {t | ∃ d ∈ charged ++ neutral, t = d.1}).strFloat x ≠ "") ∧
    (idleEnv {t | ∃ d ∈ charged ++ neutral, t = d.1}).FitsInside {t | ∃ d ∈ charged ++ neutral, t = d.1} ∧
    (∀ p, fitCSIterativeFixed.StartsWith (fun _ => 1 / 2) 0.13957039 p → p.Avoids {t | ∃ d ∈ charged ++ neutral, t = d.1}) ∧
    (∀ i : ℕ, (startWorld []).fs.exists ("/home/lukas/reports" ++ "/" ++ "newdata12_" ++ toString i) = false) ∧ (∀ p ∈ (startWorld []).heap, Reachable p) := by
  obtain ⟨charged, hc, -, hrc, -⟩ := kaonFiles_data (chargedNewData2, 138, false) (by simp [kaonFiles])
  obtain ⟨neutral, hn, -, hrn, -⟩ := kaonFiles_data (neutralKaon, 141, true) (by simp [kaonFiles])
  refine ⟨charged, neutral, hc, hn, idleEnv_samples _, fun _ => (by show "1" ≠ ""; decide), idleEnv_fits _,
    half_avoids (by simp [kaonIterativeScripts]) (by norm_num) ?_, fun _ => rfl, by intro p hp; cases hp⟩
  rintro ⟨d, hd, h⟩
  exact (List.mem_append.mp hd).elim (fun hd => (hrc d hd).n8 h.symm) (fun hd => (hrn d hd).n8 h.symm)

/-- **C97** `fit_cs_iterative_pipeline_withneutralkaons_simplified.py` with the shipped files. -/
theorem C97_simplified {charged neutral : List (ℝ × ℝ × ℝ)} (hch : FileHolds chargedKaon charged) (hne : FileHolds neutralKaon neutral) {env : Env}
    (hsamp : env.Samples) (hstr : ∀ x, env.strFloat x ≠ "") (hfit : env.FitsInside {t | ∃ d ∈ charged ++ neutral, t = d.1})
    (hplot : ∀ k, env.plot k = .ok ()) {random : ℕ → ℕ → ℝ} (hr : ∀ i < 7, ∀ k, 0 < random i k ∧ random i k < 1)
    (hav : ∀ i < 7, ∀ p, fitCSIterativeSimplified.StartsWith (random i) 0.13957039 p → p.Avoids {t | ∃ d ∈ charged ++ neutral, t = d.1}) {w : World}
    (hreach : ∀ p ∈ w.heap, Reachable p) (hdir : ∀ i < 7, w.fs.exists ("/home/lukas/reports" ++ "/" ++ "iterative10_" ++ toString i) = false ∧
      env.mkdirFails ("/home/lukas/reports" ++ "/" ++ "iterative10_" ++ toString i) = false) :
    ∃ (best : BestFit) (printed : List BestFit) (w' : World) (runs : List IterativeRun),
      fitCSSimplifiedMain env random configurationIni chargedKaon neutralKaon w = (.ok (best, printed), w') ∧ runs.length = 7 ∧
      (∀ i run, runs[i]? = some run → (∃ p, fitCSIterativeSimplified.StartsWith (random i) 0.13957039 p ∧ run.initial = p.toList) ∧
        run.result.TrueOf env.strFloat (.crossSection 0.493677 0.0072973525693 389379.3721) .kaonSimplified
          (kaonPoints charged neutral)) ∧
      RunsLeft env "/home/lukas/reports" "iterative10_" .kaonCS (freeParamsNumbers [5, 4, 6, 2, 8, 4, 10, 17, 5] [5, 20, 20, 10, 40, 10, 20, 20, 10]) 3 runs
        best printed w.fs w'.fs ∧
      w'.stdout = w.stdout ++ runsPrinted env "iterative10_" (fun _ => []) runs ++ (runs.map fun run => env.strBestFit run.result) ++
        endPrinted env best printed := by
  have hc := kaon_rows (f := (chargedKaon, 257, false)) (by simp [kaonFiles]) hch
  have hn := kaon_rows (f := (neutralKaon, 141, true)) (by simp [kaonFiles]) hne
  have hpos : ∀ d ∈ charged ++ neutral, 0 < d.1 ∧ d.2.2 ≠ 0 := by
    intro d hd
    rcases List.mem_append.mp hd with hd | hd
    · exact ⟨(hc.2.1 d hd).pos, (hc.2.1 d hd).error.ne'⟩
    · exact ⟨(hn.2.1 d hd).pos, (hn.2.1 d hd).error.ne'⟩
  obtain ⟨-, best, printed, w', h⟩ := C97_completes (script := fitCSIterativeSimplified) (by simp [kaonIterativeScripts]) hsamp hstr hfit hplot hr
    (pion_mass := 0.13957039) (by norm_num) hav ⟨0.493677, 0.0072973525693, 389379.3721⟩ (fun h => by rw [h] at hc; cases hc.1) hpos
    (by rw [List.length_append, hc.1, hn.1]; decide) (base := "/home/lukas/reports") (stem := "iterative10_") (by decide) (by decide) (by decide) hreach hdir 3
  obtain ⟨runs, r1, r2, r3, r4⟩ := C97_pool (by decide) hsamp hstr (by decide) (by decide) (by decide) hreach h
  refine ⟨best, printed, w', runs, ?_, r1, r2, r3, r4⟩
  unfold fitCSSimplifiedMain
  rw [PyM.lift_bind kaonConfiguration_shipped]
  dsimp only
  rw [PyM.lift_bind hch]
  dsimp only
  rw [PyM.lift_bind hne]
  exact h

example : ∃ charged neutral, FileHolds chargedKaon charged ∧ FileHolds neutralKaon neutral ∧
    (idleEnv {t | ∃ d ∈ charged ++ neutral, t = d.1}).Samples ∧ (∀ x, (idleEnv {t | ∃ d ∈ charged ++ neutral, t = d.1}).strFloat x ≠ "") ∧
    (idleEnv {t | ∃ d ∈ charged ++ neutral, t = d.1}).FitsInside {t | ∃ d ∈ charged ++ neutral, t = d.1} ∧
    (∀ p, fitCSIterativeSimplified.StartsWith (fun _ => 1 / 2) 0.13957039 p → p.Avoids {t | ∃ d ∈ charged ++ neutral, t = d.1}) ∧
    (∀ i : ℕ, (startWorld []).fs.exists ("/home/lukas/reports" ++ "/" ++ "iterative10_" ++ toString i) = false) ∧ (∀ p ∈ (startWorld []).heap, Reachable p) := by
  obtain ⟨charged, hc, -, hrc, -⟩ := kaonFiles_data (chargedKaon, 257, false) (by simp [kaonFiles])
  obtain ⟨neutral, hn, -, hrn, -⟩ := kaonFiles_data (neutralKaon, 141, true) (by simp [kaonFiles])
  refine ⟨charged, neutral, hc, hn, idleEnv_samples _, fun _ => (by show "1" ≠ ""; decide), idleEnv_fits _,
    half_avoids (by simp [kaonIterativeScripts]) (by norm_num) ?_, fun _ => rfl, by intro p hp; cases hp⟩
  rintro ⟨d, hd, h⟩
  exact (List.mem_append.mp hd).elim (fun hd => (hrc d hd).n8 h.symm) (fun hd => (hrn d hd).n8 h.symm)

end UA
