import Verif.Lemmas.MainNucleon
import Verif.Lemmas.Shipped

/-!
# Property C99: the nucleon script with several runs
-/

namespace UA

/-- **C99** the runs of the nucleon script, whenever they complete: every run starts with its own perturbed parameters, its result is true of the
data, every run is documented in its own directory at the end, nothing else has changed in the file system, and what has been printed is for each
run its messages, those about the residual fit included, and its result, then the best result and the few best ones. -/
theorem C99_runs {env : Env} (hs : env.Samples) (hstr : ∀ x, env.strFloat x ≠ "") {random : ℕ → ℕ → ℝ}
    {pion_mass proton_mass proton_magnetic_moment neutron_magnetic_moment alpha hc_squared : ℝ} {data : List (ℝ × ℝ × ℝ)} {base stem : String}
    (hd : base ≠ "") (hd' : ¬ ['/'] <:+ base.toList) (hst : '/' ∉ stem.toList) {n few : ℕ} {w w' : World} (hreach : ∀ p ∈ w.heap, Reachable p)
    {best : BestFit} {printed : List BestFit}
    (h : bestOfRuns env (fun i name => fitNucleonF env (random i) pion_mass proton_mass proton_magnetic_moment neutron_magnetic_moment alpha hc_squared
      (data.map (·.1)) (data.map (·.2.1)) (data.map (·.2.2)) base name) stem n few w = (.ok (best, printed), w')) :
    ∃ runs : List NucleonRecord, runs.length = n ∧
      (∀ i run, runs[i]? = some run →
        (∃ p, NucleonStartsWith (random i) pion_mass proton_mass proton_magnetic_moment neutron_magnetic_moment p ∧ run.initial = p.toList) ∧
        run.result.TrueOf env.strFloat (.crossSection proton_mass alpha hc_squared) .nucleon (data.map fun q => (.nucleon (q.1 : ℝ) true true, q.2))) ∧
      NucleonRunsLeft env base stem nucleonRounds few runs best printed w.fs w'.fs ∧
      w'.stdout = w.stdout ++ nucleonRunsPrinted env stem nucleonRounds runs ++ endPrinted env best printed := by
  unfold bestOfRuns at h
  obtain ⟨results, w₁, h1, h2⟩ := PyM.bind_eq_ok.mp h
  obtain ⟨hl, hcalls⟩ := runsFrom_calls n h1
  obtain ⟨runs, r1, r2, r3, r4, r5, r6, r7, r8, r9, r10⟩ := end_left_of (nucleonSpec_stable env nucleonRounds)
    (nucleon_calls hs hstr hd hd' hst random) hcalls hreach rfl h2
  refine ⟨runs, r2.trans hl, r3, ⟨r4, r5, r6, r7, r8⟩, ?_⟩
  rw [r10, r9]
  rfl

/-- **C99** the runs complete if every start lies in a region of values for which the cross section can be evaluated and is positive at the data, the
fitting library stays inside the bounds and in the region, and the directories can be made. -/
theorem C99_completes {env : Env} (hsamp : env.Samples) (hstr : ∀ x, env.strFloat x ≠ "") {random : ℕ → ℕ → ℝ} {n : ℕ}
    (hr : ∀ i < n, ∀ k, 0 < random i k ∧ random i k < 1) {pion_mass : ℝ} (hp : 0 ≤ pion_mass ∧ pion_mass ≤ 0.24)
    {proton_mass alpha hc_squared : ℝ} (hm : 0 < proton_mass) (ha : alpha ≠ 0) {proton_magnetic_moment neutron_magnetic_moment : ℝ}
    {data : List (ℝ × ℝ × ℝ)} (hdata : ∀ d ∈ data, 4 * proton_mass ^ 2 < d.1 ∧ 0 < d.2.1 ∧ d.2.2 ≠ 0)
    (hsmall : ∃ d ∈ data, d.1 / (2 * proton_mass) - proton_mass < Real.sqrt (25 + proton_mass ^ 2)) (hlen : 37 < data.length)
    {V : Set (List (String × ℝ))}
    (hstart : ∀ i < n, ∀ p, NucleonStartsWith (random i) pion_mass proton_mass proton_magnetic_moment neutron_magnetic_moment p → p.assignment ∈ V)
    (hev : ∀ p, Reachable p → p.cls = .nucleon → p.InsideFor true → p.assignment ∈ V → ∀ d ∈ data, ∃ r,
      functionCrossSection [.nucleon (d.1 : ℝ) true true] proton_mass alpha hc_squared p = .ok [r] ∧ 0 < r)
    (hfit : env.FitsInside ∅) (hwithin : env.FitsWithin V) (hplot : ∀ k, env.plot k = .ok ())
    {base stem : String} (hd : base ≠ "") (hd' : ¬ ['/'] <:+ base.toList) (hst : '/' ∉ stem.toList) {w : World} (hreach : ∀ p ∈ w.heap, Reachable p)
    (hdir : ∀ i < n, w.fs.exists (base ++ "/" ++ stem ++ toString i) = false ∧ env.mkdirFails (base ++ "/" ++ stem ++ toString i) = false) (few : ℕ) :
    ∃ best printed w', bestOfRuns env (fun i name => fitNucleonF env (random i) pion_mass proton_mass proton_magnetic_moment neutron_magnetic_moment alpha
      hc_squared (data.map (·.1)) (data.map (·.2.1)) (data.map (·.2.2)) base name) stem n few w = (.ok (best, printed), w') := by
  obtain ⟨⟨rs, w₁, h1⟩, -⟩ := calls_complete (env := env) (S := nucleonSpec env nucleonRounds)
    (nucleon_calls (data := data) (pion_mass := pion_mass) (proton_mass := proton_mass) (alpha := alpha) (hc_squared := hc_squared)
      (proton_magnetic_moment := proton_magnetic_moment) (neutron_magnetic_moment := neutron_magnetic_moment) hsamp hstr hd hd' hst random) (N := n)
    (fun i hi w hw => by
      have hpath := (runDir_paths hd hd' hst i).1
      obtain ⟨b, w', -, h, -⟩ := C98_script (hr i hi) hp hm ha hdata hsmall hlen (w := w) (by rw [hpath]; exact hw)
        (by rw [hpath]; exact (hdir i hi).2) (fun p hst => by
          obtain ⟨p', hp', -, -, hw'⟩ := nucleonStart_ok hst
          have hh : w.heap ++ [p] = w.heap ++ [p'] := congrArg World.heap hw'
          rw [(List.cons.inj (List.append_cancel_left hh)).1]
          exact hstart i hi p' hp') hev hfit hwithin hplot hsamp
      exact ⟨b, w', h⟩) n 0 w (by omega) hreach (fun k hk => by rw [zero_add]; exact (hdir k hk).1)
  obtain ⟨b, p, -, -, h2⟩ := printBest_run env few rs w₁
  exact ⟨b, p, _, by unfold bestOfRuns; rw [PyM.bind_ok h1, h2]⟩

/-- All hypotheses are met, for any number of runs: draws of 1/2, forty times the same point, and a library that returns its starting values. So there
are completed runs as in `C99_runs`. -/
example (n few : ℕ) : ∃ m t, 0 < m ∧ (∃ best printed w', bestOfRuns (idleEnv ∅) (fun _ name => fitNucleonF (idleEnv ∅) (fun _ => 1 / 2) 0 m 2.79 (-1.91) 1 1
      ((fortySame t).map (·.1)) ((fortySame t).map (·.2.1)) ((fortySame t).map (·.2.2)) "reports" name) "run" n few (startWorld []) =
        (.ok (best, printed), w')) ∧
    (idleEnv ∅).Samples ∧ (∀ x, (idleEnv ∅).strFloat x ≠ "") ∧ (∀ p ∈ (startWorld []).heap, Reachable p) := by
  obtain ⟨m, t, hm, -, ht, ht1, hpos⟩ := halfArgs_positive
  obtain ⟨p, hst, hg, hx⟩ := nucleon_half_start m 2.79 (-1.91) (startWorld [])
  obtain ⟨hdata, hsmall, hlen⟩ := fortySame_spec hm ht ht1
  have hmem : (t, 1, 0.1) ∈ fortySame t := List.mem_replicate.mpr ⟨by norm_num, rfl⟩
  refine ⟨m, t, hm, C99_completes (random := fun _ _ => 1 / 2) (idleEnv_samples _) (fun _ => by show "1" ≠ ""; decide) (fun _ _ _ => by norm_num) (by norm_num)
    hm one_ne_zero hdata ⟨_, hmem, hsmall _ hmem⟩ (by rw [hlen]; norm_num) (V := {p.assignment}) (fun _ _ p' hp' => by
      have : [p] = [p'] := congrArg (fun r => r.2.heap) (hst.symm.trans (nucleonStart_run hp' _))
      rw [(List.cons.inj this).1]
      exact Set.mem_singleton _) (fun p' hr' hc' hi' he d hd => by
      have hg' := (goodObject_iff (c := .nucleon) (S := ∅) trivial).mpr ⟨hr', hc', hi', fun _ _ _ => id⟩
      obtain ⟨rs, hrs, hp⟩ := hpos p' (hx.assignment hg hg' he) hr' hc' hi' [(d.1, true, true)] fun e he => by
        rw [List.mem_singleton.mp he, List.eq_of_mem_replicate hd]; exact ⟨rfl, rfl⟩
      have hrs' : functionCrossSection [.nucleon (d.1 : ℝ) true true] m 1 1 p' = .ok rs := hrs
      have := ((C51_pointwise hr' (.crossSection m 1 1)).1.mp hrs').2
      obtain ⟨r, us, -, h2, hu⟩ := List.forall₂_cons_left_iff.mp this
      rw [hu, List.forall₂_nil_left_iff.mp h2] at hrs' hp
      exact ⟨r, hrs', hp r (by simp)⟩) (idleEnv_fits _) (idleEnv_within _ _) (fun _ => rfl) (by decide) (by decide) (by decide) (by intro p hp; cases hp)
    (fun _ _ => ⟨rfl, rfl⟩) few, idleEnv_samples _, fun _ => (by show "1" ≠ ""; decide), by intro p hp; cases hp⟩

/-- **C99** if the library only stays inside the bounds, the only exception is `ZeroDivisionError`, however many runs have been completed before. -/
theorem C99_errors {env : Env} (hsamp : env.Samples) (hstr : ∀ x, env.strFloat x ≠ "") {random : ℕ → ℕ → ℝ} {n : ℕ}
    (hr : ∀ i < n, ∀ k, 0 < random i k ∧ random i k < 1) {pion_mass : ℝ} (hp : 0 ≤ pion_mass ∧ pion_mass ≤ 0.24)
    {proton_mass alpha hc_squared : ℝ} (hm : 0 < proton_mass) (ha : alpha ≠ 0) {proton_magnetic_moment neutron_magnetic_moment : ℝ}
    {data : List (ℝ × ℝ × ℝ)} (hdata : ∀ d ∈ data, 4 * proton_mass ^ 2 < d.1 ∧ 0 < d.2.1 ∧ d.2.2 ≠ 0)
    (hsmall : ∃ d ∈ data, d.1 / (2 * proton_mass) - proton_mass < Real.sqrt (25 + proton_mass ^ 2)) (hlen : 37 < data.length)
    (hfit : env.FitsInside ∅) (hplot : ∀ k, env.plot k = .ok ())
    {base stem : String} (hd : base ≠ "") (hd' : ¬ ['/'] <:+ base.toList) (hst : '/' ∉ stem.toList) {w : World} (hreach : ∀ p ∈ w.heap, Reachable p)
    (hdir : ∀ i < n, w.fs.exists (base ++ "/" ++ stem ++ toString i) = false ∧ env.mkdirFails (base ++ "/" ++ stem ++ toString i) = false) {few : ℕ} :
    ∀ e w', bestOfRuns env (fun i name => fitNucleonF env (random i) pion_mass proton_mass proton_magnetic_moment neutron_magnetic_moment alpha
      hc_squared (data.map (·.1)) (data.map (·.2.1)) (data.map (·.2.2)) base name) stem n few w = (.error e, w') → e = .zeroDivisionError := by
  intro e w' h
  generalize hf : (fun i name => fitNucleonF env (random i) pion_mass proton_mass proton_magnetic_moment neutron_magnetic_moment alpha
      hc_squared (data.map (·.1)) (data.map (·.2.1)) (data.map (·.2.2)) base name) = f at h
  unfold bestOfRuns at h
  rcases h1 : runsFrom env f stem 0 n w with ⟨e' | results, w₁⟩
  · rw [PyM.bind_error h1] at h
    have he : e' = e := Except.error.inj (congrArg Prod.fst h)
    rw [← he]
    refine calls_errors (E := fun e => e = .zeroDivisionError) (N := n) (S := nucleonSpec env nucleonRounds)
      (by rw [← hf]; exact nucleon_calls hsamp hstr hd hd' hst random) (fun i hi w hw e w' he => ?_) n 0 w (by omega) hreach
      (fun k hk => by rw [zero_add]; exact (hdir k hk).1) _ _ h1
    have hpath := (runDir_paths hd hd' hst i).1
    rw [← hf] at he
    exact (C83_script (hr i hi) hp hm ha _ _ hdata hsmall hlen (by rw [hpath]; exact hw) (by rw [hpath]; exact (hdir i hi).2) hfit hplot hsamp).1 e w' he
  · obtain ⟨b, p, -, -, h2⟩ := printBest_run env few results w₁
    rw [PyM.bind_ok h1, h2] at h
    cases congrArg Prod.fst h

/-- Met by forty points, draws of 1/2 and a library that returns its starting values. -/
example (n few : ℕ) : ∀ e w', bestOfRuns (idleEnv ∅) (fun _ name => fitNucleonF (idleEnv ∅) (fun _ => 1 / 2) 0.13957 0.938 2.79 (-1.91) 1 1
    (fortyPoints.map (·.1)) (fortyPoints.map (·.2.1)) (fortyPoints.map (·.2.2)) "reports" name) "run" n few (startWorld []) = (.error e, w') →
    e = .zeroDivisionError :=
  C99_errors (random := fun _ _ => 1 / 2) (idleEnv_samples _) (fun _ => by show "1" ≠ ""; decide) (fun _ _ _ => by norm_num) (by norm_num) (by norm_num)
    one_ne_zero fortyPoints_spec.1 fortyPoints_spec.2.1 fortyPoints_spec.2.2 (idleEnv_fits _) (fun _ => rfl) (by decide) (by decide) (by decide)
    (by intro p hp; cases hp) (fun _ _ => ⟨rfl, rfl⟩)

/-- **C99** running the script again: when the directory of the first run is there, it stops with `ValueError` and has printed and changed nothing. -/
theorem C99_again (env : Env) {random : ℕ → ℕ → ℝ} (hr : ∀ k, 0 < random 0 k ∧ random 0 k < 1) {pion_mass : ℝ}
    (hp : 0 ≤ pion_mass ∧ pion_mass ≤ 0.24) (proton_mass proton_magnetic_moment neutron_magnetic_moment alpha hc_squared : ℝ)
    {data : List (ℝ × ℝ × ℝ)} (hne : data ≠ []) {base stem : String} (hd : base ≠ "") (hd' : ¬ ['/'] <:+ base.toList) (hst : '/' ∉ stem.toList)
    {n : ℕ} (hn : 0 < n) {w : World} (hdir : w.fs.exists (base ++ "/" ++ stem ++ "0") = true) (few : ℕ) :
    ∃ w', bestOfRuns env (fun i name => fitNucleonF env (random i) pion_mass proton_mass proton_magnetic_moment neutron_magnetic_moment alpha hc_squared
      (data.map (·.1)) (data.map (·.2.1)) (data.map (·.2.2)) base name) stem n few w = (.error .valueError, w') ∧ w'.fs = w.fs ∧ w'.stdout = w.stdout := by
  obtain ⟨n, rfl⟩ : ∃ m, n = m + 1 := ⟨n - 1, by omega⟩
  obtain ⟨w', h1, h2⟩ := nucleon_existing (env := env) hr hp proton_mass proton_magnetic_moment neutron_magnetic_moment alpha hc_squared hne
    (path := base) (name := stem ++ toString 0) (w := w) (by rw [(runDir_paths hd hd' hst 0).1]; exact hdir)
  refine ⟨w', ?_, h2⟩
  unfold bestOfRuns runsFrom
  exact PyM.bind_error (PyM.bind_error h1)

/-- The directory is there. -/
example : ({ startWorld [] with fs := ⟨fun _ => true, fun _ => none⟩ } : World).fs.exists ("reports" ++ "/" ++ "run" ++ "0") = true := rfl

/-! ### With the shipped files -/

/-- **C99** `nucleon_production/fit_cs_iterative_pipeline.py` with the shipped files, with a library that stays inside the bounds and directories that can
be made: if it raises, it is a `ZeroDivisionError`; if it completes, there have been ten runs of 175 rounds, documented as in
`C99_runs`; the full fit is the one with fixed resonances. -/
theorem C99_main {data : List (ℝ × ℝ × ℝ)} (hdata : FileHolds protonCSExtended data) {env : Env} (hsamp : env.Samples) (hstr : ∀ x, env.strFloat x ≠ "")
    (hfit : env.FitsInside ∅) (hplot : ∀ k, env.plot k = .ok ()) {random : ℕ → ℕ → ℝ} (hr : ∀ i < 10, ∀ k, 0 < random i k ∧ random i k < 1) {w : World}
    (hreach : ∀ p ∈ w.heap, Reachable p) (hdir : ∀ i < 10, w.fs.exists ("/home/lukas/reports/oscillations" ++ "/" ++ "run7_" ++ toString i) = false ∧
      env.mkdirFails ("/home/lukas/reports/oscillations" ++ "/" ++ "run7_" ++ toString i) = false) :
    (∀ e w', fitNucleonMain env random configurationIni protonCSExtended w = (.error e, w') → e = .zeroDivisionError) ∧
    ∀ (best : BestFit) (printed : List BestFit) (w' : World), fitNucleonMain env random configurationIni protonCSExtended w = (.ok (best, printed), w') →
      ∃ runs : List NucleonRecord, runs.length = 10 ∧
        (∀ i run, runs[i]? = some run →
          (∃ p, NucleonStartsWith (random i) 0.13957039 0.938272 2.792847351 (-1.91304273) p ∧ run.initial = p.toList) ∧
          run.result.TrueOf env.strFloat (.crossSection 0.938272 0.0072973525693 389379.3721) .nucleon
            (data.map fun q => (.nucleon (q.1 : ℝ) true true, q.2)) ∧
          run.reports.length = 175 ∧ run.full.name = "Task#175:Full fit (Fixed resonances)" ∧ run.residual.name = "Task#176:ResidualOscillationsTask") ∧
        NucleonRunsLeft env "/home/lukas/reports/oscillations" "run7_"
          ⟨freeParamsNumbers [4, 3, 5, 2, 7, 3, 8, 10, 5] [5, 20, 30, 20, 40, 10, 20, 20, 10], 200⟩ 3 runs best printed w.fs w'.fs ∧
        w'.stdout = w.stdout ++ nucleonRunsPrinted env "run7_"
          ⟨freeParamsNumbers [4, 3, 5, 2, 7, 3, 8, 10, 5] [5, 20, 30, 20, 40, 10, 20, 20, 10], 200⟩ runs ++ endPrinted env best printed := by
  have hrun : fitNucleonMain env random configurationIni protonCSExtended w = bestOfRuns env (fun i name => fitNucleonF env (random i) 0.13957039 0.938272
      2.792847351 (-1.91304273) 0.0072973525693 389379.3721 (data.map (·.1)) (data.map (·.2.1)) (data.map (·.2.2)) "/home/lukas/reports/oscillations" name)
      "run7_" 10 3 w := by
    unfold fitNucleonMain
    rw [PyM.lift_bind nucleonConfiguration_shipped]
    dsimp only
    rw [PyM.lift_bind hdata]
  rw [hrun]
  refine ⟨fun e w' h => ?_, fun best printed w' h => ?_⟩
  swap
  · obtain ⟨runs, r1, r2, r3, r4⟩ := C99_runs hsamp hstr (by decide) (by decide) (by decide) hreach h
    exact ⟨runs, r1, fun i run hi => ⟨(r2 i run hi).1, (r2 i run hi).2, nucleon_lastNames (r3.left i run hi).names⟩, r3, r4⟩
  obtain ⟨h37, hrow, hsmall⟩ := proton_rows hdata
  exact C99_errors hsamp hstr hr (by norm_num) (by norm_num) (by norm_num) hrow hsmall h37 hfit hplot (by decide) (by decide) (by decide) hreach hdir e w' h

/-- The hypotheses are met by draws of 1/2 and a library that returns its starting values. -/
example : ∃ data, FileHolds protonCSExtended data ∧ (idleEnv ∅).Samples ∧ (∀ x, (idleEnv ∅).strFloat x ≠ "") ∧ (idleEnv ∅).FitsInside ∅ ∧
    (∀ k, (idleEnv ∅).plot k = .ok ()) ∧ (∀ i : ℕ, (startWorld []).fs.exists ("/home/lukas/reports/oscillations" ++ "/" ++ "run7_" ++ toString i) = false ∧
      (idleEnv ∅).mkdirFails ("/home/lukas/reports/oscillations" ++ "/" ++ "run7_" ++ toString i) = false) ∧ (∀ p ∈ (startWorld []).heap, Reachable p) := by
  obtain ⟨data, hd, -⟩ := protonFile_data
  exact ⟨data, hd, idleEnv_samples _, fun _ => (by show "1" ≠ ""; decide), idleEnv_fits _, fun _ => rfl, fun _ => ⟨rfl, rfl⟩, by intro p hp; cases hp⟩

end UA
