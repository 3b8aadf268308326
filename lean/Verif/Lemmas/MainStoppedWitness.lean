import Verif.Lemmas.MainStopped

/-!
# Calls that raise
-/

namespace UA

/-! ### Existing directories -/

theorem runs_existing {env : Env} {f : ℕ → String → PyM World BestFit} {base stem : String} {R : Type} {S : RunSpec R} {names : List String}
    {otherwise : ℕ → PyErr → Prop} {Q : ℕ → Outcome R → Prop}
    (hcall : ∀ i w r w', w.Good → f i (stem ++ toString i) w = (r, w') →
      ∃ o : Outcome R, o.value S.result = r ∧ Q i o ∧ CallTried S names otherwise env base stem i o w w') {N : ℕ}
    (hdone : ∀ i < N, ∀ w : World, w.fs.exists (base ++ "/" ++ stem ++ toString i) = false → ∃ b w', f i (stem ++ toString i) w = (.ok b, w'))
    (hthere : ∀ w : World, w.fs.exists (base ++ "/" ++ stem ++ toString N) = true → ∃ w', f N (stem ++ toString N) w = (.error .valueError, w')) (k : ℕ) :
    ∀ (i n : ℕ) (w : World), i + k = N → k < n → w.Good → (∀ j < k, w.fs.exists (base ++ "/" ++ stem ++ toString (i + j)) = false) →
      w.fs.exists (base ++ "/" ++ stem ++ toString N) = true →
      (∃ w', runsFrom env f stem i n w = (.error .valueError, w')) ∧
      ∃ (results : List BestFit) (rest : List (Except PyErr BestFit)) (w' : World), results.length = k ∧
        applyAsync f stem i n w = (.ok (results.map .ok ++ .error .valueError :: rest), w') := by
  induction k with
  | zero =>
    intro i n w hi hn hg _ hex
    obtain ⟨n, rfl⟩ : ∃ m, n = m + 1 := ⟨n - 1, by omega⟩
    obtain rfl : i = N := by omega
    obtain ⟨w₁, h1⟩ := hthere w hex
    constructor
    · exact ⟨w₁, by unfold runsFrom; exact PyM.bind_error h1⟩
    · obtain ⟨rs, w', h2, -, -⟩ := applyAsync_tries f stem n (i + 1) w₁
      refine ⟨[], rs, w', rfl, ?_⟩
      rw [applyAsync]
      simp only [h1]
      rw [PyM.bind_ok h2, PyM.pure_run]
      rfl
  | succ k ih =>
    intro i n w hi hn hg hnew hex
    obtain ⟨n, rfl⟩ : ∃ m, n = m + 1 := ⟨n - 1, by omega⟩
    obtain ⟨b, w₁, h1⟩ := hdone i (by omega) w (hnew 0 (by omega))
    obtain ⟨o, -, -, c⟩ := hcall i w _ w₁ hg h1
    have hnew' : ∀ j < k, w₁.fs.exists (base ++ "/" ++ stem ++ toString (i + 1 + j)) = false := by
      intro j hj
      rw [c.exists_later (by omega), show i + 1 + j = i + (j + 1) by omega]
      exact hnew (j + 1) (by omega)
    have hex' : w₁.fs.exists (base ++ "/" ++ stem ++ toString N) = true := by rw [c.exists_later (by omega)]; exact hex
    constructor
    · obtain ⟨w', h2⟩ := (ih (i + 1) n { w₁ with stdout := w₁.stdout ++ [env.strBestFit b] } (by omega) (by omega) c.good hnew' hex').1
      refine ⟨w', ?_⟩
      unfold runsFrom
      rw [PyM.bind_ok h1, PyM.bind_ok (show pyPrint (env.strBestFit b) w₁ = (.ok (), { w₁ with stdout := w₁.stdout ++ [env.strBestFit b] }) from rfl)]
      exact PyM.bind_error h2
    · obtain ⟨results, rest, w', h2, h3⟩ := (ih (i + 1) n w₁ (by omega) (by omega) c.good hnew' hex').2
      refine ⟨b :: results, rest, w', by rw [List.length_cons, h2], ?_⟩
      rw [applyAsync]
      simp only [h1]
      rw [PyM.bind_ok h3, PyM.pure_run]
      rfl

/-- Both kinds of scripts raise when the directory of a call exists. -/
theorem best_existing {env : Env} {f : ℕ → String → PyM World BestFit} {base stem : String} {R : Type} {S : RunSpec R} {names : List String}
    {otherwise : ℕ → PyErr → Prop} {Q : ℕ → Outcome R → Prop}
    (hcall : ∀ i w r w', w.Good → f i (stem ++ toString i) w = (r, w') →
      ∃ o : Outcome R, o.value S.result = r ∧ Q i o ∧ CallTried S names otherwise env base stem i o w w') {N : ℕ}
    (hdone : ∀ i < N, ∀ w : World, w.fs.exists (base ++ "/" ++ stem ++ toString i) = false → ∃ b w', f i (stem ++ toString i) w = (.ok b, w'))
    (hthere : ∀ w : World, w.fs.exists (base ++ "/" ++ stem ++ toString N) = true → ∃ w', f N (stem ++ toString N) w = (.error .valueError, w'))
    {n few : ℕ} (hn : N < n) {w : World} (hg : w.Good) (hnew : ∀ i < N, w.fs.exists (base ++ "/" ++ stem ++ toString i) = false)
    (hex : w.fs.exists (base ++ "/" ++ stem ++ toString N) = true) :
    (∃ w', bestOfRuns env f stem n few w = (.error .valueError, w')) ∧ ∃ w', bestOfPool env f stem n few w = (.error .valueError, w') := by
  obtain ⟨⟨w', h1⟩, results, rest, w₁, -, h2⟩ := runs_existing hcall hdone hthere N 0 n w (by omega) hn hg
    (fun j hj => by rw [zero_add]; exact hnew j hj) hex
  refine ⟨⟨w', by unfold bestOfRuns; exact PyM.bind_error h1⟩, ?_⟩
  unfold bestOfPool
  rw [PyM.bind_ok h2]
  have : ∀ (l : List BestFit) (w : World), ∃ w', getResults env (l.map .ok ++ .error .valueError :: rest) w = (.error .valueError, w') := by
    intro l
    induction l with
    | nil => intro w; exact ⟨w, by unfold getResults; exact PyM.bind_error (PyM.lift_run _ _)⟩
    | cons b l ih =>
      intro w
      obtain ⟨w', h⟩ := ih { w with stdout := w.stdout ++ [env.strBestFit b] }
      refine ⟨w', ?_⟩
      rw [List.map_cons, List.cons_append]
      unfold getResults
      rw [PyM.bind_ok (PyM.lift_run _ _),
        PyM.bind_ok (show pyPrint (env.strBestFit b) w = (.ok (), { w with stdout := w.stdout ++ [env.strBestFit b] }) from rfl)]
      exact PyM.bind_error h
  obtain ⟨w', h3⟩ := this results w₁
  exact ⟨w', PyM.bind_error h3⟩

/-! ### A library that raises -/

/-- An environment whose fits raise `TypeError`. -/
noncomputable def raisingEnv : Env := { idleEnv ∅ with curve_fit := fun _ _ => .done (.error (.typeError, "")) }

theorem raisingEnv_samples : raisingEnv.Samples := idleEnv_samples ∅

theorem raising_run {t t' : Task} {w w' : World} (h : t.run raisingEnv w = (.ok t', w')) : False := by
  unfold Task.run at h
  obtain ⟨task, w₁, -, hA⟩ := PyM.bind_eq_ok.mp h
  obtain ⟨r, w₂, hfit, -⟩ := PyM.bind_eq_ok.mp hA
  unfold Task.fit at hfit
  obtain ⟨p, w₃, -, hB⟩ := PyM.bind_eq_ok.mp hfit
  obtain ⟨bounds, w₄, -, hC⟩ := PyM.bind_eq_ok.mp hB
  rcases hf : task.partial_f with _ | f <;> rw [hf] at hC <;> dsimp only at hC
  · cases congrArg Prod.fst hC
  · rw [PyM.bind_ok (show runCurveFit raisingEnv _ _ w₄ = (.ok (.error (.typeError, "")), { w₄ with fits := w₄.fits + 1 }) from rfl)] at hC
    dsimp only at hC
    rw [if_neg (by decide)] at hC
    cases congrArg Prod.fst hC

theorem raising_task {self : Pipeline} {name : String} {cls : TaskClass} {w w' : World} {r : Task × Pipeline}
    (h : self.iterativeTask raisingEnv name cls w = (.ok r, w')) : False := by
  unfold Pipeline.iterativeTask at h
  obtain ⟨task, w₁, -, hA⟩ := PyM.bind_eq_ok.mp h
  obtain ⟨s, w₂, -, hB⟩ := PyM.bind_eq_ok.mp hA
  obtain ⟨t, w₃, hrun, -⟩ := PyM.bind_eq_ok.mp hB
  exact raising_run hrun

theorem raising_runIterative {self s' : Pipeline} {its : Iterations} {w w' : World} (h : self.runIterative raisingEnv its w = (.ok s', w')) : False := by
  unfold Pipeline.runIterative at h
  obtain ⟨p, w₁, -, hA⟩ := PyM.bind_eq_ok.mp h
  obtain ⟨s₁, w₂, -, hB⟩ := PyM.bind_eq_ok.mp hA
  obtain ⟨s₂, w₃, -, hC⟩ := PyM.bind_eq_ok.mp hB
  obtain ⟨s₃, w₄, -, hD⟩ := PyM.bind_eq_ok.mp hC
  obtain ⟨r, w₅, hrun, -⟩ := PyM.bind_eq_ok.mp hD
  exact raising_task hrun

theorem raising_runNucleon {self s' : Pipeline} {its : Iterations} {w w' : World} (h : self.runNucleonCSIterative raisingEnv its w = (.ok s', w')) :
    False := by
  unfold Pipeline.runNucleonCSIterative at h
  obtain ⟨p, w₁, -, hA⟩ := PyM.bind_eq_ok.mp h
  obtain ⟨s₁, w₂, -, hB⟩ := PyM.bind_eq_ok.mp hA
  obtain ⟨s₂, w₃, -, hC⟩ := PyM.bind_eq_ok.mp hB
  obtain ⟨s₃, w₄, -, hD⟩ := PyM.bind_eq_ok.mp hC
  dsimp only at hD
  split_ifs at hD
  · obtain ⟨s₄, w₅, -, hE⟩ := PyM.bind_eq_ok.mp hD
    obtain ⟨s₅, w₆, -, hF⟩ := PyM.bind_eq_ok.mp hE
    obtain ⟨r, w₇, hrun, -⟩ := PyM.bind_eq_ok.mp hF
    exact raising_task hrun
  · obtain ⟨s₅, w₆, -, hF⟩ := PyM.bind_eq_ok.mp hD
    obtain ⟨r, w₇, hrun, -⟩ := PyM.bind_eq_ok.mp hF
    exact raising_task hrun

/-- If no call completes, the scripts raise. -/
theorem best_raises {env : Env} {f : ℕ → String → PyM World BestFit} {stem : String} (hf : ∀ i name w b w', f i name w ≠ (.ok b, w')) (n few : ℕ) (w : World) :
    (∃ e w', bestOfRuns env f stem (n + 1) few w = (.error e, w')) ∧ ∃ e w', bestOfPool env f stem (n + 1) few w = (.error e, w') := by
  rcases h1 : f 0 (stem ++ toString 0) w with ⟨e | b, w₁⟩
  swap
  · exact absurd h1 (hf _ _ _ _ _)
  refine ⟨⟨e, w₁, ?_⟩, ?_⟩
  · unfold bestOfRuns runsFrom
    exact PyM.bind_error (PyM.bind_error h1)
  · obtain ⟨rs, w', h2, -, -⟩ := applyAsync_tries f stem n 1 w₁
    refine ⟨e, w', ?_⟩
    unfold bestOfPool
    have h3 : applyAsync f stem 0 (n + 1) w = (.ok (.error e :: rs), w') := by
      rw [applyAsync]
      simp only [h1]
      rw [PyM.bind_ok h2, PyM.pure_run]
    rw [PyM.bind_ok h3]
    refine PyM.bind_error ?_
    unfold getResults
    exact PyM.bind_error (PyM.lift_run _ _)

end UA
