import Verif.Lemmas.InterruptedRun
import Verif.Lemmas.PipelinesWitness
import Verif.Lemmas.ResidualWitness

/-!
# Helper lemmas: runs that end with an exception exist
-/

namespace UA

theorem runTasks_append (env : Env) : ∀ (cs cs' : List TaskClass) (i : ℕ) {self self' : Pipeline} {w w' : World},
    Pipeline.runTasks env i cs self w = (.ok self', w') → Pipeline.runTasks env i (cs ++ cs') self w = Pipeline.runTasks env (i + cs.length) cs' self' w'
  | [], cs', i, self, self', w, w', h => by
    injection h with h1 h2
    injection h1 with h1
    rw [← h1, ← h2]; rfl
  | c :: cs, cs', i, self, self', w, w', h => by
    rw [List.cons_append]
    unfold Pipeline.runTasks at h
    conv => lhs; unfold Pipeline.runTasks
    obtain ⟨p, w₁, h1, h⟩ := PyM.bind_eq_ok.mp h
    obtain ⟨s₂, w₂, h2, h⟩ := PyM.bind_eq_ok.mp h
    obtain ⟨t, w₃, h3, h⟩ := PyM.bind_eq_ok.mp h
    obtain ⟨s₄, w₄, h4, h⟩ := PyM.bind_eq_ok.mp h
    obtain ⟨t', w₅, h5, h⟩ := PyM.bind_eq_ok.mp h
    obtain ⟨s₆, w₆, h6, h⟩ := PyM.bind_eq_ok.mp h
    obtain ⟨s₇, w₇, h7, h⟩ := PyM.bind_eq_ok.mp h
    obtain ⟨u, w₈, h8, h⟩ := PyM.bind_eq_ok.mp h
    obtain ⟨s₉, w₉, h9, h⟩ := PyM.bind_eq_ok.mp h
    obtain ⟨v, w₁₀, h10, h⟩ := PyM.bind_eq_ok.mp h
    rw [PyM.bind_ok h1, PyM.bind_ok h2, PyM.bind_ok h3, PyM.bind_ok h4, PyM.bind_ok h5, PyM.bind_ok h6, PyM.bind_ok h7]
    dsimp only
    rw [PyM.bind_ok h8, PyM.bind_ok h9, PyM.bind_ok h10, runTasks_append env cs cs' (i + 1) h, List.length_cons, show i + 1 + cs.length = i + (cs.length + 1) by omega]

theorem runRounds_append (env : Env) (nr : ℤ) : ∀ (ks ks' : List ℤ) (i : ℕ) {self self' : Pipeline} {w w' : World},
    Pipeline.runRounds env nr i ks self w = (.ok self', w') → Pipeline.runRounds env nr i (ks ++ ks') self w = Pipeline.runRounds env nr (i + ks.length) ks' self' w'
  | [], cs', i, self, self', w, w', h => by
    injection h with h1 h2
    injection h1 with h1
    rw [← h1, ← h2]; rfl
  | c :: cs, cs', i, self, self', w, w', h => by
    rw [List.cons_append]
    unfold Pipeline.runRounds at h
    conv => lhs; unfold Pipeline.runRounds
    dsimp only at h ⊢
    obtain ⟨p, w₁, h1, h⟩ := PyM.bind_eq_ok.mp h
    obtain ⟨s₂, w₂, h2, h⟩ := PyM.bind_eq_ok.mp h
    obtain ⟨⟨t, s₃⟩, w₃, h3, h⟩ := PyM.bind_eq_ok.mp h
    obtain ⟨s₄, w₄, h4, h⟩ := PyM.bind_eq_ok.mp h
    obtain ⟨t', w₅, h5, h⟩ := PyM.bind_eq_ok.mp h
    rw [PyM.bind_ok h1, PyM.bind_ok h2, PyM.bind_ok h3]
    dsimp only
    rw [PyM.bind_ok h4, PyM.bind_ok h5, runRounds_append env nr cs cs' (i + 1) h, List.length_cons, show i + 1 + cs.length = i + (cs.length + 1) by omega]

/-- After any number of full fits a task that the pipeline cannot make. -/
theorem poles_run_error (g : ℝ → ℝ) (str : PyFloat → String) (n : ℕ) (a : ℝ) :
    ∃ w', (polesPipeline (List.replicate n .nucleonFFFull ++ [.nucleonCSFull])).run (polesEnv g str) (startWorld [poles a]) = (.error .typeError, w') := by
  unfold Pipeline.run
  have hp : (startWorld [poles a]).heap[(polesPipeline (List.replicate n .nucleonFFFull ++ [.nucleonCSFull])).parameters]? = some (poles a) := rfl
  rw [PyM.bind_ok (readParams_run hp)]
  obtain ⟨s₁, w₁, h1⟩ : ∃ s₁ w₁, (polesPipeline (List.replicate n .nucleonFFFull ++ [.nucleonCSFull])).log
    ("Starting. Initial parameters: " ++ (polesEnv g str).strParameters (poles a).toList) (startWorld [poles a]) = (.ok s₁, w₁) := ⟨_, _, rfl⟩
  obtain ⟨t1, hs1, e1⟩ := Traced.log h1
  obtain ⟨s₂, w₂, rs, h2, d2, f2⟩ := poles_runTasks g str (tasks := List.replicate n .nucleonFFFull ++ [.nucleonCSFull]) n 0 (self := s₁) (w := w₁) (a := a) t1.config
    (by unfold World.Good; rw [e1]; exact startWorld_good a) (by rw [e1, hs1]; rfl)
  rw [PyM.bind_ok h1, show s₁.tasks = List.replicate n .nucleonFFFull ++ [.nucleonCSFull] from by rw [hs1]; rfl]
  obtain ⟨p, hp2⟩ := d2.live.2
  have hk : s₂.kind = .nucleonFF := d2.traced.kind.trans t1.kind
  have h3 : ∃ w', Pipeline.runTasks (polesEnv g str) 0 (List.replicate n .nucleonFFFull ++ [.nucleonCSFull]) s₁ w₁ = (.error .typeError, w') := by
    rw [runTasks_append _ _ _ _ h2]
    unfold Pipeline.runTasks
    rw [PyM.bind_ok (readParams_run hp2)]
    obtain ⟨s₃, w₃, h3⟩ : ∃ s₃ w₃, s₂.log ("Initializing Task#" ++ toString (0 + (List.replicate n TaskClass.nucleonFFFull).length) ++ ". Parameters: " ++
      (polesEnv g str).strParameters p.toList) w₂ = (.ok s₃, w₃) := ⟨_, _, rfl⟩
    rw [PyM.bind_ok h3]
    have hk3 : s₃.kind = .nucleonFF := (Traced.log h3).1.kind.trans hk
    dsimp only
    have h4 : s₃.createTask ("Task#" ++ toString (0 + (List.replicate n TaskClass.nucleonFFFull).length) ++ ":" ++ TaskClass.nucleonCSFull.pyName) .nucleonCSFull w₃ =
        (.error .typeError, w₃) := by
      unfold Pipeline.createTask
      rw [hk3, if_neg (by decide), if_neg (by decide)]
      rfl
    rw [PyM.bind_error h4]
    exact ⟨_, rfl⟩
  obtain ⟨w', h3⟩ := h3
  rw [PyM.bind_error h3]
  exact ⟨_, rfl⟩

/-- After any number of rounds one with more free parameters than there are. -/
theorem poles_runIterative_error (g : ℝ → ℝ) (str : PyFloat → String) (n : ℕ) (a : ℝ) :
    ∃ w', (polesPipeline []).runIterative (polesEnv g str) ⟨List.replicate n 3 ++ [4], 0⟩ (startWorld [poles a]) = (.error .valueError, w') := by
  unfold Pipeline.runIterative
  have hp : (startWorld [poles a]).heap[(polesPipeline []).parameters]? = some (poles a) := rfl
  rw [PyM.bind_ok (readParams_run hp)]
  obtain ⟨s₁, w₁, h1⟩ : ∃ s₁ w₁, (polesPipeline []).log ("Starting. Initial parameters: " ++ (polesEnv g str).strParameters (poles a).toList)
    (startWorld [poles a]) = (.ok s₁, w₁) := ⟨_, _, rfl⟩
  obtain ⟨t1, d1, e1⟩ := Traced.log h1
  rw [PyM.bind_ok h1]
  obtain ⟨s₂, w₂, a', h2, c2, g2, p2⟩ := poles_runRounds g str (tasks := []) n 0 (self := s₁) (w := w₁) (a := a) t1.config
    (by unfold World.Good; rw [e1]; exact startWorld_good a) (by rw [e1, d1]; rfl)
  have h3 : ∃ w', Pipeline.runRounds (polesEnv g str) 0 0 (List.replicate n 3 ++ [4]) s₁ w₁ = (.error .valueError, w') := by
    rw [runRounds_append _ _ _ _ _ h2]
    unfold Pipeline.runRounds
    dsimp only
    rw [show s₂.kind = .nucleonFF from congrArg Pipeline.kind c2, show decide (((0 + (List.replicate n (3 : ℤ)).length : ℕ) : ℤ) < 0) = false by simp,
      show PipelineKind.nucleonFF.capped = false from rfl]
    have h4 : randomlyFreezeParameters (polesEnv g str) false s₂.parameters 4 false w₂ = (.error .valueError, w₂) := by
      unfold randomlyFreezeParameters
      rw [PyM.bind_ok (mutateParams_run p2 _)]
      rw [show (poles a').releaseAllParameters = poles a' from rfl, set_self p2]
      rw [if_neg (by decide)]
      dsimp only
      rw [PyM.bind_ok (readParams_run p2)]
      have hs : (polesEnv g str).randomSample (((poles a').toList.filter (!·.is_fixed)).map (·.name)) (if false = true then
          min ((((poles a').toList.filter (!·.is_fixed)).map (·.name)).length : ℤ) 4 else 4) w₂ = (.error .valueError, w₂) := rfl
      rw [PyM.bind_error hs]
    rw [PyM.bind_error h4]
    exact ⟨_, rfl⟩
  obtain ⟨w', h3⟩ := h3
  rw [PyM.bind_error h3]
  exact ⟨_, rfl⟩

/-- The residual task cannot evaluate a cross section for two poles. -/
theorem poles_residual_error {t : Task} {w : World} (hc : t.cls = .residual) (hts : t.ts = [.nucleon 5 true true]) {a : ℝ}
    (hp : w.heap[t.parameters]? = some (poles a)) (env : Env) : ∃ e w', t.run env w = (.error e, w') := by
  have hfix : Reachable (poles a).fixAllParameters := .step .fixAll (poles_reachable a)
  have hl := heap_set_append hp
  have hset : ∃ e w', t.setUp w = (.error e, w') := by
    have : t.setUp = t.setUpResidual := by unfold Task.setUp; rw [hc]
    rw [this]
    unfold Task.setUpResidual
    rw [PyM.bind_ok (mutateParams_run hp _)]
    have hp1 : (w.heap.set t.parameters (poles a).fixAllParameters)[t.parameters]? = some (poles a).fixAllParameters := by
      rw [List.getElem?_set_self hl]
    rw [PyM.bind_ok (makePartialIn_run (w := { w with heap := w.heap.set t.parameters (poles a).fixAllParameters }) hp1 hfix _)]
    rw [PyM.bind_run, callPartialIn_run (q := (poles a).fixAllParameters) (by exact List.getElem?_concat_length)]
    obtain ⟨e, he⟩ : ∃ e, partialSpec t.csKind (poles a).fixAllParameters t.ts [] = .error e := by
      rw [hts]
      exact ⟨_, rfl⟩
    rw [he]
    exact ⟨_, _, rfl⟩
  obtain ⟨e, w', hset⟩ := hset
  unfold Task.run
  rw [PyM.bind_error hset]
  exact ⟨_, _, rfl⟩

/-- The full fit fails and the residual task raises. -/
theorem poles_nucleon_error (a : ℝ) : ∃ e w', quietPipeline.runNucleonCSIterative failEnv ⟨[], 0⟩ (startWorld [poles a]) = (.error e, w') := by
  unfold Pipeline.runNucleonCSIterative
  have hp : (startWorld [poles a]).heap[quietPipeline.parameters]? = some (poles a) := rfl
  rw [PyM.bind_ok (readParams_run hp)]
  obtain ⟨s₁, w₁, h1⟩ : ∃ s₁ w₁, quietPipeline.log ("Starting. Initial parameters: " ++ failEnv.strParameters (poles a).toList) (startWorld [poles a]) = (.ok s₁, w₁) :=
    ⟨_, _, rfl⟩
  rw [PyM.bind_ok h1]
  obtain ⟨t1, d1, e1⟩ := Traced.log h1
  have h2 : Pipeline.runRounds failEnv 0 0 [] s₁ w₁ = (.ok s₁, w₁) := rfl
  rw [PyM.bind_ok h2]
  have hp1 : w₁.heap[s₁.parameters]? = some (poles a) := by rw [e1, d1]; rfl
  dsimp only
  rw [PyM.bind_ok (mutateParams_run hp1 _), show (poles a).releaseAllParameters = poles a from rfl, set_self hp1, if_neg (by decide), if_neg (by decide)]
  have hg1 : w₁.Good := by unfold World.Good; rw [e1]; exact startWorld_good a
  have c1 := t1.config
  clear t1 e1 h1 h2 d1
  obtain ⟨s₂, w₂, h3⟩ : ∃ s₂ w₂, s₁.log ("Initializing Task#" ++ toString ([] : List ℤ).length ++ ". " ++ "Full fit" ++ ".") w₁ = (.ok s₂, w₂) := ⟨_, _, rfl⟩
  rw [PyM.bind_ok h3]
  obtain ⟨t2, d2, e2⟩ := Traced.log h3
  generalize ("Task#" ++ toString ([] : List ℤ).length ++ ":" ++ "Full fit") = name
  have hp2 : w₂.heap[s₂.parameters]? = some (poles a) := by rw [e2, d2]; exact hp1
  have g2 : w₂.Good := by unfold World.Good; rw [e2]; exact hg1
  have c2 : s₂.config = quietPipeline.config := t2.config.trans c1
  obtain ⟨t, hn, q1, q2, q3⟩ : ∃ t, s₂.newTask name .nucleonCSFixAccording w₂ = (.ok t, w₂) ∧ t.cls = .nucleonCSFixAccording ∧
      t.parameters = s₂.parameters ∧ t.use_handpicked_bounds = true := by
    unfold Pipeline.newTask Task.init
    rw [PyM.bind_ok (readParams_run hp2)]
    exact ⟨_, rfl, rfl, rfl, congrArg Pipeline.use_handpicked_bounds c2⟩
  obtain ⟨t', w₃, hrun, k1, k2⟩ := quiet_full (poles_reachable a) (w := { w₂ with stdout := w₂.stdout ++ [printedLine s₂.name ("Running " ++ name)] }) q1 q3
    (by rw [q2]; exact hp2)
  obtain ⟨s₄, w₄, h4, e4, p4⟩ := iterativeTask_run g2 hn hrun
  rw [PyM.bind_ok h4]
  dsimp only
  have c4 : s₄.config = quietPipeline.config := by
    obtain ⟨-, -, -, t4⟩ := iterativeTask_ok g2 h4
    exact t4.config.trans c2
  have p4' : w₄.heap[s₄.parameters]? = some (poles a) := by rw [e4, p4, k1]; exact k2
  obtain ⟨s₅, w₅, h5⟩ : ∃ s₅ w₅, s₄.log ("Best fit: " ++ failEnv.strBestFit s₄.best_fit) w₄ = (.ok s₅, w₅) := ⟨_, _, rfl⟩
  rw [PyM.bind_ok h5]
  obtain ⟨t5, d5, e5⟩ := Traced.log h5
  obtain ⟨s₆, w₆, h6⟩ : ∃ s₆ w₆, s₅.flushReport w₅ = (.ok s₆, w₆) := ⟨_, _, rfl⟩
  rw [PyM.bind_ok h6]
  obtain ⟨t6, d6, e6, -⟩ := Traced.flush h6
  obtain ⟨w₇, h7⟩ : ∃ w₇, s₆.saveReport failEnv (toString ([] : List ℤ).length) t'.report w₆ = (.ok (), w₇) := ⟨_, rfl⟩
  rw [PyM.bind_ok h7]
  obtain ⟨-, e7, -⟩ := Traced.save h7
  obtain ⟨s₈, w₈, h8⟩ : ∃ s₈ w₈, s₆.log ("Initializing Task#" ++ toString (([] : List ℤ).length + 1) ++ ". Residuals.") w₇ = (.ok s₈, w₈) := ⟨_, _, rfl⟩
  rw [PyM.bind_ok h8]
  obtain ⟨t8, d8, e8⟩ := Traced.log h8
  have c8 : s₈.config = quietPipeline.config := (t8.config.trans (t6.config.trans t5.config)).trans c4
  have hp8 : w₈.heap[s₈.parameters]? = some (poles a) := by
    rw [e8, e7, e6, e5, d8]
    show w₄.heap[s₆.parameters]? = _
    rw [d6]
    show w₄.heap[s₅.parameters]? = _
    rw [d5]
    exact p4'
  generalize ("Task#" ++ toString (([] : List ℤ).length + 1) ++ ":" ++ TaskClass.residual.pyName) = name'
  obtain ⟨r, hr, r1, r2, r4⟩ : ∃ r, s₈.newTask name' .residual w₈ = (.ok r, w₈) ∧ r.cls = .residual ∧
      r.parameters = s₈.parameters ∧ r.ts = [.nucleon 5 true true] := by
    unfold Pipeline.newTask Task.init
    rw [PyM.bind_ok (readParams_run hp8)]
    exact ⟨_, rfl, rfl, rfl, congrArg Pipeline.ts c8⟩
  rw [PyM.bind_ok hr]
  obtain ⟨s₉, w₉, h9⟩ : ∃ s₉ w₉, s₈.log ("Running " ++ name') w₈ = (.ok s₉, w₉) := ⟨_, _, rfl⟩
  rw [PyM.bind_ok h9]
  obtain ⟨-, -, e9⟩ := Traced.log h9
  obtain ⟨e, wr, hrun'⟩ := poles_residual_error r1 r4 (by rw [e9, r2]; exact hp8) failEnv
  rw [PyM.bind_error hrun']
  exact ⟨_, _, rfl⟩

end UA
