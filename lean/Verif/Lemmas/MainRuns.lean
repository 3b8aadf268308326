import Verif.Spec.MainRuns
import Verif.Lemmas.PipelinesGood
import Verif.Props.PipelinesRun
import Verif.Props.BestFit
import Verif.Props.Scripts
import Verif.Lemmas.FitScriptsWitness

/-!
# Lemmas for C97
-/

namespace UA

/-! ### Paths -/

theorem slash_not_mem_nat (i : ℕ) : '/' ∉ (toString i).toList := by
  intro h
  rw [show toString i = Nat.repr i from rfl, Nat.repr, String.toList_ofList] at h
  have := Nat.isDigit_of_mem_toDigits (by decide) (by decide) h
  exact absurd this (by decide)

theorem nat_text_ne (i : ℕ) : (toString i).toList ≠ [] := by
  rw [show toString i = Nat.repr i from rfl, Nat.repr, String.toList_ofList]
  exact Nat.toDigits_ne_nil

theorem prefix_slash {a b y : List Char} (ha : '/' ∉ a) (hb : '/' ∉ b) (h : a ++ ['/'] <+: y) (h' : b ++ ['/'] <+: y) : a = b := by
  have key : ∀ {a y : List Char}, '/' ∉ a → a ++ ['/'] <+: y → y.takeWhile (· ≠ '/') = a := by
    rintro a y ha ⟨z, rfl⟩
    rw [List.append_assoc, List.takeWhile_append_of_pos]
    · simp
    · intro c hc
      exact decide_eq_true fun h => ha (h ▸ hc)
  rw [← key ha h, ← key hb h']

theorem runDir_inj {base stem : String} {i j : ℕ} {q : List Char} (h : (base ++ "/" ++ stem ++ toString i ++ "/").toList <+: q)
    (h' : (base ++ "/" ++ stem ++ toString j ++ "/").toList <+: q) : i = j := by
  have e : "/".toList = ['/'] := rfl
  rw [String.toList_append, String.toList_append, List.append_assoc, e] at h h'
  obtain ⟨z, rfl⟩ := h
  rw [List.append_assoc, List.prefix_append_right_inj] at h'
  have := prefix_slash (slash_not_mem_nat i) (slash_not_mem_nat j) (List.prefix_append _ z) h'
  exact toString_nat_inj (String.toList_inj.mp this)

theorem runDir_outside {base stem : String} {i j : ℕ} :
    ¬ (base ++ "/" ++ stem ++ toString i ++ "/").toList <+: (base ++ "/" ++ stem ++ toString j).toList := by
  intro h
  have e : "/".toList = ['/'] := rfl
  rw [String.toList_append, String.toList_append (s := base ++ "/" ++ stem), String.toList_append (s := base ++ "/" ++ stem), List.append_assoc, e,
    List.prefix_append_right_inj] at h
  exact slash_not_mem_nat j (h.subset (by simp))

theorem report_inside (d : String) : (d ++ "/").toList <+: (d ++ "/report.txt").toList := by
  rw [String.toList_append, String.toList_append, List.prefix_append_right_inj]
  decide

theorem task_inside (d : String) (k : ℕ) : (d ++ "/").toList <+: (d ++ "/report_" ++ toString k ++ ".txt").toList := by
  rw [String.toList_append, String.toList_append, String.toList_append, String.toList_append, List.append_assoc, List.append_assoc,
    List.prefix_append_right_inj]
  exact (by decide : "/".toList <+: "/report_".toList).trans (List.prefix_append _ _)

/-- Where a run leaves its files. -/
theorem runDir_paths {base stem : String} (hd : base ≠ "") (hd' : ¬ ['/'] <:+ base.toList) (hs : '/' ∉ stem.toList) (i : ℕ) :
    pathJoin base (stem ++ toString i) = base ++ "/" ++ stem ++ toString i ∧
    ∀ self : Pipeline, self.reports_dir = base ++ "/" ++ stem ++ toString i →
      self.reportFile = base ++ "/" ++ stem ++ toString i ++ "/report.txt" ∧
      ∀ k, self.taskFile k = base ++ "/" ++ stem ++ toString i ++ "/report_" ++ toString k ++ ".txt" := by
  have hn : '/' ∉ (stem ++ toString i).toList := by
    rw [String.toList_append, List.mem_append]
    exact not_or.mpr ⟨hs, slash_not_mem_nat i⟩
  refine ⟨?_, fun self hself => ?_⟩
  · rw [(C60_paths hd hd' fun h => hn (h.subset (by simp))).1]
    simp only [String.append_assoc]
  · refine (C60_paths (name := "") (reports_dir := base ++ "/" ++ stem ++ toString i) ?_ ?_ (by decide)).2 self hself
    · intro h
      have := congrArg String.toList h
      rw [String.toList_append] at this
      exact nat_text_ne i (List.append_eq_nil_iff.mp this).2
    · rintro ⟨l, hl⟩
      rw [String.toList_append] at hl
      have h1 := congrArg List.getLast? hl
      rw [List.getLast?_append_of_ne_nil _ (nat_text_ne i), List.getLast?_concat] at h1
      exact slash_not_mem_nat i (List.mem_of_getLast? h1.symm)

/-! ### One call -/

theorem setUp_inv {env : Env} {kind : PipelineKind} {name : String} {parameters : ℕ} {tasks : List TaskClass} {ts : List Datapoint}
    {ys errors : List ℝ} {reports_dir : String} {plot handpicked : Bool} {constants : Constants} {w w' : World} {s : Pipeline}
    (h : Pipeline.init env kind name parameters tasks ts ys errors reports_dir plot handpicked constants w = (.ok s, w')) :
    w.fs.exists (pathJoin reports_dir name) = false ∧ env.mkdirFails (pathJoin reports_dir name) = false ∧
      w' = { w with fs := { w.fs with dirs := fun q => q == pathJoin reports_dir name || w.fs.dirs q } } := by
  unfold Pipeline.init at h
  obtain ⟨u, w₁, h1, h2⟩ := PyM.bind_eq_ok.mp h
  rw [PyM.pure_run] at h2
  injection h2 with _ h3
  unfold setUpReportsDirectory at h1
  rw [PyM.bind_ok (PyM.get_run _ _)] at h1
  split_ifs at h1 with hd
  · cases h1
  · unfold Env.mkdir at h1
    split_ifs at h1 with hm
    · cases h1
    injection h1 with _ h1
    exact ⟨by simpa using hd, by simpa using hm, by rw [← h3, ← h1]⟩

theorem script_f_inv {script : FitScript} {env : Env} {random : ℕ → ℝ} {pion_mass : ℝ} {constants : Constants} {a b c d e f : List ℝ} {path name : String}
    {w w' : World} {best : BestFit} (h : script.f env random pion_mass constants a b c d e f path name w = (.ok best, w')) :
    ∃ (p₀ p : ModelParameters ℝ) (ts : List Datapoint) (ys errors : List ℝ) (s' : Pipeline),
      script.makeInitialParameters [("t_0_isoscalar", (3 * pion_mass) ^ 2), ("t_0_isovector", (2 * pion_mass) ^ 2)] = .ok p₀ ∧
      perturbModelParameters p₀ script.perturbation_size (some script.perturbation_size_resonances) script.use_handpicked_bounds random = (.ok (), p) ∧
      w.fs.exists (pathJoin path name) = false ∧ s'.best_fit = best ∧
      Pipeline.runIterative ⟨script.kind, name, w.heap.length, [], ts, ys, errors, pathJoin path name, false, script.use_handpicked_bounds, constants,
        "Report " ++ name ++ ":\n", .nothing⟩ env
        ⟨freeParamsNumbers script.nr_free_params script.nr_iterations, script.nr_initial_rounds_with_fixed_resonances⟩
        { w with heap := w.heap ++ [p], fs := { w.fs with dirs := fun q => q == pathJoin path name || w.fs.dirs q } } = (.ok s', w') := by
  unfold FitScript.f at h
  obtain ⟨p, w₁, h1, hA⟩ := PyM.bind_eq_ok.mp h
  rw [PyM.lift_run] at h1
  injection h1 with hp hw
  subst hw
  rw [PyM.bind_ok (newParams_run p w)] at hA
  obtain ⟨u, w₃, h3, hC⟩ := PyM.bind_eq_ok.mp hA
  rw [mutateParams_run (p := p) (by simp)] at h3
  injection h3 with h3 hw3
  obtain ⟨⟨ts, ys, errors⟩, w₄, h4, hD⟩ := PyM.bind_eq_ok.mp hC
  rw [PyM.lift_run] at h4
  injection h4 with hprep hw
  subst hw
  obtain ⟨s, w₅, h5, hE⟩ := PyM.bind_eq_ok.mp hD
  obtain ⟨-, hs5⟩ := pipelineInit_inv h5
  obtain ⟨k1, k2, k3⟩ := setUp_inv h5
  obtain ⟨s', w₆, h6, hF⟩ := PyM.bind_eq_ok.mp hE
  rw [PyM.pure_run] at hF
  injection hF with hF hw6
  injection hF with hF
  subst hw6
  subst hw3
  refine ⟨p, _, ts, ys, errors, s', hp, Prod.ext h3 rfl, k1, hF, ?_⟩
  rw [k3, hs5] at h6
  simpa using h6

/-- The message file of a run. -/
def runLog (base stem : String) (i : ℕ) : String := base ++ "/" ++ stem ++ toString i ++ "/report.txt"

/-- How the runs of a script are recorded: the result and the messages of a run, and how it is documented in a directory. -/
structure RunSpec (R : Type) where
  result : R → BestFit
  messages : R → List String
  left : (name dir before : String) → R → FS → Prop

/-- A run stays documented while nothing in its directory changes. -/
def RunSpec.Stable {R : Type} (S : RunSpec R) : Prop :=
  ∀ name dir before run fs fs', S.left name dir before run fs → (∀ q : String, (dir ++ "/").toList <+: q.toList → fs'.files q = fs.files q) →
    (fs.dirs dir = true → fs'.dirs dir = true) → S.left name dir before run fs'

def iterativeSpec (env : Env) (kind : PipelineKind) (rounds : List ℤ) : RunSpec IterativeRun :=
  ⟨(·.result), (·.messages env), fun name dir before run fs => run.Left env name dir before kind rounds fs⟩

/-- What one call does. -/
structure CallLeft {R : Type} (S : RunSpec R) (base stem : String) (i : ℕ) (run : R) (w w' : World) : Prop where
  good : w'.Good
  left : S.left (stem ++ toString i) (base ++ "/" ++ stem ++ toString i) ((w.fs.files (runLog base stem i)).getD "") run w'.fs
  printed : w'.stdout = w.stdout ++ (S.messages run).map (printedLine (stem ++ toString i))
  files : ∀ q : String, ¬ (base ++ "/" ++ stem ++ toString i ++ "/").toList <+: q.toList → w'.fs.files q = w.fs.files q
  dirs : ∀ q, w'.fs.dirs q = (q == base ++ "/" ++ stem ++ toString i || w.fs.dirs q)

theorem kaon_call {script : FitScript} (hkind : script.kind ≠ .nucleonCS) {env : Env} (hs : env.Samples) (hstr : ∀ x, env.strFloat x ≠ "")
    {random : ℕ → ℝ} {pion_mass : ℝ} {constants : Constants} {a b c d e f : List ℝ}
    {base stem : String} (hd : base ≠ "") (hd' : ¬ ['/'] <:+ base.toList) (hst : '/' ∉ stem.toList) (i : ℕ) {w w' : World} (hg : w.Good) {best : BestFit}
    (h : script.f env random pion_mass constants a b c d e f base (stem ++ toString i) w = (.ok best, w')) :
    ∃ run : IterativeRun, run.result = best ∧ (∃ p₀ p : ModelParameters ℝ,
        script.makeInitialParameters [("t_0_isoscalar", (3 * pion_mass) ^ 2), ("t_0_isovector", (2 * pion_mass) ^ 2)] = .ok p₀ ∧
        perturbModelParameters p₀ script.perturbation_size (some script.perturbation_size_resonances) script.use_handpicked_bounds random = (.ok (), p) ∧
        run.initial = p.toList) ∧
      CallLeft (iterativeSpec env script.kind (freeParamsNumbers script.nr_free_params script.nr_iterations)) base stem i run w w' := by
  have hgood := script_f_good script env random pion_mass constants a b c d e f base (stem ++ toString i) w hg
  rw [h] at hgood
  obtain ⟨p₀, p, ts, ys, errors, s', h0, h1, h2, h3, h4⟩ := script_f_inv h
  obtain ⟨hdir, hpath⟩ := runDir_paths hd hd' hst i
  rw [hdir] at h2 h4
  have hr : Reachable p := by
    have := (C48_only_free (.init h0) script.use_handpicked_bounds script.perturbation_size (some script.perturbation_size_resonances) random).1
    rw [h1] at this
    exact this
  generalize hself : (⟨script.kind, stem ++ toString i, w.heap.length, [], ts, ys, errors, base ++ "/" ++ stem ++ toString i, false,
    script.use_handpicked_bounds, constants, "Report " ++ (stem ++ toString i) ++ ":\n", .nothing⟩ : Pipeline) = self at h4
  generalize hw5 : ({ w with heap := w.heap ++ [p], fs := { w.fs with dirs := fun q => q == base ++ "/" ++ stem ++ toString i || w.fs.dirs q } } : World) = w₅ at h4
  have g5 : w₅.Good := by rw [← hw5]; exact hg.append hr
  obtain ⟨q, rs, last, rest, k1, k2, k3, k4, k5, k6, k7⟩ := runIterative_ok g5 h4
  have hm : List.Forall₂ (fun r n => r.Made env n) (rs.map Prod.snd ++ [last])
      (taskNames 0 ((freeParamsNumbers script.nr_free_params script.nr_iterations).map fun _ => self.kind.fixAccording) ++
        ["Task#" ++ toString (freeParamsNumbers script.nr_free_params script.nr_iterations).length ++ ":" ++ self.kind.fullFit.pyName]) :=
    List.rel_append (forall₂_snd k2) (.cons k3 .nil)
  obtain ⟨⟨chis, r1⟩, r2⟩ := reported_of_traced k5 hm
  have hk : self.kind = script.kind := by rw [← hself]
  rw [taskNames_iterative (by rw [hk]; exact hkind), hk] at r1
  obtain ⟨f1, f2⟩ := hpath self (by rw [← hself])
  have hq : q = p := by
    rw [← hw5, ← hself] at k1
    simpa using k1.symm
  subst hq
  have hname : self.name = stem ++ toString i := by rw [← hself]
  have hlen : rs.length = (freeParamsNumbers script.nr_free_params script.nr_iterations).length := by
    have := congrArg List.length r1.names
    simpa [numberedNames, iterativeClassNames] using this
  have hb := best_of_texts r1.outcomes (foldl_best self.name _ (says_nonempty hstr r1.outcomes))
  rw [show BestFit.nothing = self.best_fit by rw [← hself], ← k4, h3, hname] at hb
  have hmsg : (("Starting. Initial parameters: " ++ env.strParameters q.toList) ::
        (taskMessages env ". Free parameters: " 0 rs ++ ["Initializing Task#" ++ toString (freeParamsNumbers script.nr_free_params script.nr_iterations).length ++ ". Full fit.",
          "Running " ++ last.name, last.name ++ " report: " ++ env.strReport last, "Best fit: " ++ env.strBestFit s'.best_fit])) =
      IterativeRun.messages ⟨q.toList, rs.map Prod.fst, rs.map Prod.snd, last, chis, best⟩ env := by
    unfold IterativeRun.messages
    rw [← List.zip_of_prod (xs := rs) rfl rfl, List.length_map, hlen, h3]
  refine ⟨⟨q.toList, rs.map Prod.fst, rs.map Prod.snd, last, chis, best⟩, rfl, ⟨p₀, q, h0, h1, rfl⟩, hgood, ⟨?_, ?_, r1.names, r1.outcomes, hb, ?_, ?_⟩, ?_, ?_, ?_⟩
  · rw [k5.dirs, ← hw5]; simp
  · rw [List.length_map, hlen]
  · intro k r hr
    rw [← f2]
    exact r1.files k r hr
  · refine ⟨rest, ?_, hmsg ▸ k7⟩
    rw [← f1, k6]
    unfold Pipeline.text runLog
    rw [f1, ← hw5, ← hself]
    simp only [String.append_assoc]
  · show _ = _ ++ (IterativeRun.messages _ env).map _
    rw [← hmsg, k5.printed, hname, ← hw5]
  · intro q' hq'
    rw [r2 q', ← hw5]
    · rw [f1]
      rintro rfl
      apply hq'
      exact report_inside _
    · intro k hk'
      rw [f2]
      rintro rfl
      apply hq'
      exact task_inside _ _
  · intro q'
    rw [k5.dirs, ← hw5]

/-- The same for the calls of a script with its data. -/
theorem kaon_calls {script : FitScript} (hkind : script.kind ≠ .nucleonCS) {env : Env} (hs : env.Samples) (hstr : ∀ x, env.strFloat x ≠ "")
    {pion_mass : ℝ} {constants : Constants} {charged neutral : List (ℝ × ℝ × ℝ)}
    {base stem : String} (hd : base ≠ "") (hd' : ¬ ['/'] <:+ base.toList) (hst : '/' ∉ stem.toList) (random : ℕ → ℕ → ℝ) (i : ℕ) (w : World) (b : BestFit)
    (w' : World) (hg : w.Good)
    (h : script.f env (random i) pion_mass constants (charged.map (·.1)) (charged.map (·.2.1)) (charged.map (·.2.2)) (neutral.map (·.1))
      (neutral.map (·.2.1)) (neutral.map (·.2.2)) base (stem ++ toString i) w = (.ok b, w')) :
    ∃ run : IterativeRun, run.result = b ∧ ((∃ p, script.StartsWith (random i) pion_mass p ∧ run.initial = p.toList) ∧
        run.result.TrueOf env.strFloat (script.fitted constants) script.cls (kaonPoints charged neutral)) ∧
      CallLeft (iterativeSpec env script.kind (freeParamsNumbers script.nr_free_params script.nr_iterations)) base stem i run w w' := by
  obtain ⟨run, h1, ⟨p₀, p, h2, h3, h4⟩, h5⟩ := kaon_call hkind hs hstr hd hd' hst i hg h
  exact ⟨run, h1, ⟨⟨p, ⟨p₀, h2, h3⟩, h4⟩, by rw [h1]; exact C96_kaon_script hkind hs hstr hg h⟩, h5⟩

/-! ### All calls -/

/-- Completed calls from number `i` on; after each of them `echo` is printed. -/
inductive Calls (f : ℕ → String → PyM World BestFit) (stem : String) (echo : BestFit → List String) : ℕ → World → List BestFit → World → Prop
  | nil {i : ℕ} {w : World} : Calls f stem echo i w [] w
  | cons {i : ℕ} {w w₁ w' : World} {b : BestFit} {rs : List BestFit} : f i (stem ++ toString i) w = (.ok b, w₁) →
    Calls f stem echo (i + 1) { w₁ with stdout := w₁.stdout ++ echo b } rs w' → Calls f stem echo i w (b :: rs) w'

theorem runsFrom_calls {env : Env} {f : ℕ → String → PyM World BestFit} {stem : String} (n : ℕ) : ∀ {i : ℕ} {w w' : World} {results : List BestFit},
    runsFrom env f stem i n w = (.ok results, w') → results.length = n ∧ Calls f stem (fun b => [env.strBestFit b]) i w results w' := by
  induction n with
  | zero =>
    intro i w w' results h
    unfold runsFrom at h
    rw [PyM.pure_run] at h
    injection h with h h'
    injection h with h
    subst h h'
    exact ⟨rfl, .nil⟩
  | succ n ih =>
    intro i w w' results h
    unfold runsFrom at h
    obtain ⟨b, w₁, h1, hA⟩ := PyM.bind_eq_ok.mp h
    obtain ⟨u, w₂, h2, hB⟩ := PyM.bind_eq_ok.mp hA
    injection h2 with _ h2
    subst h2
    obtain ⟨rs, w₃, h3, hC⟩ := PyM.bind_eq_ok.mp hB
    rw [PyM.pure_run] at hC
    injection hC with hC h'
    injection hC with hC
    subst hC h'
    obtain ⟨k1, k2⟩ := ih h3
    exact ⟨by rw [List.length_cons, k1], .cons h1 k2⟩

theorem getResults_ok {env : Env} : ∀ {rs : List (Except PyErr BestFit)} {w w' : World} {results : List BestFit},
    getResults env rs w = (.ok results, w') → rs = results.map .ok ∧ w' = { w with stdout := w.stdout ++ results.map env.strBestFit } := by
  intro rs
  induction rs with
  | nil =>
    intro w w' results h
    unfold getResults at h
    rw [PyM.pure_run] at h
    injection h with h h'
    injection h with h
    subst h h'
    exact ⟨rfl, by simp⟩
  | cons r rs ih =>
    intro w w' results h
    unfold getResults at h
    obtain ⟨b, w₁, h1, hA⟩ := PyM.bind_eq_ok.mp h
    rw [PyM.lift_run] at h1
    injection h1 with h1 h1'
    subst h1'
    obtain ⟨u, w₂, h2, hB⟩ := PyM.bind_eq_ok.mp hA
    injection h2 with _ h2
    subst h2
    obtain ⟨rs', w₃, h3, hC⟩ := PyM.bind_eq_ok.mp hB
    rw [PyM.pure_run] at hC
    injection hC with hC h'
    injection hC with hC
    subst hC h'
    obtain ⟨k1, k2⟩ := ih h3
    refine ⟨by rw [h1, k1]; rfl, ?_⟩
    rw [k2]
    simp

theorem applyAsync_calls {f : ℕ → String → PyM World BestFit} {stem : String} (n : ℕ) : ∀ {i : ℕ} {w w' : World} {results : List BestFit},
    applyAsync f stem i n w = (.ok (results.map .ok), w') → results.length = n ∧ Calls f stem (fun _ => []) i w results w' := by
  induction n with
  | zero =>
    intro i w w' results h
    unfold applyAsync at h
    rw [PyM.pure_run] at h
    injection h with h h'
    injection h with h
    subst h'
    obtain rfl := List.map_eq_nil_iff.mp h.symm
    exact ⟨rfl, .nil⟩
  | succ n ih =>
    intro i w w' results h
    unfold applyAsync at h
    rcases h1 : f i (stem ++ toString i) w with ⟨r, w₁⟩
    simp only [h1] at h
    obtain ⟨rs, w₃, h3, hC⟩ := PyM.bind_eq_ok.mp h
    rw [PyM.pure_run] at hC
    injection hC with hC h'
    injection hC with hC
    subst h'
    cases results with
    | nil => cases hC
    | cons b results =>
      injection hC with hC hC'
      subst hC hC'
      obtain ⟨k1, k2⟩ := ih h3
      refine ⟨by rw [List.length_cons, k1], .cons h1 ?_⟩
      rw [List.append_nil]
      exact k2

theorem printResults_run (env : Env) : ∀ (l : List BestFit) (w : World),
    printResults env l w = (.ok (), { w with stdout := w.stdout ++ l.map env.strBestFit }) := by
  intro l
  induction l with
  | nil => intro w; unfold printResults; rw [PyM.pure_run]; simp
  | cons b l ih =>
    intro w
    unfold printResults
    rw [PyM.bind_ok (show pyPrint (env.strBestFit b) w = (.ok (), { w with stdout := w.stdout ++ [env.strBestFit b] }) from rfl), ih]
    simp

theorem printBest_run (env : Env) (few : ℕ) (results : List BestFit) (w : World) :
    ∃ best printed, FirstBest results best ∧ FewBest results few printed ∧
      printBest env few results w = (.ok (best, printed), { w with stdout := w.stdout ++ ("Best fit:  " ++ bestText env best) :: printed.map env.strBestFit }) := by
  obtain ⟨b1, b2⟩ := C77_best results
  obtain ⟨rest, p1, p2, p3, p4, -⟩ := C77_printed results few
  refine ⟨(bestOf results).2, bestFew few (bestOf results).1, ?_, ⟨p4, rest, p1, p2, p3⟩, ?_⟩
  · by_cases hall : ∀ r ∈ results, r.chi_squared = none
    · refine .inl ⟨hall, ?_⟩
      have : ∀ (l : List BestFit), (∀ r ∈ l, r.chi_squared = none) → ∀ s, l.foldl bestOfStep s = s := by
        intro l
        induction l with
        | nil => exact fun _ _ => rfl
        | cons r l ih =>
          intro h s
          rw [List.foldl_cons]
          have hr : bestOfStep s r = s := by unfold bestOfStep; rw [h r List.mem_cons_self]
          rw [hr]
          exact ih (fun r hr => h r (List.mem_cons_of_mem _ hr)) s
      exact congrArg Prod.snd (this results hall _)
    · rcases hc : (bestOf results).2.chi_squared with _ | c
      · exact absurd (b1.mp hc) hall
      · obtain ⟨before, after, k1, k2, k3⟩ := b2 c hc
        exact .inr ⟨before, after, c, k1, hc, k2, k3⟩
  · unfold printBest
    rcases hb : bestOf results with ⟨final, best⟩
    dsimp only
    rw [PyM.bind_ok (f := fun _ => do printResults env (bestFew few final); return (best, bestFew few final)) (show pyPrint _ w = (.ok (), { w with stdout := w.stdout ++ [_] }) from rfl)]
    rw [PyM.bind_ok (printResults_run env _ _), PyM.pure_run]
    unfold bestText
    rcases best.chi_squared with _ | c <;> simp

/-- A run stays documented while other directories are written to. -/
theorem IterativeRun.Left.mono {run : IterativeRun} {env : Env} {name dir before : String} {kind : PipelineKind} {rounds : List ℤ} {fs fs' : FS}
    (h : run.Left env name dir before kind rounds fs) (hf : ∀ q : String, (dir ++ "/").toList <+: q.toList → fs'.files q = fs.files q)
    (hd : fs.dirs dir = true → fs'.dirs dir = true) : run.Left env name dir before kind rounds fs' := by
  refine ⟨hd h.made, h.starts, h.names, h.outcomes, h.best, fun k r hr => ?_, ?_⟩
  · rw [hf _ (task_inside dir k)]
    exact h.files k r hr
  · obtain ⟨rest, h1, h2⟩ := h.log
    exact ⟨rest, by rw [hf _ (report_inside dir)]; exact h1, h2⟩

theorem iterativeSpec_stable (env : Env) (kind : PipelineKind) (rounds : List ℤ) : (iterativeSpec env kind rounds).Stable :=
  fun _ _ _ _ _ _ h hf hd => IterativeRun.Left.mono h hf hd

/-- What the calls leave behind. -/
theorem calls_left {f : ℕ → String → PyM World BestFit} {base stem : String} {R : Type} {S : RunSpec R} (hS : S.Stable) {Q : ℕ → R → Prop}
    (hcall : ∀ i w b w', w.Good → f i (stem ++ toString i) w = (.ok b, w') → ∃ run : R, S.result run = b ∧ Q i run ∧ CallLeft S base stem i run w w')
    {echo : BestFit → List String} {i : ℕ} {w w' : World} {results : List BestFit} (h : Calls f stem echo i w results w') : w.Good →
    ∃ runs : List R, runs.map S.result = results ∧
      (∀ k run, runs[k]? = some run → Q (i + k) run ∧
        S.left (stem ++ toString (i + k)) (base ++ "/" ++ stem ++ toString (i + k)) ((w.fs.files (runLog base stem (i + k))).getD "") run w'.fs) ∧
      w'.stdout = w.stdout ++ (runs.zipIdx i).flatMap (fun q => (S.messages q.1).map (printedLine (stem ++ toString q.2)) ++ echo (S.result q.1)) ∧
      (∀ q : String, (∀ k < results.length, ¬ (base ++ "/" ++ stem ++ toString (i + k) ++ "/").toList <+: q.toList) → w'.fs.files q = w.fs.files q) ∧
      ∀ q, w'.fs.dirs q = true ↔ (∃ k < results.length, q = base ++ "/" ++ stem ++ toString (i + k)) ∨ w.fs.dirs q = true := by
  induction h with
  | nil => intro _; exact ⟨[], rfl, by simp, by simp, fun _ _ => rfl, by simp⟩
  | @cons i w w₁ w' b rs h1 h2 ih =>
    intro hg
    obtain ⟨run, e1, hQ, c⟩ := hcall _ _ _ _ hg h1
    obtain ⟨runs, r1, r2, r3, r4, r5⟩ := ih c.good
    dsimp only at r3 r4 r5
    refine ⟨run :: runs, by rw [List.map_cons, e1, r1], ?_, ?_, ?_, ?_⟩
    · intro k run' hk
      cases k with
      | zero =>
        obtain rfl := Option.some.inj hk
        refine ⟨hQ, hS _ _ _ _ _ _ c.left (fun q hq => r4 q fun k _ hk' => ?_) fun hd => (r5 _).mpr (.inr hd)⟩
        have := runDir_inj hq hk'
        omega
      | succ k =>
        obtain ⟨q1, q2⟩ := r2 k run' hk
        rw [show i + 1 + k = i + (k + 1) by omega] at q1 q2
        refine ⟨q1, ?_⟩
        have : w.fs.files (runLog base stem (i + (k + 1))) = w₁.fs.files (runLog base stem (i + (k + 1))) := by
          refine (c.files _ fun h => ?_).symm
          have := runDir_inj h (report_inside _)
          omega
        rw [this]
        exact q2
    · rw [r3, c.printed, List.zipIdx_cons, List.flatMap_cons, ← e1]
      simp only [List.append_assoc]
    · intro q hq
      have h0 := hq 0 (by simp)
      rw [r4 q fun k hk => ?_]
      · exact c.files q h0
      · have := hq (k + 1) (by simpa using hk)
        rwa [show i + (k + 1) = i + 1 + k by omega] at this
    · intro q
      rw [r5, c.dirs, Bool.or_eq_true, beq_iff_eq]
      constructor
      · rintro (⟨k, hk, rfl⟩ | rfl | h)
        · exact .inl ⟨k + 1, by simpa using hk, by rw [show i + (k + 1) = i + 1 + k by omega]⟩
        · exact .inl ⟨0, by simp, rfl⟩
        · exact .inr h
      · rintro (⟨k, hk, rfl⟩ | h)
        · cases k with
          | zero => exact .inr (.inl rfl)
          | succ k => exact .inl ⟨k, by simpa using hk, by rw [show i + (k + 1) = i + 1 + k by omega]⟩
        · exact .inr (.inr h)

/-! ### The calls complete -/

theorem exists_later {R : Type} {S : RunSpec R} {base stem : String} {i j : ℕ} (hij : i ≠ j) {run : R} {w w' : World}
    (c : CallLeft S base stem i run w w') (h : w.fs.exists (base ++ "/" ++ stem ++ toString j) = false) :
    w'.fs.exists (base ++ "/" ++ stem ++ toString j) = false := by
  unfold FS.exists at h ⊢
  rw [c.dirs, c.files _ runDir_outside, show (base ++ "/" ++ stem ++ toString j == base ++ "/" ++ stem ++ toString i) = false from ?_, Bool.false_or]
  · exact h
  · rw [beq_eq_false_iff_ne]
    intro he
    exact hij (runDir_inj (q := (base ++ "/" ++ stem ++ toString j ++ "/").toList) (by rw [he]) (List.prefix_refl _))

theorem calls_complete {env : Env} {f : ℕ → String → PyM World BestFit} {base stem : String} {R : Type} {S : RunSpec R} {Q : ℕ → R → Prop}
    (hcall : ∀ i w b w', w.Good → f i (stem ++ toString i) w = (.ok b, w') → ∃ run : R, S.result run = b ∧ Q i run ∧ CallLeft S base stem i run w w')
    {N : ℕ} (hdone : ∀ i < N, ∀ w : World, w.fs.exists (base ++ "/" ++ stem ++ toString i) = false → ∃ b w', f i (stem ++ toString i) w = (.ok b, w')) (n : ℕ) :
    ∀ (i : ℕ) (w : World), i + n ≤ N → w.Good → (∀ k < n, w.fs.exists (base ++ "/" ++ stem ++ toString (i + k)) = false) →
      (∃ results w', runsFrom env f stem i n w = (.ok results, w')) ∧ ∃ (results : List BestFit) (w' : World), applyAsync f stem i n w = (.ok (results.map .ok), w') := by
  induction n with
  | zero => exact fun i w _ _ _ => ⟨⟨[], w, rfl⟩, [], w, rfl⟩
  | succ n ih =>
    intro i w hN hg hex
    obtain ⟨b, w₁, h1⟩ := hdone i (by omega) w (hex 0 (by omega))
    obtain ⟨run, -, -, c⟩ := hcall _ _ _ _ hg h1
    have hlater : ∀ k < n, w₁.fs.exists (base ++ "/" ++ stem ++ toString (i + 1 + k)) = false := by
      intro k hk
      refine exists_later (by omega) c ?_
      rw [show i + 1 + k = i + (k + 1) by omega]
      exact hex (k + 1) (by omega)
    constructor
    · obtain ⟨rs, w₂, h2⟩ := (ih (i + 1) { w₁ with stdout := w₁.stdout ++ [env.strBestFit b] } (by omega) c.good hlater).1
      refine ⟨b :: rs, w₂, ?_⟩
      unfold runsFrom
      rw [PyM.bind_ok h1, PyM.bind_ok (show pyPrint (env.strBestFit b) w₁ = (.ok (), { w₁ with stdout := w₁.stdout ++ [env.strBestFit b] }) from rfl),
        PyM.bind_ok h2, PyM.pure_run]
    · obtain ⟨rs, w₂, h2⟩ := (ih (i + 1) w₁ (by omega) c.good hlater).2
      refine ⟨b :: rs, w₂, ?_⟩
      unfold applyAsync
      simp only [h1]
      rw [PyM.bind_ok h2, PyM.pure_run]
      rfl

theorem getResults_run (env : Env) : ∀ (results : List BestFit) (w : World),
    getResults env (results.map .ok) w = (.ok results, { w with stdout := w.stdout ++ results.map env.strBestFit }) := by
  intro results
  induction results with
  | nil => intro w; unfold getResults; simp [PyM.pure_run]
  | cons b results ih =>
    intro w
    rw [List.map_cons]
    unfold getResults
    rw [PyM.bind_ok (PyM.lift_run _ _), PyM.bind_ok (show pyPrint (env.strBestFit b) w = (.ok (), { w with stdout := w.stdout ++ [env.strBestFit b] }) from rfl),
      PyM.bind_ok (ih _), PyM.pure_run]
    simp

/-- The end of both kinds of scripts, given the results. -/
theorem end_left_of {env : Env} {f : ℕ → String → PyM World BestFit} {base stem : String} {R : Type} {S : RunSpec R} (hS : S.Stable) {Q : ℕ → R → Prop}
    (hcall : ∀ i w b w', w.Good → f i (stem ++ toString i) w = (.ok b, w') → ∃ run : R, S.result run = b ∧ Q i run ∧ CallLeft S base stem i run w w')
    {echo : BestFit → List String} {w w₁ : World} {results : List BestFit} (h : Calls f stem echo 0 w results w₁) (hg : w.Good) {w₂ w' : World} {few : ℕ}
    (hfs : w₂.fs = w₁.fs) {best : BestFit} {printed : List BestFit} (hend : printBest env few results w₂ = (.ok (best, printed), w')) :
    ∃ runs : List R, runs.map S.result = results ∧ runs.length = results.length ∧ (∀ i run, runs[i]? = some run → Q i run) ∧
      (∀ (i : ℕ) run, runs[i]? = some run → S.left (stem ++ toString i) (base ++ "/" ++ stem ++ toString i)
        ((w.fs.files (base ++ "/" ++ stem ++ toString i ++ "/report.txt")).getD "") run w'.fs) ∧
      FirstBest (runs.map S.result) best ∧ FewBest (runs.map S.result) few printed ∧
      (∀ q, ¬ InsideRuns base stem runs.length q → w'.fs.files q = w.fs.files q) ∧
      (∀ q, w'.fs.dirs q = true ↔ (∃ i < runs.length, q = base ++ "/" ++ stem ++ toString i) ∨ w.fs.dirs q = true) ∧
      w₁.stdout = w.stdout ++ (runs.zipIdx.flatMap fun q => (S.messages q.1).map (printedLine (stem ++ toString q.2)) ++ echo (S.result q.1)) ∧
      w'.stdout = w₂.stdout ++ endPrinted env best printed := by
  obtain ⟨runs, r1, r2, r3, r4, r5⟩ := calls_left hS hcall h hg
  obtain ⟨b, p, k1, k2, k3⟩ := printBest_run env few results w₂
  rw [k3] at hend
  injection hend with h2 hw
  injection h2 with h2
  injection h2 with hb hp
  subst hb hp hw
  have hlen : runs.length = results.length := by rw [← r1, List.length_map]
  refine ⟨runs, r1, hlen, fun i run hi => ?_, fun i run hi => ?_, r1 ▸ k1, r1 ▸ k2, fun q hq => ?_, fun q => ?_, r3, rfl⟩
  · have := (r2 i run hi).1
    rwa [zero_add] at this
  · have := (r2 i run hi).2
    rw [zero_add] at this
    show S.left _ _ _ _ w₂.fs
    rw [hfs]
    exact this
  · show w₂.fs.files q = _
    rw [hfs]
    exact r4 q fun k hk hin => hq ⟨k, by rw [hlen]; exact hk, by rwa [zero_add] at hin⟩
  · show w₂.fs.dirs q = true ↔ _
    have := r5 q
    simp only [zero_add] at this
    rw [hfs, hlen]
    exact this

/-- The same for kaon runs. -/
theorem end_left {env : Env} {f : ℕ → String → PyM World BestFit} {base stem : String} {kind : PipelineKind} {rounds : List ℤ} {Q : ℕ → IterativeRun → Prop}
    (hcall : ∀ i w b w', w.Good → f i (stem ++ toString i) w = (.ok b, w') → ∃ run : IterativeRun, run.result = b ∧ Q i run ∧
      CallLeft (iterativeSpec env kind rounds) base stem i run w w')
    {echo : BestFit → List String} {w w₁ : World} {results : List BestFit} (h : Calls f stem echo 0 w results w₁) (hg : w.Good) {w₂ w' : World} {few : ℕ}
    (hfs : w₂.fs = w₁.fs) {best : BestFit} {printed : List BestFit} (hend : printBest env few results w₂ = (.ok (best, printed), w')) :
    ∃ runs : List IterativeRun, runs.map (·.result) = results ∧ runs.length = results.length ∧ (∀ i run, runs[i]? = some run → Q i run) ∧
      RunsLeft env base stem kind rounds few runs best printed w.fs w'.fs ∧ w₁.stdout = w.stdout ++ runsPrinted env stem echo runs ∧
      w'.stdout = w₂.stdout ++ endPrinted env best printed := by
  obtain ⟨runs, r1, r2, r3, r4, r5, r6, r7, r8, r9, r10⟩ := end_left_of (iterativeSpec_stable env kind rounds) hcall h hg hfs hend
  exact ⟨runs, r1, r2, r3, ⟨r4, r5, r6, r7, r8⟩, r9, r10⟩

/-! ### When the directories exist -/

theorem call_existing {script : FitScript} (hs : script ∈ kaonIterativeScripts) {env : Env} {random : ℕ → ℝ} (hr : ∀ k, 0 < random k ∧ random k < 1)
    {pion_mass : ℝ} (hp : 0 ≤ pion_mass ∧ pion_mass ≤ 0.24) (constants : Constants) {charged neutral : List (ℝ × ℝ × ℝ)} (hch : charged ≠ [])
    {path name : String} {w : World} (hdir : w.fs.exists (pathJoin path name) = true) :
    ∃ w', script.f env random pion_mass constants (charged.map (·.1)) (charged.map (·.2.1)) (charged.map (·.2.2)) (neutral.map (·.1))
      (neutral.map (·.2.1)) (neutral.map (·.2.2)) path name w = (.error .valueError, w') ∧ w'.fs = w.fs ∧ w'.stdout = w.stdout := by
  obtain ⟨p₀, h0, hg, -⟩ := script_make (kaonIterative_mem hs) (scriptConstants_kaon hs hp)
  obtain ⟨p, h1, -⟩ := script_perturb (kaonIterative_mem hs) hg hr
  obtain ⟨out, hout, -⟩ := C58_kaon charged neutral (Or.inl hch)
  refine ⟨{ w with heap := w.heap ++ [p] }, ?_, rfl, rfl⟩
  unfold FitScript.f
  dsimp only
  rw [h0, hout, PyM.bind_ok (PyM.lift_run _ _), PyM.bind_ok (newParams_run p₀ w)]
  have hm : mutateParams w.heap.length (fun p => perturbModelParameters p script.perturbation_size (some script.perturbation_size_resonances)
      script.use_handpicked_bounds random) { w with heap := w.heap ++ [p₀] } = (.ok (), { w with heap := w.heap ++ [p] }) := by
    rw [mutateParams_run (p := p₀) (by simp), h1]
    dsimp only
    congr 2
    simp
  rw [PyM.bind_ok hm, PyM.bind_ok (PyM.lift_run _ _)]
  exact PyM.bind_error (C60_existing env _ _ _ _ _ _ _ _ _ _ _ _ hdir)

theorem applyAsync_errors {f : ℕ → String → PyM World BestFit} {base stem : String} {N : ℕ}
    (hcall : ∀ i < N, ∀ w : World, w.fs.exists (base ++ "/" ++ stem ++ toString i) = true →
      ∃ w', f i (stem ++ toString i) w = (.error .valueError, w') ∧ w'.fs = w.fs ∧ w'.stdout = w.stdout) (n : ℕ) :
    ∀ (i : ℕ) (w : World), i + n < N → (∀ k < n + 1, w.fs.exists (base ++ "/" ++ stem ++ toString (i + k)) = true) →
      ∃ rs w', applyAsync f stem i (n + 1) w = (.ok (.error .valueError :: rs), w') ∧ w'.fs = w.fs ∧ w'.stdout = w.stdout := by
  induction n with
  | zero =>
    intro i w hi hex
    obtain ⟨w₁, h1, h2, h3⟩ := hcall i (by omega) w (hex 0 (by omega))
    refine ⟨[], w₁, ?_, h2, h3⟩
    unfold applyAsync
    simp only [h1]
    rfl
  | succ n ih =>
    intro i w hi hex
    obtain ⟨w₁, h1, h2, h3⟩ := hcall i (by omega) w (hex 0 (by omega))
    obtain ⟨rs, w₂, h4, h5, h6⟩ := ih (i + 1) w₁ (by omega) (fun k hk => by
      rw [h2, show i + 1 + k = i + (k + 1) by omega]; exact hex (k + 1) (by omega))
    refine ⟨.error .valueError :: rs, w₂, ?_, h5.trans h2, h6.trans h3⟩
    rw [applyAsync]
    simp only [h1]
    rw [PyM.bind_ok h4, PyM.pure_run]

/-! ### A start -/

theorem literals_tin {script : FitScript} (hs : script ∈ kaonIterativeScripts) : ∀ e ∈ script.literals, "t_in_".toList <+: e.1.toList → e.2 = 1 := by
  revert script; decide +kernel

/-- With draws of 1/2 nothing is perturbed, and the inelastic thresholds are 1. -/
theorem half_avoids {script : FitScript} (hs : script ∈ kaonIterativeScripts) {pion_mass : ℝ} (hp : 0 ≤ pion_mass ∧ pion_mass ≤ 0.24) {S : Set ℝ}
    (h1S : (1 : ℝ) ∉ S) (p : ModelParameters ℝ) (h : script.StartsWith (fun _ => 1 / 2) pion_mass p) : p.Avoids S := by
  obtain ⟨p₀, h0, h1⟩ := h
  obtain ⟨p₀', h0', h2, h3, -⟩ := script_make (kaonIterative_mem hs) (scriptConstants_kaon hs hp)
  obtain rfl := Except.ok.inj (h0.symm.trans h0')
  obtain ⟨-, -, ⟨-, ⟨dict, hd, -⟩, -⟩, -⟩ := (goodObject_iff (fitScripts_resonance (kaonIterative_mem hs))).mp h2
  obtain ⟨p', h4, h5⟩ := perturb_half h2.1 hd script.perturbation_size (some script.perturbation_size_resonances)
  obtain rfl := (Prod.mk.inj (h1.symm.trans h4)).2
  rintro q' hq' ht hS
  obtain ⟨q, hq, e1, e2⟩ := h5 q' hq'
  have hn : q.name ∈ p₀.names := List.mem_map_of_mem hq
  obtain ⟨e, hem, hen⟩ := List.mem_map.mp (h3.2 q.name hn)
  have hval : q.value = e.2 := by
    obtain ⟨flag, hf⟩ := h3.1 e hem
    obtain ⟨hm, -⟩ := (getItem_eq_ok (reachable_wellFormed h2.1).nodup).mp hf
    have := List.inj_on_of_nodup_map (reachable_wellFormed h2.1).nodup hq hm hen.symm
    rw [this]
  have hone : e.2 = 1 := by
    rw [e1, ← hen] at ht
    rcases List.mem_append.mp hem with h | h
    · simp only [List.mem_cons, List.not_mem_nil, or_false] at h
      rcases h with rfl | rfl <;> (dsimp only at ht; exact absurd ht (by decide +kernel))
    · obtain ⟨l, hl, rfl⟩ := List.mem_map.mp h
      have h10 : l.2 = 1 := literals_tin hs l hl ht
      show (l.2 : ℝ) = 1
      exact_mod_cast h10
  rw [e2, hval, hone] at hS
  exact h1S hS

end UA
