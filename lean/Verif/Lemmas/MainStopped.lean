import Verif.Spec.MainStopped
import Verif.Lemmas.MainNucleon
import Verif.Props.Interrupted

/-!
# Lemmas for C102
-/

namespace UA

/-! ### The calls -/

/-- Calls from number `i` on, with their results or exceptions; after each of them `echo` is printed. -/
inductive Tries (f : ℕ → String → PyM World BestFit) (stem : String) (echo : Except PyErr BestFit → List String) :
    ℕ → World → List (Except PyErr BestFit) → World → Prop
  | nil {i : ℕ} {w : World} : Tries f stem echo i w [] w
  | cons {i : ℕ} {w w₁ w' : World} {r : Except PyErr BestFit} {rs : List (Except PyErr BestFit)} : f i (stem ++ toString i) w = (r, w₁) →
    Tries f stem echo (i + 1) { w₁ with stdout := w₁.stdout ++ echo r } rs w' → Tries f stem echo i w (r :: rs) w'

/-- Results are printed, exceptions are not. -/
def echoOk (env : Env) : Except PyErr BestFit → List String
  | .ok b => [env.strBestFit b]
  | .error _ => []

theorem runsFrom_tries {env : Env} {f : ℕ → String → PyM World BestFit} {stem : String} (n : ℕ) : ∀ {i : ℕ} {w w' : World} {e : PyErr},
    runsFrom env f stem i n w = (.error e, w') →
      ∃ results : List BestFit, results.length < n ∧ Tries f stem (echoOk env) i w (results.map .ok ++ [.error e]) w' := by
  induction n with
  | zero =>
    intro i w w' e h
    unfold runsFrom at h
    rw [PyM.pure_run] at h
    cases h
  | succ n ih =>
    intro i w w' e h
    unfold runsFrom at h
    rcases h1 : f i (stem ++ toString i) w with ⟨e' | b, w₁⟩
    · rw [PyM.bind_error h1] at h
      injection h with h hw
      injection h with h
      subst h hw
      refine ⟨[], by simp, .cons h1 ?_⟩
      unfold echoOk
      rw [List.append_nil]
      exact .nil
    · rw [PyM.bind_ok h1, PyM.bind_ok (show pyPrint (env.strBestFit b) w₁ = (.ok (), { w₁ with stdout := w₁.stdout ++ [env.strBestFit b] }) from rfl)] at h
      rcases h2 : runsFrom env f stem (i + 1) n { w₁ with stdout := w₁.stdout ++ [env.strBestFit b] } with ⟨e' | rs, w₂⟩
      · rw [PyM.bind_error h2] at h
        injection h with h hw
        injection h with h
        subst h hw
        obtain ⟨results, r1, r2⟩ := ih h2
        exact ⟨b :: results, by simpa using r1, .cons h1 r2⟩
      · rw [PyM.bind_ok h2, PyM.pure_run] at h
        cases h

theorem applyAsync_tries (f : ℕ → String → PyM World BestFit) (stem : String) (n : ℕ) : ∀ (i : ℕ) (w : World),
    ∃ rs w', applyAsync f stem i n w = (.ok rs, w') ∧ rs.length = n ∧ Tries f stem (fun _ => []) i w rs w' := by
  induction n with
  | zero => exact fun i w => ⟨[], w, rfl, rfl, .nil⟩
  | succ n ih =>
    intro i w
    rcases h1 : f i (stem ++ toString i) w with ⟨r, w₁⟩
    obtain ⟨rs, w', h2, h3, h4⟩ := ih (i + 1) w₁
    refine ⟨r :: rs, w', ?_, by rw [List.length_cons, h3], .cons h1 ?_⟩
    · rw [applyAsync]
      simp only [h1]
      rw [PyM.bind_ok h2, PyM.pure_run]
    · rw [List.append_nil]
      exact h4

theorem getResults_error {env : Env} : ∀ {rs : List (Except PyErr BestFit)} {w w' : World} {e : PyErr}, getResults env rs w = (.error e, w') →
    ∃ (results : List BestFit) (rest : List (Except PyErr BestFit)), rs = results.map .ok ++ .error e :: rest ∧
      w' = { w with stdout := w.stdout ++ results.map env.strBestFit } := by
  intro rs
  induction rs with
  | nil =>
    intro w w' e h
    unfold getResults at h
    rw [PyM.pure_run] at h
    cases h
  | cons r rs ih =>
    intro w w' e h
    unfold getResults at h
    rcases r with e' | b
    · rw [PyM.bind_error (PyM.lift_run _ _)] at h
      injection h with h hw
      injection h with h
      subst h hw
      exact ⟨[], rs, rfl, by simp⟩
    · rw [PyM.bind_ok (PyM.lift_run _ _), PyM.bind_ok (show pyPrint (env.strBestFit b) w = (.ok (), { w with stdout := w.stdout ++ [env.strBestFit b] }) from rfl)] at h
      rcases h2 : getResults env rs { w with stdout := w.stdout ++ [env.strBestFit b] } with ⟨e' | rs', w₂⟩
      · rw [PyM.bind_error h2] at h
        injection h with h hw
        injection h with h
        subst h hw
        obtain ⟨results, rest, r1, r2⟩ := ih h2
        refine ⟨b :: results, rest, by rw [r1]; rfl, ?_⟩
        rw [r2]
        simp
      · rw [PyM.bind_ok h2, PyM.pure_run] at h
        cases h

/-! ### What they leave -/

/-- The result of a call with this outcome. -/
def Outcome.value {R : Type} (result : R → BestFit) : Outcome R → Except PyErr BestFit
  | .complete run => .ok (result run)
  | .stopped e _ => .error e
  | .refused e => .error e

theorem Outcome.value_ok {R : Type} {result : R → BestFit} {o : Outcome R} {b : BestFit} (h : o.value result = .ok b) :
    ∃ run, o = .complete run ∧ result run = b := by
  cases o with
  | complete run => exact ⟨run, rfl, Except.ok.inj h⟩
  | stopped => cases h
  | refused => cases h

theorem Outcome.value_error {R : Type} {result : R → BestFit} {o : Outcome R} {e : PyErr} (h : o.value result = .error e) : o.error = some e := by
  cases o with
  | complete run => cases h
  | stopped => exact congrArg some (Except.error.inj h)
  | refused => exact congrArg some (Except.error.inj h)

/-- Complete runs are those with a result. -/
theorem outcomes_ok {R : Type} {result : R → BestFit} : ∀ {os : List (Outcome R)} {bs : List BestFit}, os.map (·.value result) = bs.map .ok →
    ∃ runs : List R, os = runs.map .complete ∧ runs.map result = bs := by
  intro os
  induction os with
  | nil =>
    intro bs h
    obtain rfl := List.map_eq_nil_iff.mp h.symm
    exact ⟨[], rfl, rfl⟩
  | cons o os ih =>
    intro bs h
    cases bs with
    | nil => cases h
    | cons b bs =>
      injection h with h1 h2
      obtain ⟨run, rfl, rfl⟩ := Outcome.value_ok h1
      obtain ⟨runs, rfl, rfl⟩ := ih h2
      exact ⟨run :: runs, rfl, rfl⟩

/-- What one call does. -/
structure CallTried {R : Type} (S : RunSpec R) (names : List String) (otherwise : ℕ → PyErr → Prop) (env : Env) (base stem : String) (i : ℕ)
    (outcome : Outcome R) (w w' : World) : Prop where
  good : w'.Good
  left : outcome.Left S.left names otherwise env base stem w.fs w'.fs i
  printed : w'.stdout = w.stdout ++ (outcome.messages S.messages).map (printedLine (stem ++ toString i))
  files : ∀ q : String, ¬ (base ++ "/" ++ stem ++ toString i ++ "/").toList <+: q.toList → w'.fs.files q = w.fs.files q
  dirs : ∀ q, w'.fs.dirs q = true ↔ (outcome.Made ∧ q = base ++ "/" ++ stem ++ toString i) ∨ w.fs.dirs q = true

/-- A completed call. -/
theorem CallLeft.tried {R : Type} {S : RunSpec R} {base stem : String} {i : ℕ} {run : R} {w w' : World} (c : CallLeft S base stem i run w w')
    (names : List String) (otherwise : ℕ → PyErr → Prop) (env : Env) : CallTried S names otherwise env base stem i (.complete run) w w' := by
  refine ⟨c.good, c.left, c.printed, c.files, fun q => ?_⟩
  rw [c.dirs, Bool.or_eq_true, beq_iff_eq]
  exact ⟨fun h => h.imp (fun h => ⟨trivial, h⟩) id, fun h => h.imp (fun h => h.2) id⟩

/-- Only what is in the directory of the call matters. -/
theorem Outcome.Left.congr {R : Type} {S : RunSpec R} (hS : S.Stable) {names : List String} {otherwise : ℕ → PyErr → Prop} {env : Env} {base stem : String}
    {fs fs' fs₁ fs₁' : FS} {i : ℕ} {o : Outcome R} (h : o.Left S.left names otherwise env base stem fs fs' i)
    (hbefore : ∀ q : String, (base ++ "/" ++ stem ++ toString i ++ "/").toList <+: q.toList → fs₁.files q = fs.files q)
    (hex : fs₁.exists (base ++ "/" ++ stem ++ toString i) = fs.exists (base ++ "/" ++ stem ++ toString i))
    (hafter : ∀ q : String, (base ++ "/" ++ stem ++ toString i ++ "/").toList <+: q.toList → fs₁'.files q = fs'.files q)
    (hdir : fs'.dirs (base ++ "/" ++ stem ++ toString i) = true → fs₁'.dirs (base ++ "/" ++ stem ++ toString i) = true) :
    o.Left S.left names otherwise env base stem fs₁ fs₁' i := by
  cases o with
  | complete run =>
    unfold Outcome.Left at h ⊢
    rw [hbefore _ (report_inside _)]
    exact hS _ _ _ _ _ _ h hafter hdir
  | stopped e run =>
    unfold Outcome.Left at h ⊢
    refine ⟨hex.trans h.new, hdir h.made, h.fewer, h.names, h.outcomes, fun k r hr => ?_, ?_, fun q hq h1 h2 => ?_⟩
    · rw [hafter _ (task_inside _ _)]; exact h.files k r hr
    · rw [hafter _ (report_inside _), hbefore _ (report_inside _)]; exact h.log
    · rw [hafter q hq, hbefore q hq]; exact h.others q hq h1 h2
  | refused e =>
    unfold Outcome.Left at h ⊢
    refine ⟨fun q hq => ?_, h.2.imp (fun h => ⟨hex.trans h.1, h.2⟩) id⟩
    rw [hafter q hq, hbefore q hq]; exact h.1 q hq

theorem CallTried.exists_later {R : Type} {S : RunSpec R} {names : List String} {otherwise : ℕ → PyErr → Prop} {env : Env} {base stem : String} {i j : ℕ}
    {o : Outcome R} {w w' : World} (c : CallTried S names otherwise env base stem i o w w') (hij : i ≠ j) :
    w'.fs.exists (base ++ "/" ++ stem ++ toString j) = w.fs.exists (base ++ "/" ++ stem ++ toString j) := by
  unfold FS.exists
  rw [c.files _ runDir_outside]
  congr 1
  rw [Bool.eq_iff_iff, c.dirs]
  refine ⟨?_, .inr⟩
  rintro (⟨-, he⟩ | h)
  · exact absurd (runDir_inj (q := (base ++ "/" ++ stem ++ toString j ++ "/").toList) (by rw [he]) (List.prefix_refl _)) hij
  · exact h

theorem tries_left {f : ℕ → String → PyM World BestFit} {base stem : String} {R : Type} {S : RunSpec R} (hS : S.Stable) {names : List String}
    {otherwise : ℕ → PyErr → Prop} {env : Env} {Q : ℕ → Outcome R → Prop}
    (hcall : ∀ i w r w', w.Good → f i (stem ++ toString i) w = (r, w') →
      ∃ o : Outcome R, o.value S.result = r ∧ Q i o ∧ CallTried S names otherwise env base stem i o w w')
    {echo : Except PyErr BestFit → List String} {i : ℕ} {w w' : World} {rs : List (Except PyErr BestFit)} (h : Tries f stem echo i w rs w') : w.Good →
    ∃ os : List (Outcome R), os.map (·.value S.result) = rs ∧
      (∀ k o, os[k]? = some o → Q (i + k) o ∧ o.Left S.left names otherwise env base stem w.fs w'.fs (i + k)) ∧
      w'.stdout = w.stdout ++ (os.zipIdx i).flatMap (fun q => (q.1.messages S.messages).map (printedLine (stem ++ toString q.2)) ++ echo (q.1.value S.result)) ∧
      (∀ q : String, (∀ k < rs.length, ¬ (base ++ "/" ++ stem ++ toString (i + k) ++ "/").toList <+: q.toList) → w'.fs.files q = w.fs.files q) ∧
      ∀ q, w'.fs.dirs q = true ↔ (∃ (k : ℕ) (o : Outcome R), os[k]? = some o ∧ o.Made ∧ q = base ++ "/" ++ stem ++ toString (i + k)) ∨ w.fs.dirs q = true := by
  induction h with
  | nil => intro _; exact ⟨[], rfl, by simp, by simp, fun _ _ => rfl, by simp⟩
  | @cons i w w₁ w' r rs h1 h2 ih =>
    intro hg
    obtain ⟨o, e1, hQ, c⟩ := hcall _ _ _ _ hg h1
    obtain ⟨os, r1, r2, r3, r4, r5⟩ := ih c.good
    dsimp only at r2 r3 r4 r5
    refine ⟨o :: os, by rw [List.map_cons, e1, r1], ?_, ?_, ?_, ?_⟩
    · intro k o' hk
      cases k with
      | zero =>
        obtain rfl := Option.some.inj hk
        refine ⟨hQ, c.left.congr hS (fun _ _ => rfl) rfl (fun q hq => r4 q fun k _ hk' => ?_) fun hd => (r5 _).mpr (.inr hd)⟩
        have := runDir_inj hq hk'
        omega
      | succ k =>
        obtain ⟨q1, q2⟩ := r2 k o' hk
        rw [show i + 1 + k = i + (k + 1) by omega] at q1 q2
        refine ⟨q1, q2.congr hS (fun q hq => ?_) (c.exists_later (by omega)).symm (fun _ _ => rfl) id⟩
        refine (c.files _ fun h => ?_).symm
        have := runDir_inj h hq
        omega
    · rw [r3, c.printed, List.zipIdx_cons, List.flatMap_cons, ← e1]
      simp only [List.append_assoc]
    · intro q hq
      have h0 := hq 0 (by simp)
      rw [r4 q fun k hk => ?_]
      · exact c.files q h0
      · have := hq (k + 1) (by simpa using hk)
        rwa [show i + (k + 1) = i + 1 + k by omega] at this
    · intro q
      rw [r5, c.dirs]
      constructor
      · rintro (⟨k, o', hk, hm, rfl⟩ | ⟨hm, rfl⟩ | h)
        · exact .inl ⟨k + 1, o', hk, hm, by rw [show i + (k + 1) = i + 1 + k by omega]⟩
        · exact .inl ⟨0, o, rfl, hm, rfl⟩
        · exact .inr h
      · rintro (⟨k, o', hk, hm, rfl⟩ | h)
        · cases k with
          | zero => obtain rfl := Option.some.inj hk; exact .inr (.inl ⟨hm, rfl⟩)
          | succ k => exact .inl ⟨k, o', hk, hm, by rw [show i + (k + 1) = i + 1 + k by omega]⟩
        · exact .inr (.inr h)

/-- A script that makes its calls one after the other and raises. -/
theorem runs_stopped {env : Env} {f : ℕ → String → PyM World BestFit} {base stem : String} {R : Type} {S : RunSpec R} (hS : S.Stable) {names : List String}
    {otherwise : ℕ → PyErr → Prop} {Q : ℕ → Outcome R → Prop}
    (hcall : ∀ i w r w', w.Good → f i (stem ++ toString i) w = (r, w') →
      ∃ o : Outcome R, o.value S.result = r ∧ Q i o ∧ CallTried S names otherwise env base stem i o w w')
    {n few : ℕ} {w w' : World} (hg : w.Good) {e : PyErr} (h : bestOfRuns env f stem n few w = (.error e, w')) :
    ∃ (runs : List R) (last : Outcome R), runs.length < n ∧ last.error = some e ∧
      (∀ i o, (runs.map .complete ++ [last])[i]? = some o → Q i o) ∧
      OutcomesLeft S.left names otherwise env base stem (runs.map .complete ++ [last]) w.fs w'.fs ∧
      w'.stdout = w.stdout ++ outcomesPrinted S.messages (fun run => [env.strBestFit (S.result run)]) stem (runs.map .complete ++ [last]) := by
  unfold bestOfRuns at h
  rcases h1 : runsFrom env f stem 0 n w with ⟨e' | results, w₁⟩
  · rw [PyM.bind_error h1] at h
    injection h with h hw
    injection h with h
    subst h hw
    obtain ⟨results, k1, k2⟩ := runsFrom_tries n h1
    obtain ⟨os, r1, r2, r3, r4, r5⟩ := tries_left hS hcall k2 hg
    obtain ⟨init, rest, rfl, hi, hl⟩ := List.map_eq_append_iff.mp r1
    obtain ⟨runs, rfl, rfl⟩ := outcomes_ok hi
    obtain ⟨last, rest, rfl, hv, hr⟩ := List.map_eq_cons_iff.mp hl
    obtain rfl := List.map_eq_nil_iff.mp hr
    have hlen : (runs.map S.result).length = runs.length := List.length_map _
    refine ⟨runs, last, by rw [← hlen]; exact k1, Outcome.value_error hv, fun i o hi => ?_, ⟨fun i o hi => ?_, fun q hq => ?_, fun q => ?_⟩, ?_⟩
    · have := (r2 i o hi).1
      rwa [zero_add] at this
    · have := (r2 i o hi).2
      rwa [zero_add] at this
    · refine r4 q fun k hk hin => hq ⟨k, ?_, by rwa [zero_add] at hin⟩
      simpa using hk
    · have := r5 q
      simp only [zero_add] at this
      exact this
    · rw [r3]
      congr 1
      unfold outcomesPrinted
      congr 1
      funext q
      congr 1
      cases q.1 <;> rfl
  · obtain ⟨b, p, -, -, h2⟩ := printBest_run env few results w₁
    rw [PyM.bind_ok h1, h2] at h
    cases congrArg Prod.fst h

/-- A script that makes its calls in other processes and raises. -/
theorem pool_stopped {env : Env} {f : ℕ → String → PyM World BestFit} {base stem : String} {R : Type} {S : RunSpec R} (hS : S.Stable) {names : List String}
    {otherwise : ℕ → PyErr → Prop} {Q : ℕ → Outcome R → Prop}
    (hcall : ∀ i w r w', w.Good → f i (stem ++ toString i) w = (r, w') →
      ∃ o : Outcome R, o.value S.result = r ∧ Q i o ∧ CallTried S names otherwise env base stem i o w w')
    {n few : ℕ} {w w' : World} (hg : w.Good) {e : PyErr} (h : bestOfPool env f stem n few w = (.error e, w')) :
    ∃ (runs : List R) (first : Outcome R) (others : List (Outcome R)), (runs.map Outcome.complete ++ first :: others).length = n ∧ first.error = some e ∧
      (∀ i o, (runs.map .complete ++ first :: others)[i]? = some o → Q i o) ∧
      OutcomesLeft S.left names otherwise env base stem (runs.map .complete ++ first :: others) w.fs w'.fs ∧
      w'.stdout = w.stdout ++ outcomesPrinted S.messages (fun _ => []) stem (runs.map .complete ++ first :: others) ++
        runs.map fun run => env.strBestFit (S.result run) := by
  unfold bestOfPool at h
  obtain ⟨rs, w₁, h1, hl, ht⟩ := applyAsync_tries f stem n 0 w
  rw [PyM.bind_ok h1] at h
  rcases h2 : getResults env rs w₁ with ⟨e' | results, w₂⟩
  · rw [PyM.bind_error h2] at h
    injection h with h hw
    injection h with h
    subst h hw
    obtain ⟨results, rest, rfl, rfl⟩ := getResults_error h2
    obtain ⟨os, r1, r2, r3, r4, r5⟩ := tries_left hS hcall ht hg
    obtain ⟨init, rest', rfl, hi, hl'⟩ := List.map_eq_append_iff.mp r1
    obtain ⟨runs, rfl, rfl⟩ := outcomes_ok hi
    obtain ⟨first, others, rfl, hv, hr⟩ := List.map_eq_cons_iff.mp hl'
    have hn : (runs.map Outcome.complete ++ first :: others).length = n := by
      rw [← hl, ← r1, List.length_map]
    refine ⟨runs, first, others, hn, Outcome.value_error hv, fun i o hi => ?_, ⟨fun i o hi => ?_, fun q hq => ?_, fun q => ?_⟩, ?_⟩
    · have := (r2 i o hi).1
      rwa [zero_add] at this
    · have := (r2 i o hi).2
      rwa [zero_add] at this
    · refine r4 q fun k hk hin => hq ⟨k, ?_, by rwa [zero_add] at hin⟩
      rw [hn, ← hl]; exact hk
    · have := r5 q
      simp only [zero_add] at this
      exact this
    · show w₁.stdout ++ _ = _
      rw [r3, List.map_map]
      congr 2
      unfold outcomesPrinted
      congr 1
      funext q
      congr 1
      cases q.1 <;> rfl
  · obtain ⟨b, p, -, -, h3⟩ := printBest_run env few results w₂
    rw [PyM.bind_ok h2, h3] at h
    cases congrArg Prod.fst h

/-! ### One call -/

/-- When the set-up of the directory raises. -/
theorem pipelineInit_error {env : Env} {kind : PipelineKind} {name : String} {parameters : ℕ} {tasks : List TaskClass} {ts : List Datapoint}
    {ys errors : List ℝ} {reports_dir : String} {plot handpicked : Bool} {constants : Constants} {w w' : World} {e : PyErr}
    (h : Pipeline.init env kind name parameters tasks ts ys errors reports_dir plot handpicked constants w = (.error e, w')) :
    w' = w ∧ (w.fs.exists (pathJoin reports_dir name) = true ∧ e = .valueError ∨ env.mkdirFails (pathJoin reports_dir name) = true ∧ e = .exception) := by
  unfold Pipeline.init at h
  rcases h1 : setUpReportsDirectory env (pathJoin reports_dir name) w with ⟨e' | u, w₁⟩
  · rw [PyM.bind_error h1] at h
    injection h with h hw
    injection h with h
    subst h hw
    unfold setUpReportsDirectory at h1
    rw [PyM.bind_ok (PyM.get_run _ _)] at h1
    split_ifs at h1 with hd
    · injection h1 with h1 hw
      injection h1 with h1
      exact ⟨hw.symm, .inl ⟨hd, h1.symm⟩⟩
    · unfold Env.mkdir at h1
      split_ifs at h1 with hm
      · injection h1 with h1 hw
        injection h1 with h1
        exact ⟨hw.symm, .inr ⟨hm, h1.symm⟩⟩
      · cases congrArg Prod.fst h1
  · rw [PyM.bind_ok h1, PyM.pure_run] at h
    cases h

theorem script_f_error {script : FitScript} {env : Env} {random : ℕ → ℝ} {pion_mass : ℝ} {constants : Constants} {charged neutral : List (ℝ × ℝ × ℝ)}
    {path name : String} {w w' : World} {e : PyErr}
    (h : script.f env random pion_mass constants (charged.map (·.1)) (charged.map (·.2.1)) (charged.map (·.2.2)) (neutral.map (·.1)) (neutral.map (·.2.1))
      (neutral.map (·.2.2)) path name w = (.error e, w')) :
    (w'.fs = w.fs ∧ w'.stdout = w.stdout ∧ (w.fs.exists (pathJoin path name) = true ∧ e = .valueError ∨
      (¬ ∃ p, script.StartsWith random pion_mass p) ∨ charged ++ neutral = [] ∨ env.mkdirFails (pathJoin path name) = true ∧ e = .exception)) ∨
    ∃ (p : ModelParameters ℝ) (ts : List Datapoint) (ys errors : List ℝ), script.StartsWith random pion_mass p ∧ Reachable p ∧
      w.fs.exists (pathJoin path name) = false ∧
      Pipeline.runIterative ⟨script.kind, name, w.heap.length, [], ts, ys, errors, pathJoin path name, false, script.use_handpicked_bounds, constants,
        "Report " ++ name ++ ":\n", .nothing⟩ env
        ⟨freeParamsNumbers script.nr_free_params script.nr_iterations, script.nr_initial_rounds_with_fixed_resonances⟩
        { w with heap := w.heap ++ [p], fs := { w.fs with dirs := fun q => q == pathJoin path name || w.fs.dirs q } } = (.error e, w') := by
  unfold FitScript.f at h
  dsimp only at h
  rcases h0 : script.makeInitialParameters [("t_0_isoscalar", (3 * pion_mass) ^ 2), ("t_0_isovector", (2 * pion_mass) ^ 2)] with e' | p₀
  · rw [h0, PyM.bind_error (PyM.lift_run _ _)] at h
    injection h with h hw
    subst hw
    refine .inl ⟨rfl, rfl, .inr (.inl ?_)⟩
    rintro ⟨p, p₀, hp, -⟩
    rw [h0] at hp
    cases hp
  rw [h0, PyM.bind_ok (PyM.lift_run _ _), PyM.bind_ok (newParams_run p₀ w)] at h
  have hm := mutateParams_run (ref := w.heap.length) (w := { w with heap := w.heap ++ [p₀] }) (p := p₀) (by simp) (fun p =>
    perturbModelParameters p script.perturbation_size (some script.perturbation_size_resonances) script.use_handpicked_bounds random)
  rcases h1 : perturbModelParameters p₀ script.perturbation_size (some script.perturbation_size_resonances) script.use_handpicked_bounds random with ⟨e' | u, p⟩
  · rw [h1] at hm
    dsimp only at hm
    rw [PyM.bind_error hm] at h
    injection h with h hw
    subst hw
    refine .inl ⟨rfl, rfl, .inr (.inl ?_)⟩
    rintro ⟨p, p₀', hp, hp'⟩
    rw [h0] at hp
    injection hp with hp
    subst hp
    rw [h1] at hp'
    cases hp'
  rw [h1] at hm
  dsimp only at hm
  rw [PyM.bind_ok hm] at h
  have hst : script.StartsWith random pion_mass p := ⟨p₀, h0, h1⟩
  have hr : Reachable p := by
    have := (C48_only_free (.init h0) script.use_handpicked_bounds script.perturbation_size (some script.perturbation_size_resonances) random).1
    rw [h1] at this
    exact this
  have hset : ((w.heap ++ [p₀]).set w.heap.length p) = w.heap ++ [p] := by simp
  rw [hset] at h
  rcases hprep : prepareKaonData (charged.map (·.1)) (charged.map (·.2.1)) (charged.map (·.2.2)) (neutral.map (·.1)) (neutral.map (·.2.1))
      (neutral.map (·.2.2)) with e' | ⟨ts, ys, errors⟩
  · rw [hprep, PyM.bind_error (PyM.lift_run _ _)] at h
    injection h with h hw
    subst hw
    refine .inl ⟨rfl, rfl, .inr (.inr (.inl ?_))⟩
    by_contra hne
    obtain ⟨out, hout, -⟩ := C58_kaon charged neutral (by rwa [List.append_eq_nil_iff, not_and_or] at hne)
    rw [hprep] at hout
    cases hout
  rw [hprep, PyM.bind_ok (PyM.lift_run _ _)] at h
  dsimp only at h
  rcases h5 : Pipeline.init env script.kind name w.heap.length [] ts ys errors path false script.use_handpicked_bounds constants
      { w with heap := w.heap ++ [p] } with ⟨e' | s, w₅⟩
  · rw [PyM.bind_error h5] at h
    injection h with h hw
    injection h with h
    subst h hw
    obtain ⟨rfl, k⟩ := pipelineInit_error h5
    exact .inl ⟨rfl, rfl, k.imp id fun h => .inr (.inr h)⟩
  obtain ⟨-, hs5⟩ := pipelineInit_inv h5
  obtain ⟨k1, k2, k3⟩ := setUp_inv h5
  rw [PyM.bind_ok h5, hs5, k3] at h
  refine .inr ⟨p, ts, ys, errors, hst, hr, k1, ?_⟩
  generalize hx : (Pipeline.runIterative _ env _ _ : Except PyErr Pipeline × World) = x
  rcases x with ⟨e' | s', w₆⟩
  · rw [PyM.bind_error hx] at h
    injection h with h hw
    injection h with h
    rw [h, hw]
  · rw [PyM.bind_ok hx, PyM.pure_run] at h
    cases h

/-- What was said of a run, for its directory. -/
theorem StoppedRun.left_of {self : Pipeline} {env : Env} {names : List String} {w₅ w' : World} {reports : List Report} {chis : List (Option PyFloat)}
    {blocks : List (List String)} {more : List String} (k : self.Stopped env names w₅ w' reports chis blocks more) {dir name : String} {fs : FS}
    (hfs : w₅.fs = { fs with dirs := fun q => q == dir || fs.dirs q }) (hnew : fs.exists dir = false) (hrep : self.report = "Report " ++ name ++ ":\n")
    (f1 : self.reportFile = dir ++ "/report.txt") (f2 : ∀ k, self.taskFile k = dir ++ "/report_" ++ toString k ++ ".txt") (start : ModelParameters ℝ)
    (starts : List String) : StoppedRun.Left ⟨start, starts, reports, chis, blocks, more⟩ env name dir names fs w'.fs := by
  refine ⟨hnew, ?_, k.fewer, k.reported.names, k.reported.outcomes, fun j r hr => ?_, ?_, fun q _ h1 h2 => ?_⟩
  · rw [k.dirs, hfs]; simp
  · rw [← f2]; exact k.reported.files j r hr
  · have := k.report
    rw [f1, hfs, hrep] at this
    rw [this]
    dsimp only
    split_ifs
    · rfl
    · simp only [String.append_assoc]
  · rw [k.files q (by rw [f1]; exact h1) (fun j hj => by rw [f2]; exact h2 j hj), hfs]

theorem kaon_tried {script : FitScript} (hkind : script.kind ≠ .nucleonCS) {env : Env} (hs : env.Samples) (hstr : ∀ x, env.strFloat x ≠ "")
    {pion_mass : ℝ} {constants : Constants} {charged neutral : List (ℝ × ℝ × ℝ)}
    {base stem : String} (hd : base ≠ "") (hd' : ¬ ['/'] <:+ base.toList) (hst : '/' ∉ stem.toList) (random : ℕ → ℕ → ℝ) (i : ℕ) (w : World)
    (r : Except PyErr BestFit) (w' : World) (hg : w.Good)
    (h : script.f env (random i) pion_mass constants (charged.map (·.1)) (charged.map (·.2.1)) (charged.map (·.2.2)) (neutral.map (·.1))
      (neutral.map (·.2.1)) (neutral.map (·.2.2)) base (stem ++ toString i) w = (r, w')) :
    ∃ o : Outcome IterativeRun, o.value IterativeRun.result = r ∧
      ((∀ run, o = .complete run → (∃ p, script.StartsWith (random i) pion_mass p ∧ run.initial = p.toList) ∧
          run.result.TrueOf env.strFloat (script.fitted constants) script.cls (kaonPoints charged neutral)) ∧
        ∀ e run, o = .stopped e run → script.StartsWith (random i) pion_mass run.start ∧
          run.Iterative env script.kind (freeParamsNumbers script.nr_free_params script.nr_iterations)) ∧
      CallTried (iterativeSpec env script.kind (freeParamsNumbers script.nr_free_params script.nr_iterations))
        (numberedNames (iterativeClassNames script.kind (freeParamsNumbers script.nr_free_params script.nr_iterations)))
        (script.Refuses env random pion_mass charged neutral base stem) env base stem i o w w' := by
  have hgood := script_f_good script env (random i) pion_mass constants (charged.map (·.1)) (charged.map (·.2.1)) (charged.map (·.2.2)) (neutral.map (·.1))
    (neutral.map (·.2.1)) (neutral.map (·.2.2)) base (stem ++ toString i) w hg
  rw [h] at hgood
  rcases r with e | b
  swap
  · obtain ⟨run, h1, h2, h3⟩ := kaon_calls hkind hs hstr hd hd' hst random i w b w' hg h
    refine ⟨.complete run, congrArg _ h1, ⟨?_, fun e run h => (by cases h)⟩, h3.tried _ _ _⟩
    intro run' hrun
    injection hrun with hrun
    subst hrun
    exact h2
  obtain ⟨hdir, hpath⟩ := runDir_paths hd hd' hst i
  rcases script_f_error h with ⟨h1, h2, h3⟩ | ⟨p, ts, ys, errors, h1, hr, h2, h3⟩
  · rw [hdir] at h3
    refine ⟨.refused e, rfl, ⟨fun run h => (by cases h), fun e run h => (by cases h)⟩, hgood, ⟨fun q _ => by rw [h1], h3⟩, ?_, fun q _ => by rw [h1], fun q => ?_⟩
    · rw [h2]; simp [Outcome.messages]
    · rw [h1]; simp [Outcome.Made]
  rw [hdir] at h2 h3
  generalize hself : (⟨script.kind, stem ++ toString i, w.heap.length, [], ts, ys, errors, base ++ "/" ++ stem ++ toString i, false,
    script.use_handpicked_bounds, constants, "Report " ++ (stem ++ toString i) ++ ":\n", .nothing⟩ : Pipeline) = self at h3
  generalize hw5 : ({ w with heap := w.heap ++ [p], fs := { w.fs with dirs := fun q => q == base ++ "/" ++ stem ++ toString i || w.fs.dirs q } } : World) = w₅ at h3
  have g5 : w₅.Good := by rw [← hw5]; exact hg.append hr
  have hp : w₅.heap[self.parameters]? = some p := by rw [← hw5, ← hself]; simp
  have hk : self.kind = script.kind := by rw [← hself]
  have hname : self.name = stem ++ toString i := by rw [← hself]
  obtain ⟨starts, reports, chis, blocks, more, init, begun, s1, s2, s3, s4, s5⟩ := runIterative_error (by rw [hk]; exact hkind) g5 hp h3
  rw [hk] at s1 s5
  obtain ⟨f1, f2⟩ := hpath self (by rw [← hself])
  refine ⟨.stopped e ⟨p, starts, reports, chis, blocks, more⟩, rfl, ⟨fun run h => (by cases h), ?_⟩, hgood, ?_, ?_, fun q hq => ?_, fun q => ?_⟩
  · intro e' run hrun
    injection hrun with _ hrun
    subst hrun
    exact ⟨h1, s2, s3, init, begun, s4, s5⟩
  · exact StoppedRun.left_of s1 (by rw [← hw5]) h2 (by rw [← hself]) f1 f2 p starts
  · rw [s1.printed, hname, ← hw5]; rfl
  · rw [s1.files q, ← hw5]
    · rintro rfl
      rw [f1] at hq
      exact hq (report_inside _)
    · rintro k - rfl
      rw [f2] at hq
      exact hq (task_inside _ _)
  · rw [s1.dirs, ← hw5]
    simp [Outcome.Made]

/-! ### One call for nucleons -/

theorem nucleonStart_error {random : ℕ → ℝ} {pion_mass proton_mass proton_magnetic_moment neutron_magnetic_moment : ℝ} {w w' : World} {e : PyErr}
    (h : fitNucleonStart random pion_mass proton_mass proton_magnetic_moment neutron_magnetic_moment w = (.error e, w')) :
    w'.fs = w.fs ∧ w'.stdout = w.stdout ∧ ¬ ∃ p, NucleonStartsWith random pion_mass proton_mass proton_magnetic_moment neutron_magnetic_moment p := by
  have hno : ¬ ∃ p, NucleonStartsWith random pion_mass proton_mass proton_magnetic_moment neutron_magnetic_moment p := by
    rintro ⟨p, hp⟩
    rw [nucleonStart_run hp] at h
    cases congrArg Prod.fst h
  refine ⟨?_, ?_, hno⟩
  all_goals
    unfold fitNucleonStart at h
    rcases h0 : fitNucleonCSIterative.makeInitialParameters
      (nucleonScriptConstants pion_mass proton_mass proton_magnetic_moment neutron_magnetic_moment) with e' | p₀
    · rw [h0, PyM.bind_error (PyM.lift_run _ _)] at h
      rw [← show _ = w' from congrArg Prod.snd h]
    rw [h0, PyM.bind_ok (PyM.lift_run _ _), PyM.bind_ok (newParams_run p₀ w)] at h
    have hm := mutateParams_run (ref := w.heap.length) (w := { w with heap := w.heap ++ [p₀] }) (p := p₀) (by simp) (fun p => p.fixResonances)
    rcases h1 : p₀.fixResonances with ⟨e' | u, p⟩
    · rw [h1] at hm
      dsimp only at hm
      rw [PyM.bind_error hm] at h
      rw [← show _ = w' from congrArg Prod.snd h]
    rw [h1] at hm
    dsimp only at hm
    rw [PyM.bind_ok hm] at h
    have hm' := mutateParams_run (ref := w.heap.length) (w := { w with heap := (w.heap ++ [p₀]).set w.heap.length p }) (p := p) (by simp)
      (fun p => perturbModelParameters p fitNucleonCSIterative.perturbation_size
      (some fitNucleonCSIterative.perturbation_size_resonances) fitNucleonCSIterative.use_handpicked_bounds random)
    rcases h2 : perturbModelParameters p fitNucleonCSIterative.perturbation_size
      (some fitNucleonCSIterative.perturbation_size_resonances) fitNucleonCSIterative.use_handpicked_bounds random with ⟨e' | u, p'⟩
    · rw [h2] at hm'
      dsimp only at hm'
      rw [PyM.bind_error hm'] at h
      rw [← show _ = w' from congrArg Prod.snd h]
    · rw [h2] at hm'
      dsimp only at hm'
      rw [PyM.bind_ok hm', PyM.pure_run] at h
      cases congrArg Prod.fst h

theorem nucleon_f_error {env : Env} {random : ℕ → ℝ} {pion_mass proton_mass proton_magnetic_moment neutron_magnetic_moment alpha hc_squared : ℝ}
    {data : List (ℝ × ℝ × ℝ)} {path name : String} {w w' : World} {e : PyErr}
    (h : fitNucleonF env random pion_mass proton_mass proton_magnetic_moment neutron_magnetic_moment alpha hc_squared (data.map (·.1)) (data.map (·.2.1))
      (data.map (·.2.2)) path name w = (.error e, w')) :
    (w'.fs = w.fs ∧ w'.stdout = w.stdout ∧ (w.fs.exists (pathJoin path name) = true ∧ e = .valueError ∨
      (¬ ∃ p, NucleonStartsWith random pion_mass proton_mass proton_magnetic_moment neutron_magnetic_moment p) ∨ data = [] ∨
        env.mkdirFails (pathJoin path name) = true ∧ e = .exception)) ∨
    ∃ (p : ModelParameters ℝ) (ts : List Datapoint) (ys errors : List ℝ),
      NucleonStartsWith random pion_mass proton_mass proton_magnetic_moment neutron_magnetic_moment p ∧ Reachable p ∧
      w.fs.exists (pathJoin path name) = false ∧
      Pipeline.runNucleonCSIterative ⟨fitNucleonCSIterative.kind, name, w.heap.length, [], ts, ys, errors, pathJoin path name, false,
        fitNucleonCSIterative.use_handpicked_bounds, ⟨proton_mass, alpha, hc_squared⟩, "Report " ++ name ++ ":\n", .nothing⟩ env nucleonRounds
        { w with heap := w.heap ++ [p], fs := { w.fs with dirs := fun q => q == pathJoin path name || w.fs.dirs q } } = (.error e, w') := by
  unfold fitNucleonF at h
  rcases h1 : fitNucleonStart random pion_mass proton_mass proton_magnetic_moment neutron_magnetic_moment w with ⟨e' | ref, w₁⟩
  · rw [PyM.bind_error h1] at h
    obtain ⟨k1, k2, k3⟩ := nucleonStart_error h1
    rw [← show w₁ = w' from congrArg Prod.snd h]
    exact .inl ⟨k1, k2, .inr (.inl k3)⟩
  obtain ⟨p, hst, hr, rfl, rfl⟩ := nucleonStart_ok h1
  rw [PyM.bind_ok h1] at h
  rcases hprep : prepareNucleonData (data.map (·.1)) (data.map (·.2.1)) (data.map (·.2.2)) [] [] [] [] [] [] [] [] [] with e' | ⟨ts, ys, errors⟩
  · rw [hprep, PyM.bind_error (PyM.lift_run _ _)] at h
    injection h with h hw
    subst hw
    refine .inl ⟨rfl, rfl, .inr (.inr (.inl ?_))⟩
    by_contra hne
    obtain ⟨out, hout, -⟩ := C58_nucleon data [] [] [] (.inl hne)
    simp only [List.map_nil] at hout
    rw [hprep] at hout
    cases hout
  rw [hprep, PyM.bind_ok (PyM.lift_run _ _)] at h
  dsimp only at h
  rcases h5 : Pipeline.init env fitNucleonCSIterative.kind name w.heap.length [] ts ys errors path false fitNucleonCSIterative.use_handpicked_bounds
      ⟨proton_mass, alpha, hc_squared⟩ { w with heap := w.heap ++ [p] } with ⟨e' | s, w₅⟩
  · rw [PyM.bind_error h5] at h
    injection h with h hw
    injection h with h
    subst h hw
    obtain ⟨rfl, k⟩ := pipelineInit_error h5
    exact .inl ⟨rfl, rfl, k.imp id fun h => .inr (.inr h)⟩
  obtain ⟨-, hs5⟩ := pipelineInit_inv h5
  obtain ⟨k1, k2, k3⟩ := setUp_inv h5
  rw [PyM.bind_ok h5, hs5, k3] at h
  refine .inr ⟨p, ts, ys, errors, hst, hr, k1, ?_⟩
  unfold nucleonRounds
  generalize hx : (Pipeline.runNucleonCSIterative _ env _ _ : Except PyErr Pipeline × World) = x
  rcases x with ⟨e' | s', w₆⟩
  · rw [PyM.bind_error hx] at h
    injection h with h hw
    injection h with h
    rw [h, hw]
  · rw [PyM.bind_ok hx, PyM.pure_run] at h
    cases h

theorem fitNucleonF_good (env : Env) (random : ℕ → ℝ) (pion_mass proton_mass proton_magnetic_moment neutron_magnetic_moment alpha hc_squared : ℝ)
    (a b c : List ℝ) (path name : String) :
    (fitNucleonF env random pion_mass proton_mass proton_magnetic_moment neutron_magnetic_moment alpha hc_squared a b c path name).Keeps KeepsGood := by
  unfold fitNucleonF fitNucleonStart FitScript.makeInitialParameters
  refine good_bind (lift_init_good _ _ fun p hp => good_bind (newParams_good hp) fun ref =>
    good_bind (mutateParams_good _ (f := fun p => p.fixResonances) fun _ hp => .step .fixResonances hp) fun _ => good_bind (mutateParams_good _ fun q hq =>
    (C48_only_free hq fitNucleonCSIterative.use_handpicked_bounds fitNucleonCSIterative.perturbation_size
      (some fitNucleonCSIterative.perturbation_size_resonances) random).1) fun _ => good_pure _) fun _ =>
    good_bind (good_lift _) fun _ => good_bind (pipelineInit_good _ _ _ _ _ _ _ _ _ _ _ _) fun _ =>
    good_bind (runNucleonCSIterative_good _ _ _) fun _ => good_pure _

theorem nucleon_tried {env : Env} (hs : env.Samples) (hstr : ∀ x, env.strFloat x ≠ "")
    {pion_mass proton_mass proton_magnetic_moment neutron_magnetic_moment alpha hc_squared : ℝ} {data : List (ℝ × ℝ × ℝ)}
    {base stem : String} (hd : base ≠ "") (hd' : ¬ ['/'] <:+ base.toList) (hst : '/' ∉ stem.toList) (random : ℕ → ℕ → ℝ) (i : ℕ) (w : World)
    (r : Except PyErr BestFit) (w' : World) (hg : w.Good)
    (h : fitNucleonF env (random i) pion_mass proton_mass proton_magnetic_moment neutron_magnetic_moment alpha hc_squared (data.map (·.1))
      (data.map (·.2.1)) (data.map (·.2.2)) base (stem ++ toString i) w = (r, w')) :
    ∃ o : Outcome NucleonRecord, o.value NucleonRecord.result = r ∧
      ((∀ run, o = .complete run →
          (∃ p, NucleonStartsWith (random i) pion_mass proton_mass proton_magnetic_moment neutron_magnetic_moment p ∧ run.initial = p.toList) ∧
          run.result.TrueOf env.strFloat (.crossSection proton_mass alpha hc_squared) .nucleon (data.map fun q => (.nucleon (q.1 : ℝ) true true, q.2))) ∧
        ∀ e run, o = .stopped e run →
          NucleonStartsWith (random i) pion_mass proton_mass proton_magnetic_moment neutron_magnetic_moment run.start ∧
          run.Nucleon env (stem ++ toString i) nucleonRounds) ∧
      CallTried (nucleonSpec env nucleonRounds) (nucleonTaskNames nucleonRounds)
        (NucleonRefuses env random pion_mass proton_mass proton_magnetic_moment neutron_magnetic_moment data base stem) env base stem i o w w' := by
  have hgood := fitNucleonF_good env (random i) pion_mass proton_mass proton_magnetic_moment neutron_magnetic_moment alpha hc_squared (data.map (·.1))
    (data.map (·.2.1)) (data.map (·.2.2)) base (stem ++ toString i) w hg
  rw [h] at hgood
  rcases r with e | b
  swap
  · obtain ⟨run, h1, h2, h3⟩ := nucleon_calls hs hstr hd hd' hst random i w b w' hg h
    refine ⟨.complete run, congrArg _ h1, ⟨?_, fun e run h => (by cases h)⟩, h3.tried _ _ _⟩
    intro run' hrun
    injection hrun with hrun
    subst hrun
    exact h2
  obtain ⟨hdir, hpath⟩ := runDir_paths hd hd' hst i
  rcases nucleon_f_error h with ⟨h1, h2, h3⟩ | ⟨p, ts, ys, errors, h1, hr, h2, h3⟩
  · rw [hdir] at h3
    refine ⟨.refused e, rfl, ⟨fun run h => (by cases h), fun e run h => (by cases h)⟩, hgood, ⟨fun q _ => by rw [h1], h3⟩, ?_, fun q _ => by rw [h1], fun q => ?_⟩
    · rw [h2]; simp [Outcome.messages]
    · rw [h1]; simp [Outcome.Made]
  rw [hdir] at h2 h3
  generalize hself : (⟨fitNucleonCSIterative.kind, stem ++ toString i, w.heap.length, [], ts, ys, errors, base ++ "/" ++ stem ++ toString i, false,
    fitNucleonCSIterative.use_handpicked_bounds, ⟨proton_mass, alpha, hc_squared⟩, "Report " ++ (stem ++ toString i) ++ ":\n", .nothing⟩ : Pipeline) = self at h3
  generalize hw5 : ({ w with heap := w.heap ++ [p], fs := { w.fs with dirs := fun q => q == base ++ "/" ++ stem ++ toString i || w.fs.dirs q } } : World) = w₅ at h3
  have g5 : w₅.Good := by rw [← hw5]; exact hg.append hr
  have hp : w₅.heap[self.parameters]? = some p := by rw [← hw5, ← hself]; simp
  have hname : self.name = stem ++ toString i := by rw [← hself]
  generalize nucleonRounds = its at h3 ⊢
  obtain ⟨starts, reports, chis, blocks, more, init, begun, best, s1, s2, s3, s4, s5, s6⟩ := C100_nucleonCS g5 hp h3
  obtain ⟨f1, f2⟩ := hpath self (by rw [← hself])
  refine ⟨.stopped e ⟨p, starts, reports, chis, blocks, more⟩, rfl, ⟨fun run h => (by cases h), ?_⟩, hgood, ?_, ?_, fun q hq => ?_, fun q => ?_⟩
  · intro e' run hrun
    injection hrun with _ hrun
    subst hrun
    exact ⟨h1, s2, init, begun, best, s3, s4, hname ▸ s5 (by rw [← hself]) hstr, s6⟩
  · exact StoppedRun.left_of s1 (by rw [← hw5]) h2 (by rw [← hself]) f1 f2 p starts
  · rw [s1.printed, hname, ← hw5]; rfl
  · rw [s1.files q, ← hw5]
    · rintro rfl
      rw [f1] at hq
      exact hq (report_inside _)
    · rintro k - rfl
      rw [f2] at hq
      exact hq (task_inside _ _)
  · rw [s1.dirs, ← hw5]
    simp [Outcome.Made]

end UA
