import Verif.Lemmas.Rounds
import Verif.Lemmas.PipelinesBest

/-!
# Helper lemmas: the parameters after a run of an iterative pipeline
-/

namespace UA

theorem fullFit_flag {kind : PipelineKind} (hk : kind ≠ .nucleonCS) : kind.fullFit ≠ .residual ∧ kind.fullFit.IsFull := by
  cases kind <;> first | exact absurd rfl hk | decide

/-- A completed run of an iterative pipeline. -/
theorem runIterative_parameters {env : Env} (hs : env.Samples) {self self' : Pipeline} (hkind : self.kind ≠ .nucleonCS) {its : Iterations}
    {w w' : World} (hg : w.Good) (h : self.runIterative env its w = (.ok self', w')) :
    ∃ p rs pₙ last p', w.heap[self.parameters]? = some p ∧ Rounds self.kind (self.fitData env (self.kind.fitted self.constants)) its.nr_initial_rounds_with_fixed_resonances 0 its.free_params_numbers p rs pₙ ∧
      pₙ.cls = p.cls ∧
      w'.heap[self.parameters]? = some p' ∧ p'.cls = pₙ.cls ∧ self'.parameters = self.parameters ∧
      FittedFrom (fun x => ¬ DeclaredFixed p.cls x) pₙ.toList p'.toList ∧ last.Tells (self.fitData env (self.kind.fitted self.constants)) pₙ.toList p' ∧
      (∀ i < w.heap.length, i ≠ self.parameters → w'.heap[i]? = w.heap[i]?) ∧
      List.Forall₂ (fun (r : Report) n => r.Made env n) (rs.map Prod.snd ++ [last]) (numberedNames (iterativeClassNames self.kind its.free_params_numbers)) ∧
      Traced self w self' w' (("Starting. Initial parameters: " ++ env.strParameters p.toList) ::
        (taskMessages env ". Free parameters: " 0 (rs.map fun q => (env.strNames q.1, q.2)) ++
          ["Initializing Task#" ++ toString its.free_params_numbers.length ++ ". Full fit.",
          "Running " ++ last.name, last.name ++ " report: " ++ env.strReport last, "Best fit: " ++ env.strBestFit self'.best_fit])) (rs.length + 1)
        (savedFiles self env 0 (rs.map Prod.snd ++ [last])) ∧
      self'.best_fit = (rs.map Prod.snd ++ [last]).foldl (bestStep self.name) self.best_fit := by
  unfold Pipeline.runIterative at h
  obtain ⟨p, w₀, h0, h'⟩ := PyM.bind_eq_ok.mp h
  obtain ⟨rfl, hp⟩ := readParams_ok h0
  obtain ⟨s₁, w₁, h1, hA⟩ := PyM.bind_eq_ok.mp h'
  obtain ⟨t1, rfl, e1⟩ := Traced.log h1
  obtain ⟨s₂, w₂, h2, hB⟩ := PyM.bind_eq_ok.mp hA
  obtain ⟨rs, pₙ, d2, a1, a2, a3, a4, a5⟩ := runRounds_parameters hs _ _ 0 (p := p) (by unfold World.Good; rw [e1]; exact hg) (by rw [e1]; exact hp) h2
  obtain ⟨s₃, w₃, h3, hC⟩ := PyM.bind_eq_ok.mp hB
  obtain ⟨t3, rfl, e3⟩ := Traced.log h3
  obtain ⟨⟨t', s₄⟩, w₄, hit, hD⟩ := PyM.bind_eq_ok.mp hC
  obtain ⟨l4, m4, b4, t4⟩ := iterativeTask_ok (by unfold World.Good; rw [e3]; exact d2.live.1) hit
  have a3' : s₂.parameters = self.parameters := a3
  have a2' : w₂.heap[self.parameters]? = some pₙ := a2
  have hk : s₂.kind = self.kind := d2.traced.kind
  obtain ⟨c1, c2⟩ := fullFit_flag (kind := s₂.kind) (by rw [hk]; exact hkind)
  obtain ⟨p', r1, r2, r3, r4, r5, r6, r7, r8⟩ := iterativeTask_parameters c1 (p := pₙ) (by
    rw [e3]; show w₂.heap[s₂.parameters]? = _; rw [a3']; exact a2') (d2.live.1.read a2') hit
  have hcfg : s₂.config = self.config := d2.traced.config
  have hconst : s₂.constants = self.constants := (congrArg Pipeline.constants hcfg :)
  have r6 : t'.report.Tells (self.fitData env (self.kind.fitted self.constants)) pₙ.toList p' := by
    rw [← fitData_config hcfg, ← hk, ← hconst, ← fullFit_fitted]
    exact r6
  dsimp only at hD
  obtain ⟨s₅, w₅, h5, hE⟩ := PyM.bind_eq_ok.mp hD
  obtain ⟨t5, rfl, e5⟩ := Traced.log h5
  obtain ⟨s₆, w₆, h6, hF⟩ := PyM.bind_eq_ok.mp hE
  obtain ⟨t6, rfl, e6, f6⟩ := Traced.flush h6
  obtain ⟨u7, w₇, h7, hG⟩ := PyM.bind_eq_ok.mp hF
  obtain ⟨t7, e7, f7⟩ := Traced.save h7
  rw [PyM.pure_run] at hG
  injection hG with hG hw
  injection hG with hG
  subst hG hw
  have t2 := d2.traced
  have hsf : ∀ s l i, savedFiles { self with report := s } env i l = savedFiles self env i l := fun s l i => savedFiles_congr (self := self) (self' := { self with report := s }) rfl env l i
  rw [hsf, List.map_map] at t2
  have hall := t1.trans (t2.trans (t3.trans (t4.trans t5)))
  have hall' := hall.trans (t6.trans t7)
  have hlen : (rs.map Prod.snd).length = its.free_params_numbers.length := by
    have := d2.made.length_eq
    rw [List.length_map] at this ⊢
    rw [this, taskNames_length, List.length_map]
  have m4' : t'.report.Made env ("Task#" ++ toString its.free_params_numbers.length ++ ":" ++ self.kind.fullFit.pyName) := by
    have := m4; rw [show ({ s₂ with report := _ } : Pipeline).kind = self.kind from hk] at this; exact this
  have hm : List.Forall₂ (fun r n => r.Made env n) (rs.map Prod.snd ++ [t'.report])
      (taskNames 0 (its.free_params_numbers.map fun _ => self.kind.fixAccording) ++
        ["Task#" ++ toString its.free_params_numbers.length ++ ":" ++ self.kind.fullFit.pyName]) := by
    refine List.rel_append ?_ (.cons m4' .nil)
    have := forall₂_snd d2.made
    rw [List.map_map] at this
    exact this
  rw [taskNames_iterative hkind] at hm
  have hcls : pₙ.cls = p.cls := a1.cls
  have r1' : w₄.heap[self.parameters]? = some p' := by
    have r1 : w₄.heap[s₂.parameters]? = some p' := r1
    rwa [a3'] at r1
  have hheap : w₇.heap = w₄.heap := by rw [e7, e6, e5]
  refine ⟨p, rs, pₙ, t'.report, p', hp, a1, hcls, by rw [hheap]; exact r1', r3, r4.trans a3', ?_, r6, ?_, hm, ?_, ?_⟩
  · refine fittedFrom_of_same (flag := fun q => s₂.kind.fullFit.flagAfter pₙ.cls q.name q.is_fixed) (fun q _ => ?_) r5
    unfold TaskClass.flagAfter
    rw [if_pos c2, hcls]
    simp
  · intro i hi hne
    rw [e1] at a4 a5
    rw [hheap, r8 i (by rw [e3]; exact lt_of_lt_of_le hi a4) (by show i ≠ s₂.parameters; rw [a3']; exact hne), e3]
    exact a5 i hi hne
  · rw [m4.1, savedFiles_append, hlen]
    simp only [List.append_nil, zero_add, add_zero, List.nil_append, List.length_map] at hall'
    rw [show Pipeline.taskFile { s₄ with report := "\n" } its.free_params_numbers.length = self.taskFile its.free_params_numbers.length from by
      unfold Pipeline.taskFile; rw [show ({ s₄ with report := "\n" } : Pipeline).reports_dir = self.reports_dir from t4.dir.trans d2.traced.dir]] at hall'
    rw [zero_add]
    exact hall'
  · show s₄.best_fit = _
    have hb := d2.best
    rw [List.map_map] at hb
    rw [b4, List.foldl_append, show rs.map Prod.snd = rs.map (Prod.snd ∘ fun q => (env.strNames q.1, q.2)) from rfl, ← hb]
    show bestStep s₂.name s₂.best_fit _ = bestStep self.name s₂.best_fit _
    rw [d2.traced.name]

/-! ### The nucleon cross section pipeline -/

/-- A successful set-up of the residual task: all parameters of the pipeline's object get fixed, the new ones are elsewhere. -/
theorem setUpResidual_heap {self task : Task} {w w₁ : World} {p : ModelParameters ℝ} (h : w.heap[self.parameters]? = some p) (hp : Reachable p)
    (hset : self.setUpResidual w = (.ok task, w₁)) :
    w.heap.length ≤ task.parameters ∧ w.heap.length ≤ w₁.heap.length ∧ w₁.heap[self.parameters]? = some p.fixAllParameters ∧
      (∀ i < w.heap.length, i ≠ self.parameters → w₁.heap[i]? = w.heap[i]?) ∧
      w₁.heap[task.parameters]? = some ⟨.oscillations, [], [⟨"a", 100, false⟩, ⟨"b", 2, false⟩, ⟨"c", 5, false⟩, ⟨"d", 0, false⟩]⟩ := by
  have hl := heap_set_append h
  unfold Task.setUpResidual at hset
  obtain ⟨_, s1, h1, hset⟩ := PyM.bind_eq_ok.mp hset
  rw [mutateParams_run h] at h1
  injection h1 with _ h1
  obtain ⟨f, s2, h2, hset⟩ := PyM.bind_eq_ok.mp hset
  have hp1 : s1.heap[self.parameters]? = some p.fixAllParameters := by rw [← h1]; simp [hl]
  rw [makePartialIn_run hp1 (.step .fixAll hp)] at h2
  injection h2 with hf h2
  injection hf with hf
  obtain ⟨ys, s3, h3, hset⟩ := PyM.bind_eq_ok.mp hset
  have hp2 : s2.heap[f.parameters]? = some p.fixAllParameters := by rw [← h2, ← hf]; simp
  rw [callPartialIn_run hp2] at h3
  injection h3 with _ h3
  obtain ⟨⟨a, b⟩, s4, h4, hset⟩ := PyM.bind_eq_ok.mp hset
  obtain ⟨⟨c, d⟩, s5, h5, hset⟩ := PyM.bind_eq_ok.mp hset
  obtain ⟨ts, s6, h6, hset⟩ := PyM.bind_eq_ok.mp hset
  obtain ⟨⟨a1, a2, a3⟩, s7, h7, hset⟩ := PyM.bind_eq_ok.mp hset
  obtain ⟨q, s8, h8, hset⟩ := PyM.bind_eq_ok.mp hset
  obtain ⟨ref, s9, h9, hset⟩ := PyM.bind_eq_ok.mp hset
  rw [PyM.lift_run] at h4 h5 h6 h7 h8
  injection h4 with _ h4
  injection h5 with _ h5
  injection h6 with _ h6
  injection h7 with _ h7
  injection h8 with hq h8
  rw [newParams_run] at h9
  injection h9 with hn h9
  injection hn with hn
  injection hset with hset hs''
  injection hset with hset
  subst hset
  have hheap3 : s3.heap = (w.heap.set self.parameters p.fixAllParameters ++ [p.fixAllParameters]).set w.heap.length (p.fixAllParameters.updateFreeValues []).2 := by
    rw [← h3, ← h2, ← hf, ← h1]
    simp
  have hheap : w₁.heap = s3.heap ++ [q] := by rw [← hs'', ← h9, ← h8, ← h7, ← h6, ← h5, ← h4]
  have hlen : s3.heap.length = w.heap.length + 1 := by rw [hheap3]; simp
  have hat : ∀ i < w.heap.length, w₁.heap[i]? = (w.heap.set self.parameters p.fixAllParameters)[i]? := by
    intro i hi
    rw [hheap, List.getElem?_append_left (by omega), hheap3, List.getElem?_set_ne (by omega), List.getElem?_append_left (by simpa using hi)]
  have href : ref = s3.heap.length := by rw [← hn, ← h8, ← h7, ← h6, ← h5, ← h4]
  refine ⟨?_, ?_, ?_, fun i hi hne => ?_, ?_⟩
  · show _ ≤ ref; omega
  · rw [hheap, List.length_append, hlen]; simp; omega
  · rw [hat _ hl]; simp [hl]
  · rw [hat i hi, List.getElem?_set_ne (Ne.symm hne)]
  · show w₁.heap[ref]? = _
    rw [hheap, href]
    have h0 : ParamClass.oscillations.init [("a", (100 : ℝ)), ("b", 2), ("c", 5), ("d", 0)] =
        .ok ⟨.oscillations, [], [⟨"a", 100, false⟩, ⟨"b", 2, false⟩, ⟨"c", 5, false⟩, ⟨"d", 0, false⟩]⟩ := rfl
    rw [h0] at hq
    injection hq with hq
    rw [← hq]
    simp

/-- A completed run of the residual task. -/
theorem residual_parameters {self t' : Task} (hc : self.cls = .residual) {env : Env} {w w' : World} {p : ModelParameters ℝ}
    (h : w.heap[self.parameters]? = some p) (hp : Reachable p) (hrun : self.run env w = (.ok t', w')) :
    w'.heap[self.parameters]? = some p.fixAllParameters ∧ w.heap.length ≤ w'.heap.length ∧
      (∀ i < w.heap.length, i ≠ self.parameters → w'.heap[i]? = w.heap[i]?) ∧
      t'.report.initial_parameters = self.report.initial_parameters ∧
      ((t'.report.status = "failed" ∧ t'.report.final_parameters = self.report.final_parameters) ∨
        (t'.report.status = "finished" ∧ ∃ a b c d, t'.report.final_parameters = some [⟨"a", a, false⟩, ⟨"b", b, false⟩, ⟨"c", c, false⟩, ⟨"d", d, false⟩])) := by
  have hrun' := hrun
  unfold Task.run at hrun'
  obtain ⟨task, w₁, hset, hrun'⟩ := PyM.bind_eq_ok.mp hrun'
  have hset0 : self.setUpResidual w = (.ok task, w₁) := by
    unfold Task.setUp at hset
    rw [hc] at hset
    exact hset
  obtain ⟨k1, k2, k3, k4, k5⟩ := setUpResidual_heap h hp hset0
  obtain ⟨p', h1, h2, h3, h4, h5, h6⟩ := setUpResidual_ok hset0
  have hready : TaskF.Ready (.oscillations task.parameters) task.parameters p' w₁ := ⟨rfl, h2, h3, p', h1, h3, .refl _⟩
  obtain ⟨bounds, hb⟩ : ∃ bounds, p'.getBoundsForFreeParameters task.use_handpicked_bounds = .ok bounds := by
    obtain ⟨r, w₂, hfit, -⟩ := PyM.bind_eq_ok.mp hrun'
    unfold Task.fit at hfit
    rw [PyM.bind_ok (readParams_run h1)] at hfit
    obtain ⟨bounds, w₃, hb, -⟩ := PyM.bind_eq_ok.mp hfit
    rw [PyM.lift_run] at hb
    injection hb with hb _
    exact ⟨bounds, hb⟩
  obtain ⟨c1, c2, c4, c5, c3, -⟩ := run_cases hset h4 h1 h3 hready hb env
  obtain ⟨p₂, r1, r2, r3, r4⟩ := run_result_object h hp hrun
  rw [hrun] at c1 c2 c3 c4 c5
  obtain ⟨n1, n2⟩ := c3 t' rfl
  have hl := heap_set_append h
  have hother : ∀ i < w.heap.length, w'.heap[i]? = w₁.heap[i]? := fun i hi => c5 i (by omega) (fun g hg => by cases hg)
  have hsame : SameButFree p'.toList p₂.toList := by
    rw [n1] at r1
    rcases hout : (env.curve_fit w₁.fits (task.problem p' bounds)).outcome
        ((TaskF.oscillations task.parameters).value p' (task.ts_fit.map Datapoint.toRow)) with ⟨e, m⟩ | ⟨opt, cov⟩
    · obtain ⟨d1, -⟩ := c1 e m hout
      rw [Option.some.inj (r1.symm.trans d1)]
      exact .refl _
    · obtain ⟨d1, -⟩ := c2 opt cov hout
      rw [Option.some.inj (r1.symm.trans d1)]
      exact (updateFree_same p' opt).2
  refine ⟨by rw [hother _ hl]; exact k3, ?_, fun i hi hne => by rw [hother i hi]; exact k4 i hi hne, ?_, ?_⟩
  · have c4 : w'.heap.length = w₁.heap.length := c4
    rw [c4]; exact k2
  · rcases r4 with ⟨m, r4, -⟩ | ⟨ordered, ys, fs, chi, cov', -, r5⟩
    · rw [r4]
    · rw [r5]; rfl
  · rcases r4 with ⟨m, r4, -⟩ | ⟨ordered, ys, fs, chi, cov', -, r5⟩
    · exact .inl ⟨by rw [r4], by rw [r4]⟩
    · refine .inr ⟨by rw [r5]; rfl, ?_⟩
      have : t'.report.final_parameters = some p₂.toList := by rw [r5]; rfl
      rw [Option.some.inj (h1.symm.trans k5)] at hsame
      have hsame : SameButFree [⟨"a", 100, false⟩, ⟨"b", 2, false⟩, ⟨"c", 5, false⟩, ⟨"d", 0, false⟩] p₂.toList := hsame
      rw [this]
      revert hsame
      generalize p₂.toList = l
      intro hsame
      unfold SameButFree at hsame
      cases hsame with | @cons _ q1 _ _ e1 hsame => cases hsame with | @cons _ q2 _ _ e2 hsame => cases hsame with | @cons _ q3 _ _ e3 hsame =>
        cases hsame with | @cons _ q4 _ _ e4 hsame => cases hsame with | nil =>
          obtain ⟨n1, v1, f1⟩ := q1
          obtain ⟨n2, v2, f2⟩ := q2
          obtain ⟨n3, v3, f3⟩ := q3
          obtain ⟨n4, v4, f4⟩ := q4
          obtain ⟨rfl, rfl, -⟩ := e1
          obtain ⟨rfl, rfl, -⟩ := e2
          obtain ⟨rfl, rfl, -⟩ := e3
          obtain ⟨rfl, rfl, -⟩ := e4
          exact ⟨_, _, _, _, rfl⟩

/-- The flags for the full fit of the nucleon cross section pipeline. -/
theorem nucleonFull_flags {ref : ℕ} {fixed : Bool} {w wb : World} {p : ModelParameters ℝ} (h : w.heap[ref]? = some p) (hp : Reachable p)
    (hrun : (do mutateParams ref fun p => (.ok (), p.releaseAllParameters)
                if fixed then mutateParams ref fun p => p.fixResonances : PyM World Unit) w = (.ok (), wb)) :
    ∃ p', wb.heap = w.heap.set ref p' ∧ Reachable p' ∧ p'.cls = p.cls ∧
      p'.toList = p.toList.map fun q => ⟨q.name, q.value, decide (DeclaredFixed p.cls q.name ∨ (fixed = true ∧ IsResonanceName q.name))⟩ := by
  have hl := heap_set_append h
  obtain ⟨r1, r2, r3⟩ := releaseAll_spec hp
  rw [PyM.bind_ok (mutateParams_run h _)] at hrun
  cases fixed with
  | false =>
    rw [if_neg (by decide)] at hrun
    injection hrun with _ hw
    refine ⟨_, by rw [← hw], r1, r2, ?_⟩
    rw [r3]
    simp
  | true =>
    rw [if_pos rfl, mutateParams_run (p := p.releaseAllParameters) (by simp [hl])] at hrun
    by_cases hc : IsResonanceClass p.releaseAllParameters.cls
    · obtain ⟨p', f1, f2, f3⟩ := C47_fix_resonances_any r1 hc
      rw [f1] at hrun
      injection hrun with _ hw
      refine ⟨p', by rw [← hw]; simp, ?_, f2.trans r2, ?_⟩
      · have : Reachable p.releaseAllParameters.fixResonances.2 := .step .fixResonances r1
        rwa [f1] at this
      · rw [f3, r3, List.map_map]
        refine List.map_congr_left fun q _ => ?_
        simp [Function.comp]
    · rw [C47_not_offered hc] at hrun
      cases hrun

theorem flag_iff (a b c : Prop) [Decidable a] [Decidable b] [Decidable c] :
    decide (a ∨ (decide b = true ∧ c)) = true ↔ ¬ (¬ a ∧ ¬ (b ∧ c)) := by
  simp only [decide_eq_true_eq]
  tauto

/-- A completed run of the iterative nucleon cross section pipeline. -/
theorem runNucleonCS_parameters {env : Env} (hs : env.Samples) {self self' : Pipeline} {its : Iterations} {w w' : World} (hg : w.Good)
    (h : self.runNucleonCSIterative env its w = (.ok self', w')) :
    ∃ p rs pₙ full, ∃ pf : ModelParameters ℝ, ∃ residual p', w.heap[self.parameters]? = some p ∧
      Rounds self.kind (self.fitData env (self.kind.fitted self.constants)) its.nr_initial_rounds_with_fixed_resonances 0 its.free_params_numbers p rs pₙ ∧ pₙ.cls = p.cls ∧ pf.cls = p.cls ∧ p'.cls = p.cls ∧
      FittedFrom (fun x => ¬ DeclaredFixed p.cls x ∧
        ¬ ((its.free_params_numbers.length : ℤ) < its.nr_initial_rounds_with_fixed_resonances ∧ IsResonanceName x)) pₙ.toList pf.toList ∧
      full.Tells (self.fitData env (.crossSection self.constants.mass self.constants.alpha self.constants.hc_squared)) (pₙ.toList.map fun q => ⟨q.name, q.value, decide (DeclaredFixed p.cls q.name ∨
        ((its.free_params_numbers.length : ℤ) < its.nr_initial_rounds_with_fixed_resonances ∧ IsResonanceName q.name))⟩) pf ∧
      residual.initial_parameters = pf.toList ∧
      ((residual.status = "failed" ∧ residual.final_parameters = none) ∨ (residual.status = "finished" ∧ ∃ a b c d,
        residual.final_parameters = some [⟨"a", a, false⟩, ⟨"b", b, false⟩, ⟨"c", c, false⟩, ⟨"d", d, false⟩])) ∧
      w'.heap[self.parameters]? = some p' ∧ p'.toList = pf.toList.map (fun q => ⟨q.name, q.value, true⟩) ∧ self'.parameters = self.parameters ∧
      (∀ i < w.heap.length, i ≠ self.parameters → w'.heap[i]? = w.heap[i]?) ∧
      List.Forall₂ (fun (r : Report) n => r.Made env n) (rs.map Prod.snd ++ [full, residual]) (nucleonTaskNames its) ∧
      Traced self w self' w' ((("Starting. Initial parameters: " ++ env.strParameters p.toList) ::
        (taskMessages env ". Free parameters: " 0 (rs.map fun q => (env.strNames q.1, q.2)) ++
          ["Initializing Task#" ++ toString its.free_params_numbers.length ++ ". " ++ fullFitName its ++ ".",
          "Running " ++ full.name, full.name ++ " report: " ++ env.strReport full, "Best fit: " ++ env.strBestFit self'.best_fit])) ++
        ["Initializing Task#" ++ toString (its.free_params_numbers.length + 1) ++ ". Residuals.", "Running " ++ residual.name,
          residual.name ++ " report: " ++ env.strReport residual]) (rs.length + 1)
        (savedFiles self env 0 (rs.map Prod.snd ++ [full, residual])) ∧
      self'.best_fit = (rs.map Prod.snd ++ [full]).foldl (bestStep self.name) self.best_fit := by
  unfold Pipeline.runNucleonCSIterative at h
  obtain ⟨p, w₀, h0, h'⟩ := PyM.bind_eq_ok.mp h
  obtain ⟨rfl, hp⟩ := readParams_ok h0
  obtain ⟨s₁, w₁, h1, hA⟩ := PyM.bind_eq_ok.mp h'
  obtain ⟨t1, rfl, e1⟩ := Traced.log h1
  obtain ⟨s₂, w₂, h2, hB⟩ := PyM.bind_eq_ok.mp hA
  obtain ⟨rs, pₙ, d2, a1, a2, a3, a4, a5⟩ := runRounds_parameters hs _ _ 0 (p := p) (by unfold World.Good; rw [e1]; exact hg) (by rw [e1]; exact hp) h2
  have a3' : s₂.parameters = self.parameters := a3
  have a2' : w₂.heap[self.parameters]? = some pₙ := a2
  have hcls : pₙ.cls = p.cls := a1.cls
  obtain ⟨u, wa, ha, hB'⟩ := PyM.bind_eq_ok.mp hB
  have ga := release_good s₂.parameters w₂ d2.live.1
  have oa := mutateParams_outside s₂.parameters (fun p => (.ok (), p.releaseAllParameters)) w₂
  rw [ha] at ga oa
  obtain ⟨wb, gb, ob, hflags, hB''⟩ : ∃ wb : World, wb.Good ∧ SameOutside wa wb ∧
      (do mutateParams s₂.parameters fun p => (.ok (), p.releaseAllParameters)
          if decide ((its.free_params_numbers.length : ℤ) < its.nr_initial_rounds_with_fixed_resonances) then
            mutateParams s₂.parameters fun p => p.fixResonances : PyM World Unit) w₂ = (.ok (), wb) ∧ (do
      let self ← s₂.log ("Initializing Task#" ++ toString its.free_params_numbers.length ++ ". " ++ fullFitName its ++ ".")
      let task_name := "Task#" ++ toString its.free_params_numbers.length ++ ":" ++ fullFitName its
      let (task, self) ← self.iterativeTask env task_name .nucleonCSFixAccording
      let self ← self.log ("Best fit: " ++ env.strBestFit self.best_fit)
      let self ← self.flushReport
      self.saveReport env (toString its.free_params_numbers.length) task.report
      let number := toString (its.free_params_numbers.length + 1)
      let self ← self.log ("Initializing Task#" ++ number ++ ". Residuals.")
      let task_name := "Task#" ++ number ++ ":" ++ TaskClass.residual.pyName
      let task ← self.newTask task_name .residual
      let self ← self.log ("Running " ++ task_name)
      let task ← task.run env
      let self ← self.log (task_name ++ " report: " ++ env.strReport task.report)
      self.saveReport env number task.report
      return self : PyM World Pipeline) wb = (.ok self', w') := by
    by_cases hf : decide ((its.free_params_numbers.length : ℤ) < its.nr_initial_rounds_with_fixed_resonances) = true
    · rw [show fullFitName its = "Full fit (Fixed resonances)" from if_pos hf]
      dsimp only at hB'
      rw [if_pos hf] at hB'
      rw [if_pos hf] at hB'
      obtain ⟨u, wb, hb, hB''⟩ := PyM.bind_eq_ok.mp hB'
      have gb := mutateParams_good s₂.parameters (f := fun p => p.fixResonances) (fun _ hp => .step .fixResonances hp) wa ga
      have ob := mutateParams_outside s₂.parameters (fun p => p.fixResonances) wa
      rw [hb] at gb ob
      exact ⟨wb, gb, ob, by rw [PyM.bind_ok ha, if_pos hf]; exact hb, hB''⟩
    · rw [show fullFitName its = "Full fit" from if_neg hf]
      dsimp only at hB'
      rw [if_neg hf] at hB'
      rw [if_neg hf] at hB'
      exact ⟨wa, ga, .refl _, by rw [PyM.bind_ok ha, if_neg hf]; rfl, hB'⟩
  clear hB' hB hA h' h
  rw [a3'] at hflags
  obtain ⟨pb, g1, g2, g3, g4⟩ := nucleonFull_flags a2' (d2.live.1.read a2') hflags
  obtain ⟨s₃, w₃, h3, hC⟩ := PyM.bind_eq_ok.mp hB''
  obtain ⟨t3, rfl, e3⟩ := Traced.log h3
  obtain ⟨⟨t', s₄⟩, w₄, hit, hD⟩ := PyM.bind_eq_ok.mp hC
  obtain ⟨l4, m4, b4, t4⟩ := iterativeTask_ok (by unfold World.Good; rw [e3]; exact gb) hit
  have hl := heap_set_append a2'
  obtain ⟨pf, r1, r2, r3, r4, r5, r6, r7, r8⟩ := iterativeTask_parameters (by decide) (p := pb) (by
    rw [e3]; show wb.heap[s₂.parameters]? = _; rw [a3', g1]; simp [hl]) g2 hit
  have hcfg : s₂.config = self.config := d2.traced.config
  have hconst : s₂.constants = self.constants := (congrArg Pipeline.constants hcfg :)
  have r6 : t'.report.Tells (self.fitData env (.crossSection self.constants.mass self.constants.alpha self.constants.hc_squared)) pb.toList pf := by
    rw [← fitData_config hcfg, ← hconst]
    exact r6
  dsimp only at hD
  obtain ⟨s₅, w₅, h5, hE⟩ := PyM.bind_eq_ok.mp hD
  obtain ⟨t5, rfl, e5⟩ := Traced.log h5
  obtain ⟨s₆, w₆, h6, hF⟩ := PyM.bind_eq_ok.mp hE
  obtain ⟨t6, rfl, e6, f6⟩ := Traced.flush h6
  obtain ⟨u7, w₇, h7, hG⟩ := PyM.bind_eq_ok.mp hF
  obtain ⟨t7, e7, f7⟩ := Traced.save h7
  obtain ⟨s₈, w₈, h8, hH⟩ := PyM.bind_eq_ok.mp hG
  obtain ⟨t8, rfl, e8⟩ := Traced.log h8
  obtain ⟨tr, w₉, h9, hI⟩ := PyM.bind_eq_ok.mp hH
  obtain ⟨s10, w10, h10, hJ⟩ := PyM.bind_eq_ok.mp hI
  obtain ⟨tr', w11, h11, hK⟩ := PyM.bind_eq_ok.mp hJ
  obtain ⟨s12, w12, h12, hL⟩ := PyM.bind_eq_ok.mp hK
  obtain ⟨m12, b12, f12, t12⟩ := bareTask_ok (by unfold World.Good; rw [e8, e7, e6, e5]; exact l4.1) h9 h10 h11 h12
  have r4' : s₄.parameters = self.parameters := r4.trans a3'
  have r1' : w₄.heap[self.parameters]? = some pf := by
    have r1 : w₄.heap[s₂.parameters]? = some pf := r1
    rwa [a3'] at r1
  -- the residual task
  have hh8 : w₈.heap = w₄.heap := by rw [e8, e7, e6, e5]
  have hp8 : w₈.heap[self.parameters]? = some pf := by rw [hh8]; exact r1'
  unfold Pipeline.newTask Task.init at h9
  rw [PyM.bind_ok (readParams_run (p := pf) (by show w₈.heap[s₄.parameters]? = _; rw [r4']; exact hp8)), PyM.pure_run] at h9
  injection h9 with h9 hw9
  injection h9 with h9
  obtain ⟨t10, hs10, e10⟩ := Traced.log h10
  have htr : tr.parameters = self.parameters ∧ tr.cls = .residual ∧ tr.report.initial_parameters = pf.toList ∧ tr.report.final_parameters = none := by
    rw [← h9]; exact ⟨r4', rfl, rfl, rfl⟩
  obtain ⟨x1, x2, x3, x4, x5⟩ := residual_parameters (self := tr) htr.2.1 (p := pf) (by rw [htr.1, e10, ← hw9]; exact hp8) r2 h11
  rw [htr.1] at x1 x3
  rw [htr.2.2.1] at x4
  rw [htr.2.2.2] at x5
  rw [e10, ← hw9, hh8] at x2 x3
  obtain ⟨-, hs12, e12⟩ := Traced.log h12
  obtain ⟨u13, w13, h13, hM⟩ := PyM.bind_eq_ok.mp hL
  obtain ⟨t13, e13, f13⟩ := Traced.save h13
  rw [PyM.pure_run] at hM
  injection hM with hM hw
  injection hM with hM
  subst hM hw
  have hheap : w13.heap = w11.heap := by rw [e13, e12]
  have t2 := d2.traced
  have hsf : ∀ s l i, savedFiles { self with report := s } env i l = savedFiles self env i l := fun s l i => savedFiles_congr (self := self) (self' := { self with report := s }) rfl env l i
  rw [hsf, List.map_map] at t2
  have hall := t1.trans (t2.trans ((Traced.same (b := s₂) (oa.trans _ _ _ ob) rfl rfl rfl rfl).trans (t3.trans (t4.trans t5))))
  have hlast := t8.trans (t12.trans t13)
  have hall' := hall.trans ((t6.trans t7).trans hlast)
  have hlen : (rs.map Prod.snd).length = its.free_params_numbers.length := by
    have := d2.made.length_eq
    rw [List.length_map] at this ⊢
    rw [this, taskNames_length, List.length_map]
  have hb' : s12.best_fit = s₄.best_fit := b12
  have hfile : ∀ s : Pipeline, s.reports_dir = s₄.reports_dir → ∀ i, s.taskFile i = self.taskFile i := by
    intro s hs i
    unfold Pipeline.taskFile; rw [hs.trans (t4.dir.trans d2.traced.dir)]
  have hd12 : s12.reports_dir = s₄.reports_dir := t12.dir
  have hm : List.Forall₂ (fun r n => r.Made env n) (rs.map Prod.snd ++ [t'.report, tr'.report])
      (taskNames 0 (its.free_params_numbers.map fun _ => self.kind.fixAccording) ++
        ["Task#" ++ toString its.free_params_numbers.length ++ ":" ++ fullFitName its,
          "Task#" ++ toString (its.free_params_numbers.length + 1) ++ ":" ++ TaskClass.residual.pyName]) := by
    refine List.rel_append ?_ (.cons m4 (.cons m12 .nil))
    have := forall₂_snd d2.made
    rw [List.map_map] at this
    exact this
  rw [taskNames_nucleon] at hm
  refine ⟨p, rs, pₙ, t'.report, pf, tr'.report, pf.fixAllParameters, hp, a1, hcls, r3.trans (g3.trans hcls), ?_, ?_, ?_, x4, x5,
    by rw [hheap]; exact x1, rfl, ?_, ?_, hm, ?_, ?_⟩
  · exact (show pf.fixAllParameters.cls = pf.cls from rfl).trans (r3.trans (g3.trans hcls))
  · have hid : (fun q : Parameter ℝ => (⟨q.name, q.value, TaskClass.nucleonCSFixAccording.flagAfter pb.cls q.name q.is_fixed⟩ : Parameter ℝ)) = id := by
      funext q; rfl
    rw [hid, List.map_id, g4, hcls] at r5
    refine fittedFrom_of_same (flag := fun q => decide (DeclaredFixed p.cls q.name ∨
      (decide ((its.free_params_numbers.length : ℤ) < its.nr_initial_rounds_with_fixed_resonances) = true ∧ IsResonanceName q.name))) (fun q _ => ?_) r5
    exact flag_iff _ _ _
  · rw [g4, hcls] at r6
    simpa only [decide_eq_true_eq] using r6
  · rw [hs12]
    show s10.parameters = _
    rw [hs10]
    exact r4'
  · intro i hi hne
    rw [e1] at a4 a5
    have hlt : i < w₂.heap.length := lt_of_lt_of_le hi a4
    have hlen3 : w₃.heap.length = w₂.heap.length := by rw [e3, g1, List.length_set]
    rw [hheap, x3 i (lt_of_lt_of_le (by rw [hlen3]; exact hlt) r7) hne, r8 i (by rw [hlen3]; exact hlt) (by show i ≠ s₂.parameters; rw [a3']; exact hne), e3, g1,
      List.getElem?_set_ne (Ne.symm hne)]
    exact a5 i hi hne
  · rw [m4.1, m12.1, savedFiles_append, hlen, hb']
    simp only [List.append_nil, zero_add, add_zero, List.nil_append, List.length_map] at hall'
    rw [hfile { s₄ with report := "\n" } rfl, hfile s12 hd12] at hall'
    rw [zero_add]
    exact hall'
  · show s12.best_fit = _
    have hb := d2.best
    rw [List.map_map] at hb
    rw [hb', b4, List.foldl_append, show rs.map Prod.snd = rs.map (Prod.snd ∘ fun q => (env.strNames q.1, q.2)) from rfl, ← hb]
    show bestStep s₂.name s₂.best_fit _ = bestStep self.name s₂.best_fit _
    rw [d2.traced.name]

/-! ### Plain pipelines -/

/-- A completed run of a plain pipeline. -/
theorem run_plain_parameters {env : Env} {self self' : Pipeline} (hres : .residual ∉ self.tasks) {w w' : World} (hg : w.Good)
    (h : self.run env w = (.ok self', w')) :
    ∃ p rs p', w.heap[self.parameters]? = some p ∧ PlainTasks (fun c => self.fitData env (c.fitted self.constants)) self.tasks p rs p' ∧ w'.heap[self.parameters]? = some p' ∧
      self'.parameters = self.parameters ∧ (∀ i < w.heap.length, i ≠ self.parameters → w'.heap[i]? = w.heap[i]?) ∧
      List.Forall₂ (fun (r : Report) n => r.Made env n) (rs.map Prod.snd) (numberedNames (self.tasks.map TaskClass.className)) ∧
      Traced self w self' w' (("Starting. Initial parameters: " ++ env.strParameters p.toList) ::
        (taskMessages env ". Parameters: " 0 (rs.map fun q => (env.strParameters q.1.toList, q.2)) ++ ["Best fit: " ++ env.strBestFit self'.best_fit]))
        (rs.length + 1) (savedFiles self env 0 (rs.map Prod.snd)) ∧
      self'.best_fit = (rs.map Prod.snd).foldl (bestStep self.name) self.best_fit := by
  unfold Pipeline.run at h
  obtain ⟨p, w₀, h0, h'⟩ := PyM.bind_eq_ok.mp h
  obtain ⟨rfl, hp⟩ := readParams_ok h0
  obtain ⟨s₁, w₁, h1, hA⟩ := PyM.bind_eq_ok.mp h'
  obtain ⟨t1, rfl, e1⟩ := Traced.log h1
  obtain ⟨s₂, w₂, h2, hB⟩ := PyM.bind_eq_ok.mp hA
  obtain ⟨rs, p', d2, a1, a2, a3, a4, a5⟩ := runTasks_parameters env self.tasks 0 hres (p := p) (by unfold World.Good; rw [e1]; exact hg) (by rw [e1]; exact hp) h2
  obtain ⟨s₃, w₃, h3, hC⟩ := PyM.bind_eq_ok.mp hB
  obtain ⟨t3, rfl, e3⟩ := Traced.log h3
  obtain ⟨t4, rfl, e4, f4⟩ := Traced.flush hC
  have t2 := d2.traced
  have hsf : ∀ s l i, savedFiles { self with report := s } env i l = savedFiles self env i l := fun s l i => savedFiles_congr (self := self) (self' := { self with report := s }) rfl env l i
  rw [hsf, List.map_map] at t2
  have t6 := (t1.trans (t2.trans t3)).trans t4
  have hheap : w'.heap = w₂.heap := by rw [e4, e3]
  refine ⟨p, rs, p', hp, a1, by rw [hheap]; exact a2, a3, ?_, ?_, ?_, ?_⟩
  · rw [hheap, ← e1]; exact a5
  · have := forall₂_snd d2.made
    rw [List.map_map, taskNames_eq] at this
    exact this
  · simp only [List.append_nil, zero_add, add_zero, List.nil_append, List.length_map] at t6
    exact t6
  · have hb := d2.best
    rw [List.map_map] at hb
    exact hb

end UA
