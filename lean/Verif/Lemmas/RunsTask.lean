import Verif.Lemmas.RunsInside
import Verif.Lemmas.TasksResult
import Verif.Lemmas.PipelinesFreeze
import Verif.Props.EndToEnd

/-!
# Helper lemmas: one kaon task whose values stay inside the bounds
-/

namespace UA

open Complex

/-- Some parameter is free. -/
def ModelParameters.HasFree (p : ModelParameters ℝ) : Prop := ∃ q ∈ p.toList, q.is_fixed = false

theorem IsKaonClass.resonance {c : ParamClass} (h : IsKaonClass c) : IsResonanceClass c := by
  revert h; cases c <;> simp [IsKaonClass, IsResonanceClass]

/-- The fitted function at arguments strictly inside the bounds. -/
theorem GoodObject.eval {c : ParamClass} (hc : IsKaonClass c) {h : Bool} {S : Set ℝ} {p : ModelParameters ℝ} (hg : GoodObject c h S p)
    {b : List (WithBot ℝ) × List (WithTop ℝ)} (hb : p.getBoundsForFreeParameters h = .ok b) {args : List ℝ} (ha : StrictlyInside b args)
    (hS : ∀ a ∈ args, a ∉ S) (kind : PartialKind) {points : List (ℝ × Bool)} (h0 : ∀ d ∈ points, 0 < d.1) {ts : List Datapoint}
    (hts : ts = points.map (fun d => .kaon d.1 d.2) ∨ ts = (points.map (fun d => .kaon d.1 d.2)).map Datapoint.toRow) :
    (∃ rs, partialSpec kind p ts args = .ok rs ∧ rs.length = points.length) ∨
      (partialSpec kind p ts args = .error .zeroDivisionError ∧ ∃ d ∈ points, d.1 ∉ S) := by
  obtain ⟨p', hu, hg', -, -, -⟩ := hg.update hc.resonance hb ha hS
  have hsp : partialSpec kind p ts args = kind.eval (points.map fun d => .kaon d.1 d.2) p' := by
    unfold partialSpec; rw [hu]
    rcases hts with rfl | rfl
    · rfl
    · exact C52_rows hg'.1 kind _
  rw [hsp]
  obtain ⟨hr, hcls, hin, hav⟩ := (goodObject_iff hc.resonance).mp hg'
  have hc' : IsKaonClass p'.cls := by rw [hcls]; exact hc
  have key : ((∃ rs, kind.eval (points.map fun d => .kaon d.1 d.2) p' = .ok rs) ↔
      ∀ d ∈ points, ¬ ∃ q ∈ p'.toList, "t_in_".toList <+: q.name.toList ∧ d.1 = q.value) ∧
      ∀ e, kind.eval (points.map fun d => .kaon d.1 d.2) p' = .error e → e = .zeroDivisionError := by
    cases kind with
    | formFactor => exact C80_form_factors hr hc' hin.1 fun d hd => (h0 d hd).le
    | crossSection m α hc2 =>
      obtain ⟨h1, h2⟩ := C80_cross_sections hr hc' hin.1 (fun d hd => (h0 d hd).le) m α hc2
      refine ⟨h1.trans (forall₂_congr fun d hd => ?_), h2⟩
      exact and_iff_right (h0 d hd).ne'
  rcases he : kind.eval (points.map fun d => .kaon d.1 d.2) p' with e | rs
  · refine Or.inr ⟨he.trans (congrArg _ (key.2 e he)), ?_⟩
    have : ¬ ∃ rs, kind.eval (points.map fun d => .kaon d.1 d.2) p' = .ok rs := by
      rw [he]; rintro ⟨_, h⟩; cases h
    rw [key.1] at this
    push Not at this
    obtain ⟨d, hd, q, hq, hn, heq⟩ := this
    exact ⟨d, hd, by rw [heq]; exact hav q hq hn⟩
  · exact Or.inl ⟨rs, he, by simpa using ((C51_pointwise hr kind).2 he).1⟩

/-- The outcome of a fitting procedure that stays inside the bounds. -/
theorem FitProc.Stays.outcome {b : List (WithBot ℝ) × List (WithTop ℝ)} {S : Set ℝ} {E : Prop} {g : List ℝ → Except PyErr (List ℝ)}
    (hg : ∀ args, StrictlyInside b args → (∀ a ∈ args, a ∉ S) → (∃ rs, g args = .ok rs) ∨ (g args = .error .zeroDivisionError ∧ E))
    (proc : FitProc) : proc.Stays b S →
      match proc.outcome g with
      | .ok (opt, _) => StrictlyInside b opt ∧ ∀ a ∈ opt, a ∉ S
      | .error (e, _) => e = .runtimeError ∨ (e = .zeroDivisionError ∧ E) := by
  induction proc with
  | done r =>
    intro h
    unfold FitProc.outcome
    rcases r with ⟨e, m⟩ | ⟨opt, cov⟩
    · exact Or.inl h
    · exact h
  | ask args next ih =>
    rintro ⟨h1, h2⟩
    unfold FitProc.outcome
    rcases hg args h1.1 h1.2 with ⟨rs, hr⟩ | ⟨hr, hE⟩
    · rw [hr]; exact ih rs (h2 rs)
    · rw [hr]; exact Or.inr ⟨rfl, hE⟩

/-- The data of a kaon task, the object having `n` parameters. -/
structure Task.KaonTask (task : Task) (points : List (ℝ × Bool)) (n : ℕ) : Prop where
  cls : task.cls ∈ PipelineKind.kaonCS.kaonTasks ∨ task.cls ∈ PipelineKind.kaonFF.kaonTasks
  ts : task.ts = points.map fun d => .kaon d.1 d.2
  ts_fit : task.ts_fit = task.ts
  ys : task.ys.length = points.length
  ys_fit : task.ys_fit = task.ys
  errors : task.errors.length = points.length
  errors_fit : task.errors_fit = task.errors
  nonzero : ∀ e ∈ task.errors, e ≠ 0
  positive : ∀ d ∈ points, 0 < d.1
  charged : ∃ d ∈ points, d.2 = true
  enough : n < points.length

theorem kaon_tin_free {c : ParamClass} (hc : IsKaonClass c) : "t_in_isoscalar" ∈ c.table.initArgs ∧ "t_in_isoscalar" ∉ c.table.alwaysFixed := by
  cases c <;> first | exact hc.elim | decide +kernel

/-- After the set-up some parameter is free. -/
theorem flagAfter_free {cls : TaskClass} {p p' : ModelParameters ℝ} (hr : Reachable p) (hc : IsKaonClass p.cls) (hf : cls.IsFull ∨ p.HasFree)
    (hl : p'.toList = p.toList.map (fun q => ⟨q.name, q.value, cls.flagAfter p.cls q.name q.is_fixed⟩)) : p'.HasFree := by
  have hw := reachable_wellFormed hr
  obtain ⟨h1, h2⟩ := kaon_tin_free hc
  have hd : ¬ DeclaredFixed p.cls "t_in_isoscalar" := fun h => h2 ((declaredFixed_iff _ _ h1).mp h)
  rw [← hw.names] at h1
  obtain ⟨q, hq, hn⟩ := List.mem_map.mp h1
  unfold ModelParameters.HasFree
  rw [hl]
  by_cases hfull : cls.IsFull
  · refine ⟨_, List.mem_map_of_mem hq, ?_⟩
    unfold TaskClass.flagAfter
    rw [if_pos hfull, hn]; exact decide_eq_false hd
  · by_cases hfc : cls.IsFixedCouplings
    · refine ⟨_, List.mem_map_of_mem hq, ?_⟩
      unfold TaskClass.flagAfter
      rw [if_neg hfull, if_pos hfc, hn]
      exact decide_eq_false (not_or.mpr ⟨hd, by decide⟩)
    · obtain ⟨r, hr, hrf⟩ := hf.resolve_left hfull
      refine ⟨_, List.mem_map_of_mem hr, ?_⟩
      unfold TaskClass.flagAfter
      rw [if_neg hfull, if_neg hfc]; exact hrf

theorem hasFree_iff {p : ModelParameters ℝ} : p.HasFree ↔ p.getFreeValues ≠ [] := by
  unfold ModelParameters.HasFree ModelParameters.getFreeValues ModelParameters.toList
  rw [Ne, List.map_eq_nil_iff, List.filter_eq_nil_iff]
  push Not
  simp

theorem hasFree_flags {p p' : ModelParameters ℝ} (h : p.HasFree) (hf : p'.flags = p.flags) : p'.HasFree := by
  obtain ⟨q, hq, hn⟩ := h
  have : q.is_fixed ∈ p'.flags := by rw [hf]; exact List.mem_map_of_mem hq
  obtain ⟨r, hr, he⟩ := List.mem_map.mp this
  exact ⟨r, hr, he.trans hn⟩

theorem kaonTask_charged {self : Task} {points : List (ℝ × Bool)} {n : ℕ} (hk : self.KaonTask points n) :
    ∃ l : List ((ℂ × Bool) × ℝ × ℝ), self.Fits l ∧ l.map (·.1) = points.map fun d => ((d.1 : ℂ), d.2) := by
  have h1 := hk.ts
  have h2 := hk.ys
  have h3 := hk.errors
  refine ⟨(points.map fun d => ((d.1 : ℂ), d.2)).zip (self.ys.zip self.errors), ⟨?_, ?_, ?_⟩, ?_⟩
  · rw [hk.ts_fit, h1]
    have : (fun q : (ℂ × Bool) × ℝ × ℝ => Datapoint.kaon q.1.1 q.1.2) = (fun z : ℂ × Bool => Datapoint.kaon z.1 z.2) ∘ Prod.fst := rfl
    rw [this, ← List.map_map, List.map_fst_zip, List.map_map]
    · rfl
    · simp [h2, h3]
  · rw [hk.ys_fit]
    have : (fun q : (ℂ × Bool) × ℝ × ℝ => q.2.1) = Prod.fst ∘ Prod.snd := rfl
    rw [this, ← List.map_map, List.map_snd_zip, List.map_fst_zip]
    · simp [h2, h3]
    · simp [h2, h3]
  · rw [hk.errors_fit]
    have : (fun q : (ℂ × Bool) × ℝ × ℝ => q.2.2) = Prod.snd ∘ Prod.snd := rfl
    rw [this, ← List.map_map, List.map_snd_zip, List.map_snd_zip]
    · simp [h2, h3]
    · simp [h2, h3]
  · rw [List.map_fst_zip]
    simp [h2, h3]

/-- Running one task once it is set up: `p₁` is the object with the flags of the task, `E` what an exception implies. -/
theorem task_result {self task : Task} {c : ParamClass} (hc : IsResonanceClass c) {S : Set ℝ} {E : Prop} {n : ℕ} {w : World}
    {p p₁ : ModelParameters ℝ} (hp : w.heap[self.parameters]? = some p) (hr₁ : Reachable p₁)
    (hg₁ : GoodObject c self.use_handpicked_bounds S p₁) (hf₁ : p₁.HasFree) (hn₁ : p₁.names.length = n)
    (hset : self.setUp w = (.ok task, { w with heap := w.heap.set self.parameters p₁ ++ [p₁] }))
    (hpf : task.partial_f = some (.ofPartial ⟨self.cls.fitted self.constants, w.heap.length⟩)) (hpar : task.parameters = self.parameters)
    (hhp : task.use_handpicked_bounds = self.use_handpicked_bounds) (hnil : task.ts_fit ≠ [])
    (hevalFit : ∀ b args, p₁.getBoundsForFreeParameters self.use_handpicked_bounds = .ok b → StrictlyInside b args → (∀ a ∈ args, a ∉ S) →
      (∃ rs, partialSpec (self.cls.fitted self.constants) p₁ (task.ts_fit.map Datapoint.toRow) args = .ok rs) ∨
        (partialSpec (self.cls.fitted self.constants) p₁ (task.ts_fit.map Datapoint.toRow) args = .error .zeroDivisionError ∧ E))
    (hevalAll : ∀ b args, p₁.getBoundsForFreeParameters self.use_handpicked_bounds = .ok b → StrictlyInside b args → (∀ a ∈ args, a ∉ S) →
      (∃ rs, partialSpec (self.cls.fitted self.constants) p₁ task.ts args = .ok rs ∧ rs.length = task.ys.length) ∨
        (partialSpec (self.cls.fitted self.constants) p₁ task.ts args = .error .zeroDivisionError ∧ E))
    (hnz : ∀ e ∈ task.errors, e ≠ 0) (hen : n < task.ys.length)
    {env : Env} (henv : env.FitsInside S) (hplot : task.reports_dir = none ∨ ∀ k, env.plot k = .ok ()) :
    match self.run env w with
    | (.ok task', w') => task'.parameters = self.parameters ∧ ∃ p', w'.heap[self.parameters]? = some p' ∧
        GoodObject c self.use_handpicked_bounds S p' ∧ p'.HasFree ∧ p'.names.length = n ∧
        ((task'.report.status = "failed" ∧ p' = p₁) ∨ (task'.report.status = "finished" ∧ ∃ opt, p₁.updateFreeValues opt = (.ok (), p')))
    | (.error e, _) => e = .zeroDivisionError ∧ E := by
  have hlen := heap_set_append hp
  set w₁ : World := { w with heap := w.heap.set self.parameters p₁ ++ [p₁] } with hw₁
  have hp₁ : w₁.heap[task.parameters]? = some p₁ := by
    rw [hpar, hw₁]
    dsimp only
    rw [List.getElem?_append_left (by simpa using hlen)]
    simp [hlen]
  have hready : (TaskF.ofPartial ⟨self.cls.fitted self.constants, w.heap.length⟩).Ready task.parameters p₁ w₁ := by
    refine ⟨by rw [hpar]; exact hlen.ne', p₁, ?_, OtherFree.refl _⟩
    rw [hw₁]; simp
  obtain ⟨lo, up, hb, hstart⟩ := hg₁.start
  rw [← hhp] at hb
  obtain ⟨c1, c2, -, -, c5, -⟩ := run_cases hset hpf hp₁ hr₁ hready hb env
  have hb' := hb
  rw [hhp] at hb'
  -- the fit
  have hst : (env.curve_fit w₁.fits (task.problem p₁ (lo, up))).Stays (lo, up) S := by
    refine henv w₁.fits (task.problem p₁ (lo, up)) ?_ (hasFree_iff.mp hf₁) hstart
    show task.ts_fit.map Datapoint.toRow ≠ []
    simpa using hnil
  have hout := hst.outcome (E := E)
    (g := (TaskF.ofPartial ⟨self.cls.fitted self.constants, w.heap.length⟩).value p₁ (task.ts_fit.map Datapoint.toRow))
    (fun args ha hS => hevalFit _ _ hb' ha hS)
  rcases ho : (env.curve_fit w₁.fits (task.problem p₁ (lo, up))).outcome
    ((TaskF.ofPartial ⟨self.cls.fitted self.constants, w.heap.length⟩).value p₁ (task.ts_fit.map Datapoint.toRow)) with ⟨e, m⟩ | ⟨opt, cov⟩
  · rw [ho] at hout
    dsimp only at hout
    obtain ⟨k1, k2⟩ := c1 e m ho
    rcases hrun : self.run env w with ⟨r, w'⟩
    rw [hrun] at k1 k2
    dsimp only at k1 k2
    rcases hout with rfl | ⟨rfl, hE⟩
    · rw [if_pos rfl] at k2
      subst k2
      rw [hpar] at k1
      exact ⟨hpar, p₁, k1, hg₁, hf₁, hn₁, Or.inl ⟨rfl, rfl⟩⟩
    · rw [if_neg (by decide)] at k2
      subst k2
      exact ⟨rfl, hE⟩
  · rw [ho] at hout
    dsimp only at hout
    obtain ⟨p₂, hu, hg₂, hfv, hfl, hnm⟩ := hg₁.update hc hb' hout.1 hout.2
    obtain ⟨k1, k2⟩ := c2 opt cov ho
    rw [hu] at k1 k2
    obtain ⟨ordered, -, k2⟩ := k2 () rfl
    rcases hrun : self.run env w with ⟨r, w'⟩
    rw [hrun] at k1 k2 c5
    dsimp only at k1 k2 c5
    have heval := hevalAll _ _ hb' hout.1 hout.2
    have hval : (TaskF.ofPartial ⟨self.cls.fitted self.constants, w.heap.length⟩).value p₁ task.ts opt =
      partialSpec (self.cls.fitted self.constants) p₁ task.ts opt := rfl
    rw [hval] at k2
    rcases heval with ⟨fs, hfs, hfl'⟩ | ⟨hfs, hE⟩
    · rw [hfs] at k2
      dsimp only at k2
      have hol : opt.length ≤ n := by
        rw [← hfv, ← hn₁, ← hnm]
        show (List.map _ (List.filter _ _)).length ≤ (List.map _ _).length
        rw [List.length_map, List.length_map]
        exact List.length_filter_le _ _
      rw [chiSquared_eq (by rw [hfl']) hnz (by omega)] at k2
      dsimp only at k2
      have hpl : (if task.reports_dir = none ∨ task.reports_dir = some "" then Except.ok () else env.plot w₁.plots) = .ok () := by
        split_ifs with hdir
        · rfl
        · exact hplot.resolve_left (fun h => hdir (Or.inl h)) _
      rw [hpl] at k2
      subst k2
      rw [hpar] at k1
      refine ⟨hpar, p₂, k1, hg₂, hasFree_flags hf₁ hfl, ?_, Or.inr ⟨rfl, opt, hu⟩⟩
      rw [hnm]; exact hn₁
    · rw [hfs] at k2
      subst k2
      exact ⟨rfl, hE⟩

/-- The same without the report. -/
theorem task_core {self task : Task} {c : ParamClass} (hc : IsResonanceClass c) {S : Set ℝ} {E : Prop} {n : ℕ} {w : World}
    {p p₁ : ModelParameters ℝ} (hp : w.heap[self.parameters]? = some p) (hr₁ : Reachable p₁)
    (hg₁ : GoodObject c self.use_handpicked_bounds S p₁) (hf₁ : p₁.HasFree) (hn₁ : p₁.names.length = n)
    (hset : self.setUp w = (.ok task, { w with heap := w.heap.set self.parameters p₁ ++ [p₁] }))
    (hpf : task.partial_f = some (.ofPartial ⟨self.cls.fitted self.constants, w.heap.length⟩)) (hpar : task.parameters = self.parameters)
    (hhp : task.use_handpicked_bounds = self.use_handpicked_bounds) (hnil : task.ts_fit ≠ [])
    (hevalFit : ∀ b args, p₁.getBoundsForFreeParameters self.use_handpicked_bounds = .ok b → StrictlyInside b args → (∀ a ∈ args, a ∉ S) →
      (∃ rs, partialSpec (self.cls.fitted self.constants) p₁ (task.ts_fit.map Datapoint.toRow) args = .ok rs) ∨
        (partialSpec (self.cls.fitted self.constants) p₁ (task.ts_fit.map Datapoint.toRow) args = .error .zeroDivisionError ∧ E))
    (hevalAll : ∀ b args, p₁.getBoundsForFreeParameters self.use_handpicked_bounds = .ok b → StrictlyInside b args → (∀ a ∈ args, a ∉ S) →
      (∃ rs, partialSpec (self.cls.fitted self.constants) p₁ task.ts args = .ok rs ∧ rs.length = task.ys.length) ∨
        (partialSpec (self.cls.fitted self.constants) p₁ task.ts args = .error .zeroDivisionError ∧ E))
    (hnz : ∀ e ∈ task.errors, e ≠ 0) (hen : n < task.ys.length)
    {env : Env} (henv : env.FitsInside S) (hplot : ∀ k, env.plot k = .ok ()) :
    match self.run env w with
    | (.ok task', w') => task'.parameters = self.parameters ∧ ∃ p', w'.heap[self.parameters]? = some p' ∧
        GoodObject c self.use_handpicked_bounds S p' ∧ p'.HasFree ∧ p'.names.length = n
    | (.error e, _) => e = .zeroDivisionError ∧ E := by
  have := task_result hc hp hr₁ hg₁ hf₁ hn₁ hset hpf hpar hhp hnil hevalFit hevalAll hnz hen henv (Or.inr hplot)
  revert this
  rcases self.run env w with ⟨e | t, w'⟩
  · exact id
  · rintro ⟨h1, p', h2, h3, h4, h5, -⟩
    exact ⟨h1, p', h2, h3, h4, h5⟩

/-- Running one task. -/
theorem task_good {self : Task} {points : List (ℝ × Bool)} {n : ℕ} (hk : self.KaonTask points n) {c : ParamClass} (hc : IsKaonClass c)
    {S : Set ℝ} {w : World} {p : ModelParameters ℝ} (hp : w.heap[self.parameters]? = some p) (hg : GoodObject c self.use_handpicked_bounds S p)
    (hf : self.cls.IsFull ∨ p.HasFree) (hn : p.names.length = n) {env : Env} (henv : env.FitsInside S) (hplot : ∀ k, env.plot k = .ok ()) :
    match self.run env w with
    | (.ok task', w') => task'.parameters = self.parameters ∧ ∃ p', w'.heap[self.parameters]? = some p' ∧
        GoodObject c self.use_handpicked_bounds S p' ∧ p'.HasFree ∧ p'.names.length = n
    | (.error e, _) => e = .zeroDivisionError ∧ ∃ d ∈ points, d.1 ∉ S := by
  have hcls := hg.2.1
  have hcp : IsKaonClass p.cls := by rw [hcls]; exact hc
  have hne : self.cls ≠ .residual := by
    intro h
    have := hk.cls
    rw [h] at this
    revert this; decide
  obtain ⟨p₁, hr₁, hcls₁, hl₁, hset⟩ := setUp_run hne hp hg.1
  have hg₁ : GoodObject c self.use_handpicked_bounds S p₁ := hg.flags hr₁ hcls₁ hl₁
  have hf₁ : p₁.HasFree := flagAfter_free hg.1 hcp hf hl₁
  have hn₁ : p₁.names.length = n := by
    rw [← hn]
    show (p₁.toList.map _).length = (p.toList.map _).length
    rw [hl₁]; simp
  -- the points being fitted
  obtain ⟨l, hfits, hlp⟩ := kaonTask_charged hk
  have hsetup : ∃ (task : Task) (points' : List (ℝ × Bool)), self.setUp w = (.ok task, { w with heap := w.heap.set self.parameters p₁ ++ [p₁] }) ∧
      task.partial_f = some (.ofPartial ⟨self.cls.fitted self.constants, w.heap.length⟩) ∧ task.parameters = self.parameters ∧
      task.use_handpicked_bounds = self.use_handpicked_bounds ∧ task.ts = self.ts ∧ task.ys = self.ys ∧ task.errors = self.errors ∧
      task.ts_fit = points'.map (fun d => .kaon d.1 d.2) ∧ points' ≠ [] ∧ ∀ d ∈ points', d ∈ points := by
    by_cases ho : self.cls.IsOnlyCharged
    · rw [if_pos ho, onlyCharged_eq (l := l) (by exact hfits)] at hset
      have hpts : (l.filter fun q => q.1.2).map (·.1) = (points.filter (·.2)).map fun d => ((d.1 : ℂ), d.2) := by
        have e1 : (l.filter fun q => q.1.2).map (·.1) = (l.map (·.1)).filter fun z => z.2 := by rw [List.filter_map]; rfl
        rw [e1, hlp, List.filter_map]; rfl
      have hnil : points.filter (·.2) ≠ [] := by
        obtain ⟨d, hd, hd2⟩ := hk.charged
        exact List.ne_nil_of_mem (List.mem_filter.mpr ⟨hd, hd2⟩)
      rw [if_neg (fun h => hnil (by rw [h] at hpts; simpa using hpts.symm))] at hset
      refine ⟨_, points.filter (·.2), hset, rfl, rfl, rfl, rfl, rfl, rfl, ?_, hnil, fun d hd => (List.mem_filter.mp hd).1⟩
      dsimp only
      have : (fun q : (ℂ × Bool) × ℝ × ℝ => Datapoint.kaon q.1.1 q.1.2) = (fun z : ℂ × Bool => Datapoint.kaon z.1 z.2) ∘ Prod.fst := rfl
      rw [this, ← List.map_map]
      have h2 : (l.filter fun q => q.1.2).map Prod.fst = (points.filter (·.2)).map fun d => ((d.1 : ℂ), d.2) := hpts
      rw [h2, List.map_map]; rfl
    · rw [if_neg ho] at hset
      refine ⟨_, points, hset, rfl, rfl, rfl, rfl, rfl, rfl, hk.ts_fit.trans hk.ts, ?_, fun d hd => hd⟩
      obtain ⟨d, hd, -⟩ := hk.charged
      exact List.ne_nil_of_mem hd
  obtain ⟨task, points', hset, hpf, hpar, hhp, hts, hys, herr, hfit, hnil, hsub⟩ := hsetup
  refine task_core hc.resonance hp hr₁ hg₁ hf₁ hn₁ hset hpf hpar hhp (by rw [hfit]; simpa using hnil) (fun b args hb ha hS => ?_)
    (fun b args hb ha hS => ?_) (by rw [herr]; exact hk.nonzero) (by rw [hys, hk.ys]; exact hk.enough) henv hplot
  · rcases hg₁.eval hc hb ha hS (self.cls.fitted self.constants) (points := points') (fun d hd => hk.positive d (hsub d hd))
      (ts := task.ts_fit.map Datapoint.toRow) (Or.inr (by rw [hfit])) with ⟨rs, hr, -⟩ | ⟨hr, d, hd, hdS⟩
    · exact Or.inl ⟨rs, hr⟩
    · exact Or.inr ⟨hr, d, hsub d hd, hdS⟩
  · rw [hys, hk.ys]
    exact hg₁.eval hc hb ha hS (self.cls.fitted self.constants) hk.positive (ts := task.ts) (Or.inl (by rw [hts, hk.ts]))

end UA
