import Verif.Lemmas.NucleonInside
import Verif.Spec.RunsNucleon
import Verif.Lemmas.ResidualRun

/-!
# Helper lemmas: whole nucleon pipelines whose values stay inside the bounds
-/

namespace UA

open Complex

/-- The fitted function at arguments strictly inside the bounds with which a model can be built. -/
theorem GoodObject.evalNucleon_of {h : Bool} {S : Set ℝ} {p : ModelParameters ℝ} (hg : GoodObject .nucleon h S p)
    {b : List (WithBot ℝ) × List (WithTop ℝ)} (hb : p.getBoundsForFreeParameters h = .ok b) {args : List ℝ} (ha : StrictlyInside b args)
    (hS : ∀ a ∈ args, a ∉ S) (hacc : ∀ p', p.updateFreeValues args = (.ok (), p') → GoodObject .nucleon h S p' → ∃ m, getFFModel p' = .ok m)
    (kind : PartialKind) {points : List (ℝ × Bool × Bool)} (h0 : ∀ d ∈ points, kind.Above d.1) {ts : List Datapoint}
    (hts : ts = points.map (fun d => .nucleon d.1 d.2.1 d.2.2) ∨ ts = (points.map (fun d => .nucleon d.1 d.2.1 d.2.2)).map Datapoint.toRow) :
    (∃ rs, partialSpec kind p ts args = .ok rs ∧ rs.length = points.length) ∨ (partialSpec kind p ts args = .error .zeroDivisionError ∧ True) := by
  obtain ⟨p', hu, hg', -, -, -⟩ := hg.update (c := .nucleon) trivial hb ha hS
  have hsp : partialSpec kind p ts args = kind.eval (points.map fun d => .nucleon d.1 d.2.1 d.2.2) p' := by
    unfold partialSpec; rw [hu]
    rcases hts with rfl | rfl
    · rfl
    · exact C52_rows hg'.1 kind _
  rw [hsp]
  obtain ⟨hr, hcls, hin, hav⟩ := (goodObject_iff (c := .nucleon) trivial).mp hg'
  obtain ⟨x, hx⟩ := nucleon_inside hr hcls hin.1 (hacc p' hu hg')
  rcases he : kind.eval (points.map fun d => .nucleon d.1 d.2.1 d.2.2) p' with e | rs
  · refine Or.inr ⟨he.trans (congrArg _ (show e = .zeroDivisionError from ?_)), trivial⟩
    cases kind with
    | formFactor =>
      have he : functionFormFactor (points.map fun d => .nucleon d.1 d.2.1 d.2.2) p' = .error e := he
      rw [hx.wiring.ff, hx.check, except_ok_bind, mapM_map] at he
      obtain ⟨d, hd, he⟩ := mapM_eq_error he
      have he : (do let F ← NucleonClass.new.run d.2.1 d.2.2 x d.1; return ‖F‖) = Except.error e := he
      rcases hrun : NucleonClass.new.run d.2.1 d.2.2 x d.1 with e' | F
      · rw [hrun] at he
        injection he with he
        rw [← he]
        exact hx.run_error d.2.1 d.2.2 (h0 d hd) hrun
      · rw [hrun] at he; cases he
    | crossSection m α hc2 =>
      have he : functionCrossSection (points.map fun d => .nucleon d.1 d.2.1 d.2.2) m α hc2 p' = .error e := he
      rw [hx.wiring.cs, hx.check, except_ok_bind, mapM_map] at he
      obtain ⟨d, hd, he⟩ := mapM_eq_error he
      obtain ⟨h1, h2⟩ := h0 d hd
      have he : (do let σ ← (do
        let GE ← NucleonClass.new.run d.2.1 true x d.1
        let GM ← NucleonClass.new.run d.2.1 false x d.1
        (NucleonCS.init m α hc2).formula d.1 ‖GE‖ ‖GM‖); return ‖σ‖) = Except.error e := he
      have hcs := (hx.cs d.2.1 h1.le m α hc2).2
      rcases hrun : (do
        let GE ← NucleonClass.new.run d.2.1 true x d.1
        let GM ← NucleonClass.new.run d.2.1 false x d.1
        (NucleonCS.init m α hc2).formula d.1 ‖GE‖ ‖GM‖) with e' | σ
      · rw [hrun] at he
        injection he with he
        rw [← he]
        rcases hcs e' hrun with h | ⟨-, -, h⟩
        · exact h
        · exact absurd h (not_lt.mpr h2)
      · rw [hrun] at he; cases he
  · exact Or.inl ⟨rs, he, by simpa using ((C51_pointwise hr kind).2 he).1⟩

/-- The fitted function at arguments strictly inside the handpicked bounds. -/
theorem GoodObject.evalNucleon {S : Set ℝ} {p : ModelParameters ℝ} (hg : GoodObject .nucleon true S p)
    {b : List (WithBot ℝ) × List (WithTop ℝ)} (hb : p.getBoundsForFreeParameters true = .ok b) {args : List ℝ} (ha : StrictlyInside b args)
    (hS : ∀ a ∈ args, a ∉ S) (kind : PartialKind) {points : List (ℝ × Bool × Bool)} (h0 : ∀ d ∈ points, kind.Above d.1) {ts : List Datapoint}
    (hts : ts = points.map (fun d => .nucleon d.1 d.2.1 d.2.2) ∨ ts = (points.map (fun d => .nucleon d.1 d.2.1 d.2.2)).map Datapoint.toRow) :
    (∃ rs, partialSpec kind p ts args = .ok rs ∧ rs.length = points.length) ∨ (partialSpec kind p ts args = .error .zeroDivisionError ∧ True) :=
  hg.evalNucleon_of hb ha hS (fun _ _ hg' => hg'.nucleon) kind h0 hts

/-- The data of a nucleon task, the object having `n` parameters. -/
structure Task.NucleonTask (task : Task) (points : List (ℝ × Bool × Bool)) (n : ℕ) : Prop where
  cls : task.cls ∈ PipelineKind.nucleonCS.nucleonTasks ∨ task.cls ∈ PipelineKind.nucleonFF.nucleonTasks
  bounds : task.use_handpicked_bounds = true
  ts : task.ts = points.map fun d => .nucleon d.1 d.2.1 d.2.2
  ts_fit : task.ts_fit = task.ts
  ys : task.ys.length = points.length
  nonzero : ∀ e ∈ task.errors, e ≠ 0
  above : ∀ d ∈ points, (task.cls.fitted task.constants).Above d.1
  enough : n < points.length

/-- After a set-up some parameter is free, if some parameter other than a coupling constant may be. -/
theorem flagAfter_free_of {cls : TaskClass} {p p' : ModelParameters ℝ} (hr : Reachable p) {n : String} (h1 : n ∈ p.cls.table.initArgs)
    (h2 : n ∉ p.cls.table.alwaysFixed) (h3 : ¬ "a_".toList <+: n.toList) (hf : cls.IsFull ∨ p.HasFree)
    (hl : p'.toList = p.toList.map (fun q => ⟨q.name, q.value, cls.flagAfter p.cls q.name q.is_fixed⟩)) : p'.HasFree := by
  have hw := reachable_wellFormed hr
  have hd : ¬ DeclaredFixed p.cls n := fun h => h2 ((declaredFixed_iff _ _ h1).mp h)
  rw [← hw.names] at h1
  obtain ⟨q, hq, hn⟩ := List.mem_map.mp h1
  unfold ModelParameters.HasFree
  rw [hl]
  by_cases hfull : cls.IsFull
  · refine ⟨_, List.mem_map_of_mem hq, ?_⟩
    unfold TaskClass.flagAfter
    rw [if_pos hfull, hn]; exact decide_eq_false hd
  · by_cases hfc : cls.IsFixedCouplings
    · refine ⟨_, List.mem_map_of_mem hq, ?_⟩
      unfold TaskClass.flagAfter
      rw [if_neg hfull, if_pos hfc, hn]
      exact decide_eq_false (not_or.mpr ⟨hd, h3⟩)
    · obtain ⟨r, hr, hrf⟩ := hf.resolve_left hfull
      refine ⟨_, List.mem_map_of_mem hr, ?_⟩
      unfold TaskClass.flagAfter
      rw [if_neg hfull, if_neg hfc]; exact hrf

theorem nucleon_tin_free : "t_in_dirac_isoscalar" ∈ ParamClass.nucleon.table.initArgs ∧
    "t_in_dirac_isoscalar" ∉ ParamClass.nucleon.table.alwaysFixed := by decide +kernel

/-- Running one task. -/
theorem nucleonTask_good {self : Task} {points : List (ℝ × Bool × Bool)} {n : ℕ} (hk : self.NucleonTask points n)
    {S : Set ℝ} {w : World} {p : ModelParameters ℝ} (hp : w.heap[self.parameters]? = some p) (hg : GoodObject .nucleon self.use_handpicked_bounds S p)
    (hf : self.cls.IsFull ∨ p.HasFree) (hn : p.names.length = n) {env : Env} (henv : env.FitsInside S) (hplot : ∀ k, env.plot k = .ok ()) :
    (self.run env).Sat w (fun task' w' => task'.parameters = self.parameters ∧ ∃ p', w'.heap[self.parameters]? = some p' ∧
      GoodObject .nucleon self.use_handpicked_bounds S p' ∧ p'.names.length = n) (· = .zeroDivisionError) := by
  have hcls := hg.2.1
  have hne : self.cls ≠ .residual := by
    intro h
    have := hk.cls
    rw [h] at this
    revert this; decide
  have hno : ¬ self.cls.IsOnlyCharged := by
    have := hk.cls
    revert this
    cases self.cls <;> decide
  obtain ⟨p₁, hr₁, hcls₁, hl₁, hset⟩ := setUp_run hne hp hg.1
  rw [if_neg hno] at hset
  have hg₁ : GoodObject .nucleon self.use_handpicked_bounds S p₁ := hg.flags hr₁ hcls₁ hl₁
  have hf₁ : p₁.HasFree := flagAfter_free_of hg.1 (by rw [hcls]; exact nucleon_tin_free.1) (by rw [hcls]; exact nucleon_tin_free.2) (by decide) hf hl₁
  have hn₁ : p₁.names.length = n := by
    rw [← hn]
    show (p₁.toList.map _).length = (p.toList.map _).length
    rw [hl₁]; simp
  have hnil : points ≠ [] := by
    rintro rfl
    exact absurd hk.enough (Nat.not_lt_zero _)
  have key := task_core (c := .nucleon) trivial (E := True) hp hr₁ hg₁ hf₁ hn₁ hset rfl rfl rfl (by
      show self.ts_fit ≠ []
      rw [hk.ts_fit, hk.ts]; simpa using hnil) (fun b args hb ha hS => ?_)
    (fun b args hb ha hS => ?_) hk.nonzero (by show n < self.ys.length; rw [hk.ys]; exact hk.enough) henv hplot
  · unfold PyM.Sat
    revert key
    rcases self.run env w with ⟨e | t, w'⟩
    · exact fun h => h.1
    · exact fun this => ⟨this.1, this.2.choose, this.2.choose_spec.1, this.2.choose_spec.2.1, this.2.choose_spec.2.2.2⟩
  · rw [hk.bounds] at hg₁ hb
    rcases hg₁.evalNucleon hb ha hS (self.cls.fitted self.constants) hk.above
      (ts := self.ts_fit.map Datapoint.toRow) (Or.inr (by rw [hk.ts_fit, hk.ts])) with ⟨rs, hr, -⟩ | hr
    · exact Or.inl ⟨rs, hr⟩
    · exact Or.inr hr
  · rw [hk.bounds] at hg₁ hb
    have := hg₁.evalNucleon hb ha hS (self.cls.fitted self.constants) hk.above (ts := self.ts) (Or.inl hk.ts)
    rw [← hk.ys] at this
    exact this

/-- The data of a pipeline whose object has `n` parameters. -/
structure Pipeline.NucleonRun (pipeline : Pipeline) (points : List (ℝ × Bool × Bool)) (n : ℕ) : Prop where
  kind : pipeline.kind = .nucleonCS ∨ pipeline.kind = .nucleonFF
  bounds : pipeline.use_handpicked_bounds = true
  ts : pipeline.ts = points.map fun d => .nucleon d.1 d.2.1 d.2.2
  ys : pipeline.ys.length = points.length
  errors : pipeline.errors.length = points.length
  nonzero : ∀ e ∈ pipeline.errors, e ≠ 0
  above : ∀ d ∈ points, 0 ≤ d.1 ∧ (pipeline.kind = .nucleonCS → 0 < d.1 ∧ 4 * pipeline.constants.mass ^ 2 ≤ d.1)
  enough : n < points.length

theorem Pipeline.NucleonData.run {pipeline : Pipeline} {p : ModelParameters ℝ} {points : List (ℝ × Bool × Bool)} (h : pipeline.NucleonData p points) :
    pipeline.NucleonRun points p.names.length :=
  ⟨h.kind, h.bounds, h.ts, h.ys, h.errors, h.nonzero, h.above, h.enough⟩

theorem Pipeline.NucleonRun.same {a b : Pipeline} {points : List (ℝ × Bool × Bool)} {n : ℕ} (h : a.NucleonRun points n) (hs : a.Same b) :
    b.NucleonRun points n :=
  ⟨by rw [hs.kind]; exact h.kind, by rw [hs.bounds]; exact h.bounds, by rw [hs.ts]; exact h.ts, by rw [hs.ys]; exact h.ys,
    by rw [hs.errors]; exact h.errors, by rw [hs.errors]; exact h.nonzero, by rw [hs.kind, hs.constants]; exact h.above, h.enough⟩

theorem hasFree_release_of {p : ModelParameters ℝ} (hr : Reachable p) {n : String} (h1 : n ∈ p.cls.table.initArgs)
    (h2 : n ∉ p.cls.table.alwaysFixed) : p.releaseAllParameters.HasFree := by
  have hw := reachable_wellFormed hr
  have hd : ¬ DeclaredFixed p.cls n := fun h => h2 ((declaredFixed_iff _ _ h1).mp h)
  rw [← hw.names] at h1
  obtain ⟨q, hq, hn⟩ := List.mem_map.mp h1
  unfold ModelParameters.HasFree
  rw [(releaseAll_spec hr).2.2]
  exact ⟨_, List.mem_map_of_mem hq, by dsimp only; rw [hn]; exact decide_eq_false hd⟩

section
variable {points : List (ℝ × Bool × Bool)} {n : ℕ} {S : Set ℝ} {env : Env}

/-- The nucleon pipelines. -/
theorem nucleon_tasksGood (henv : env.FitsInside S) (hplot : ∀ k, env.plot k = .ok ()) :
    TasksGood env .nucleon (GoodObject .nucleon · S) n (· = .zeroDivisionError) (fun self => self.NucleonRun points n) PipelineKind.nucleonTasks where
  cls := trivial
  inv := goodObject_property _ S
  same h hs := h.same hs
  free hr h := hasFree_release_of hr (n := "t_in_dirac_isoscalar") (by rw [h]; exact nucleon_tin_free.1) (by rw [h]; exact nucleon_tin_free.2)
  fixAccording h := by rcases h.kind with h | h <;> rw [h] <;> decide
  create {self cls} h hcls name := by
    unfold Pipeline.createTask
    refine if_pos ?_
    rcases h.kind with h | h <;> rw [h] at hcls ⊢ <;> revert hcls <;> cases cls <;> decide
  task {self cls} h hcls name w p hp hg hf hn := by
    unfold Pipeline.newTask Task.init
    rw [PyM.bind_ok (readParams_run hp)]
    refine ⟨_, rfl, rfl, rfl, fun w' hw' => ?_⟩
    refine nucleonTask_good ⟨?_, h.bounds, h.ts, rfl, h.ys, h.nonzero, ?_, h.enough⟩ (p := p) (by rw [hw']; exact hp) hg hf hn henv hplot
    · rcases h.kind with h | h <;> rw [h] at hcls <;> [exact Or.inl hcls; exact Or.inr hcls]
    · intro d hd
      obtain ⟨h1, h2⟩ := h.above d hd
      rcases h.kind with hk | hk
      · have h2 := h2 hk
        rw [hk] at hcls
        simp only [PipelineKind.nucleonTasks, List.mem_cons, List.not_mem_nil, or_false] at hcls
        rcases hcls with rfl | rfl | rfl <;> exact h2
      · rw [hk] at hcls
        simp only [PipelineKind.nucleonTasks, List.mem_cons, List.not_mem_nil, or_false] at hcls
        rcases hcls with rfl | rfl <;> exact h1

theorem nucleon_roundSize (fix : Bool) : 1 ≤ roundSize .nucleon fix := by
  cases fix <;> decide +kernel

theorem nucleonFF_fullFit : ∀ self : Pipeline, self.NucleonRun points n ∧ self.kind = .nucleonFF →
    self.kind.fullFit ∈ self.kind.nucleonTasks ∧ self.kind.fullFit.IsFull := by
  rintro self ⟨-, h⟩
  rw [h]; decide

theorem nucleonFF_tasksGood (henv : env.FitsInside S) (hplot : ∀ k, env.plot k = .ok ()) :
    TasksGood env .nucleon (GoodObject .nucleon · S) n (· = .zeroDivisionError) (fun self => self.NucleonRun points n ∧ self.kind = .nucleonFF) PipelineKind.nucleonTasks :=
  have H := nucleon_tasksGood (points := points) (n := n) henv hplot
  { cls := H.cls
    inv := H.inv
    same := fun h hs => ⟨h.1.same hs, by rw [hs.kind]; exact h.2⟩
    free := H.free
    fixAccording := fun h => H.fixAccording h.1
    create := fun h => H.create h.1
    task := fun h => H.task h.1 }

/-- The background of the residual task. -/
theorem GoodObject.crossSection_error {p : ModelParameters ℝ} (hg : GoodObject .nucleon true S p) {m α hc2 : ℝ}
    (h0 : ∀ d ∈ points, 0 < d.1 ∧ 4 * m ^ 2 ≤ d.1) {e : PyErr}
    (he : functionCrossSection (points.map fun d => .nucleon d.1 d.2.1 d.2.2) m α hc2 p = .error e) : e = .zeroDivisionError := by
  obtain ⟨lo, up, hb, hstart⟩ := (hg.flags (p' := p.fixAllParameters) (.step .fixAll hg.1) rfl (C42_all hg.1).1).start
  have hnil : p.fixAllParameters.getFreeValues = [] := by
    show ((p.fixAllParameters.toList.filter _).map _) = []
    rw [(C42_all hg.1).1, List.filter_map]
    simp
  rw [hnil] at hstart
  have := (hg.flags (p' := p.fixAllParameters) (.step .fixAll hg.1) rfl (C42_all hg.1).1).evalNucleon hb hstart (by simp) (.crossSection m α hc2) h0 (Or.inl rfl)
  have hps : partialSpec (.crossSection m α hc2) p.fixAllParameters (points.map fun d => .nucleon d.1 d.2.1 d.2.2) [] =
      functionCrossSection (points.map fun d => .nucleon d.1 d.2.1 d.2.2) m α hc2 p := by
    unfold partialSpec
    rw [fixAll_update]
    exact functionCrossSection_fixAll p _ _ _ _
  rw [hps, he] at this
  rcases this with ⟨rs, h, -⟩ | ⟨h, -⟩
  · cases h
  · injection h

theorem Pipeline.ResidualData.same {a b : Pipeline} (h : a.ResidualData points) (hs : a.Same b) : b.ResidualData points :=
  ⟨by rw [hs.constants]; exact h.mass, by rw [hs.constants]; exact h.alpha, by rw [hs.constants]; exact h.above,
    by rw [hs.ys]; exact h.values, by rw [hs.constants]; exact h.small⟩

/-- The last part of the run, the residual task. -/
theorem residualPart_sat {G : Bool → ModelParameters ℝ → Prop} {E : PyErr → Prop} (hG : ObjectProperty .nucleon G) (henv : env.FitsInside S)
    (hplot : ∀ k, env.plot k = .ok ()) {self₀ self : Pipeline} {w : World} {p : ModelParameters ℝ}
    (hk : self.NucleonRun points n) (hkind : self.kind = .nucleonCS) (hres : self.ResidualData points)
    (hp : w.heap[self.parameters]? = some p) (hg : GoodObject .nucleon self.use_handpicked_bounds S p) (hgG : G self.use_handpicked_bounds p)
    (hn : p.names.length = n) (hs : self₀.Same self)
    (hE : (¬ ∃ bs, functionCrossSection self.ts self.constants.mass self.constants.alpha self.constants.hc_squared p = .ok bs ∧ ∀ b ∈ bs, 0 < b) →
      E .zeroDivisionError)
    (name number : String) (report : Report → String) : (do
      let task ← self.newTask name .residual
      let self ← self.log ("Running " ++ name)
      let task ← task.run env
      let self ← self.log (report task.report)
      self.saveReport env number task.report
      return self : PyM World Pipeline).Sat w (fun self' w' => self₀.Same self' ∧ self'.Holds G n w') E := by
  unfold Pipeline.newTask Task.init
  refine .step (PyM.bind_ok (readParams_run hp)) ?_
  obtain ⟨self₁, w₁, e1, s1, -, hh1⟩ := log_run self ("Running " ++ name) w
  refine .step e1 ?_
  -- the data of the task
  have hlen : points.length = self.ys.length ∧ points.length = self.errors.length := ⟨hk.ys.symm, hk.errors.symm⟩
  have hl1 : (List.zip points (List.zip self.ys self.errors)).map Prod.fst = points := List.map_fst_zip (by rw [List.length_zip]; omega)
  have hl2 : (List.zip points (List.zip self.ys self.errors)).map (fun x => x.2.1) = self.ys := by
    rw [show (fun x : (ℝ × Bool × Bool) × ℝ × ℝ => x.2.1) = Prod.fst ∘ Prod.snd from rfl, ← List.map_map, List.map_snd_zip (by rw [List.length_zip]; omega),
      List.map_fst_zip (by omega)]
  have hl3 : (List.zip points (List.zip self.ys self.errors)).map (fun x => x.2.2) = self.errors := by
    rw [show (fun x : (ℝ × Bool × Bool) × ℝ × ℝ => x.2.2) = Prod.snd ∘ Prod.snd from rfl, ← List.map_map, List.map_snd_zip (by rw [List.length_zip]; omega),
      List.map_snd_zip (by omega)]
  generalize List.zip points (List.zip self.ys self.errors) = L at hl1 hl2 hl3
  have hfst : ∀ x ∈ L, x.1 ∈ points := fun x hx => by rw [← hl1]; exact List.mem_map_of_mem hx
  have hok : OneKind ((L.map fun x => ((.nucleon x.1.1 x.1.2.1 x.1.2.2 : Datapoint), x.2.1, x.2.2)).map (·.1)) := by
    refine Or.inr ⟨points, fun q hq => (hk.above q hq).1, ?_⟩
    rw [← hl1, List.map_map, List.map_map]; rfl
  refine PyM.Sat.bind (PyM.Sat.errors (residualTask_sat' (p := p) (l := L.map fun x => (.nucleon x.1.1 x.1.2.1 x.1.2.2, x.2.1, x.2.2)) (hc := rfl)
    (by rw [hh1]; exact hp) hg.1 hres.mass hres.alpha ⟨?_, ?_, ?_⟩ hok ?_ ?_ ?_ ?_ ?_ henv hplot) ?_) ?_
  · show self.ts = _
    rw [hk.ts, ← hl1, List.map_map, List.map_map]; rfl
  · show self.ys = _
    rw [← hl2, List.map_map]; rfl
  · show self.errors = _
    rw [← hl3, List.map_map]; rfl
  · intro y hy
    obtain ⟨x, hx, rfl⟩ := List.mem_map.mp hy
    simpa [Datapoint.place] using hres.above _ (hfst x hx)
  · intro y hy
    obtain ⟨x, hx, rfl⟩ := List.mem_map.mp hy
    exact hres.values _ (by rw [← hl2]; exact List.mem_map_of_mem (f := fun x : (ℝ × Bool × Bool) × ℝ × ℝ => x.2.1) hx)
  · intro y hy
    obtain ⟨x, hx, rfl⟩ := List.mem_map.mp hy
    exact hk.nonzero _ (by rw [← hl3]; exact List.mem_map_of_mem (f := fun x : (ℝ × Bool × Bool) × ℝ × ℝ => x.2.2) hx)
  · obtain ⟨d, hd, hd5⟩ := hres.small
    have hd' := hd
    rw [← hl1] at hd'
    obtain ⟨x, hx, rfl⟩ := List.mem_map.mp hd'
    refine ⟨_, List.mem_map_of_mem hx, ?_⟩
    have hm := hres.mass
    have ha := hres.above _ hd
    obtain ⟨m1, m2⟩ := momentumOf_spec hm ha
    have ht0 : 0 < x.1.1 := lt_trans (by positivity) ha
    have he : 0 ≤ x.1.1 / (2 * self.constants.mass) - self.constants.mass := by
      rw [sub_nonneg, le_div_iff₀ (by positivity)]
      nlinarith
    rw [Real.lt_sqrt he, m2] at hd5
    show momentumOf self.constants.mass ((x.1.1 : ℂ)).re < 5
    rw [Complex.ofReal_re]
    nlinarith
  · intro e he
    have he : functionCrossSection self.ts self.constants.mass self.constants.alpha self.constants.hc_squared p = .error e := he
    rw [hk.ts] at he
    rw [hk.bounds] at hg
    exact hg.crossSection_error (fun d hd => (hk.above d hd).2 hkind) he
  · rintro e ⟨rfl, h⟩
    exact hE h
  · intro task w₂ hp₂
    obtain ⟨self₂, w₃, e2, s2, -, hh2⟩ := log_run self₁ (report task.report) w₂
    refine .step e2 (.step rfl (.of_run rfl ⟨(hs.trans s1).trans s2, p.fixAllParameters, ?_, ?_, ?_⟩))
    · show w₃.heap[self₂.parameters]? = _
      rw [hh2, s2.parameters, s1.parameters]; exact hp₂
    · rw [s2.bounds, s1.bounds]
      exact hG.flags hgG (.step .fixAll hg.1) rfl (C42_all hg.1).1
    · rw [names_flags (C42_all hg.1).1]; exact hn

/-- `run` of the iterative pipeline for the nucleon cross section. -/
theorem runNucleonCSIterative_sat_of {G : Bool → ModelParameters ℝ → Prop} {E : PyErr → Prop} {D : Pipeline → Prop}
    (H : TasksGood env .nucleon G n E D PipelineKind.nucleonTasks) (hsamp : env.Samples) (its : Iterations) (self : Pipeline)
    (w : World) (hk : D self) (hkind : self.kind = .nucleonCS) (hp : self.Holds G n w)
    (hnum : ∀ k ∈ its.free_params_numbers, 1 ≤ k)
    (hres : ∀ {self₁ : Pipeline} {w : World} {p : ModelParameters ℝ}, D self₁ → self.Same self₁ → w.heap[self₁.parameters]? = some p →
      G self₁.use_handpicked_bounds p → p.names.length = n → ∀ (name number : String) (report : Report → String), (do
        let task ← self₁.newTask name .residual
        let self ← self₁.log ("Running " ++ name)
        let task ← task.run env
        let self ← self.log (report task.report)
        self.saveReport env number task.report
        return self : PyM World Pipeline).Sat w (fun self' w' => self.Same self' ∧ self'.Holds G n w') E) :
    (self.runNucleonCSIterative env its).Sat w (fun self' w' => self.Same self' ∧ self'.Holds G n w') E := by
  obtain ⟨p, h1, h2⟩ := hp
  unfold Pipeline.runNucleonCSIterative
  refine .step (readParams_run h1) ?_
  obtain ⟨self₁, w₁, e1, s1, ht1, hh1⟩ := log_run self ("Starting. Initial parameters: " ++ env.strParameters p.toList) w
  refine .step e1 ?_
  refine (runRounds_sat H hsamp _ its.free_params_numbers 0 self₁ w₁ (H.same hk s1)
    ⟨p, by rw [hh1, s1.parameters]; exact h1, by rw [s1.bounds]; exact h2⟩ (fun j k hj =>
      ⟨hnum k (List.mem_of_getElem? hj), nucleon_roundSize _, fun h => by rw [s1.kind, hkind] at h; exact absurd h (by decide)⟩)).bind ?_
  rintro self₂ w₂ ⟨s2, p₂, hp₂, hg₂, hn₂⟩
  dsimp only
  have hl₂ := heap_set_append hp₂
  refine .step (mutateParams_run hp₂ _) ?_
  -- the object before the last fit
  obtain ⟨p₃, hb1, hb2, hb3, hb4⟩ := beforeChoice (H.inv.reachable hg₂) (decide ((its.free_params_numbers.length : ℤ) < its.nr_initial_rounds_with_fixed_resonances))
    (fun _ => by rw [H.inv.cls hg₂]; trivial)
  have hfree : p₃.HasFree := by
    unfold ModelParameters.HasFree
    rw [hb4]
    have hn := nucleon_tin_free
    have hmem := hn.1
    rw [← H.inv.cls hg₂, ← (reachable_wellFormed (H.inv.reachable hg₂)).names] at hmem
    obtain ⟨q, hq, hqn⟩ := List.mem_map.mp hmem
    refine ⟨_, List.mem_map_of_mem hq, ?_⟩
    dsimp only
    rw [hqn, H.inv.cls hg₂]
    refine decide_eq_false (not_or.mpr ⟨fun h => hn.2 ((declaredFixed_iff _ _ hn.1).mp h), fun h => absurd h.2 (by decide)⟩)
  have hg₃ : G self₂.use_handpicked_bounds p₃ := H.inv.flags hg₂ hb2 hb3 hb4
  have hn₃ : p₃.names.length = n := by rw [names_flags hb4]; exact hn₂
  have hs3 : self.Same self₂ := s1.trans s2
  -- the rest, from there
  have key : ∀ w₃ : World, w₃.heap[self₂.parameters]? = some p₃ → (do
      let self ← self₂.log ("Initializing Task#" ++ toString its.free_params_numbers.length ++ ". " ++
        (if decide ((its.free_params_numbers.length : ℤ) < its.nr_initial_rounds_with_fixed_resonances) = true then "Full fit (Fixed resonances)" else "Full fit") ++ ".")
      let (task, self) ← self.iterativeTask env ("Task#" ++ toString its.free_params_numbers.length ++ ":" ++
        (if decide ((its.free_params_numbers.length : ℤ) < its.nr_initial_rounds_with_fixed_resonances) = true then "Full fit (Fixed resonances)" else "Full fit"))
        .nucleonCSFixAccording
      let self ← self.log ("Best fit: " ++ env.strBestFit self.best_fit)
      let self ← self.flushReport
      self.saveReport env (toString its.free_params_numbers.length) task.report
      let self ← self.log ("Initializing Task#" ++ toString (its.free_params_numbers.length + 1) ++ ". Residuals.")
      let task ← self.newTask ("Task#" ++ toString (its.free_params_numbers.length + 1) ++ ":" ++ TaskClass.residual.pyName) .residual
      let self ← self.log ("Running " ++ ("Task#" ++ toString (its.free_params_numbers.length + 1) ++ ":" ++ TaskClass.residual.pyName))
      let task ← task.run env
      let self ← self.log ("Task#" ++ toString (its.free_params_numbers.length + 1) ++ ":" ++ TaskClass.residual.pyName ++ " report: " ++ env.strReport task.report)
      self.saveReport env (toString (its.free_params_numbers.length + 1)) task.report
      return self : PyM World Pipeline).Sat w₃ (fun self' w' => self.Same self' ∧ self'.Holds G n w') E := by
    intro w₃ hp₃
    obtain ⟨self₃, w₄, e3, s3, -, hh3⟩ := log_run self₂ _ w₃
    refine .step e3 ?_
    have hk₃ := H.same (H.same hk hs3) s3
    refine (iterativeTask_sat H self₃ w₄ _ (cls := .nucleonCSFixAccording) ?_ hk₃ ⟨p₃, ?_, ?_, Or.inr hfree, hn₃⟩).bind ?_
    · rw [s3.kind, hs3.kind, hkind]; decide
    · rw [hh3, s3.parameters]; exact hp₃
    · rw [s3.bounds]; exact hg₃
    · rintro ⟨task, self₄⟩ w₅ ⟨s4, p₄, hp₄, hg₄, hn₄⟩
      dsimp only at s4 hp₄ hg₄ ⊢
      obtain ⟨self₅, w₆, e5, s5, -, hh5⟩ := log_run self₄ ("Best fit: " ++ env.strBestFit self₄.best_fit) w₅
      refine .step e5 (.step rfl (.step rfl ?_))
      have t5 : self.Same { self₅ with report := "\n" } := by
        have := ((hs3.trans s3).trans s4).trans s5
        exact ⟨this.kind, this.parameters, this.ts, this.ys, this.errors, this.bounds, this.constants⟩
      have hp₅ : w₆.heap[self₅.parameters]? = some p₄ := by rw [hh5, s5.parameters]; exact hp₄
      obtain ⟨self₆, w₇, e6, s6, -, hh6⟩ := log_run { self₅ with report := "\n" }
        ("Initializing Task#" ++ toString (its.free_params_numbers.length + 1) ++ ". Residuals.")
        (writeFile (pathJoin { self₅ with report := "\n" }.reports_dir ("report_" ++ toString its.free_params_numbers.length ++ ".txt"))
          (env.strReport task.report) (appendFile (pathJoin self₅.reports_dir "report.txt") self₅.report w₆).2).2
      refine .step e6 ?_
      have t6 := t5.trans s6
      refine hres (p := p₄) (H.same hk t6) t6 ?_ ?_ hn₄
        ("Task#" ++ toString (its.free_params_numbers.length + 1) ++ ":" ++ TaskClass.residual.pyName) (toString (its.free_params_numbers.length + 1))
        (fun r => "Task#" ++ toString (its.free_params_numbers.length + 1) ++ ":" ++ TaskClass.residual.pyName ++ " report: " ++ env.strReport r)
      · rw [hh6, s6.parameters]; exact hp₅
      · rw [s6.bounds]
        show G self₅.use_handpicked_bounds p₄
        rw [s5.bounds]; exact hg₄
  have hfin := key { w₂ with heap := w₂.heap.set self₂.parameters p₃ } (by simp [hl₂])
  by_cases hfix : (its.free_params_numbers.length : ℤ) < its.nr_initial_rounds_with_fixed_resonances
  · rw [decide_eq_true hfix] at hb1
    have hm := mutateParams_run (ref := self₂.parameters) (w := { w₂ with heap := w₂.heap.set self₂.parameters p₂.releaseAllParameters })
      (p := p₂.releaseAllParameters) (by simp [hl₂]) fun p => p.fixResonances
    rw [if_pos rfl] at hb1
    rw [hb1] at hm
    dsimp only at hm
    rw [List.set_set] at hm
    simp only [hfix, decide_true, if_true] at hfin ⊢
    exact .step hm hfin
  · rw [decide_eq_false hfix, if_neg (by decide)] at hb1
    injection hb1 with _ hb1
    simp only [hfix, decide_false] at hfin ⊢
    rw [hb1]
    exact .step rfl hfin

theorem runNucleonCSIterative_sat (henv : env.FitsInside S) (hplot : ∀ k, env.plot k = .ok ()) (hsamp : env.Samples) (its : Iterations) (self : Pipeline)
    (w : World) (hk : self.NucleonRun points n) (hkind : self.kind = .nucleonCS) (hres : self.ResidualData points) (hp : self.Holds (GoodObject .nucleon · S) n w)
    (hnum : ∀ k ∈ its.free_params_numbers, 1 ≤ k) :
    (self.runNucleonCSIterative env its).Sat w (fun self' w' => self.Same self' ∧ self'.Holds (GoodObject .nucleon · S) n w') (· = .zeroDivisionError) :=
  runNucleonCSIterative_sat_of (nucleon_tasksGood (points := points) (n := n) henv hplot) hsamp its self w hk hkind hp hnum
    fun hk' hs hp' hg hn => residualPart_sat (goodObject_property _ S) henv hplot hk' (by rw [hs.kind]; exact hkind) (hres.same hs) hp' hg hg hn hs (fun _ => rfl)

end

end UA
