import Verif.Spec.Within
import Verif.Lemmas.RunsNucleonScript

/-!
# Helper lemmas: fits that stay in a region where the model can be evaluated
-/

namespace UA

open Complex

theorem FitProc.Within.and {b : List (WithBot ℝ) × List (WithTop ℝ)} {S : Set ℝ} {A : List ℝ → Prop} (proc : FitProc) :
    proc.Stays b S → proc.Within A → proc.Within fun args => StrictlyInside b args ∧ A args := by
  induction proc with
  | done r =>
    rcases r with ⟨e, m⟩ | ⟨opt, cov⟩
    · exact fun _ _ => trivial
    · exact fun h h' => ⟨h.1, h'⟩
  | ask args next ih => exact fun h h' => ⟨⟨h.1.1, h'.1⟩, fun ys => ih ys (h.2 ys) (h'.2 ys)⟩

/-- The outcome of a fitting procedure that stays where the function is defined. -/
theorem FitProc.within_outcome {b : List (WithBot ℝ) × List (WithTop ℝ)} {S : Set ℝ} {A : List ℝ → Prop} {g : List ℝ → Except PyErr (List ℝ)}
    (hg : ∀ args, A args → ∃ rs, g args = .ok rs) (proc : FitProc) : proc.Stays b S → proc.Within A →
      match proc.outcome g with
      | .ok (opt, _) => A opt
      | .error (e, _) => e = .runtimeError := by
  induction proc with
  | done r =>
    intro h h'
    unfold FitProc.outcome
    rcases r with ⟨e, m⟩ | ⟨opt, cov⟩
    · exact h
    · exact h'
  | ask args next ih =>
    rintro h h'
    unfold FitProc.outcome
    obtain ⟨rs, hr⟩ := hg args h'.1
    rw [hr]
    exact ih rs (h.2 rs) (h'.2 rs)

theorem assignment_flags {p p' : ModelParameters ℝ} {f : Parameter ℝ → Bool} (hl : p'.toList = p.toList.map fun q => ⟨q.name, q.value, f q⟩) :
    p'.assignment = p.assignment := by
  unfold ModelParameters.assignment
  rw [hl, List.map_map]; rfl

/-- The objects inside the bounds and in the region. -/
def InRegion (V : Set (List (String × ℝ))) (h : Bool) (p : ModelParameters ℝ) : Prop := GoodObject .nucleon h ∅ p ∧ p.assignment ∈ V

theorem inRegion_property (V : Set (List (String × ℝ))) : ObjectProperty .nucleon (InRegion V) :=
  ⟨fun h => h.1.1, fun h => h.1.2.1, fun h hr hc _ hl => ⟨h.1.flags hr hc hl, by rw [assignment_flags hl]; exact h.2⟩⟩

/-- Running one task. -/
theorem nucleonTask_within {V : Set (List (String × ℝ))} {self : Task} {points : List (ℝ × Bool × Bool)} {n : ℕ} (hk : self.NucleonTask points n)
    {w : World} {p : ModelParameters ℝ} (hp : w.heap[self.parameters]? = some p) (hg : InRegion V self.use_handpicked_bounds p)
    (hf : self.cls.IsFull ∨ p.HasFree) (hn : p.names.length = n) {env : Env} (henv : env.FitsInside ∅) (hV : env.FitsWithin V)
    (hplot : ∀ k, env.plot k = .ok ())
    (hev : ∀ p, InRegion V self.use_handpicked_bounds p → ∃ rs, (self.cls.fitted self.constants).eval self.ts p = .ok rs) :
    (self.run env).Sat w (fun task' w' => task'.parameters = self.parameters ∧ ∃ p', w'.heap[self.parameters]? = some p' ∧
      InRegion V self.use_handpicked_bounds p' ∧ p'.names.length = n) (fun _ => False) := by
  have hcls := hg.1.2.1
  have hne : self.cls ≠ .residual := by
    intro h
    have := hk.cls
    rw [h] at this
    revert this; decide
  have hno : ¬ self.cls.IsOnlyCharged := by
    have := hk.cls
    revert this
    cases self.cls <;> decide
  obtain ⟨p₁, hr₁, hcls₁, hl₁, hset⟩ := setUp_run hne hp hg.1.1
  rw [if_neg hno] at hset
  have hg₁ : InRegion V self.use_handpicked_bounds p₁ := (inRegion_property V).flags hg hr₁ hcls₁ hl₁
  have hf₁ : p₁.HasFree := flagAfter_free_of hg.1.1 (by rw [hcls]; exact nucleon_tin_free.1) (by rw [hcls]; exact nucleon_tin_free.2) (by decide) hf hl₁
  have hn₁ : p₁.names.length = n := by
    rw [← hn]
    show (p₁.toList.map _).length = (p.toList.map _).length
    rw [hl₁]; simp
  have hlen := heap_set_append hp
  generalize htask : { self with partial_f := some (.ofPartial ⟨self.cls.fitted self.constants, w.heap.length⟩) } = task at hset
  have hpar : task.parameters = self.parameters := by rw [← htask]
  have hhp : task.use_handpicked_bounds = self.use_handpicked_bounds := by rw [← htask]
  have hpf : task.partial_f = some (.ofPartial ⟨self.cls.fitted self.constants, w.heap.length⟩) := by rw [← htask]
  have htfit : task.ts_fit = self.ts := by rw [← htask]; exact hk.ts_fit
  have htts : task.ts = self.ts := by rw [← htask]
  have htys : task.ys = self.ys := by rw [← htask]
  have hterr : task.errors = self.errors := by rw [← htask]
  have hnil : self.ts ≠ [] := by
    rw [hk.ts]
    intro h
    rw [List.map_eq_nil_iff] at h
    rw [h] at hk
    exact absurd hk.enough (Nat.not_lt_zero _)
  set w₁ : World := { w with heap := w.heap.set self.parameters p₁ ++ [p₁] } with hw₁
  have hp₁ : w₁.heap[task.parameters]? = some p₁ := by
    rw [hpar, hw₁]
    dsimp only
    rw [List.getElem?_append_left (by simpa using hlen)]
    simp [hlen]
  have hready : (TaskF.ofPartial ⟨self.cls.fitted self.constants, w.heap.length⟩).Ready task.parameters p₁ w₁ := by
    refine ⟨by rw [hpar]; exact hlen.ne', p₁, ?_, OtherFree.refl _⟩
    rw [hw₁]; simp
  obtain ⟨lo, up, hb, hstart⟩ := hg₁.1.start
  rw [← hhp] at hb
  obtain ⟨c1, c2, -, -, c5, -⟩ := run_cases hset hpf hp₁ hr₁ hready hb env
  have hb' := hb
  rw [hhp] at hb'
  have hst : (env.curve_fit w₁.fits (task.problem p₁ (lo, up))).Stays (lo, up) ∅ := by
    refine henv w₁.fits (task.problem p₁ (lo, up)) ?_ (hasFree_iff.mp hf₁) hstart
    show task.ts_fit.map Datapoint.toRow ≠ []
    rw [htfit]
    simpa using hnil
  have hwi := hV w₁.fits (task.problem p₁ (lo, up)) p₁ self.use_handpicked_bounds hr₁ hg₁.2 rfl (hasFree_iff.mp hf₁) (by
    show task.ts_fit.map Datapoint.toRow ≠ []
    rw [htfit]
    simpa using hnil) hb' hstart
  -- the value at arguments in the region
  have hval : ∀ args, (StrictlyInside (lo, up) args ∧ ∀ p', p₁.updateFreeValues args = (.ok (), p') → p'.assignment ∈ V) →
      ∀ ts, (ts = self.ts ∨ ts = self.ts.map Datapoint.toRow) →
      ∃ rs, partialSpec (self.cls.fitted self.constants) p₁ ts args = .ok rs ∧ rs.length = points.length := by
    rintro args ⟨ha, hav⟩ ts hts
    obtain ⟨p', hu, hg', -, -, -⟩ := hg₁.1.update (c := .nucleon) trivial hb' ha (fun _ _ => id)
    obtain ⟨rs, hrs⟩ := hev p' ⟨hg', hav p' hu⟩
    refine ⟨rs, ?_, by have := ((C51_pointwise hg'.1 (self.cls.fitted self.constants)).2 hrs).1; rw [hk.ts] at this; simpa using this⟩
    unfold partialSpec; rw [hu]
    rcases hts with rfl | rfl
    · exact hrs
    · exact (C52_rows hg'.1 _ _).trans hrs
  have hout := FitProc.within_outcome (g := (TaskF.ofPartial ⟨self.cls.fitted self.constants, w.heap.length⟩).value p₁ (task.ts_fit.map Datapoint.toRow))
    (A := fun args => StrictlyInside (lo, up) args ∧ ∀ p', p₁.updateFreeValues args = (.ok (), p') → p'.assignment ∈ V)
    (fun args ha => (hval args ha _ (Or.inr (by rw [htfit]))).imp fun _ h => h.1) _ hst (FitProc.Within.and _ hst hwi)
  unfold PyM.Sat
  rcases ho : (env.curve_fit w₁.fits (task.problem p₁ (lo, up))).outcome
    ((TaskF.ofPartial ⟨self.cls.fitted self.constants, w.heap.length⟩).value p₁ (task.ts_fit.map Datapoint.toRow)) with ⟨e, m⟩ | ⟨opt, cov⟩
  · rw [ho] at hout
    dsimp only at hout
    obtain ⟨k1, k2⟩ := c1 e m ho
    rcases hrun : self.run env w with ⟨r, w'⟩
    rw [hrun] at k1 k2
    dsimp only at k1 k2
    subst hout
    rw [if_pos rfl] at k2
    subst k2
    rw [hpar] at k1
    exact ⟨hpar, p₁, k1, hg₁, hn₁⟩
  · rw [ho] at hout
    dsimp only at hout
    obtain ⟨p₂, hu, hg₂, hfv, hfl, hnm⟩ := hg₁.1.update (c := .nucleon) trivial hb' hout.1 (fun _ _ => id)
    have hr₂ : InRegion V self.use_handpicked_bounds p₂ := ⟨hg₂, hout.2 p₂ hu⟩
    obtain ⟨k1, k2⟩ := c2 opt cov ho
    rw [hu] at k1 k2
    obtain ⟨ordered, -, k2⟩ := k2 () rfl
    rcases hrun : self.run env w with ⟨r, w'⟩
    rw [hrun] at k1 k2 c5
    dsimp only at k1 k2 c5
    have hv : (TaskF.ofPartial ⟨self.cls.fitted self.constants, w.heap.length⟩).value p₁ task.ts opt =
      partialSpec (self.cls.fitted self.constants) p₁ task.ts opt := rfl
    rw [hv] at k2
    obtain ⟨fs, hfs, hfl'⟩ := hval opt hout task.ts (Or.inl htts)
    rw [hfs] at k2
    dsimp only at k2
    have hol : opt.length ≤ n := by
      rw [← hfv, ← hn₁, ← hnm]
      show (List.map _ (List.filter _ _)).length ≤ (List.map _ _).length
      rw [List.length_map, List.length_map]
      exact List.length_filter_le _ _
    have hyl : task.ys.length = points.length := by rw [htys, hk.ys]
    rw [chiSquared_eq (by rw [hfl', hyl]) (by rw [hterr]; exact hk.nonzero) (by have := hk.enough; omega)] at k2
    dsimp only at k2
    have hpl : (if task.reports_dir = none ∨ task.reports_dir = some "" then Except.ok () else env.plot w₁.plots) = .ok () := by
      split_ifs with hdir
      · rfl
      · exact hplot _
    rw [hpl] at k2
    subst k2
    rw [hpar] at k1
    exact ⟨hpar, p₂, k1, hr₂, by rw [hnm]; exact hn₁⟩

section
variable {V : Set (List (String × ℝ))} {points : List (ℝ × Bool × Bool)} {n : ℕ} {env : Env}

theorem Pipeline.fittedValues_same {a b : Pipeline} (hs : a.Same b) (p : ModelParameters ℝ) : b.fittedValues p = a.fittedValues p := by
  unfold Pipeline.fittedValues
  rw [hs.kind, hs.constants, hs.ts]

theorem Pipeline.EvaluatesOn.same {a b : Pipeline} (h : a.EvaluatesOn V) (hs : a.Same b) : b.EvaluatesOn V := by
  intro p h1 h2 h3 h4
  rw [fittedValues_same hs]
  exact h p h1 h2 h3 h4

theorem Pipeline.fitted_eval {self : Pipeline} (hk : self.kind = .nucleonCS ∨ self.kind = .nucleonFF) {cls : TaskClass} (hc : cls ∈ self.kind.nucleonTasks)
    (p : ModelParameters ℝ) : (cls.fitted self.constants).eval self.ts p = self.fittedValues p := by
  unfold Pipeline.fittedValues
  rcases hk with hk | hk
  · rw [hk] at hc
    rw [if_neg (by rw [hk]; decide)]
    simp only [PipelineKind.nucleonTasks, List.mem_cons, List.not_mem_nil, or_false] at hc
    rcases hc with rfl | rfl | rfl <;> rfl
  · rw [hk] at hc
    rw [if_pos hk]
    simp only [PipelineKind.nucleonTasks, List.mem_cons, List.not_mem_nil, or_false] at hc
    rcases hc with rfl | rfl <;> rfl

/-- The nucleon pipelines in the region. -/
theorem nucleon_tasksWithin (henv : env.FitsInside ∅) (hV : env.FitsWithin V) (hplot : ∀ k, env.plot k = .ok ()) :
    TasksGood env .nucleon (InRegion V) n (fun _ => False) (fun self => self.NucleonRun points n ∧ self.EvaluatesOn V) PipelineKind.nucleonTasks :=
  have H := nucleon_tasksGood (points := points) (n := n) henv hplot
  { cls := H.cls
    inv := inRegion_property V
    same := fun h hs => ⟨h.1.same hs, h.2.same hs⟩
    free := H.free
    fixAccording := fun h => H.fixAccording h.1
    create := fun h => H.create h.1
    task := by
      intro self cls h hcls name w p hp hg hf hn
      have hev : ∀ p, InRegion V self.use_handpicked_bounds p → ∃ rs, (cls.fitted self.constants).eval self.ts p = .ok rs := by
        rintro p ⟨hg, hv⟩
        rw [h.1.bounds] at hg
        obtain ⟨k1, k2, k3, -⟩ := (goodObject_iff (c := .nucleon) trivial).mp hg
        rw [Pipeline.fitted_eval h.1.kind hcls]
        exact h.2 p k1 k2 k3 hv
      replace h := h.1
      unfold Pipeline.newTask Task.init
      rw [PyM.bind_ok (readParams_run hp)]
      refine ⟨_, rfl, rfl, rfl, fun w' hw' => ?_⟩
      refine nucleonTask_within ⟨?_, h.bounds, h.ts, rfl, h.ys, h.nonzero, ?_, h.enough⟩ (p := p) (by rw [hw']; exact hp) hg hf hn henv hV hplot hev
      · rcases h.kind with h | h <;> rw [h] at hcls <;> [exact Or.inl hcls; exact Or.inr hcls]
      · intro d hd
        obtain ⟨h1, h2⟩ := h.above d hd
        rcases h.kind with hk | hk
        · have h2 := h2 hk
          rw [hk] at hcls
          simp only [PipelineKind.nucleonTasks, List.mem_cons, List.not_mem_nil, or_false] at hcls
          rcases hcls with rfl | rfl | rfl <;> exact h2
        · rw [hk] at hcls
          simp only [PipelineKind.nucleonTasks, List.mem_cons, List.not_mem_nil, or_false] at hcls
          rcases hcls with rfl | rfl <;> exact h1 }

/-- The form factor pipelines in the region. -/
theorem nucleonFF_tasksWithin (henv : env.FitsInside ∅) (hV : env.FitsWithin V) (hplot : ∀ k, env.plot k = .ok ()) :
    TasksGood env .nucleon (InRegion V) n (fun _ => False) (fun self => (self.NucleonRun points n ∧ self.EvaluatesOn V) ∧ self.kind = .nucleonFF)
      PipelineKind.nucleonTasks :=
  have H := nucleon_tasksWithin (points := points) (n := n) henv hV hplot
  { cls := H.cls
    inv := H.inv
    same := fun h hs => ⟨H.same h.1 hs, by rw [hs.kind]; exact h.2⟩
    free := H.free
    fixAccording := fun h => H.fixAccording h.1
    create := fun h => H.create h.1
    task := fun h => H.task h.1 }

/-- The momentum cut of the residual task. -/
theorem momentum_lt_iff {m t : ℝ} (hm : 0 < m) (ht : 4 * m ^ 2 < t) : momentumOf m t < 5 ↔ t / (2 * m) - m < Real.sqrt (25 + m ^ 2) := by
  obtain ⟨m1, m2⟩ := momentumOf_spec hm ht
  have he : 0 ≤ t / (2 * m) - m := by
    rw [sub_nonneg, le_div_iff₀ (by positivity)]
    nlinarith
  rw [Real.lt_sqrt he, m2]
  constructor <;> intro h <;> nlinarith

/-- The iterative pipeline for cross sections in the region. -/
theorem runNucleonCSIterative_within (henv : env.FitsInside ∅) (hV : env.FitsWithin V) (hplot : ∀ k, env.plot k = .ok ()) (hsamp : env.Samples)
    (its : Iterations) (self : Pipeline) (w : World) (hk : self.NucleonRun points n) (hkind : self.kind = .nucleonCS) (hres : self.ResidualData points)
    (hev : ∀ p, Reachable p → p.cls = .nucleon → p.InsideFor true → p.assignment ∈ V → ∃ rs, self.fittedValues p = .ok rs ∧ ∀ r ∈ rs, 0 < r)
    (hp : self.Holds (InRegion V) n w) (hnum : ∀ k ∈ its.free_params_numbers, 1 ≤ k) :
    (self.runNucleonCSIterative env its).Sat w (fun self' w' => self.Same self' ∧ self'.Holds (InRegion V) n w') (fun _ => False) := by
  refine runNucleonCSIterative_sat_of (nucleon_tasksWithin (points := points) (n := n) henv hV hplot) hsamp its self w
    ⟨hk, fun p h1 h2 h3 h4 => (hev p h1 h2 h3 h4).imp fun _ h => h.1⟩ hkind hp hnum ?_
  intro self₁ w' p hk' hs hp' hg hn
  refine residualPart_sat (inRegion_property V) henv hplot hk'.1 (by rw [hs.kind]; exact hkind) (hres.same hs) hp' hg.1 hg hn hs ?_
  intro h
  apply h
  obtain ⟨hg, hv⟩ := hg
  rw [hk'.1.bounds] at hg
  obtain ⟨k1, k2, k3, -⟩ := (goodObject_iff (c := .nucleon) trivial).mp hg
  obtain ⟨rs, h1, h2⟩ := hev p k1 k2 k3 hv
  refine ⟨rs, ?_, h2⟩
  rw [← Pipeline.fittedValues_same hs] at h1
  unfold Pipeline.fittedValues at h1
  rw [if_neg (by rw [hs.kind, hkind]; decide)] at h1
  exact h1

end

/-- A computation that cannot raise completes. -/
theorem PyM.Sat.completes {σ α : Type} {x : PyM σ α} {s : σ} {Q : α → σ → Prop} (h : x.Sat s Q fun _ => False) : ∃ a s', x s = (.ok a, s') ∧ Q a s' := by
  unfold PyM.Sat at h
  rcases hx : x s with ⟨e | a, s'⟩
  · rw [hx] at h; exact h.elim
  · rw [hx] at h; exact ⟨a, s', rfl, h⟩

end UA
