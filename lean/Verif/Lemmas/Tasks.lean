import Verif.Lemmas.World
import Verif.Spec.Tasks

/-!
# Helper lemmas: tasks
-/

namespace UA

open Complex

theorem isCouplingName_iff (n : String) : isCouplingName n = true ↔ "a_".toList <+: n.toList := by
  unfold isCouplingName
  rw [beq_iff_eq, List.prefix_iff_eq_take]
  exact eq_comm

theorem heap_set_append {heap : Heap} {ref : ℕ} {p : ModelParameters ℝ} (h : heap[ref]? = some p) : ref < heap.length :=
  (List.getElem?_eq_some_iff.mp h).1

theorem set_self {β : Type} {l : List β} {i : ℕ} {x : β} (h : l[i]? = some x) : l.set i x = l := by
  obtain ⟨hi, rfl⟩ := List.getElem?_eq_some_iff.mp h
  exact List.set_getElem_self hi

/-- Making the partial function of a task. -/
theorem withPartial_run {self : Task} {w : World} {p : ModelParameters ℝ} (h : w.heap[self.parameters]? = some p) (hp : Reachable p)
    (kind : PartialKind) : self.withPartial kind w =
      (.ok { self with partial_f := some (.ofPartial ⟨kind, w.heap.length⟩) }, { w with heap := w.heap ++ [p] }) := by
  unfold Task.withPartial
  rw [PyM.bind_ok (makePartialIn_run h hp kind)]
  rfl

theorem filterCharged_kaon (l : List ((ℂ × Bool) × ℝ × ℝ)) :
    filterCharged (l.map fun q => (Datapoint.kaon q.1.1 q.1.2, q.2)) =
      .ok ((l.filter fun q => q.1.2).map fun q => (Datapoint.kaon q.1.1 q.1.2, q.2)) := by
  induction l with
  | nil => rfl
  | cons q l ih =>
    rw [List.map_cons]
    unfold filterCharged
    rw [ih]
    obtain ⟨⟨t, c⟩, r⟩ := q
    cases c <;> rfl

theorem zip3_map {α β γ δ : Type} (f : δ → α) (g : δ → β) (h : δ → γ) (l : List δ) :
    zip3 (l.map f) (l.map g) (l.map h) = l.map fun x => (f x, g x, h x) := by
  unfold zip3
  induction l with
  | nil => rfl
  | cons a l ih => simp only [List.map_cons, List.zip_cons_cons, ih]

/-- The reduction to charged points. -/
theorem onlyCharged_eq {self : Task} {l : List ((ℂ × Bool) × ℝ × ℝ)} (h : self.Fits l) :
    self.onlyCharged = if l.filter (fun q => q.1.2) = [] then .error .valueError else
      .ok { self with
        ts_fit := (l.filter fun q => q.1.2).map (fun q => .kaon q.1.1 q.1.2)
        ys_fit := (l.filter fun q => q.1.2).map (·.2.1)
        errors_fit := (l.filter fun q => q.1.2).map (·.2.2) } := by
  obtain ⟨h1, h2, h3⟩ := h
  unfold Task.onlyCharged
  rw [h1, h2, h3, zip3_map, filterCharged_kaon, except_ok_bind]
  unfold unzip3
  by_cases hm : l.filter (fun q => q.1.2) = []
  · rw [if_pos hm, hm]; rfl
  · rw [if_neg hm, if_neg (by simpa using hm)]
    simp [Function.comp_def]

/-- `release_all_parameters`. -/
theorem releaseAll_spec {p : ModelParameters ℝ} (hp : Reachable p) : Reachable p.releaseAllParameters ∧
    p.releaseAllParameters.cls = p.cls ∧
    p.releaseAllParameters.toList = p.toList.map fun q => ⟨q.name, q.value, decide (DeclaredFixed p.cls q.name)⟩ :=
  ⟨.step .releaseAll hp, rfl, (C42_all hp).2⟩

/-- Fixing the couplings. -/
theorem fixCouplings_run {ref : ℕ} {w : World} {p : ModelParameters ℝ} (h : w.heap[ref]? = some p) (hp : Reachable p) :
    ∃ p', Reachable p' ∧ p'.cls = p.cls ∧
      p'.toList = p.toList.map (fun q => ⟨q.name, q.value, decide (DeclaredFixed p.cls q.name ∨ "a_".toList <+: q.name.toList)⟩) ∧
      fixCouplings ref w = (.ok (), { w with heap := w.heap.set ref p' }) := by
  obtain ⟨hr, hcls, hlist⟩ := releaseAll_spec hp
  set ns := (p.releaseAllParameters.toList.filter fun q => isCouplingName q.name).map (·.name) with hns
  obtain ⟨p', hfix, hcls', hlist'⟩ := C42_fix hr (ns := ns) (fun n hn => by
    obtain ⟨q, hq, rfl⟩ := List.mem_map.mp hn
    exact List.mem_map_of_mem (List.mem_filter.mp hq).1)
  have hreach : Reachable p' := by
    have := Reachable.step (.fixParameters ns) hr
    rw [show (ParamOp.fixParameters ns).run p.releaseAllParameters = p.releaseAllParameters.fixParameters ns from rfl, hfix] at this
    exact this
  refine ⟨p', hreach, hcls', ?_, ?_⟩
  · rw [hlist', hlist, List.map_map]
    refine List.map_congr_left fun q hq => ?_
    simp only [Function.comp]
    congr 1
    have : q.name ∈ ns ↔ "a_".toList <+: q.name.toList := by
      rw [← isCouplingName_iff, hns, hlist]
      constructor
      · intro hm
        obtain ⟨r, hr, hrn⟩ := List.mem_map.mp hm
        have := (List.mem_filter.mp hr).2
        rw [hrn] at this; exact this
      · intro hm
        refine List.mem_map.mpr ⟨⟨q.name, q.value, decide (DeclaredFixed p.cls q.name)⟩, List.mem_filter.mpr ⟨?_, hm⟩, rfl⟩
        exact List.mem_map.mpr ⟨q, hq, rfl⟩
    rw [Bool.eq_iff_iff]
    simp [this]
  · have hl := heap_set_append h
    unfold fixCouplings
    rw [PyM.bind_ok (mutateParams_run h _)]
    have h2 : ({ w with heap := w.heap.set ref p.releaseAllParameters } : World).heap[ref]? = some p.releaseAllParameters := by
      simp [hl]
    dsimp only
    rw [PyM.bind_ok (readParams_run h2), mutateParams_run h2, ← hns, hfix]
    simp

/-! ### The set-up -/

/-- Set-up of every task but the residual one. -/
theorem setUp_run {self : Task} (hc : self.cls ≠ .residual) {w : World} {p : ModelParameters ℝ} (h : w.heap[self.parameters]? = some p)
    (hp : Reachable p) : ∃ p', Reachable p' ∧ p'.cls = p.cls ∧
      p'.toList = p.toList.map (fun q => ⟨q.name, q.value, self.cls.flagAfter p.cls q.name q.is_fixed⟩) ∧
      self.setUp w = (if self.cls.IsOnlyCharged then
          ({ self with partial_f := some (.ofPartial ⟨self.cls.fitted self.constants, w.heap.length⟩) } : Task).onlyCharged
        else .ok { self with partial_f := some (.ofPartial ⟨self.cls.fitted self.constants, w.heap.length⟩) },
        { w with heap := w.heap.set self.parameters p' ++ [p'] }) := by
  have hl := heap_set_append h
  -- the three ways of preparing the parameters
  have hkeep : ∃ p', Reachable p' ∧ p'.cls = p.cls ∧ p'.toList = p.toList.map (fun q => ⟨q.name, q.value, q.is_fixed⟩) ∧
      ∀ kind, self.withPartial kind w = (.ok { self with partial_f := some (.ofPartial ⟨kind, w.heap.length⟩) },
        { w with heap := w.heap.set self.parameters p' ++ [p'] }) := by
    refine ⟨p, hp, rfl, ?_, fun kind => ?_⟩
    · exact (List.map_id _).symm
    · rw [withPartial_run h hp, set_self h]
  have hrel : ∃ p', Reachable p' ∧ p'.cls = p.cls ∧
      p'.toList = p.toList.map (fun q => ⟨q.name, q.value, decide (DeclaredFixed p.cls q.name)⟩) ∧
      ∀ kind, (do mutateParams self.parameters fun p => (.ok (), p.releaseAllParameters)
                  self.withPartial kind : PyM World Task) w = (.ok { self with partial_f := some (.ofPartial ⟨kind, w.heap.length⟩) },
        { w with heap := w.heap.set self.parameters p' ++ [p'] }) := by
    obtain ⟨h1, h2, h3⟩ := releaseAll_spec hp
    refine ⟨_, h1, h2, h3, fun kind => ?_⟩
    rw [PyM.bind_ok (mutateParams_run h _), withPartial_run (p := p.releaseAllParameters) (by simp [hl]) h1]
    simp
  have hcoup : ∃ p', Reachable p' ∧ p'.cls = p.cls ∧
      p'.toList = p.toList.map (fun q => ⟨q.name, q.value, decide (DeclaredFixed p.cls q.name ∨ "a_".toList <+: q.name.toList)⟩) ∧
      ∀ kind, (do fixCouplings self.parameters
                  self.withPartial kind : PyM World Task) w = (.ok { self with partial_f := some (.ofPartial ⟨kind, w.heap.length⟩) },
        { w with heap := w.heap.set self.parameters p' ++ [p'] }) := by
    obtain ⟨p', h1, h2, h3, h4⟩ := fixCouplings_run h hp
    refine ⟨p', h1, h2, h3, fun kind => ?_⟩
    rw [PyM.bind_ok h4, withPartial_run (p := p') (by simp [hl]) h1]
    simp
  have full : ∀ c : TaskClass, c.IsFull → (fun q : Parameter ℝ => (⟨q.name, q.value, c.flagAfter p.cls q.name q.is_fixed⟩ : Parameter ℝ)) =
      fun q => ⟨q.name, q.value, decide (DeclaredFixed p.cls q.name)⟩ := by
    intro c hc; funext q; unfold TaskClass.flagAfter; rw [if_pos hc]
  have coup : ∀ c : TaskClass, ¬ c.IsFull → c.IsFixedCouplings →
      (fun q : Parameter ℝ => (⟨q.name, q.value, c.flagAfter p.cls q.name q.is_fixed⟩ : Parameter ℝ)) =
      fun q => ⟨q.name, q.value, decide (DeclaredFixed p.cls q.name ∨ "a_".toList <+: q.name.toList)⟩ := by
    intro c hc hc'; funext q; unfold TaskClass.flagAfter; rw [if_neg hc, if_pos hc']
  have keep : ∀ c : TaskClass, ¬ c.IsFull → ¬ c.IsFixedCouplings →
      (fun q : Parameter ℝ => (⟨q.name, q.value, c.flagAfter p.cls q.name q.is_fixed⟩ : Parameter ℝ)) =
      fun q => ⟨q.name, q.value, q.is_fixed⟩ := by
    intro c hc hc'; funext q; unfold TaskClass.flagAfter; rw [if_neg hc, if_neg hc']
  obtain ⟨cls, name, parameters, partial_f, ts, ys, errors, ts_fit, ys_fit, errors_fit, sp, hb, constants, dir, report⟩ := self
  dsimp only at *
  unfold Task.setUp
  cases cls with
  | residual => exact (hc rfl).elim
  | kaonCSFull | nucleonCSFull | kaonFFFull | nucleonFFFull =>
    rw [full _ (by decide)]
    obtain ⟨p', a1, a2, a3, a4⟩ := hrel
    refine ⟨p', a1, a2, a3, ?_⟩
    rw [if_neg (by decide)]
    exact a4 _
  | kaonCSFixedCouplings | nucleonCSFixedCouplings =>
    rw [coup _ (by decide) (by decide)]
    obtain ⟨p', a1, a2, a3, a4⟩ := hcoup
    refine ⟨p', a1, a2, a3, ?_⟩
    rw [if_neg (by decide)]
    exact a4 _
  | kaonCSFixAccording | nucleonCSFixAccording | etgmr | kaonFFFixAccording | nucleonFFFixAccording | twoPoles =>
    rw [keep _ (by decide) (by decide)]
    obtain ⟨p', a1, a2, a3, a4⟩ := hkeep
    refine ⟨p', a1, a2, a3, ?_⟩
    rw [if_neg (by decide)]
    exact a4 _
  | kaonFFFullOnlyCharged =>
    rw [full _ (by decide)]
    obtain ⟨p', a1, a2, a3, a4⟩ := hrel
    refine ⟨p', a1, a2, a3, ?_⟩
    rw [if_pos (by decide)]
    have := a4 .formFactor
    obtain ⟨u, s, b1, b2⟩ := PyM.bind_eq_ok.mp this
    dsimp only
    rw [PyM.bind_ok b1, PyM.bind_ok b2]
    rfl
  | kaonFFFixAccordingOnlyCharged =>
    rw [keep _ (by decide) (by decide)]
    obtain ⟨p', a1, a2, a3, a4⟩ := hkeep
    refine ⟨p', a1, a2, a3, ?_⟩
    rw [if_pos (by decide)]
    dsimp only
    rw [PyM.bind_ok (a4 .formFactor)]
    rfl

end UA
