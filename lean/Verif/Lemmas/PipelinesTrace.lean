import Verif.Spec.Pipelines
import Verif.Lemmas.TasksResult

/-!
# Helper lemmas: what a pipeline prints, buffers and writes
-/

namespace UA

/-! ### All parameter objects stay reachable -/

/-- Every parameter object is reachable. -/
def World.Good (w : World) : Prop := ∀ p ∈ w.heap, Reachable p

/-- Goodness is kept. -/
def KeepsGood (w w' : World) : Prop := w.Good → w'.Good

theorem KeepsGood.refl (w : World) : KeepsGood w w := fun h => h
theorem KeepsGood.trans (a b c : World) (h : KeepsGood a b) (h' : KeepsGood b c) : KeepsGood a c := fun g => h' (h g)

theorem good_bind {α β : Type} {x : PyM World α} {f : α → PyM World β} (hx : x.Keeps KeepsGood) (hf : ∀ a, (f a).Keeps KeepsGood) :
    (x >>= f).Keeps KeepsGood := PyM.Keeps.bind KeepsGood.trans hx hf
theorem good_pure {α : Type} (a : α) : (pure a : PyM World α).Keeps KeepsGood := PyM.Keeps.pure KeepsGood.refl a
theorem good_lift {α : Type} (x : Except PyErr α) : (PyM.lift x : PyM World α).Keeps KeepsGood := PyM.Keeps.lift KeepsGood.refl x
theorem good_raise {α : Type} (e : PyErr) : (PyM.raise e : PyM World α).Keeps KeepsGood := PyM.Keeps.raise KeepsGood.refl e

theorem World.Good.read {w : World} (h : w.Good) {ref : ℕ} {p : ModelParameters ℝ} (hp : w.heap[ref]? = some p) : Reachable p :=
  h p (List.mem_of_getElem? hp)

theorem World.Good.set {w : World} (h : w.Good) (ref : ℕ) {p : ModelParameters ℝ} (hp : Reachable p) :
    ({ w with heap := w.heap.set ref p } : World).Good := by
  intro q hq
  rcases List.mem_or_eq_of_mem_set hq with hq | rfl
  · exact h q hq
  · exact hp

theorem World.Good.append {w : World} (h : w.Good) {p : ModelParameters ℝ} (hp : Reachable p) :
    ({ w with heap := w.heap ++ [p] } : World).Good := by
  intro q hq
  rcases List.mem_append.mp hq with hq | hq
  · exact h q hq
  · rw [List.mem_singleton] at hq; subst hq; exact hp

theorem readParams_good (ref : ℕ) : (readParams ref).Keeps KeepsGood := by
  intro w; unfold readParams; rcases w.heap[ref]? with _ | p <;> exact .refl _

theorem mutateParams_good (ref : ℕ) {f : ModelParameters ℝ → Mutation ℝ} (hf : ∀ p, Reachable p → Reachable (f p).2) :
    (mutateParams ref f).Keeps KeepsGood := by
  intro w hw
  unfold mutateParams
  rcases hp : w.heap[ref]? with _ | p
  · exact hw
  · exact hw.set ref (hf p (hw.read hp))

theorem makePartialIn_good (kind : PartialKind) (ref : ℕ) : (makePartialIn kind ref).Keeps KeepsGood := by
  intro w hw
  rcases hp : w.heap[ref]? with _ | p
  · unfold makePartialIn makePartial
    rw [hp]; exact hw
  · rw [makePartialIn_run hp (hw.read hp)]
    exact hw.append (hw.read hp)

theorem callPartialIn_good (f : PartialF) (ts : List Datapoint) (args : List ℝ) : (callPartialIn f ts args).Keeps KeepsGood := by
  intro w hw
  rcases hp : w.heap[f.parameters]? with _ | p
  · unfold callPartialIn PartialF.call
    rw [hp]; exact hw
  · rw [callPartialIn_run hp]
    exact hw.set _ (.step (.updateFreeValues args) (hw.read hp))

theorem TaskF.call_good (f : TaskF) (ts : List Datapoint) (args : List ℝ) : (f.call ts args).Keeps KeepsGood := by
  cases f with
  | ofPartial f => exact callPartialIn_good f ts args
  | oscillations ref => exact good_bind (readParams_good ref) fun p => good_lift _

theorem withPartial_good (self : Task) (kind : PartialKind) : (self.withPartial kind).Keeps KeepsGood :=
  good_bind (makePartialIn_good _ _) fun _ => good_pure _

theorem release_good (ref : ℕ) : (mutateParams ref fun p => (.ok (), p.releaseAllParameters)).Keeps KeepsGood :=
  mutateParams_good _ fun _ hp => .step .releaseAll hp

theorem fixCouplings_good (ref : ℕ) : (fixCouplings ref).Keeps KeepsGood :=
  good_bind (release_good _) fun _ => good_bind (readParams_good _) fun _ => mutateParams_good _ fun _ hp => .step (.fixParameters _) hp

/-- Newly made parameters are reachable. -/
theorem lift_init_good {α : Type} {f : ModelParameters ℝ → PyM World α} (c : ParamClass) (kw : List (String × ℝ))
    (h : ∀ p, Reachable p → (f p).Keeps KeepsGood) : (PyM.lift (c.init kw) >>= f).Keeps KeepsGood := by
  intro w
  rcases hi : c.init kw with e | p
  · exact KeepsGood.refl w
  · exact h p (.init hi) w

theorem setUpResidual_good (self : Task) : self.setUpResidual.Keeps KeepsGood := by
  unfold Task.setUpResidual
  refine good_bind (mutateParams_good _ fun _ hp => .step .fixAll hp) fun _ => good_bind (makePartialIn_good _ _) fun _ =>
    good_bind (callPartialIn_good _ _ _) fun _ => good_bind (good_lift _) fun q => ?_
  obtain ⟨a, b⟩ := q
  refine good_bind (good_lift _) fun q => ?_
  obtain ⟨c, d⟩ := q
  refine good_bind (good_lift _) fun q => good_bind (good_lift _) fun q => ?_
  obtain ⟨a1, a2, a3⟩ := q
  exact lift_init_good _ _ fun p hp => good_bind (fun w hw => hw.append hp) fun _ => good_pure _

theorem setUp_good (self : Task) : self.setUp.Keeps KeepsGood := by
  unfold Task.setUp
  rcases self.cls <;> first
    | exact withPartial_good _ _
    | exact setUpResidual_good _
    | exact good_bind (release_good _) fun _ => withPartial_good _ _
    | exact good_bind (fixCouplings_good _) fun _ => withPartial_good _ _
    | exact good_bind (release_good _) fun _ => good_bind (withPartial_good _ _) fun _ => good_lift _
    | exact good_bind (withPartial_good _ _) fun _ => good_lift _

theorem FitProc.run_good (f : List ℝ → PyM World (List ℝ)) (hf : ∀ args, (f args).Keeps KeepsGood) (proc : FitProc) :
    ∀ w, KeepsGood w (proc.run f w).2 := by
  induction proc with
  | done r => intro w; exact .refl w
  | ask args next ih =>
    intro w
    have h := hf args w
    unfold FitProc.run
    revert h
    rcases f args w with ⟨e | ys, w'⟩
    · exact fun h => h
    · exact fun h => KeepsGood.trans _ _ _ h (ih ys w')

theorem runCurveFit_good (env : Env) (f : TaskF) (problem : FitProblem) : (runCurveFit env f problem).Keeps KeepsGood :=
  fun w => FitProc.run_good _ (fun args => f.call_good _ args) _ w

theorem fit_good (self : Task) (env : Env) : (self.fit env).Keeps KeepsGood := by
  unfold Task.fit
  refine good_bind (readParams_good _) fun _ => good_bind (good_lift _) fun _ => ?_
  rcases self.partial_f with _ | f
  · exact good_raise _
  · refine good_bind (runCurveFit_good _ _ _) fun r => ?_
    rcases r with ⟨e, m⟩ | r
    · dsimp only
      split_ifs
      · exact good_pure _
      · exact good_raise _
    · exact good_pure _

theorem updateReport_good (self : Task) (env : Env) (opt : List ℝ) (cov : Cov) : (self.updateReport env opt cov).Keeps KeepsGood := by
  unfold Task.updateReport
  rcases self.partial_f with _ | f
  · exact good_raise _
  · exact good_bind (f.call_good _ _) fun _ => good_bind (fun _ => KeepsGood.refl _) fun _ => good_bind (good_lift _) fun _ =>
      good_bind (readParams_good _) fun _ => good_bind (good_lift _) fun _ => good_pure _

theorem plot_good (self : Task) (env : Env) (opt : List ℝ) : (self.plot env opt).Keeps KeepsGood := by
  unfold Task.plot
  rcases self.reports_dir with _ | dir
  · exact good_pure _
  · rcases self.partial_f with _ | f
    · exact good_pure _
    · dsimp only
      split_ifs
      · exact good_pure _
      · exact good_bind (f.call_good _ _) fun _ w hw => hw

/-- Running a task. -/
theorem run_good (self : Task) (env : Env) : (self.run env).Keeps KeepsGood := by
  unfold Task.run
  refine good_bind (setUp_good _) fun task => good_bind (fit_good _ _) fun q => ?_
  obtain ⟨r, task⟩ := q
  rcases r with _ | ⟨opt, cov⟩
  · exact good_pure _
  · exact good_bind (mutateParams_good _ fun _ hp => .step (.updateFreeValues opt) hp) fun _ => good_bind (updateReport_good _ _ _ _) fun _ =>
      good_bind (plot_good _ _ _) fun _ => good_pure _

theorem randomlyFreeze_good (env : Env) (capped : Bool) (ref : ℕ) (k : ℤ) (fix : Bool) :
    (randomlyFreezeParameters env capped ref k fix).Keeps KeepsGood := by
  unfold randomlyFreezeParameters
  have hsample : ∀ names k, (env.randomSample names k).Keeps KeepsGood := by
    intro names k w hw
    unfold Env.randomSample
    split_ifs
    · exact hw
    · exact hw
  refine good_bind (release_good _) fun _ => ?_
  have hrest : (do
      let p ← readParams ref
      let names := (p.toList.filter (!·.is_fixed)).map (·.name)
      let k := if capped then min (names.length : ℤ) k else k
      let chosen_names ← env.randomSample names k
      mutateParams ref fun p => (.ok (), p.fixAllParameters)
      mutateParams ref fun p => p.releaseParameters chosen_names
      return chosen_names : PyM World (List String)).Keeps KeepsGood :=
    good_bind (readParams_good _) fun _ => good_bind (hsample _ _) fun _ => good_bind (mutateParams_good _ fun _ hp => .step .fixAll hp) fun _ =>
      good_bind (mutateParams_good _ fun _ hp => .step (.releaseParameters _) hp) fun _ => good_pure _
  cases fix with
  | false => exact hrest
  | true => exact good_bind (mutateParams_good _ fun _ hp => .step .fixResonances hp) fun _ => hrest

theorem randomlyFreeze_outside (env : Env) (capped : Bool) (ref : ℕ) (k : ℤ) (fix : Bool) :
    (randomlyFreezeParameters env capped ref k fix).Keeps SameOutside := by
  unfold randomlyFreezeParameters
  have hsample : ∀ names k, (env.randomSample names k).Keeps SameOutside := by
    intro names k w
    unfold Env.randomSample
    split_ifs
    · exact .refl _
    · exact ⟨rfl, rfl⟩
  refine outside_bind (mutateParams_outside _ _) fun _ => ?_
  have hrest : (do
      let p ← readParams ref
      let names := (p.toList.filter (!·.is_fixed)).map (·.name)
      let k := if capped then min (names.length : ℤ) k else k
      let chosen_names ← env.randomSample names k
      mutateParams ref fun p => (.ok (), p.fixAllParameters)
      mutateParams ref fun p => p.releaseParameters chosen_names
      return chosen_names : PyM World (List String)).Keeps SameOutside :=
    outside_bind (readParams_outside _) fun _ => outside_bind (hsample _ _) fun _ => outside_bind (mutateParams_outside _ _) fun _ =>
      outside_bind (mutateParams_outside _ _) fun _ => outside_pure _
  cases fix with
  | false => exact hrest
  | true => exact outside_bind (mutateParams_outside _ _) fun _ => hrest

end UA
