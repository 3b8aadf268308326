import Verif.Model.Pipelines
import Verif.Lemmas.UtilsPartial

/-!
# Helper lemmas: computations with state
-/

namespace UA

namespace PyM

variable {σ α β : Type}

theorem bind_run (x : PyM σ α) (f : α → PyM σ β) (s : σ) :
    (x >>= f) s = match x s with | (.ok a, s) => f a s | (.error e, s) => (.error e, s) := rfl

theorem bind_ok {x : PyM σ α} {f : α → PyM σ β} {s s₁ : σ} {a : α} (h : x s = (.ok a, s₁)) : (x >>= f) s = f a s₁ := by
  rw [bind_run, h]

theorem bind_error {x : PyM σ α} {f : α → PyM σ β} {s s₁ : σ} {e : PyErr} (h : x s = (.error e, s₁)) : (x >>= f) s = (.error e, s₁) := by
  rw [bind_run, h]

theorem bind_eq_ok {x : PyM σ α} {f : α → PyM σ β} {s s' : σ} {b : β} :
    (x >>= f) s = (.ok b, s') ↔ ∃ a s₁, x s = (.ok a, s₁) ∧ f a s₁ = (.ok b, s') := by
  rw [bind_run]
  rcases x s with ⟨e | a, s₁⟩
  · simp
  · constructor
    · intro h; exact ⟨a, s₁, rfl, h⟩
    · rintro ⟨a', s₁', h1, h2⟩
      injection h1 with h1 h3
      injection h1 with h1
      subst h1 h3
      exact h2

theorem pure_run (a : α) (s : σ) : (pure a : PyM σ α) s = (.ok a, s) := rfl
theorem raise_run (e : PyErr) (s : σ) : (raise e : PyM σ α) s = (.error e, s) := rfl
theorem lift_run (x : Except PyErr α) (s : σ) : (lift x : PyM σ α) s = (x, s) := rfl
theorem get_run (f : σ → α) (s : σ) : (get f : PyM σ α) s = (.ok (f s), s) := rfl

/-- Every outcome of `x` leaves a state related to the one before. -/
def Keeps (R : σ → σ → Prop) (x : PyM σ α) : Prop := ∀ s, R s (x s).2

theorem Keeps.bind {R : σ → σ → Prop} (ht : ∀ a b c, R a b → R b c → R a c) {x : PyM σ α} {f : α → PyM σ β} (hx : x.Keeps R)
    (hf : ∀ a, (f a).Keeps R) : (x >>= f).Keeps R := by
  intro s
  rw [bind_run]
  have h := hx s
  revert h
  rcases x s with ⟨e | a, s₁⟩
  · exact fun h => h
  · exact fun h => ht _ _ _ h (hf a s₁)

theorem Keeps.pure {R : σ → σ → Prop} (hr : ∀ a, R a a) (a : α) : (Pure.pure a : PyM σ α).Keeps R := fun s => hr s
theorem Keeps.raise {R : σ → σ → Prop} (hr : ∀ a, R a a) (e : PyErr) : (PyM.raise e : PyM σ α).Keeps R := fun s => hr s
theorem Keeps.lift {R : σ → σ → Prop} (hr : ∀ a, R a a) (x : Except PyErr α) : (PyM.lift x : PyM σ α).Keeps R := fun s => hr s

end PyM

theorem readParams_run {ref : ℕ} {w : World} {p : ModelParameters ℝ} (h : w.heap[ref]? = some p) : readParams ref w = (.ok p, w) := by
  unfold readParams; rw [h]

theorem mutateParams_run {ref : ℕ} {w : World} {p : ModelParameters ℝ} (h : w.heap[ref]? = some p)
    (f : ModelParameters ℝ → Mutation ℝ) : mutateParams ref f w = ((f p).1, { w with heap := w.heap.set ref (f p).2 }) := by
  unfold mutateParams; rw [h]

theorem makePartialIn_run {ref : ℕ} {w : World} {p : ModelParameters ℝ} (h : w.heap[ref]? = some p) (hp : Reachable p) (kind : PartialKind) :
    makePartialIn kind ref w = (.ok ⟨kind, w.heap.length⟩, { w with heap := w.heap ++ [p] }) := by
  unfold makePartialIn; rw [makePartial_eq h hp]

theorem callPartialIn_run {f : PartialF} {w : World} {q : ModelParameters ℝ} (h : w.heap[f.parameters]? = some q) (ts : List Datapoint)
    (args : List ℝ) : callPartialIn f ts args w =
      (partialSpec f.kind q ts args, { w with heap := w.heap.set f.parameters (q.updateFreeValues args).2 }) := by
  unfold callPartialIn; rw [PartialF.call_eq h]

/-- The files and the output stay. -/
def SameOutside (w w' : World) : Prop := w'.fs = w.fs ∧ w'.stdout = w.stdout

theorem SameOutside.refl (w : World) : SameOutside w w := ⟨rfl, rfl⟩
theorem SameOutside.trans (a b c : World) (h : SameOutside a b) (h' : SameOutside b c) : SameOutside a c :=
  ⟨h'.1.trans h.1, h'.2.trans h.2⟩

theorem readParams_outside (ref : ℕ) : (readParams ref).Keeps SameOutside := by
  intro w; unfold readParams; rcases w.heap[ref]? with _ | p <;> exact .refl _
theorem mutateParams_outside (ref : ℕ) (f : ModelParameters ℝ → Mutation ℝ) : (mutateParams ref f).Keeps SameOutside := by
  intro w; unfold mutateParams; rcases w.heap[ref]? with _ | p <;> exact ⟨rfl, rfl⟩
theorem newParams_outside (p : ModelParameters ℝ) : (newParams p).Keeps SameOutside := fun _ => ⟨rfl, rfl⟩
theorem makePartialIn_outside (kind : PartialKind) (ref : ℕ) : (makePartialIn kind ref).Keeps SameOutside := by
  intro w; unfold makePartialIn; rcases makePartial kind w.heap ref with _ | ⟨f, h⟩ <;> exact ⟨rfl, rfl⟩
theorem callPartialIn_outside (f : PartialF) (ts : List Datapoint) (args : List ℝ) : (callPartialIn f ts args).Keeps SameOutside :=
  fun _ => ⟨rfl, rfl⟩

/-- Combining steps. -/
theorem outside_bind {α β : Type} {x : PyM World α} {f : α → PyM World β} (hx : x.Keeps SameOutside) (hf : ∀ a, (f a).Keeps SameOutside) :
    (x >>= f).Keeps SameOutside := PyM.Keeps.bind SameOutside.trans hx hf
theorem outside_pure {α : Type} (a : α) : (pure a : PyM World α).Keeps SameOutside := PyM.Keeps.pure SameOutside.refl a
theorem outside_lift {α : Type} (x : Except PyErr α) : (PyM.lift x : PyM World α).Keeps SameOutside := PyM.Keeps.lift SameOutside.refl x
theorem outside_raise {α : Type} (e : PyErr) : (PyM.raise e : PyM World α).Keeps SameOutside := PyM.Keeps.raise SameOutside.refl e

theorem TaskF.call_outside (f : TaskF) (ts : List Datapoint) (args : List ℝ) : (f.call ts args).Keeps SameOutside := by
  cases f with
  | ofPartial f => exact callPartialIn_outside f ts args
  | oscillations ref => exact outside_bind (readParams_outside ref) fun p => outside_lift _

theorem withPartial_outside (self : Task) (kind : PartialKind) : (self.withPartial kind).Keeps SameOutside :=
  outside_bind (makePartialIn_outside _ _) fun _ => outside_pure _

theorem fixCouplings_outside (ref : ℕ) : (fixCouplings ref).Keeps SameOutside :=
  outside_bind (mutateParams_outside _ _) fun _ => outside_bind (readParams_outside _) fun _ => mutateParams_outside _ _

theorem setUpResidual_outside (self : Task) : self.setUpResidual.Keeps SameOutside := by
  unfold Task.setUpResidual
  refine outside_bind (mutateParams_outside _ _) fun _ => outside_bind (makePartialIn_outside _ _) fun _ =>
    outside_bind (callPartialIn_outside _ _ _) fun _ => outside_bind (outside_lift _) fun q => ?_
  obtain ⟨a, b⟩ := q
  refine outside_bind (outside_lift _) fun q => ?_
  obtain ⟨c, d⟩ := q
  refine outside_bind (outside_lift _) fun q => outside_bind (outside_lift _) fun q => ?_
  obtain ⟨a1, a2, a3⟩ := q
  exact outside_bind (outside_lift _) fun _ => outside_bind (newParams_outside _) fun _ => outside_pure _

theorem setUp_outside (self : Task) : self.setUp.Keeps SameOutside := by
  unfold Task.setUp
  rcases self.cls <;> first
    | exact withPartial_outside _ _
    | exact setUpResidual_outside _
    | exact outside_bind (mutateParams_outside _ _) fun _ => withPartial_outside _ _
    | exact outside_bind (fixCouplings_outside _) fun _ => withPartial_outside _ _
    | exact outside_bind (mutateParams_outside _ _) fun _ => outside_bind (withPartial_outside _ _) fun _ => outside_lift _
    | exact outside_bind (withPartial_outside _ _) fun _ => outside_lift _

theorem FitProc.run_outside (f : List ℝ → PyM World (List ℝ)) (hf : ∀ args, (f args).Keeps SameOutside) (proc : FitProc) :
    ∀ w, SameOutside w (proc.run f w).2 := by
  induction proc with
  | done r => intro w; exact .refl w
  | ask args next ih =>
    intro w
    have h := hf args w
    unfold FitProc.run
    revert h
    rcases f args w with ⟨e | ys, w'⟩
    · exact fun h => h
    · exact fun h => SameOutside.trans _ _ _ h (ih ys w')

theorem runCurveFit_outside (env : Env) (f : TaskF) (problem : FitProblem) : (runCurveFit env f problem).Keeps SameOutside :=
  fun w => FitProc.run_outside _ (fun args => f.call_outside _ args) _ w

theorem fit_outside (self : Task) (env : Env) : (self.fit env).Keeps SameOutside := by
  unfold Task.fit
  refine outside_bind (readParams_outside _) fun _ => outside_bind (outside_lift _) fun _ => ?_
  rcases self.partial_f with _ | f
  · exact outside_raise _
  · refine outside_bind (runCurveFit_outside _ _ _) fun r => ?_
    rcases r with ⟨e, m⟩ | r
    · dsimp only
      split_ifs
      · exact outside_pure _
      · exact outside_raise _
    · exact outside_pure _

theorem updateReport_outside (self : Task) (env : Env) (opt : List ℝ) (cov : Cov) : (self.updateReport env opt cov).Keeps SameOutside := by
  unfold Task.updateReport
  rcases self.partial_f with _ | f
  · exact outside_raise _
  · exact outside_bind (f.call_outside _ _) fun _ => outside_bind (fun _ => SameOutside.refl _) fun _ => outside_bind (outside_lift _) fun _ =>
      outside_bind (readParams_outside _) fun _ => outside_bind (outside_lift _) fun _ => outside_pure _

theorem plot_outside (self : Task) (env : Env) (opt : List ℝ) : (self.plot env opt).Keeps SameOutside := by
  unfold Task.plot
  rcases self.reports_dir with _ | dir
  · exact outside_pure _
  · rcases self.partial_f with _ | f
    · exact outside_pure _
    · dsimp only
      split_ifs
      · exact outside_pure _
      · exact outside_bind (f.call_outside _ _) fun _ w => ⟨rfl, rfl⟩

/-- Running a task writes no text file of the modelled file system and prints nothing. -/
theorem run_outside (self : Task) (env : Env) : (self.run env).Keeps SameOutside := by
  unfold Task.run
  refine outside_bind (setUp_outside _) fun task => outside_bind (fit_outside _ _) fun q => ?_
  obtain ⟨r, task⟩ := q
  rcases r with _ | ⟨opt, cov⟩
  · exact outside_pure _
  · exact outside_bind (mutateParams_outside _ _) fun _ => outside_bind (updateReport_outside _ _ _ _) fun _ =>
      outside_bind (plot_outside _ _ _) fun _ => outside_pure _

end UA
