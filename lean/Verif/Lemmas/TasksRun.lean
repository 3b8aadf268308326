import Verif.Lemmas.Tasks

/-!
# Helper lemmas: running a task
-/

namespace UA

open Complex

/-- What the function of a task returns when the parameters are `p`. -/
noncomputable def TaskF.value (f : TaskF) (p : ModelParameters ℝ) (ts : List Datapoint) (args : List ℝ) : Except PyErr (List ℝ) :=
  match f with
  | .ofPartial f => partialSpec f.kind p ts args
  | .oscillations _ => oscillationsPartial p ts args

/-- The function of a task whose parameter object `ref` was `p` when the function was made. -/
def TaskF.Ready (f : TaskF) (ref : ℕ) (p : ModelParameters ℝ) (w : World) : Prop :=
  match f with
  | .ofPartial f => f.parameters ≠ ref ∧ ∃ q, w.heap[f.parameters]? = some q ∧ OtherFree p q
  | .oscillations r => r = ref ∧ p.cls = .oscillations ∧ Reachable p ∧ ∃ q, w.heap[ref]? = some q ∧ Reachable q ∧ OtherFree p q

/-- What calling the function may change: the captured object. -/
structure TaskF.Step (f : TaskF) (w w' : World) : Prop where
  length : w'.heap.length = w.heap.length
  heap : ∀ i, (∀ g, f = .ofPartial g → i ≠ g.parameters) → w'.heap[i]? = w.heap[i]?
  fits : w'.fits = w.fits
  plots : w'.plots = w.plots
  samples : w'.samples = w.samples
  fs : w'.fs = w.fs
  stdout : w'.stdout = w.stdout

theorem TaskF.Step.refl (f : TaskF) (w : World) : f.Step w w := ⟨rfl, fun _ _ => rfl, rfl, rfl, rfl, rfl, rfl⟩

theorem TaskF.Step.trans {f : TaskF} {w w' w'' : World} (h : f.Step w w') (h' : f.Step w' w'') : f.Step w w'' :=
  ⟨h'.length.trans h.length, fun i hi => (h'.heap i hi).trans (h.heap i hi), h'.fits.trans h.fits, h'.plots.trans h.plots,
    h'.samples.trans h.samples, h'.fs.trans h.fs, h'.stdout.trans h.stdout⟩

theorem TaskF.Ready.ref_ne {f : TaskF} {ref : ℕ} {p : ModelParameters ℝ} {w : World} (h : f.Ready ref p w) :
    ∀ g, f = .ofPartial g → ref ≠ g.parameters := by
  rintro g rfl; exact h.1.symm

theorem OtherFree.refl (p : ModelParameters ℝ) : OtherFree p p := ⟨p.data, rfl, SameButFree.refl _⟩

theorem oscillationsPartial_other {p q : ModelParameters ℝ} (hc : p.cls = .oscillations) (hp : Reachable p) (hq : Reachable q)
    (h : OtherFree p q) (ts : List Datapoint) (args : List ℝ) : oscillationsPartial q ts args = oscillationsPartial p ts args := by
  have hqc : q.cls = .oscillations := by obtain ⟨d, rfl, -⟩ := h; exact hc
  have e1 : ParamClass.oscillations.fromList p.toList = .ok p := by rw [← hc]; exact C37_copy hp
  have e2 : ParamClass.oscillations.fromList q.toList = .ok q := by rw [← hqc]; exact C37_copy hq
  unfold oscillationsPartial
  rw [e1, e2, except_ok_bind, except_ok_bind]
  rcases (h.update args).2 with ⟨-, h⟩ | ⟨h1, h2⟩
  · rw [h]
  · rcases hq' : q.updateFreeValues args with ⟨r, s⟩
    rcases hp' : p.updateFreeValues args with ⟨r', s'⟩
    rw [hq'] at h1; rw [hp'] at h2
    simp only at h1 h2
    rw [h1, h2]

/-- One call. -/
theorem TaskF.call_ready {f : TaskF} {ref : ℕ} {p : ModelParameters ℝ} {w : World} (h : f.Ready ref p w) (ts : List Datapoint)
    (args : List ℝ) : ∃ w', f.call ts args w = (f.value p ts args, w') ∧ f.Ready ref p w' ∧ f.Step w w' := by
  cases f with
  | ofPartial f =>
    obtain ⟨hne, q, hq, ho⟩ := h
    refine ⟨_, (callPartialIn_run hq ts args).trans (by rw [ho.partialSpec]; rfl), ⟨hne, _, ?_, (ho.update args).1⟩, ?_⟩
    · have := heap_set_append hq
      simp [this]
    · refine ⟨by simp, fun i hi => ?_, rfl, rfl, rfl, rfl, rfl⟩
      exact List.getElem?_set_ne (hi f rfl).symm
  | oscillations r =>
    obtain ⟨rfl, hc, hp, q, hq, hr, ho⟩ := h
    refine ⟨w, ?_, ⟨rfl, hc, hp, q, hq, hr, ho⟩, .refl _ _⟩
    show (readParams r >>= fun p => PyM.lift (oscillationsPartial p ts args)) w = _
    rw [PyM.bind_ok (readParams_run hq), PyM.lift_run, oscillationsPartial_other hc hp hr ho]
    rfl

/-- The fitting procedure. -/
theorem FitProc.run_ready {f : TaskF} {ref : ℕ} {p : ModelParameters ℝ} (xs : List Datapoint) (proc : FitProc) :
    ∀ {w : World}, f.Ready ref p w → ∃ w', proc.run (fun args => f.call xs args) w = (proc.outcome (f.value p xs), w') ∧
      f.Ready ref p w' ∧ f.Step w w' := by
  induction proc with
  | done r => intro w h; exact ⟨w, rfl, h, .refl _ _⟩
  | ask args next ih =>
    intro w h
    obtain ⟨w₁, h1, h2, h3⟩ := f.call_ready h xs args
    unfold FitProc.run FitProc.outcome
    rw [h1]
    rcases f.value p xs args with e | ys
    · exact ⟨w₁, rfl, h2, h3⟩
    · obtain ⟨w₂, g1, g2, g3⟩ := ih ys h2
      exact ⟨w₂, g1, g2, h3.trans g3⟩

/-- A function that is ready stays so when the free values of the task's parameters change. -/
theorem TaskF.Ready.set {f : TaskF} {ref : ℕ} {p p' : ModelParameters ℝ} {w : World} (h : f.Ready ref p w) (ho : OtherFree p p')
    (hr : Reachable p') : f.Ready ref p { w with heap := w.heap.set ref p' } := by
  cases f with
  | ofPartial f =>
    obtain ⟨hne, q, hq, ho'⟩ := h
    exact ⟨hne, q, by rw [← hq]; exact List.getElem?_set_ne hne.symm, ho'⟩
  | oscillations r =>
    obtain ⟨rfl, hc, hp, q, hq, -, -⟩ := h
    have := heap_set_append hq
    exact ⟨rfl, hc, hp, p', by simp [this], hr, ho⟩

/-- The problem handed to the fitting library. -/
noncomputable def Task.problem (task : Task) (p : ModelParameters ℝ) (bounds : List (WithBot ℝ) × List (WithTop ℝ)) : FitProblem :=
  ⟨task.ts_fit.map Datapoint.toRow, task.ys_fit, p.getFreeValues, task.errors_fit, bounds⟩

/-- `_fit`. -/
theorem fit_run {task : Task} {f : TaskF} (hf : task.partial_f = some f) {p : ModelParameters ℝ} {w : World}
    (hp : w.heap[task.parameters]? = some p) (hr : f.Ready task.parameters p w) {bounds} (hb : p.getBoundsForFreeParameters task.use_handpicked_bounds = .ok bounds)
    (env : Env) : ∃ w', f.Step { w with fits := w.fits + 1 } w' ∧ f.Ready task.parameters p w' ∧ task.fit env w =
      match (env.curve_fit w.fits (task.problem p bounds)).outcome (f.value p (task.ts_fit.map Datapoint.toRow)) with
      | .ok r => (.ok (some r, task), w')
      | .error (e, message) => if e = .runtimeError then
          (.ok (none, { task with report := { task.report with status := "failed", error_message := some message } }), w') else (.error e, w') := by
  obtain ⟨w₁, h1, h2, h3⟩ := FitProc.run_ready (task.ts_fit.map Datapoint.toRow) (env.curve_fit w.fits (task.problem p bounds)) hr
  refine ⟨{ w₁ with fits := w₁.fits + 1 }, ⟨h3.length, h3.heap, by simp [h3.fits], h3.plots, h3.samples, h3.fs, h3.stdout⟩, ?_, ?_⟩
  · cases f with
    | ofPartial f => exact h2
    | oscillations r => exact h2
  · unfold Task.fit
    rw [PyM.bind_ok (readParams_run hp), hb, PyM.bind_ok (PyM.lift_run _ _), hf]
    dsimp only
    have hrun : runCurveFit env f (task.problem p bounds) w =
        (.ok ((env.curve_fit w.fits (task.problem p bounds)).outcome (f.value p (task.ts_fit.map Datapoint.toRow))),
          { w₁ with fits := w₁.fits + 1 }) := by
      unfold runCurveFit
      rw [show (task.problem p bounds).xdata = task.ts_fit.map Datapoint.toRow from rfl, h1]
    rw [show (⟨task.ts_fit.map Datapoint.toRow, task.ys_fit, p.getFreeValues, task.errors_fit, bounds⟩ : FitProblem) = task.problem p bounds from rfl,
      PyM.bind_ok hrun]
    rcases (env.curve_fit w.fits (task.problem p bounds)).outcome (f.value p (task.ts_fit.map Datapoint.toRow)) with ⟨e, m⟩ | r
    · dsimp only
      split_ifs <;> rfl
    · rfl

theorem chiTerms (ys fs errors : List ℝ) (he : ∀ e ∈ errors, e ≠ 0) :
    ((List.zipWith (fun data fit => (data - fit) ^ 2) ys fs).zip errors).mapM (fun q => pyDivR q.1 (q.2 ^ 2)) =
      .ok ((ys.zip (fs.zip errors)).map fun q => ((q.1 - q.2.1) / q.2.2) ^ 2) := by
  induction ys generalizing fs errors with
  | nil => rfl
  | cons y ys ih =>
    cases fs with
    | nil => rfl
    | cons f fs =>
      cases errors with
      | nil => rfl
      | cons e errors =>
        simp only [List.zipWith_cons_cons, List.zip_cons_cons, List.map_cons, List.mapM_cons]
        rw [ih fs errors fun e he' => he e (by simp [he']), pyDivR_ok (pow_ne_zero 2 (he e (by simp))), div_pow]
        rfl

theorem foldl_nan : ∀ l : List PyFloat, l.foldl PyFloat.add .nan = .nan
  | [] => rfl
  | x :: l => by
    rw [List.foldl_cons, show PyFloat.add .nan x = .nan by cases x <;> rfl]
    exact foldl_nan l

open Classical in
theorem foldl_inf : ∀ l : List PyFloat, (∀ x ∈ l, x ≠ .negInf) → l.foldl PyFloat.add .inf = if PyFloat.nan ∈ l then .nan else .inf
  | [], _ => rfl
  | x :: l, h => by
    have ih := foldl_inf l fun y hy => h y (List.mem_cons_of_mem _ hy)
    rw [List.foldl_cons]
    cases x with
    | finite y => rw [show PyFloat.add .inf (.finite y) = .inf from rfl, ih]; simp
    | inf => rw [show PyFloat.add .inf .inf = .inf from rfl, ih]; simp
    | negInf => exact absurd rfl (h _ List.mem_cons_self)
    | nan => rw [show PyFloat.add .inf .nan = .nan from rfl, foldl_nan]; simp

open Classical in
/-- The sum of the terms, in NumPy numbers. -/
theorem foldl_terms : ∀ (l : List (ℝ × ℝ)) (a : ℝ), (∀ q ∈ l, 0 ≤ q.1) →
    (l.map fun q => (PyFloat.finite q.1).divBy (q.2 ^ 2)).foldl PyFloat.add (.finite a) =
      if ∃ q ∈ l, q.2 = 0 ∧ q.1 = 0 then .nan else if ∃ q ∈ l, q.2 = 0 then .inf
      else .finite (a + (l.map fun q => q.1 / q.2 ^ 2).sum)
  | [], a, _ => by simp
  | (x, e) :: l, a, h => by
    have hx : 0 ≤ x := h (x, e) List.mem_cons_self
    have hl : ∀ q ∈ l, 0 ≤ q.1 := fun q hq => h q (List.mem_cons_of_mem _ hq)
    have hneg : ∀ y ∈ l.map (fun q => (PyFloat.finite q.1).divBy (q.2 ^ 2)), y ≠ .negInf := by
      intro y hy
      obtain ⟨q, hq, rfl⟩ := List.mem_map.mp hy
      have := hl q hq
      simp only [PyFloat.divBy]
      split_ifs with h1 h2 h3
      · exact fun h => by cases h
      · exact fun h => by cases h
      · exact fun h => by cases h
      · exact absurd (lt_of_le_of_ne this (Ne.symm h2)) h3
    have hnan : PyFloat.nan ∈ l.map (fun q => (PyFloat.finite q.1).divBy (q.2 ^ 2)) ↔ ∃ q ∈ l, q.2 = 0 ∧ q.1 = 0 := by
      rw [List.mem_map]
      refine exists_congr fun q => and_congr_right fun hq => ?_
      simp only [PyFloat.divBy]
      constructor
      · intro h4
        split_ifs at h4 with h1 h2 h3
        exact ⟨by simpa using h1, h2⟩
      · rintro ⟨h1, h2⟩
        rw [if_neg (by simp [h1]), if_pos h2]
    rw [List.map_cons, List.foldl_cons]
    by_cases he : e = 0
    · by_cases h0 : x = 0
      · rw [show (PyFloat.finite x).divBy (e ^ 2) = .nan by simp [PyFloat.divBy, he, h0],
          show PyFloat.add (.finite a) .nan = .nan from rfl, foldl_nan, if_pos ⟨(x, e), List.mem_cons_self, he, h0⟩]
      · have hpos : 0 < x := lt_of_le_of_ne hx (Ne.symm h0)
        rw [show (PyFloat.finite x).divBy (e ^ 2) = .inf by simp [PyFloat.divBy, he, h0, hpos],
          show PyFloat.add (.finite a) .inf = .inf from rfl, foldl_inf _ hneg]
        have h1 : (∃ q ∈ (x, e) :: l, q.2 = 0) := ⟨(x, e), List.mem_cons_self, he⟩
        have h2 : (∃ q ∈ (x, e) :: l, q.2 = 0 ∧ q.1 = 0) ↔ ∃ q ∈ l, q.2 = 0 ∧ q.1 = 0 := by simp [h0]
        rw [if_pos h1]
        simp only [hnan, h2]
    · rw [show (PyFloat.finite x).divBy (e ^ 2) = .finite (x / e ^ 2) by simp [PyFloat.divBy, he],
        show PyFloat.add (.finite a) (.finite (x / e ^ 2)) = .finite (a + x / e ^ 2) from rfl, foldl_terms l _ hl]
      have h1 : (∃ q ∈ (x, e) :: l, q.2 = 0) ↔ ∃ q ∈ l, q.2 = 0 := by simp [he]
      have h2 : (∃ q ∈ (x, e) :: l, q.2 = 0 ∧ q.1 = 0) ↔ ∃ q ∈ l, q.2 = 0 ∧ q.1 = 0 := by simp [he]
      simp only [h1, h2, List.map_cons, List.sum_cons, add_assoc]

theorem sumTerms (ys fs errors : List ℝ) :
    (((List.zipWith (fun data fit => (data - fit) ^ 2) ys fs).zip errors).map fun q => q.1 / q.2 ^ 2) =
      (ys.zip (fs.zip errors)).map fun q => ((q.1 - q.2.1) / q.2.2) ^ 2 := by
  induction ys generalizing fs errors with
  | nil => rfl
  | cons y ys ih =>
    cases fs with
    | nil => rfl
    | cons f fs =>
      cases errors with
      | nil => rfl
      | cons e errors => simp only [List.zipWith_cons_cons, List.zip_cons_cons, List.map_cons, ih, div_pow]

theorem zipTerms (P : ℝ → ℝ → Prop) (ys fs errors : List ℝ) :
    (∃ q ∈ (List.zipWith (fun data fit => (data - fit) ^ 2) ys fs).zip errors, P q.1 q.2) ↔
      ∃ q ∈ ys.zip (fs.zip errors), P ((q.1 - q.2.1) ^ 2) q.2.2 := by
  induction ys generalizing fs errors with
  | nil => simp
  | cons y ys ih =>
    cases fs with
    | nil => simp
    | cons f fs =>
      cases errors with
      | nil => simp
      | cons e errors =>
        simp only [List.zipWith_cons_cons, List.zip_cons_cons, List.exists_mem_cons_iff, ih]

theorem sum_zero_iff : ∀ {l : List ℝ}, (∀ x ∈ l, 0 ≤ x) → (l.sum = 0 ↔ ∀ x ∈ l, x = 0)
  | [], _ => by simp
  | x :: l, h => by
    have hl : ∀ y ∈ l, 0 ≤ y := fun y hy => h y (List.mem_cons_of_mem _ hy)
    rw [List.sum_cons, add_eq_zero_iff_of_nonneg (h x List.mem_cons_self) (List.sum_nonneg hl), sum_zero_iff hl]
    simp

open Classical in
/-- The chi squared of a report, in NumPy numbers. -/
theorem chiSquared_numpy {ys fs : List ℝ} (h1 : fs.length = ys.length) (errors : List ℝ) (k : ℕ) :
    chiSquared true (List.zipWith (fun data fit => (data - fit) ^ 2) ys fs) errors k = .ok (reportedChiSquared ys fs errors k) := by
  have hnn : ∀ q ∈ (List.zipWith (fun data fit => (data - fit) ^ 2) ys fs).zip errors, 0 ≤ q.1 := by
    by_contra hc
    push Not at hc
    obtain ⟨q, -, hq⟩ := (zipTerms (fun a _ => a < 0) ys fs errors).mp hc
    exact absurd hq (not_lt.mpr (sq_nonneg _))
  have e1 : (∃ q ∈ (List.zipWith (fun data fit => (data - fit) ^ 2) ys fs).zip errors, q.2 = 0 ∧ q.1 = 0) ↔
      ∃ q ∈ ys.zip (fs.zip errors), q.2.2 = 0 ∧ q.1 = q.2.1 := by
    refine (zipTerms (fun a b => b = 0 ∧ a = 0) ys fs errors).trans ?_
    simp [sub_eq_zero]
  have e2 := zipTerms (fun _ b => b = 0) ys fs errors
  unfold chiSquared reportedChiSquared
  rw [if_pos rfl, foldl_terms _ _ hnn, List.length_zipWith, h1, min_self, zero_add, sumTerms]
  simp only [e1, e2]
  congr 1
  by_cases c1 : ∃ q ∈ ys.zip (fs.zip errors), q.2.2 = 0 ∧ q.1 = q.2.1
  · rw [if_pos c1, if_pos c1]; rfl
  · rw [if_neg c1, if_neg c1]
    by_cases c2 : ∃ q ∈ ys.zip (fs.zip errors), q.2.2 = 0
    · rw [if_pos c2, if_pos c2]
      simp only [PyFloat.divBy, sub_neg, Nat.cast_lt]
    · rw [if_neg c2, if_neg c2]
      simp only [PyFloat.divBy, ne_eq, sub_eq_zero, Nat.cast_inj]
      by_cases c3 : ys.length = k
      · rw [if_neg (not_not.mpr c3), if_pos c3]
        set l := (ys.zip (fs.zip errors)).map fun q => ((q.1 - q.2.1) / q.2.2) ^ 2 with hl
        have hpos : ∀ x ∈ l, 0 ≤ x := by
          intro x hx
          obtain ⟨q, -, rfl⟩ := List.mem_map.mp hx
          exact sq_nonneg _
        have hsum : l.sum = 0 ↔ ∀ q ∈ ys.zip (fs.zip errors), q.1 = q.2.1 := by
          rw [sum_zero_iff hpos, hl]
          simp only [List.mem_map, forall_exists_index, and_imp, forall_apply_eq_imp_iff₂]
          refine forall₂_congr fun q hq => ?_
          have : q.2.2 ≠ 0 := fun h => c2 ⟨q, hq, h⟩
          simp [this, sub_eq_zero]
        simp only [hsum]
        split_ifs with c4 c5
        · rfl
        · rfl
        · exact absurd (lt_of_le_of_ne (List.sum_nonneg hpos) (Ne.symm fun h => c4 (hsum.mp h))) c5
      · rw [if_pos c3, if_neg c3]
        rfl

/-- Nothing is divided by zero. -/
theorem reported_eq {ys fs errors : List ℝ} (he : ∀ e ∈ errors, e ≠ 0) {k : ℕ} (hk : ys.length ≠ k) :
    reportedChiSquared ys fs errors k = .finite (reducedChiSquared ys fs errors k) := by
  have hne : ∀ q ∈ ys.zip (fs.zip errors), q.2.2 ≠ 0 := fun q hq =>
    he _ (List.of_mem_zip (List.of_mem_zip hq).2).2
  unfold reportedChiSquared
  rw [if_neg (by rintro ⟨q, hq, h, -⟩; exact hne q hq h), if_neg (by rintro ⟨q, hq, h⟩; exact hne q hq h), if_neg hk]

/-- The chi squared of a report. -/
theorem chiSquared_eq {ys fs errors : List ℝ} (h1 : fs.length = ys.length) (he : ∀ e ∈ errors, e ≠ 0) {k : ℕ}
    (hk : ys.length ≠ k) (numpy : Bool) :
    chiSquared numpy (List.zipWith (fun data fit => (data - fit) ^ 2) ys fs) errors k = .ok (.finite (reducedChiSquared ys fs errors k)) := by
  cases numpy with
  | true => rw [chiSquared_numpy h1, reported_eq he hk]
  | false =>
    have hz : ((ys.length : ℝ) - k) ≠ 0 := fun h => hk (by exact_mod_cast sub_eq_zero.mp h)
    unfold chiSquared reducedChiSquared
    rw [if_neg (by decide), List.length_zipWith, h1, min_self, chiTerms ys fs errors he, except_ok_bind, pyDivR_ok hz]
    rfl

/-- As many points as parameters, Python numbers. -/
theorem chiSquared_zero {ys fs errors : List ℝ} (h1 : fs.length = ys.length) (he : ∀ e ∈ errors, e ≠ 0) {k : ℕ}
    (hk : ys.length = k) : chiSquared false (List.zipWith (fun data fit => (data - fit) ^ 2) ys fs) errors k = .error .zeroDivisionError := by
  unfold chiSquared
  rw [if_neg (by decide), chiTerms ys fs errors he, except_ok_bind, List.length_zipWith, h1, min_self, hk, sub_self, pyDivR_zero]
  rfl

theorem sumOfSquares_eq (ys fs : List ℝ) : (List.zipWith (fun data fit => (data - fit) ^ 2) ys fs).sum = sumOfSquares ys fs := by
  unfold sumOfSquares
  rw [List.zip, List.map_zipWith]

/-- The errors of a report, for a square matrix. -/
theorem parameterErrors_diagonal {cov : Cov} (h : ∀ row ∈ cov, row.length = cov.length) : IsDiagonalRoots cov (parameterErrors cov) := by
  have key : ∀ (l : Cov) (k : ℕ), (∀ i row, l[i]? = some row → i + k < row.length) →
      let es := (l.zipIdx k).filterMap fun r => (r.1[r.2]?).map fun x => x.map Real.sqrt
      es.length = l.length ∧ ∀ i row v, l[i]? = some row → row[i + k]? = some v → es[i]? = some (v.map Real.sqrt) := by
    intro l
    induction l with
    | nil => intro k _; exact ⟨rfl, fun i row v h => by simp at h⟩
    | cons a l ih =>
      intro k hk
      obtain ⟨i1, i2⟩ := ih (k + 1) fun i row hi => by
        have := hk (i + 1) row (by simpa using hi)
        omega
      have ha : k < a.length := by have := hk 0 a rfl; omega
      have hv : a[k]? = some a[k] := List.getElem?_eq_getElem ha
      dsimp only
      rw [List.zipIdx_cons, List.filterMap_cons_some (b := (a[k]).map Real.sqrt) (by rw [hv]; rfl)]
      refine ⟨by simp [i1], fun i row v hr hvv => ?_⟩
      rcases i with - | i
      · simp only [List.getElem?_cons_zero, Option.some.injEq] at hr ⊢
        subst hr
        rw [Nat.zero_add, hv] at hvv
        rw [Option.some.inj hvv]
      · simp only [List.getElem?_cons_succ] at hr ⊢
        exact i2 i row v hr (by rw [← hvv]; congr 1; omega)
  obtain ⟨h1, h2⟩ := key cov 0 fun i row hi => by
    rw [h row (List.mem_of_getElem? hi), add_zero]
    exact (List.getElem?_eq_some_iff.mp hi).1
  exact ⟨h1, fun i row hi => ⟨fun x hx => h2 i row x hi hx, fun ht => h2 i row ⊤ hi ht⟩⟩

/-- The report of a finished fit. -/
noncomputable def Report.finish (r : Report) (env : Env) (p : ModelParameters ℝ) (ordered : List ℝ) (ys fs : List ℝ) (chi : PyFloat) (cov : Cov) : Report :=
  { r with
    final_parameters := some p.toList
    r2 := some (env.strFloat (.finite (List.zipWith (fun data fit => (data - fit) ^ 2) ys fs).sum))
    chi_squared := some (env.strFloat chi)
    covariance_matrix := some cov
    parameter_errors := some (parameterErrors cov)
    status := "finished"
    parameter_list := ordered }

/-- `_update_report`. -/
theorem updateReport_run {task : Task} {f : TaskF} (hf : task.partial_f = some f) {p p₂ : ModelParameters ℝ} {w : World}
    (hp : w.heap[task.parameters]? = some p₂) (hr : f.Ready task.parameters p w) (hp₂ : Reachable p₂) {n : ℕ} (hn : w.fits = n)
    (env : Env) (opt : List ℝ) (cov : Cov) :
    ∃ w' ordered, p₂.getOrderedValues = .ok ordered ∧ f.Step w w' ∧ f.Ready task.parameters p w' ∧ task.updateReport env opt cov w =
      match f.value p task.ts opt with
      | .error e => (.error e, w')
      | .ok fs => match chiSquared (env.numpyAt f n) (List.zipWith (fun data fit => (data - fit) ^ 2) task.ys fs) task.errors opt.length with
        | .error e => (.error e, w')
        | .ok chi => (.ok { task with report := task.report.finish env p₂ ordered task.ys fs chi cov }, w') := by
  obtain ⟨w', h1, h2, h3⟩ := f.call_ready hr task.ts opt
  have hw := reachable_wellFormed hp₂
  obtain ⟨v, hv⟩ := hw.exists_values
  refine ⟨w', _, hw.orderedValues hv, h3, h2, ?_⟩
  unfold Task.updateReport
  rw [hf]
  dsimp only
  rcases hfs : f.value p task.ts opt with e | fs
  · rw [hfs] at h1
    exact PyM.bind_error h1
  · rw [hfs] at h1
    rw [PyM.bind_ok h1]
    dsimp only
    rw [PyM.bind_ok (PyM.get_run _ _), show w'.fits = n from h3.fits.trans hn]
    rcases chiSquared (env.numpyAt f n) (List.zipWith (fun data fit => (data - fit) ^ 2) task.ys fs) task.errors opt.length with e | chi
    · exact PyM.bind_error (PyM.lift_run _ _)
    · rw [PyM.bind_ok (PyM.lift_run _ _)]
      have hp' : w'.heap[task.parameters]? = some p₂ := by rw [h3.heap _ hr.ref_ne, hp]
      rw [PyM.bind_ok (readParams_run hp'), hw.orderedValues hv, PyM.bind_ok (PyM.lift_run _ _)]
      rfl

/-- `_plot`. -/
theorem plot_run {task : Task} {f : TaskF} (hf : task.partial_f = some f) {p : ModelParameters ℝ} {w : World}
    (hr : f.Ready task.parameters p w) (env : Env) (opt : List ℝ) {fs : List ℝ} (hfs : f.value p task.ts opt = .ok fs) :
    ∃ w', w'.heap[task.parameters]? = w.heap[task.parameters]? ∧ f.Step w { w' with plots := w.plots } ∧
      task.plot env opt w = (if task.reports_dir = none ∨ task.reports_dir = some "" then .ok () else env.plot w.plots, w') := by
  unfold Task.plot
  rw [hf]
  rcases hd : task.reports_dir with _ | dir
  · exact ⟨w, rfl, .refl _ _, by simp; rfl⟩
  · dsimp only
    by_cases he : dir = ""
    · rw [if_pos he, if_pos (Or.inr (by rw [he]))]
      exact ⟨w, rfl, .refl _ _, rfl⟩
    · rw [if_neg he, if_neg (by simp [he])]
      obtain ⟨w', h1, h2, h3⟩ := f.call_ready hr task.ts opt
      rw [hfs] at h1
      refine ⟨{ w' with plots := w'.plots + 1 }, h3.heap _ hr.ref_ne, ⟨h3.length, h3.heap, h3.fits, rfl, h3.samples, h3.fs, h3.stdout⟩, ?_⟩
      refine (PyM.bind_ok h1).trans ?_
      show (env.plot w'.plots, _) = _
      rw [h3.plots]

/-- `run` once the set-up has been done: the outcomes. -/
theorem run_cases {self task : Task} {f : TaskF} {p : ModelParameters ℝ} {w w₁ : World} (hset : self.setUp w = (.ok task, w₁))
    (hf : task.partial_f = some f) (hp : w₁.heap[task.parameters]? = some p) (hreach : Reachable p) (hr : f.Ready task.parameters p w₁)
    {bounds} (hb : p.getBoundsForFreeParameters task.use_handpicked_bounds = .ok bounds) (env : Env) :
    (∀ e message, (env.curve_fit w₁.fits (task.problem p bounds)).outcome (f.value p (task.ts_fit.map Datapoint.toRow)) = .error (e, message) →
      (self.run env w).2.heap[task.parameters]? = some p ∧
      (self.run env w).1 = if e = .runtimeError then
        .ok { task with report := { task.report with status := "failed", error_message := some message } } else .error e) ∧
    (∀ opt cov, (env.curve_fit w₁.fits (task.problem p bounds)).outcome (f.value p (task.ts_fit.map Datapoint.toRow)) = .ok (opt, cov) →
      (self.run env w).2.heap[task.parameters]? = some (p.updateFreeValues opt).2 ∧
      ∀ u, p.updateFreeValues opt = (.ok u, (p.updateFreeValues opt).2) → ∃ ordered, (p.updateFreeValues opt).2.getOrderedValues = .ok ordered ∧
        (self.run env w).1 =
          match f.value p task.ts opt with
          | .error e => .error e
          | .ok fs => match chiSquared (env.numpyAt f (w₁.fits + 1)) (List.zipWith (fun data fit => (data - fit) ^ 2) task.ys fs) task.errors opt.length with
            | .error e => .error e
            | .ok chi => match (if task.reports_dir = none ∨ task.reports_dir = some "" then .ok () else env.plot w₁.plots) with
              | .error e => .error e
              | .ok () => .ok { task with report := task.report.finish env (p.updateFreeValues opt).2 ordered task.ys fs chi cov }) ∧
    (self.run env w).2.heap.length = w₁.heap.length ∧
    (∀ i, i ≠ task.parameters → (∀ g, f = .ofPartial g → i ≠ g.parameters) → (self.run env w).2.heap[i]? = w₁.heap[i]?) ∧
    (∀ task', (self.run env w).1 = .ok task' → task'.parameters = task.parameters ∧ task'.name = task.name) ∧
    (self.run env w).2.samples = w₁.samples := by
  obtain ⟨w₂, hs2, hr2, hfit⟩ := fit_run hf hp hr hb env
  have hrun : self.run env w = (do
      let (r, self) ← task.fit env
      match r with
      | none => return self
      | some (opt_params, covariance_matrix) =>
        mutateParams self.parameters fun p => p.updateFreeValues opt_params
        let self ← self.updateReport env opt_params covariance_matrix
        self.plot env opt_params
        return self : PyM World Task) w₁ := by
    unfold Task.run
    rw [PyM.bind_ok hset]
    rfl
  rw [hrun]
  have hp2 : w₂.heap[task.parameters]? = some p := by rw [hs2.heap _ hr.ref_ne]; exact hp
  rcases hout : (env.curve_fit w₁.fits (task.problem p bounds)).outcome (f.value p (task.ts_fit.map Datapoint.toRow)) with ⟨e, m⟩ | ⟨opt, cov⟩
  · rw [hout] at hfit
    dsimp only at hfit
    refine ⟨?_, (fun _ _ h => by cases h), ?_⟩
    · rintro e' m' he
      injection he with he
      injection he with he1 he2
      subst he1 he2
      by_cases he : e = .runtimeError
      · rw [if_pos he] at hfit ⊢
        rw [PyM.bind_ok hfit]
        exact ⟨hp2, rfl⟩
      · rw [if_neg he] at hfit ⊢
        rw [PyM.bind_error hfit]
        exact ⟨hp2, rfl⟩
    · by_cases he : e = .runtimeError
      · rw [if_pos he] at hfit
        rw [PyM.bind_ok hfit]
        exact ⟨hs2.length, fun i _ hi => hs2.heap i hi, fun _ h => by injection h with h; subst h; exact ⟨rfl, rfl⟩, hs2.samples⟩
      · rw [if_neg he] at hfit
        rw [PyM.bind_error hfit]
        exact ⟨hs2.length, fun i _ hi => hs2.heap i hi, (fun _ h => by cases h), hs2.samples⟩
  · rw [hout] at hfit
    dsimp only at hfit
    rw [PyM.bind_ok hfit]
    dsimp only
    have hl2 := heap_set_append hp2
    have hmut := mutateParams_run hp2 fun p => p.updateFreeValues opt
    have hother : OtherFree p (p.updateFreeValues opt).2 := ((OtherFree.refl p).update opt).1
    have hreach' : Reachable (p.updateFreeValues opt).2 := .step (.updateFreeValues opt) hreach
    rcases hu : (p.updateFreeValues opt).1 with e | u
    · rw [hu] at hmut
      rw [PyM.bind_error hmut]
      refine ⟨(fun _ _ h => by cases h), ?_, ?_, ?_, (fun _ h => by cases h), hs2.samples⟩
      · rintro opt' cov' he
        injection he with he
        injection he with he1 he2
        subst he1 he2
        refine ⟨by simp [hl2], fun u' hu' => ?_⟩
        rw [hu'] at hu; cases hu
      · simp [hs2.length]
      · intro i hi hg
        show (w₂.heap.set _ _)[i]? = _
        rw [List.getElem?_set_ne hi.symm]; exact hs2.heap i hg
    · rw [hu] at hmut
      rw [PyM.bind_ok hmut]
      have hr3 : f.Ready task.parameters p { w₂ with heap := w₂.heap.set task.parameters (p.updateFreeValues opt).2 } := hr2.set hother hreach'
      have hp3 : ({ w₂ with heap := w₂.heap.set task.parameters (p.updateFreeValues opt).2 } : World).heap[task.parameters]? =
          some (p.updateFreeValues opt).2 := by simp [hl2]
      obtain ⟨w₄, ordered, hord, hs4, hr4, hrep⟩ := updateReport_run hf hp3 hr3 hreach' hs2.fits env opt cov
      have hp4 : w₄.heap[task.parameters]? = some (p.updateFreeValues opt).2 := by rw [hs4.heap _ hr.ref_ne]; exact hp3
      have hlen4 : w₄.heap.length = w₁.heap.length := by rw [hs4.length]; simp [hs2.length]
      have hoth4 : ∀ i, i ≠ task.parameters → (∀ g, f = .ofPartial g → i ≠ g.parameters) → w₄.heap[i]? = w₁.heap[i]? := by
        intro i hi hg
        rw [hs4.heap i hg]
        show (w₂.heap.set _ _)[i]? = _
        rw [List.getElem?_set_ne hi.symm]; exact hs2.heap i hg
      have hsam4 : w₄.samples = w₁.samples := hs4.samples.trans hs2.samples
      rcases hfs : f.value p task.ts opt with e | fs
      · rw [hfs] at hrep
        dsimp only at hrep
        rw [PyM.bind_error hrep]
        refine ⟨(fun _ _ h => by cases h), ?_, hlen4, hoth4, (fun _ h => by cases h), hsam4⟩
        rintro opt' cov' he
        injection he with he
        injection he with he1 he2
        subst he1 he2
        refine ⟨hp4, fun _ _ => ⟨ordered, hord, ?_⟩⟩
        rw [hfs]
      · rw [hfs] at hrep
        dsimp only at hrep
        rcases hchi : chiSquared (env.numpyAt f (w₁.fits + 1)) (List.zipWith (fun data fit => (data - fit) ^ 2) task.ys fs) task.errors opt.length with e | chi
        · rw [hchi] at hrep
          dsimp only at hrep
          rw [PyM.bind_error hrep]
          refine ⟨(fun _ _ h => by cases h), ?_, hlen4, hoth4, (fun _ h => by cases h), hsam4⟩
          rintro opt' cov' he
          injection he with he
          injection he with he1 he2
          subst he1 he2
          refine ⟨hp4, fun _ _ => ⟨ordered, hord, ?_⟩⟩
          rw [hfs]
          dsimp only
          rw [hchi]
        · rw [hchi] at hrep
          dsimp only at hrep
          rw [PyM.bind_ok hrep]
          obtain ⟨w₅, hp5, hs5, hplot⟩ := plot_run (task := { task with report := task.report.finish env (p.updateFreeValues opt).2 ordered task.ys fs chi cov })
            hf hr4 env opt hfs
          have hplots : w₄.plots = w₁.plots := hs4.plots.trans hs2.plots
          rw [hplots] at hplot
          have hlen5 : w₅.heap.length = w₁.heap.length := hs5.length.trans hlen4
          have hoth5 : ∀ i, i ≠ task.parameters → (∀ g, f = .ofPartial g → i ≠ g.parameters) → w₅.heap[i]? = w₁.heap[i]? :=
            fun i hi hg => (hs5.heap i hg).trans (hoth4 i hi hg)
          have hsam5 : w₅.samples = w₁.samples := hs5.samples.trans hsam4
          dsimp only at hplot hp5
          rcases hpl : (if task.reports_dir = none ∨ task.reports_dir = some "" then .ok () else env.plot w₁.plots) with e | u
          · rw [hpl] at hplot
            rw [PyM.bind_error hplot]
            refine ⟨(fun _ _ h => by cases h), ?_, hlen5, hoth5, (fun _ h => by cases h), hsam5⟩
            rintro opt' cov' he
            injection he with he
            injection he with he1 he2
            subst he1 he2
            refine ⟨hp5.trans hp4, fun _ _ => ⟨ordered, hord, ?_⟩⟩
            rw [hfs]
            dsimp only
            rw [hchi]
            dsimp only
            rw [hpl]
          · rw [hpl] at hplot
            rw [PyM.bind_ok hplot]
            refine ⟨(fun _ _ h => by cases h), ?_, hlen5, hoth5, fun _ h => by injection h with h; subst h; exact ⟨rfl, rfl⟩, hsam5⟩
            rintro opt' cov' he
            injection he with he
            injection he with he1 he2
            subst he1 he2
            refine ⟨hp5.trans hp4, fun _ _ => ⟨ordered, hord, ?_⟩⟩
            rw [hfs]
            dsimp only
            rw [hchi]
            dsimp only
            rw [hpl]
            rfl

end UA
