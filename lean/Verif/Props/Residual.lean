import Verif.Lemmas.Residual

/-!
# Property C71: the residual oscillations task
-/

namespace UA

open Complex

/-! ### C71 -/

/-- **C71** `l` are the data of the task: points of one kind at real `t ≥ 0`, values, errors. The set-up succeeds exactly when the
cross sections of all points can be computed from the parameters, every point has a residual, and some residual has a momentum
below 5. Then the data of the task, and the data to be fitted, are the residuals with momenta below 5, in order, each with its own
error; none else is dropped or repeated. -/
theorem C71_residuals {self : Task} {w : World} {p : ModelParameters ℝ} {l : List (Datapoint × ℝ × ℝ)} (hc : self.cls = .residual)
    (h : w.heap[self.parameters]? = some p) (hp : Reachable p) (hm : 0 < self.constants.mass) (hα : self.constants.alpha ≠ 0)
    (hd : self.Data l) (ho : OneKind (l.map (·.1))) :
    (∀ task w₁, self.setUp w = (.ok task, w₁) → ∃ bs residuals,
      functionCrossSection (l.map (·.1)) self.constants.mass self.constants.alpha self.constants.hc_squared p = .ok bs ∧
      bs.length = l.length ∧ List.Forall₂ (fun x q => IsResidual self.constants x.1 x.2 q) (l.zip bs) residuals ∧
      (residuals.filter fun q => decide (q.1.place < 5)) ≠ [] ∧ task.Data (residuals.filter fun q => decide (q.1.place < 5)) ∧
      task.FitData (residuals.filter fun q => decide (q.1.place < 5))) ∧
    (∀ bs residuals, functionCrossSection (l.map (·.1)) self.constants.mass self.constants.alpha self.constants.hc_squared p = .ok bs →
      List.Forall₂ (fun x q => IsResidual self.constants x.1 x.2 q) (l.zip bs) residuals → (∃ q ∈ residuals, q.1.place < 5) →
      ∃ task w₁, self.setUp w = (.ok task, w₁)) := by
  have hat : ∀ bs : List ℝ, ∀ x ∈ l.zip bs, x.1.1.At x.1.1.place := by
    intro bs x hx
    exact (ho.at (List.mem_map_of_mem (f := fun x : Datapoint × ℝ × ℝ => x.1) (List.of_mem_zip (a := x.1) (b := x.2) hx).1)).2
  constructor
  · intro task w₁ hset
    obtain ⟨bs, h1, h2, h3, rfl, -⟩ := (setUpResidual_iff hc h hp hm hα hd ho).mp hset
    rw [hd.1] at h1
    refine ⟨bs, (l.zip bs).map (resVal self.constants), h1, ?_, ?_, h3, ⟨rfl, rfl, rfl⟩, ⟨rfl, rfl, rfl⟩⟩
    · have := ((C51_pointwise hp (.crossSection self.constants.mass self.constants.alpha self.constants.hc_squared)).2 h1).1
      rw [this, List.length_map]
    · rw [List.forall₂_map_right_iff, List.forall₂_same]
      intro x hx
      exact (isResidual_iff hm hα (hat bs x hx)).mpr ⟨h2 x hx, rfl⟩
  · intro bs residuals h1 h2 h3
    have hr : (∀ x ∈ l.zip bs, ResOk self.constants x) ∧ residuals = (l.zip bs).map (resVal self.constants) := by
      have hat := hat bs
      generalize l.zip bs = L at *
      clear h1 h3
      induction h2 with
      | nil => exact ⟨by simp, rfl⟩
      | @cons a b L' r hab _ ih =>
        obtain ⟨i1, i2⟩ := ih fun x hx => hat x (by simp [hx])
        obtain ⟨j1, j2⟩ := (isResidual_iff hm hα (hat a (by simp))).mp hab
        refine ⟨?_, by rw [List.map_cons, i2, j2]⟩
        intro x hx
        rcases List.mem_cons.mp hx with rfl | hx
        · exact j1
        · exact i1 x hx
    obtain ⟨r1, r2⟩ := hr
    have hk : keptResiduals self.constants (l.zip bs) ≠ [] := by
      obtain ⟨q, hq, hq5⟩ := h3
      unfold keptResiduals
      rw [← r2]
      intro h0
      have := List.filter_eq_nil_iff.mp h0 q hq
      simp [hq5] at this
    exact ⟨_, _, (setUpResidual_iff hc h hp hm hα hd ho).mpr ⟨bs, by rw [hd.1]; exact h1, r1, hk, rfl, rfl⟩⟩

/-- **C71** a residual exists exactly above the threshold, for a positive value and a positive background; there is only one, its
momentum is below 5 exactly when the energy `t / (2 m) - m` of the particle is below that of the momentum 5, its value has the sign
of the difference of the cross sections, and the error is positive for a positive error. -/
theorem C71_residual {k : Constants} (hm : 0 < k.mass) (hα : k.alpha ≠ 0) {x : Datapoint × ℝ × ℝ} {t b : ℝ} (hx : x.1.At t) :
    ((∃ q, IsResidual k x b q) ↔ 4 * k.mass ^ 2 < t ∧ 0 < x.2.1 ∧ 0 < b) ∧
    (∀ q q', IsResidual k x b q → IsResidual k x b q' → q = q') ∧
    (∀ q, IsResidual k x b q → (q.1.place < 5 ↔ t / (2 * k.mass) - k.mass < Real.sqrt (25 + k.mass ^ 2)) ∧
      (0 < q.2.1 ↔ b < x.2.1) ∧ (q.2.1 = 0 ↔ x.2.1 = b) ∧ (0 < x.2.2 → 0 < q.2.2)) := by
  have hiff := fun {q} => isResidual_iff hm hα hx (b := b) (q := q)
  refine ⟨?_, ?_, ?_⟩
  · constructor
    · rintro ⟨q, hq⟩
      have := (hiff.mp hq).1
      unfold ResOk at this
      rw [hx.place] at this
      exact this
    · intro hr
      refine ⟨_, hiff.mpr ⟨?_, rfl⟩⟩
      unfold ResOk
      rw [hx.place]
      exact hr
  · intro q q' hq hq'
    rw [(hiff.mp hq).2, (hiff.mp hq').2]
  · rintro q ⟨t', p, g, g₀, h1, h2, h3, h4, h5, rfl⟩
    have : t' = t := by rw [← h1.place, hx.place]
    subst this
    have ht0 : 0 < t' := lt_trans (by positivity) h4.1
    have he : k.mass < t' / (2 * k.mass) - k.mass := by
      rw [lt_sub_iff_add_lt, lt_div_iff₀ (by positivity)]
      have := h4.1
      nlinarith
    have hb0 := Real.sqrt_pos.mpr (show 0 < 1 - 4 * k.mass ^ 2 / t' by rw [sub_pos, div_lt_one ht0]; exact h4.1)
    have hpi := Real.pi_pos
    have hC : 0 < 1 * (4 * Real.pi * k.alpha ^ 2 * Real.sqrt (1 - 4 * k.mass ^ 2 / t') / (3 * t')) * (1 + 2 * k.mass ^ 2 / t') := by positivity
    have hs : ∀ g : ℝ, nucleonSigma k.mass k.alpha 1 t' g g =
        1 * (4 * Real.pi * k.alpha ^ 2 * Real.sqrt (1 - 4 * k.mass ^ 2 / t') / (3 * t')) * (1 + 2 * k.mass ^ 2 / t') * g ^ 2 := by
      intro g; unfold nucleonSigma; ring
    have hy := h4.2.2
    have hb := h5.2.2
    rw [hs] at hy hb
    generalize 1 * (4 * Real.pi * k.alpha ^ 2 * Real.sqrt (1 - 4 * k.mass ^ 2 / t') / (3 * t')) * (1 + 2 * k.mass ^ 2 / t') = C at *
    have hg := h4.2.1
    have hg0 := h5.2.1
    refine ⟨?_, ?_, ?_, ?_⟩
    · rw [(h1.moved p).2, Real.lt_sqrt (le_of_lt (hm.trans he)), h3]
      constructor
      · intro h; nlinarith
      · intro h
        by_contra hn
        rw [not_lt] at hn
        nlinarith
    · dsimp only
      rw [← hy, ← hb, mul_lt_mul_iff_right₀ hC, sub_pos]
      exact ⟨fun h => pow_lt_pow_left₀ h hg0.le two_ne_zero, fun h => lt_of_pow_lt_pow_left₀ 2 hg.le h⟩
    · dsimp only
      rw [← hy, ← hb, sub_eq_zero]
      constructor
      · rintro rfl; rfl
      · intro h
        exact (pow_left_inj₀ hg.le hg0.le two_ne_zero).mp (mul_left_cancel₀ hC.ne' h)
    · intro he'
      have : 0 < b := by rw [← hb]; positivity
      dsimp only
      positivity

/-- A task with one point, at `t = 5` with mass 1 (energy `3 / 2`): its set-up succeeds, and the hypotheses of the theorems hold. -/
example : ∃ (self task : Task) (w₁ : World) (l : List (Datapoint × ℝ × ℝ)), self.cls = .residual ∧
    (startWorld [quiet]).heap[self.parameters]? = some quiet ∧ Reachable quiet ∧ 0 < self.constants.mass ∧ self.constants.alpha ≠ 0 ∧
    self.Data l ∧ OneKind (l.map (·.1)) ∧ self.setUp (startWorld [quiet]) = (.ok task, w₁) := by
  obtain ⟨y, hy, hcs⟩ := quiet_crossSection (reachable_wellFormed quiet_reachable) quiet_values rfl true
  obtain ⟨q, hq⟩ := (C71_residual (k := ⟨1, 1, 1⟩) one_pos one_ne_zero (x := (.nucleon 5 true true, 1, 1)) (t := 5) (b := y)
    (show (5 : ℂ) = ((5 : ℝ) : ℂ) by norm_num)).1.mpr ⟨by norm_num, by norm_num, hy⟩
  have hq5 : q.1.place < 5 := by
    rw [((C71_residual (k := ⟨1, 1, 1⟩) one_pos one_ne_zero (x := (.nucleon 5 true true, 1, 1)) (t := 5) (b := y)
      (show (5 : ℂ) = ((5 : ℝ) : ℂ) by norm_num)).2.2 q hq).1, Real.lt_sqrt (by norm_num)]
    norm_num
  have ho : OneKind [Datapoint.nucleon 5 true true] := Or.inr ⟨[(5, true, true)], by simp, by simp⟩
  obtain ⟨task, w₁, hset⟩ := (C71_residuals
    (self := { polesTask 0 1 with cls := .residual, ts := [.nucleon 5 true true], ys := [1], errors := [1], constants := ⟨1, 1, 1⟩ })
    (w := startWorld [quiet]) (l := [(.nucleon 5 true true, 1, 1)]) rfl rfl quiet_reachable one_pos one_ne_zero ⟨rfl, rfl, rfl⟩ ho).2
      [y] [q] hcs (.cons hq .nil) ⟨q, by simp, hq5⟩
  exact ⟨_, task, w₁, [(.nucleon 5 true true, 1, 1)], rfl, rfl, quiet_reachable, one_pos, one_ne_zero, ⟨rfl, rfl, rfl⟩, ho, hset⟩

/-- **C71** what the set-up does to the objects: the background parameters keep their values and are all fixed; the task gets a new
object with the four free values 100, 2, 5, 0; all other objects, the files and the output stay. -/
theorem C71_state {self task : Task} {w w₁ : World} {p : ModelParameters ℝ} {l : List (Datapoint × ℝ × ℝ)} (hc : self.cls = .residual)
    (h : w.heap[self.parameters]? = some p) (hp : Reachable p) (hm : 0 < self.constants.mass) (hα : self.constants.alpha ≠ 0)
    (hd : self.Data l) (ho : OneKind (l.map (·.1))) (hset : self.setUp w = (.ok task, w₁)) :
    (∃ q, w₁.heap[self.parameters]? = some q ∧ q.toList = p.toList.map (fun r => ⟨r.name, r.value, true⟩) ∧ q.cls = p.cls) ∧
    (∃ o, w₁.heap[task.parameters]? = some o ∧ o.cls = .oscillations ∧
      o.toList = [⟨"a", 100, false⟩, ⟨"b", 2, false⟩, ⟨"c", 5, false⟩, ⟨"d", 0, false⟩]) ∧ w.heap.length ≤ task.parameters ∧
    (∀ i, i ≠ self.parameters → i < w.heap.length → w₁.heap[i]? = w.heap[i]?) ∧ w₁.fs = w.fs ∧ w₁.stdout = w.stdout := by
  obtain ⟨bs, -, -, -, rfl, rfl⟩ := (setUpResidual_iff hc h hp hm hα hd ho).mp hset
  have hl := heap_set_append h
  refine ⟨⟨p.fixAllParameters, ?_, rfl, rfl⟩, ⟨startOscillations, ?_, rfl, rfl⟩, Nat.le_succ _, ?_, rfl, rfl⟩
  · show (w.heap.set self.parameters p.fixAllParameters ++ [p.fixAllParameters] ++ [startOscillations])[self.parameters]? = _
    rw [List.append_assoc, List.getElem?_append_left (by simpa using hl), List.getElem?_set_self hl]
  · show (w.heap.set self.parameters p.fixAllParameters ++ [p.fixAllParameters] ++ [startOscillations])[w.heap.length + 1]? = _
    have : w.heap.length + 1 = (w.heap.set self.parameters p.fixAllParameters ++ [p.fixAllParameters]).length := by simp
    rw [this]
    exact List.getElem?_concat_length
  · intro i hi hil
    show (w.heap.set self.parameters p.fixAllParameters ++ [p.fixAllParameters] ++ [startOscillations])[i]? = _
    rw [List.append_assoc, List.getElem?_append_left (by simpa using hil), List.getElem?_set_ne hi.symm]

/-- **C71** the function to be fitted is the damped oscillation in the momentum; `l` pairs points (named, or rows as the fitting
library makes of them) with their momenta. It changes nothing, so the background is not touched by the fit. -/
theorem C71_function {self task : Task} {w w₁ : World} {p : ModelParameters ℝ} {l : List (Datapoint × ℝ × ℝ)} (hc : self.cls = .residual)
    (h : w.heap[self.parameters]? = some p) (hp : Reachable p) (hm : 0 < self.constants.mass) (hα : self.constants.alpha ≠ 0)
    (hd : self.Data l) (ho : OneKind (l.map (·.1))) (hset : self.setUp w = (.ok task, w₁)) :
    ∃ f, task.partial_f = some f ∧ ∀ (points : List (Datapoint × ℝ)) (a b c d : ℝ),
      (∀ q ∈ points, q.1.At q.2 ∨ ∃ d : Datapoint, d.At q.2 ∧ q.1 = d.toRow) →
      f.call (points.map (·.1)) [a, b, c, d] w₁ = (.ok (points.map fun q => a * Real.exp (-(b * q.2)) * Real.cos (c * q.2 + d)), w₁) := by
  obtain ⟨⟨-, -⟩, ⟨o, ho1, ho2, ho3⟩, -⟩ := C71_state hc h hp hm hα hd ho hset
  obtain ⟨bs, -, -, -, rfl, -⟩ := (setUpResidual_iff hc h hp hm hα hd ho).mp hset
  refine ⟨_, rfl, fun points a b c d hpt => ?_⟩
  show (do let p ← readParams (w.heap.length + 1); PyM.lift (oscillationsPartial p (points.map Prod.fst) [a, b, c, d])) w₁ = _
  rw [PyM.bind_ok (readParams_run (ref := w.heap.length + 1) ho1), PyM.lift_run]
  congr 1
  exact oscillationsPartial_points ho3 points a b c d hpt

/-- **C71** (with **C55** for this class of tasks) the run after the set-up: an optimum `a, b, c, d` of the fitting library becomes the
values of the task's own object, and the report is finished, with the chi squared (`inf` or `nan` for a division by zero) and the sum of
squares of the residuals at the damped oscillation and the square roots of the diagonal of the covariance matrix; after
a `RuntimeError` the report says so; in all cases the background parameters have their values from before. -/
theorem C71_run {self task : Task} {w w₁ : World} {p : ModelParameters ℝ} {l : List (Datapoint × ℝ × ℝ)} (hc : self.cls = .residual)
    (h : w.heap[self.parameters]? = some p) (hp : Reachable p) (hm : 0 < self.constants.mass) (hα : self.constants.alpha ≠ 0)
    (hd : self.Data l) (ho' : OneKind (l.map (·.1))) (hset : self.setUp w = (.ok task, w₁)) (env : Env) :
    ∃ momenta bounds, task.ts_fit.map Datapoint.place = momenta ∧ bounds.2 = [⊤, ⊤, ⊤, ⊤] ∧
      bounds.1 = (if self.use_handpicked_bounds then [⊥, ((0 : ℝ) : WithBot ℝ), ((0 : ℝ) : WithBot ℝ), ⊥] else [⊥, ⊥, ⊥, ⊥]) ∧
      ∀ outcome, outcome = (env.curve_fit w.fits ⟨task.ts_fit.map Datapoint.toRow, task.ys_fit, [100, 2, 5, 0], task.errors_fit, bounds⟩).outcome
        (dampedValues momenta) →
      (∃ q, (self.run env w).2.heap[self.parameters]? = some q ∧ q.getAllValues = p.getAllValues ∧ q.names = p.names) ∧
      (∀ message, outcome = .error (.runtimeError, message) → ∃ t', (self.run env w).1 = .ok t' ∧
        t'.report = { self.report with status := "failed", error_message := some message }) ∧
      (∀ e message, outcome = .error (e, message) → e ≠ .runtimeError → (self.run env w).1 = .error e) ∧
      (∀ a b c d cov, outcome = .ok ([a, b, c, d], cov) →
        (∃ o, (self.run env w).2.heap[task.parameters]? = some o ∧
          o.toList = [⟨"a", a, false⟩, ⟨"b", b, false⟩, ⟨"c", c, false⟩, ⟨"d", d, false⟩]) ∧
        ∀ residuals, task.Data residuals →
          (self.reports_dir = none ∨ self.reports_dir = some "" ∨ env.plot w.plots = .ok ()) →
          ∃ t', (self.run env w).1 = .ok t' ∧ t'.report.status = "finished" ∧
            t'.report.chi_squared = some (env.strFloat (reportedChiSquared (residuals.map (·.2.1))
              (residuals.map fun q => a * Real.exp (-(b * q.1.place)) * Real.cos (c * q.1.place + d)) (residuals.map (·.2.2)) 4)) ∧
            t'.report.r2 = some (env.strFloat (.finite (sumOfSquares (residuals.map (·.2.1))
              (residuals.map fun q => a * Real.exp (-(b * q.1.place)) * Real.cos (c * q.1.place + d))))) ∧
            ((∀ row ∈ cov, row.length = cov.length) → ∃ errors, t'.report.parameter_errors = some errors ∧ IsDiagonalRoots cov errors) ∧
            t'.report.covariance_matrix = some cov ∧ t'.report.parameter_list = [a, b, c, d]) := by
  obtain ⟨bs, hb1, hb2, hb3, rfl, rfl⟩ := (setUpResidual_iff hc h hp hm hα hd ho').mp hset
  obtain ⟨⟨q, hq1, hq2, -⟩, ⟨o, ho1, ho2, ho3⟩, hlen, -⟩ := C71_state hc h hp hm hα hd ho' hset
  have hl := heap_set_append h
  have hro : Reachable startOscillations := .init (c := .oscillations) (kw := [("a", (100 : ℝ)), ("b", 2), ("c", 5), ("d", 0)]) rfl
  have hs : (residualWorld self p w).heap[w.heap.length + 1]? = some startOscillations := by
    show (w.heap.set self.parameters p.fixAllParameters ++ [p.fixAllParameters] ++ [startOscillations])[w.heap.length + 1]? = _
    have : w.heap.length + 1 = (w.heap.set self.parameters p.fixAllParameters ++ [p.fixAllParameters]).length := by simp
    rw [this]
    exact List.getElem?_concat_length
  have hbd := startOscillations_bounds self.use_handpicked_bounds
  obtain ⟨c1, c2, c3, c4, c5, -⟩ := run_cases hset rfl hs hro ⟨rfl, rfl, hro, _, hs, hro, .refl _⟩ hbd env
  have hatk : ∀ q ∈ keptResiduals self.constants (l.zip bs), q.1.At q.1.place := by
    intro q hq
    obtain ⟨x, hx, rfl⟩ := List.mem_map.mp (List.mem_filter.mp hq).1
    have hx' := (ho'.at (List.mem_map_of_mem (f := fun x : Datapoint × ℝ × ℝ => x.1) (List.of_mem_zip (a := x.1) (b := x.2) hx).1)).2
    have := hx'.moved (momentumOf self.constants.mass x.1.1.place)
    show (x.1.1.moved _).At (x.1.1.moved _).place
    rw [this.2]; exact this.1
  have hf := oscillationsPartial_damped ((keptResiduals self.constants (l.zip bs)).map fun q => (q.1.toRow, q.1.place)) (by
    intro x hx
    obtain ⟨q, hq, rfl⟩ := List.mem_map.mp hx
    exact Or.inr ⟨q.1, hatk q hq, rfl⟩)
  rw [List.map_map, List.map_map] at hf
  refine ⟨_, (_, _), rfl, rfl, rfl, fun outcome hout => ?_⟩
  have hov : (env.curve_fit (residualWorld self p w).fits ((residualTask self (keptResiduals self.constants (l.zip bs)) (w.heap.length + 1)).problem
      startOscillations (if self.use_handpicked_bounds then [⊥, ((0 : ℝ) : WithBot ℝ), ((0 : ℝ) : WithBot ℝ), ⊥] else [⊥, ⊥, ⊥, ⊥], [⊤, ⊤, ⊤, ⊤]))).outcome
      ((TaskF.oscillations (w.heap.length + 1)).value startOscillations
        ((residualTask self (keptResiduals self.constants (l.zip bs)) (w.heap.length + 1)).ts_fit.map Datapoint.toRow)) = outcome := by
    rw [hout]
    congr 1
    show oscillationsPartial startOscillations (((keptResiduals self.constants (l.zip bs)).map (·.1)).map Datapoint.toRow) =
      dampedValues (((keptResiduals self.constants (l.zip bs)).map (·.1)).map Datapoint.place)
    rw [List.map_map, List.map_map]
    exact hf
  rw [hov] at c1 c2
  refine ⟨⟨q, ?_, ?_, ?_⟩, fun message ho => ?_, fun e message ho he => ?_, fun a b c d cov ho => ⟨?_, ?_⟩⟩
  rotate_left 3
  · have := (c1 _ _ ho).2
    rw [if_pos rfl] at this
    exact ⟨_, this, rfl⟩
  · have := (c1 _ _ ho).2
    rw [if_neg he] at this
    exact this
  · exact ⟨_, (c2 _ _ ho).1, rfl⟩
  · intro residuals hres hplot
    obtain ⟨ordered, hord, hr⟩ := (c2 _ _ ho).2 () rfl
    have hord' : ordered = [a, b, c, d] := by
      have : (startOscillations.updateFreeValues [a, b, c, d]).2.getOrderedValues = .ok [a, b, c, d] := rfl
      rw [this] at hord
      injection hord with hord
      exact hord.symm
    have hat : ∀ q ∈ residuals, q.1.At q.1.place := by
      intro q hq
      have : q.1 ∈ (residualTask self (keptResiduals self.constants (l.zip bs)) (w.heap.length + 1)).ts := by
        rw [hres.1]; exact List.mem_map_of_mem (f := fun q : Datapoint × ℝ × ℝ => q.1) hq
      obtain ⟨q', hq', heq⟩ := List.mem_map.mp this
      rw [← heq]
      exact hatk q' hq'
    have hval : (TaskF.oscillations (w.heap.length + 1)).value startOscillations
        (residualTask self (keptResiduals self.constants (l.zip bs)) (w.heap.length + 1)).ts [a, b, c, d] =
        .ok (residuals.map fun q => a * Real.exp (-(b * q.1.place)) * Real.cos (c * q.1.place + d)) := by
      rw [hres.1]
      have := oscillationsPartial_points (o := startOscillations) rfl (residuals.map fun q => (q.1, q.1.place)) a b c d (by
        intro x hx
        obtain ⟨q, hq, rfl⟩ := List.mem_map.mp hx
        exact Or.inl (hat q hq))
      rw [List.map_map, List.map_map] at this
      exact this
    rw [hval] at hr
    dsimp only at hr
    rw [hres.2.1, hres.2.2] at hr
    rw [show env.numpyAt (.oscillations (w.heap.length + 1)) ((residualWorld self p w).fits + 1) = true from rfl, chiSquared_numpy (by simp)] at hr
    dsimp only at hr
    have hpl : (if (residualTask self (keptResiduals self.constants (l.zip bs)) (w.heap.length + 1)).reports_dir = none ∨
        (residualTask self (keptResiduals self.constants (l.zip bs)) (w.heap.length + 1)).reports_dir = some "" then .ok ()
        else env.plot (residualWorld self p w).plots) = (.ok () : Except PyErr Unit) := by
      rcases hplot with hpl | hpl | hpl
      · exact if_pos (Or.inl hpl)
      · exact if_pos (Or.inr hpl)
      · rw [show (residualWorld self p w).plots = w.plots from rfl, hpl, ite_self]
    rw [hpl] at hr
    exact ⟨_, hr, rfl, rfl, by rw [← sumOfSquares_eq]; rfl, fun hsq => ⟨_, rfl, parameterErrors_diagonal hsq⟩, rfl, hord'⟩
  · rw [c4 self.parameters (by show self.parameters ≠ w.heap.length + 1; omega) (fun _ h => by cases h)]
    exact hq1
  · show q.toList.map (·.value) = p.toList.map (·.value)
    rw [hq2, List.map_map]; rfl
  · show q.toList.map (·.name) = p.toList.map (·.name)
    rw [hq2, List.map_map]; rfl

end UA
