import Verif.Props.Residual
import Verif.Lemmas.RunsPipeline

/-!
# Helper lemmas: how the residual task can fail
-/

namespace UA

open Complex

theorem transform_zero {m α err t : ℝ} (hm : m ≠ 0) (hα : α ≠ 0) (ht : 4 * m ^ 2 < t) :
    transformToEffectiveFormFactor m α 0 err t = .error .zeroDivisionError := by
  have hm2 : 0 < 4 * m ^ 2 := by positivity
  have hpi := Real.pi_pos
  have ht0 : 0 < t := hm2.trans ht
  unfold transformToEffectiveFormFactor
  have htau : t / (4 * m ^ 2) ≠ 0 := by positivity
  have hr : 0 < 1 - 4 * m ^ 2 / t := by rw [sub_pos, div_lt_one ht0]; exact ht
  have hb := Real.sqrt_pos.mpr hr
  have hden : 2 * Real.pi * α ^ 2 * Real.sqrt (1 - 4 * m ^ 2 / t) * (2 + 4 * m ^ 2 / t) ≠ 0 := by positivity
  rw [pyDivR_ok hm2.ne', except_ok_bind, pyDivR_ok htau, one_div_div, except_ok_bind, pySqrt_ok hr.le]
  simp only [except_ok_bind]
  rw [pyDivR_ok hden, except_ok_bind, pyDivR_ok hden, except_ok_bind]
  rw [mul_zero, zero_div, pySqrt_ok le_rfl, Real.sqrt_zero, except_ok_bind, pyDivR_zero]
  rfl

theorem transformAll_error {k : Constants} (hm : 0 < k.mass) (hα : k.alpha ≠ 0) {β : Type} (L : List β) (cs err : β → ℝ) (d : β → Datapoint)
    (h : ∀ x ∈ L, 4 * k.mass ^ 2 < (d x).place ∧ (d x).At (d x).place ∧ 0 ≤ cs x) {e : PyErr}
    (he : transformAll k (L.map cs) (L.map err) (L.map d) = .error e) : e = .zeroDivisionError := by
  unfold transformAll at he
  rw [zip3_map, mapM_map] at he
  obtain ⟨x, hx, he⟩ := mapM_eq_error he
  obtain ⟨h1, h2, h3⟩ := h x hx
  dsimp only at he
  rw [attr_float h2] at he
  rcases h3.eq_or_lt with h3 | h3
  · rw [← h3, transform_zero hm.ne' hα h1] at he
    injection he with he
    exact he.symm
  · rw [(transform_iff hm.ne' hα (le_of_lt (lt_trans (by positivity) h1))).mpr ⟨h1, h3, rfl⟩] at he
    cases he

/-- The set-up of the residual task. -/
theorem setUpResidual_error {self : Task} {w : World} {p : ModelParameters ℝ} {l : List (Datapoint × ℝ × ℝ)} (hc : self.cls = .residual)
    (h : w.heap[self.parameters]? = some p) (hp : Reachable p) (hm : 0 < self.constants.mass) (hα : self.constants.alpha ≠ 0)
    (hd : self.Data l) (ho : OneKind (l.map (·.1))) (habove : ∀ x ∈ l, 4 * self.constants.mass ^ 2 < x.1.place) (hpos : ∀ x ∈ l, 0 < x.2.1)
    (hsmall : ∃ x ∈ l, momentumOf self.constants.mass x.1.place < 5)
    (hcs : ∀ e, functionCrossSection self.ts self.constants.mass self.constants.alpha self.constants.hc_squared p = .error e → e = .zeroDivisionError)
    {e : PyErr} {w₁ : World} (hset : self.setUp w = (.error e, w₁)) : e = .zeroDivisionError := by
  have hfix : Reachable p.fixAllParameters := .step .fixAll hp
  have hl := heap_set_append h
  have hset' : self.setUp = self.setUpResidual := by unfold Task.setUp; rw [hc]
  rcases hb : functionCrossSection self.ts self.constants.mass self.constants.alpha self.constants.hc_squared p with e' | bs
  · rw [hset'] at hset
    unfold Task.setUpResidual at hset
    rw [PyM.bind_ok (mutateParams_run h _)] at hset
    have hp1 : (w.heap.set self.parameters p.fixAllParameters)[self.parameters]? = some p.fixAllParameters := List.getElem?_set_self hl
    rw [PyM.bind_ok (makePartialIn_run (w := { w with heap := w.heap.set self.parameters p.fixAllParameters }) hp1 hfix _)] at hset
    rw [PyM.bind_run, callPartialIn_run (q := p.fixAllParameters) (by exact List.getElem?_concat_length)] at hset
    have hps : partialSpec self.csKind p.fixAllParameters self.ts [] =
        functionCrossSection self.ts self.constants.mass self.constants.alpha self.constants.hc_squared p := by
      unfold partialSpec
      rw [fixAll_update]
      exact functionCrossSection_fixAll p _ _ _ _
    rw [hps, fixAll_update, hb] at hset
    injection hset with h1 _
    injection h1 with h1
    rw [← h1]
    exact hcs e' hb
  · have hpt := (C51_pointwise hp (.crossSection self.constants.mass self.constants.alpha self.constants.hc_squared)).2 hb
    have hlen : bs.length = l.length := by rw [hpt.1, hd.1, List.length_map]
    by_cases hall : ∀ b ∈ bs, 0 < b
    · -- the set-up succeeds
      have hres : ∀ x ∈ l.zip bs, ResOk self.constants x := fun x hx => by
        have hx' := List.of_mem_zip (a := x.1) (b := x.2) hx
        exact ⟨habove _ hx'.1, hpos _ hx'.1, hall _ hx'.2⟩
      have hkept : keptResiduals self.constants (l.zip bs) ≠ [] := by
        obtain ⟨x, hx, hx5⟩ := hsmall
        have hx1 : x ∈ (l.zip bs).map Prod.fst := by rw [List.map_fst_zip (by omega)]; exact hx
        obtain ⟨y, hy, rfl⟩ := List.mem_map.mp hx1
        have hat := (ho.at (List.mem_map_of_mem (f := fun x : Datapoint × ℝ × ℝ => x.1) hx)).2
        refine List.ne_nil_of_mem (a := resVal self.constants y) (List.mem_filter.mpr ⟨List.mem_map_of_mem hy, ?_⟩)
        have : (resVal self.constants y).1.place = momentumOf self.constants.mass y.1.1.place := (hat.moved _).2
        simpa [this] using hx5
      have := (setUpResidual_iff hc h hp hm hα hd ho).mpr ⟨bs, hb, hres, hkept, rfl, rfl⟩
      rw [hset] at this
      injection this with h1 _
      cases h1
    · rw [hset'] at hset
      unfold Task.setUpResidual at hset
      rw [PyM.bind_ok (mutateParams_run h _)] at hset
      have hp1 : (w.heap.set self.parameters p.fixAllParameters)[self.parameters]? = some p.fixAllParameters := List.getElem?_set_self hl
      rw [PyM.bind_ok (makePartialIn_run (w := { w with heap := w.heap.set self.parameters p.fixAllParameters }) hp1 hfix _)] at hset
      rw [PyM.bind_run, callPartialIn_run (q := p.fixAllParameters) (by exact List.getElem?_concat_length)] at hset
      have hps : partialSpec self.csKind p.fixAllParameters self.ts [] =
          functionCrossSection self.ts self.constants.mass self.constants.alpha self.constants.hc_squared p := by
        unfold partialSpec
        rw [fixAll_update]
        exact functionCrossSection_fixAll p _ _ _ _
      rw [hps, fixAll_update, hb] at hset
      dsimp only at hset
      have z1 : (l.zip bs).map Prod.fst = l := List.map_fst_zip (by omega)
      have z2 : (l.zip bs).map (fun x => x.2) = bs := List.map_snd_zip (by omega)
      have e1 : self.ts = (l.zip bs).map (fun x => x.1.1) := by rw [hd.1, ← z1, List.map_map]; simp only [z1]; rfl
      have e3 : self.errors = (l.zip bs).map (fun x => x.1.2.2) := by rw [hd.2.2, ← z1, List.map_map]; simp only [z1]; rfl
      have hat : ∀ x ∈ l.zip bs, 4 * self.constants.mass ^ 2 < x.1.1.place ∧ x.1.1.At x.1.1.place ∧ 0 ≤ x.2 := by
        intro x hx
        have hx' := List.of_mem_zip (a := x.1) (b := x.2) hx
        exact ⟨habove _ hx'.1, (ho.at (List.mem_map_of_mem (f := fun x : Datapoint × ℝ × ℝ => x.1) hx'.1)).2, hpt.2 _ hx'.2⟩
      have t1 := fun {r} => transformAll_iff hm hα (l.zip bs) (fun x => x.2) (fun x => x.1.2.2) (fun x => x.1.1)
        (fun x hx => ⟨le_of_lt (lt_trans (by positivity) (hat x hx).1), (hat x hx).2.1⟩) (r := r)
      have t2 := fun {e} => transformAll_error hm hα (l.zip bs) (fun x => x.2) (fun x => x.1.2.2) (fun x => x.1.1) hat (e := e)
      rw [z2, ← e3, ← e1] at t1 t2
      rcases hT : transformAll self.constants bs self.errors self.ts with e' | r
      · rw [hT] at hset
        rw [PyM.bind_error (e := e') (by rfl)] at hset
        injection hset with h1 _
        injection h1 with h1
        rw [← h1]
        exact t2 hT
      · refine absurd (fun b hb => ?_) hall
        rw [← z2] at hb
        obtain ⟨x, hx, rfl⟩ := List.mem_map.mp hb
        exact ((t1.mp hT).1 x hx).2

theorem keptResiduals_length {k : Constants} {l : List (Datapoint × ℝ × ℝ)} {bs : List ℝ} (hlen : bs.length = l.length)
    (hat : ∀ x ∈ l, x.1.At x.1.place) :
    (keptResiduals k (l.zip bs)).length = (l.filter fun x => decide (momentumOf k.mass x.1.place < 5)).length := by
  conv_rhs => rw [← List.map_fst_zip (l₁ := l) (l₂ := bs) (by omega)]
  unfold keptResiduals
  rw [List.filter_map, List.filter_map, List.length_map, List.length_map]
  congr 1
  refine List.filter_congr fun x hx => ?_
  have hx0 := List.of_mem_zip (a := x.1) (b := x.2) hx
  have : (resVal k x).1.place = momentumOf k.mass x.1.1.place := ((hat _ hx0.1).moved _).2
  simp only [Function.comp, this]

/-- The whole residual task, its background parameters staying as they are; it fails only if the background cross sections cannot be
evaluated or are not all positive. -/
theorem residualTask_sat' {self : Task} {w : World} {p : ModelParameters ℝ} {l : List (Datapoint × ℝ × ℝ)} (hc : self.cls = .residual)
    (h : w.heap[self.parameters]? = some p) (hp : Reachable p) (hm : 0 < self.constants.mass) (hα : self.constants.alpha ≠ 0)
    (hd : self.Data l) (ho : OneKind (l.map (·.1))) (habove : ∀ x ∈ l, 4 * self.constants.mass ^ 2 < x.1.place) (hpos : ∀ x ∈ l, 0 < x.2.1)
    (herr : ∀ x ∈ l, x.2.2 ≠ 0) (hsmall : ∃ x ∈ l, momentumOf self.constants.mass x.1.place < 5)
    (hcs : ∀ e, functionCrossSection self.ts self.constants.mass self.constants.alpha self.constants.hc_squared p = .error e → e = .zeroDivisionError)
    {env : Env} {S : Set ℝ} (henv : env.FitsInside S) (hplot : ∀ k, env.plot k = .ok ()) :
    (self.run env).Sat w (fun _ w' => w'.heap[self.parameters]? = some p.fixAllParameters) (fun e => e = .zeroDivisionError ∧
      ¬ ∃ bs, functionCrossSection self.ts self.constants.mass self.constants.alpha self.constants.hc_squared p = .ok bs ∧ ∀ b ∈ bs, 0 < b) := by
  have hats : ∀ x ∈ l, x.1.At x.1.place := fun x hx => (ho.at (List.mem_map_of_mem (f := fun x : Datapoint × ℝ × ℝ => x.1) hx)).2
  have hlens : ∀ {bs}, functionCrossSection self.ts self.constants.mass self.constants.alpha self.constants.hc_squared p = .ok bs →
      bs.length = l.length := fun {bs} hb => by
    have hpt := (C51_pointwise hp (.crossSection self.constants.mass self.constants.alpha self.constants.hc_squared)).2 hb
    rw [hpt.1, hd.1, List.length_map]
  rcases hset : self.setUp w with ⟨e | task, w₁⟩
  · have := setUpResidual_error hc h hp hm hα hd ho habove hpos hsmall hcs hset
    unfold PyM.Sat Task.run
    rw [PyM.bind_error hset]
    refine ⟨this, ?_⟩
    rintro ⟨bs, hb, hall⟩
    have hlen := hlens hb
    have hres : ∀ x ∈ l.zip bs, ResOk self.constants x := fun x hx => by
      have hx' := List.of_mem_zip (a := x.1) (b := x.2) hx
      exact ⟨habove _ hx'.1, hpos _ hx'.1, hall _ hx'.2⟩
    have hkept : keptResiduals self.constants (l.zip bs) ≠ [] := by
      obtain ⟨x, hx, hx5⟩ := hsmall
      rw [← List.length_pos_iff, keptResiduals_length hlen hats, List.length_pos_iff]
      exact List.ne_nil_of_mem (List.mem_filter.mpr ⟨hx, by simpa using hx5⟩)
    have := (setUpResidual_iff hc h hp hm hα hd ho).mpr ⟨bs, hb, hres, hkept, rfl, rfl⟩
    rw [hset] at this
    injection this with h1 _
    cases h1
  obtain ⟨bs, hb1, hb2, hb3, rfl, rfl⟩ := (setUpResidual_iff hc h hp hm hα hd ho).mp hset
  have hl := heap_set_append h
  have hro : Reachable startOscillations := .init (c := .oscillations) (kw := [("a", (100 : ℝ)), ("b", 2), ("c", 5), ("d", 0)]) rfl
  have hs : (residualWorld self p w).heap[w.heap.length + 1]? = some startOscillations := by
    show (w.heap.set self.parameters p.fixAllParameters ++ [p.fixAllParameters] ++ [startOscillations])[w.heap.length + 1]? = _
    have : w.heap.length + 1 = (w.heap.set self.parameters p.fixAllParameters ++ [p.fixAllParameters]).length := by simp
    rw [this]
    exact List.getElem?_concat_length
  have hbd := startOscillations_bounds self.use_handpicked_bounds
  set kept := keptResiduals self.constants (l.zip bs) with hkept
  set task := residualTask self kept (w.heap.length + 1) with htask
  set w₁ := residualWorld self p w with hw₁
  have hq1 : w₁.heap[self.parameters]? = some p.fixAllParameters := by
    show (w.heap.set self.parameters p.fixAllParameters ++ [p.fixAllParameters] ++ [startOscillations])[self.parameters]? = _
    rw [List.append_assoc, List.getElem?_append_left (by simpa using hl), List.getElem?_set_self hl]
  obtain ⟨c1, c2, c3, c4, c5, -⟩ := run_cases hset rfl hs hro ⟨rfl, rfl, hro, _, hs, hro, .refl _⟩ hbd env
  have hback : (self.run env w).2.heap[self.parameters]? = some p.fixAllParameters := by
    rw [c4 self.parameters (by show self.parameters ≠ w.heap.length + 1; omega) (fun _ h => by cases h)]
    exact hq1
  have hatk : ∀ q ∈ kept, q.1.At q.1.place ∧ q.2.2 ≠ 0 := by
    intro q hq
    obtain ⟨x, hx, rfl⟩ := List.mem_map.mp (List.mem_filter.mp hq).1
    have hx0 := List.of_mem_zip (a := x.1) (b := x.2) hx
    have hx' := (ho.at (List.mem_map_of_mem (f := fun x : Datapoint × ℝ × ℝ => x.1) hx0.1)).2
    have := hx'.moved (momentumOf self.constants.mass x.1.1.place)
    constructor
    · show (x.1.1.moved _).At (x.1.1.moved _).place
      rw [this.2]; exact this.1
    · obtain ⟨r1, r2, r3⟩ := hb2 x hx
      exact div_ne_zero (mul_ne_zero (herr _ hx0.1) (effFF_pos hm.ne' hα r1 r3).ne') (mul_ne_zero two_ne_zero r3.ne')
  -- the damped oscillation is defined everywhere
  have hdamped : ∀ (f : Datapoint → Datapoint), (∀ d, f d = d ∨ f d = d.toRow) → ∀ a b c d : ℝ,
      ∃ rs, oscillationsPartial startOscillations ((kept.map (·.1)).map f) [a, b, c, d] = .ok rs ∧ rs.length = kept.length := by
    intro f hf a b c d
    have := oscillationsPartial_points (o := startOscillations) rfl (kept.map fun q => (f q.1, q.1.place)) a b c d (by
      intro x hx
      obtain ⟨q, hq, rfl⟩ := List.mem_map.mp hx
      rcases hf q.1 with h | h
      · exact Or.inl (by dsimp only; rw [h]; exact (hatk q hq).1)
      · exact Or.inr ⟨q.1, (hatk q hq).1, h⟩)
    rw [List.map_map] at this
    rw [List.map_map]
    exact ⟨_, this, by simp⟩
  have hfour : ∀ args : List ℝ, StrictlyInside (if self.use_handpicked_bounds then [⊥, ((0 : ℝ) : WithBot ℝ), ((0 : ℝ) : WithBot ℝ), ⊥] else [⊥, ⊥, ⊥, ⊥],
      ([⊤, ⊤, ⊤, ⊤] : List (WithTop ℝ))) args → ∃ a b c d, args = [a, b, c, d] := by
    intro args ha
    have := ha.length_eq
    match args, this with
    | [a, b, c, d], _ => exact ⟨a, b, c, d, rfl⟩
    | [], h => split at h <;> simp at h
    | [_], h => split at h <;> simp at h
    | [_, _], h => split at h <;> simp at h
    | [_, _, _], h => split at h <;> simp at h
    | _ :: _ :: _ :: _ :: _ :: _, h => split at h <;> simp at h
  have hstart : StrictlyInside (if self.use_handpicked_bounds then [⊥, ((0 : ℝ) : WithBot ℝ), ((0 : ℝ) : WithBot ℝ), ⊥] else [⊥, ⊥, ⊥, ⊥],
      ([⊤, ⊤, ⊤, ⊤] : List (WithTop ℝ))) [100, 2, 5, 0] := by
    unfold StrictlyInside
    have h2 : ((0 : ℝ) : WithBot ℝ) < ((2 : ℝ) : WithBot ℝ) := WithBot.coe_lt_coe.mpr (by norm_num)
    have h5 : ((0 : ℝ) : WithBot ℝ) < ((5 : ℝ) : WithBot ℝ) := WithBot.coe_lt_coe.mpr (by norm_num)
    split_ifs
    · exact .cons ⟨WithBot.bot_lt_coe _, WithTop.coe_lt_top _⟩ (.cons ⟨h2, WithTop.coe_lt_top _⟩ (.cons ⟨h5, WithTop.coe_lt_top _⟩
        (.cons ⟨WithBot.bot_lt_coe _, WithTop.coe_lt_top _⟩ .nil)))
    · exact .cons ⟨WithBot.bot_lt_coe _, WithTop.coe_lt_top _⟩ (.cons ⟨WithBot.bot_lt_coe _, WithTop.coe_lt_top _⟩
        (.cons ⟨WithBot.bot_lt_coe _, WithTop.coe_lt_top _⟩ (.cons ⟨WithBot.bot_lt_coe _, WithTop.coe_lt_top _⟩ .nil)))
  set bounds : List (WithBot ℝ) × List (WithTop ℝ) :=
    (if self.use_handpicked_bounds then [⊥, ((0 : ℝ) : WithBot ℝ), ((0 : ℝ) : WithBot ℝ), ⊥] else [⊥, ⊥, ⊥, ⊥], [⊤, ⊤, ⊤, ⊤]) with hbounds
  have hst : (env.curve_fit w₁.fits (task.problem startOscillations bounds)).Stays bounds S := by
    refine henv w₁.fits (task.problem startOscillations bounds) ?_ ?_ hstart
    · show (kept.map (·.1)).map Datapoint.toRow ≠ []
      simpa using hb3
    · show [_, _, _, _] ≠ []
      simp
  have hout := hst.outcome (E := False)
    (g := (TaskF.oscillations (w.heap.length + 1)).value startOscillations (task.ts_fit.map Datapoint.toRow))
    (fun args ha _ => by
      obtain ⟨a, b, c, d, rfl⟩ := hfour args ha
      obtain ⟨rs, hrs, -⟩ := hdamped Datapoint.toRow (fun _ => Or.inr rfl) a b c d
      exact Or.inl ⟨rs, hrs⟩)
  unfold PyM.Sat
  rcases hrun : self.run env w with ⟨r, w'⟩
  rw [hrun] at hback c1 c2
  rcases hoc : (env.curve_fit w₁.fits (task.problem startOscillations bounds)).outcome
    ((TaskF.oscillations (w.heap.length + 1)).value startOscillations (task.ts_fit.map Datapoint.toRow)) with ⟨e, m⟩ | ⟨opt, cov⟩
  · rw [hoc] at hout
    dsimp only at hout
    rcases hout with rfl | ⟨-, h⟩
    · have := (c1 _ _ hoc).2
      rw [if_pos rfl] at this
      dsimp only at this
      subst this
      exact hback
    · exact h.elim
  · rw [hoc] at hout
    obtain ⟨a, b, c, d, rfl⟩ := hfour opt hout.1
    obtain ⟨ordered, -, hr⟩ := (c2 _ _ hoc).2 () rfl
    obtain ⟨rs, hrs, hrl⟩ := hdamped id (fun _ => Or.inl rfl) a b c d
    rw [List.map_id] at hrs
    have hval : (TaskF.oscillations (w.heap.length + 1)).value startOscillations task.ts [a, b, c, d] = .ok rs := hrs
    rw [hval] at hr
    dsimp only at hr
    have hys : rs.length = task.ys.length := by
      show _ = (kept.map _).length
      rw [hrl, List.length_map]
    rw [show env.numpyAt (.oscillations (w.heap.length + 1)) (w₁.fits + 1) = true from rfl, chiSquared_numpy hys] at hr
    dsimp only at hr
    have hpl : (if task.reports_dir = none ∨ task.reports_dir = some "" then .ok () else env.plot w₁.plots) = (.ok () : Except PyErr Unit) := by
      split_ifs
      · rfl
      · exact hplot _
    rw [hpl] at hr
    dsimp only at hr
    subst hr
    exact hback

theorem residualTask_sat {self : Task} {w : World} {p : ModelParameters ℝ} {l : List (Datapoint × ℝ × ℝ)} (hc : self.cls = .residual)
    (h : w.heap[self.parameters]? = some p) (hp : Reachable p) (hm : 0 < self.constants.mass) (hα : self.constants.alpha ≠ 0)
    (hd : self.Data l) (ho : OneKind (l.map (·.1))) (habove : ∀ x ∈ l, 4 * self.constants.mass ^ 2 < x.1.place) (hpos : ∀ x ∈ l, 0 < x.2.1)
    (herr : ∀ x ∈ l, x.2.2 ≠ 0) (hsmall : ∃ x ∈ l, momentumOf self.constants.mass x.1.place < 5)
    (hcs : ∀ e, functionCrossSection self.ts self.constants.mass self.constants.alpha self.constants.hc_squared p = .error e → e = .zeroDivisionError)
    {env : Env} {S : Set ℝ} (henv : env.FitsInside S) (hplot : ∀ k, env.plot k = .ok ()) :
    (self.run env).Sat w (fun _ w' => w'.heap[self.parameters]? = some p.fixAllParameters) (· = .zeroDivisionError) := by
  have key := residualTask_sat' hc h hp hm hα hd ho habove hpos herr hsmall hcs henv hplot
  unfold PyM.Sat at key ⊢
  revert key
  rcases self.run env w with ⟨_ | _, _⟩
  · exact fun h => h.1
  · exact id

end UA
