import Verif.Lemmas.SingleFit

/-!
# Helper lemmas: whole runs of the scripts that do one fit
-/

namespace UA

/-- What an assertion about a run says about its two ways of ending. -/
theorem PyM.Sat.split {σ α : Type} {x : PyM σ α} {s : σ} {Q : α → σ → Prop} {E : PyErr → Prop} (h : x.Sat s Q E) :
    (∀ e s', x s = (.error e, s') → E e) ∧ ∀ a s', x s = (.ok a, s') → Q a s' := by
  unfold PyM.Sat at h
  constructor
  · intro e s' hx; rw [hx] at h; exact h
  · intro a s' hx; rw [hx] at h; exact h

/-- A run all of whose exceptions are excluded. -/
theorem PyM.completes_of {σ α : Type} {x : PyM σ α} {s : σ} (h : ∀ e s', x s ≠ (.error e, s')) : ∃ a s', x s = (.ok a, s') := by
  rcases hx : x s with ⟨e | a, s'⟩
  · exact absurd hx (h e s')
  · exact ⟨a, s', rfl⟩

/-- The values of an object holding the starting values, in the order of printing. -/
theorem prints_start {c : ParamClass} {start : List (String × ℚ)} (hn : start.map (·.1) = c.table.orderedNames)
    {p : ModelParameters ℝ} (hr : Reachable p) (hc : p.cls = c) {consts : List (String × ℝ)}
    (hh : p.HoldsExactly (consts ++ start.map fun q => (q.1, (q.2 : ℝ)))) :
    p.getOrderedValues = .ok (start.map fun q => (q.2 : ℝ)) := by
  have hw := reachable_wellFormed hr
  obtain ⟨x, hx⟩ := hw.exists_values
  rw [hw.orderedValues hx, hc, ← hn, List.map_map]
  refine congrArg _ (List.map_congr_left fun e he => ?_)
  exact ((hw.holds_iff hx).mp (hh.1 (e.1, (e.2 : ℝ)) (List.mem_append_right _ (List.mem_map.mpr ⟨e, he, rfl⟩)))).2.symm

theorem kaonSingleFit_tin : ∀ n ∈ ParamClass.kaon.table.initArgs, "t_in_".toList <+: n.toList → n = "t_in_isoscalar" ∨ n = "t_in_isovector" := by
  decide +kernel

/-- The starting inelastic thresholds are the two literals. -/
theorem kaonSingleFit_avoids {pion_mass : ℝ} {p : ModelParameters ℝ} (hg : GoodObject .kaon false ∅ p)
    (hh : p.HoldsExactly ([("t_0_isoscalar", (3 * pion_mass) ^ 2), ("t_0_isovector", (2 * pion_mass) ^ 2)] ++
      kaonSingleFitStart.map fun q => (q.1, (q.2 : ℝ)))) {S : Set ℝ} (h1 : (4.104732671275326 : ℝ) ∉ S) (h2 : (6.945876504806479 : ℝ) ∉ S) :
    GoodObject .kaon false S p := by
  refine hg.avoid (c := .kaon) trivial fun q hq ht => ?_
  have hw := reachable_wellFormed hg.1
  obtain ⟨x, hx⟩ := hw.exists_values
  have hn : q.name ∈ ParamClass.kaon.table.initArgs := by rw [← hg.2.1, ← hw.names]; exact List.mem_map_of_mem hq
  have v1 := ((hw.holds_iff hx).mp (hh.1 ("t_in_isoscalar", ((4.104732671275326 : ℚ) : ℝ)) (List.mem_append_right _ (List.mem_map.mpr
    ⟨("t_in_isoscalar", 4.104732671275326), List.mem_cons_self, rfl⟩)))).2
  have v2 := ((hw.holds_iff hx).mp (hh.1 ("t_in_isovector", ((6.945876504806479 : ℚ) : ℝ)) (List.mem_append_right _ (List.mem_map.mpr
    ⟨("t_in_isovector", 6.945876504806479), List.mem_cons_of_mem _ List.mem_cons_self, rfl⟩)))).2
  rw [hx q hq]
  rcases kaonSingleFit_tin _ hn ht with h | h
  · rw [h, ← v1]; norm_num at h1 ⊢; exact h1
  · rw [h, ← v2]; norm_num at h2 ⊢; exact h2

/-- What a single fit leaves and prints. -/
def SingleFitResult (c : ParamClass) (S : Set ℝ) (consts : List (String × ℝ)) (start : List (String × ℚ)) (fitted : List String) (k : ℕ)
    (out : List ℝ × Report) (w' : World) : Prop :=
  ∃ p', w'.heap[k]? = some p' ∧ GoodObject c false S p' ∧ Prints start fitted p' out.1 ∧ (∀ e ∈ consts, p'.Holds e.1 e.2) ∧
    ((out.2.status = "failed" ∧ out.1 = start.map fun q => (q.2 : ℝ)) ∨ out.2.status = "finished")

/-- From the task to the result. -/
theorem singleFit_finish {c : ParamClass} {S : Set ℝ} {start : List (String × ℚ)} (hn : start.map (·.1) = c.table.orderedNames)
    {fitted : List String} {p : ModelParameters ℝ} (hr : Reachable p) (hcl : p.cls = c) {consts : List (String × ℝ)}
    (hh : p.HoldsExactly (consts ++ start.map fun q => (q.1, (q.2 : ℝ)))) (hfl : ∀ q ∈ p.toList, q.is_fixed = decide (q.name ∉ fitted))
    (hconst : ∀ e ∈ consts, e.1 ∉ fitted) {task' : Task} {w' : World} {k : ℕ} (hpar : task'.parameters = k) {p' : ModelParameters ℝ}
    (hp' : w'.heap[k]? = some p') (hg' : GoodObject c false S p')
    (hst : (task'.report.status = "failed" ∧ p' = p) ∨ (task'.report.status = "finished" ∧ ∃ opt, p.updateFreeValues opt = (.ok (), p')))
    (E : PyErr → Prop) :
    (do
      let p ← readParams task'.parameters
      let values ← PyM.lift p.getOrderedValues
      return (values, task'.report) : PyM World (List ℝ × Report)).Sat w' (SingleFitResult c S consts start fitted k) E := by
  obtain ⟨values, h1, h2, h3⟩ := prints_of hn hr hg'.1 hg'.2.1 hh hfl (by
    rcases hst with ⟨-, h⟩ | ⟨-, h⟩
    · exact Or.inl h
    · exact Or.inr h)
  rw [hpar]
  refine .step (readParams_run hp') ?_
  rw [h1]
  refine .step (PyM.lift_run _ _) (.of_run rfl ⟨p', hp', hg', h2, fun e he => h3 e he (hconst e he), ?_⟩)
  rcases hst with ⟨hs, rfl⟩ | ⟨hs, -⟩
  · refine Or.inl ⟨hs, ?_⟩
    have := prints_start hn hr hcl hh
    rw [h1] at this
    injection this
  · exact Or.inr hs

/-- The task of a single fit. -/
noncomputable def singleTask (cls : TaskClass) (name : String) (parameters : ℕ) (ts : List Datapoint) (ys errors : List ℝ) (constants : Constants)
    (p : ModelParameters ℝ) : Task where
  cls := cls
  name := name
  parameters := parameters
  partial_f := none
  ts := ts
  ys := ys
  errors := errors
  ts_fit := ts
  ys_fit := ys
  errors_fit := errors
  should_plot := true
  use_handpicked_bounds := false
  constants := constants
  reports_dir := none
  report := {
    name := name
    initial_parameters := p.toList
    final_parameters := none
    r2 := none
    chi_squared := none
    covariance_matrix := none
    parameter_errors := none
    status := "started"
    error_message := none
    parameter_list := [] }

theorem singleTask_init (cls : TaskClass) (name : String) (ts : List Datapoint) (ys errors : List ℝ) (constants : Constants) {w : World} {k : ℕ}
    {p : ModelParameters ℝ} (hp : w.heap[k]? = some p) :
    Task.init cls name k ts ys errors constants none true false w = (.ok (singleTask cls name k ts ys errors constants p), w) := by
  unfold Task.init
  rw [PyM.bind_ok (readParams_run hp)]
  rfl

/-- What a task leaves that takes the flags as they are. -/
def SingleTaskResult (c : ParamClass) (S : Set ℝ) (p : ModelParameters ℝ) (k : ℕ) (task' : Task) (w' : World) : Prop :=
  task'.parameters = k ∧ ∃ p', w'.heap[k]? = some p' ∧ GoodObject c false S p' ∧
    ((task'.report.status = "failed" ∧ p' = p) ∨ (task'.report.status = "finished" ∧ ∃ opt, p.updateFreeValues opt = (.ok (), p')))

theorem kaonSingleTask_sat {self : Task} (hcls : self.cls = .kaonCSFixAccording) {points : List (ℝ × Bool)} {n : ℕ} (hk : self.KaonTask points n)
    (hb : self.use_handpicked_bounds = false) (hdir : self.reports_dir = none) {c : ParamClass} (hc : IsKaonClass c) {S : Set ℝ} {w : World}
    {p : ModelParameters ℝ} (hp : w.heap[self.parameters]? = some p) (hg : GoodObject c false S p) (hf : p.HasFree) (hn : p.names.length = n)
    {env : Env} (henv : env.FitsInside S) :
    (self.run env).Sat w (SingleTaskResult c S p self.parameters) (fun e => e = .zeroDivisionError ∧ ∃ d ∈ points, d.1 ∉ S) := by
  have hset := fixAccording_setUp (Or.inl hcls) hp hg.1
  have hne : points ≠ [] := by
    rintro rfl
    exact absurd hk.enough (Nat.not_lt_zero _)
  have hg' : GoodObject c self.use_handpicked_bounds S p := by rw [hb]; exact hg
  have key := task_result hc.resonance (E := ∃ d ∈ points, d.1 ∉ S) hp hg.1 hg' hf hn hset rfl rfl rfl
    (by show self.ts_fit ≠ []; rw [hk.ts_fit, hk.ts]; simpa using hne) (fun b args hb ha hS => ?_) (fun b args hb ha hS => ?_) hk.nonzero
    (by show n < self.ys.length; rw [hk.ys]; exact hk.enough) henv (Or.inl hdir)
  · unfold PyM.Sat SingleTaskResult
    revert key
    rcases self.run env w with ⟨e | t, w'⟩
    · exact id
    · rintro ⟨k1, p', k2, k3, -, -, k4⟩
      exact ⟨k1, p', k2, by rw [hb] at k3; exact k3, k4⟩
  · rcases hg'.eval hc hb ha hS (self.cls.fitted self.constants) (points := points) hk.positive (ts := self.ts_fit.map Datapoint.toRow)
      (Or.inr (by rw [hk.ts_fit, hk.ts])) with ⟨rs, hr, -⟩ | hr
    · exact Or.inl ⟨rs, hr⟩
    · exact Or.inr hr
  · have := hg'.eval hc hb ha hS (self.cls.fitted self.constants) (points := points) hk.positive (ts := self.ts) (Or.inl hk.ts)
    rw [← hk.ys] at this
    exact this

seal PyM.Sat in
/-- The kaon script. -/
theorem kaonSingleFit_sat {env : Env} {S : Set ℝ} {pion_mass : ℝ} (hp : 0 ≤ pion_mass ∧ pion_mass ≤ 0.24) (constants : Constants)
    {charged neutral : List (ℝ × ℝ × ℝ)} (hch : charged ≠ []) (hpos : ∀ d ∈ charged ++ neutral, 0 < d.1 ∧ d.2.2 ≠ 0)
    (hlen : 32 < (charged ++ neutral).length) (hS1 : (4.104732671275326 : ℝ) ∉ S) (hS2 : (6.945876504806479 : ℝ) ∉ S)
    (hfit : env.FitsInside S) (w : World) :
    (runKaonSingleFit env pion_mass constants (charged.map (·.1)) (charged.map (·.2.1)) (charged.map (·.2.2)) (neutral.map (·.1))
      (neutral.map (·.2.1)) (neutral.map (·.2.2))).Sat w
      (SingleFitResult .kaon S [("t_0_isoscalar", (3 * pion_mass) ^ 2), ("t_0_isovector", (2 * pion_mass) ^ 2)] kaonSingleFitStart
        kaonSingleFitFitted w.heap.length)
      (fun e => e = .zeroDivisionError ∧ ∃ d ∈ charged ++ neutral, d.1 ∉ S) := by
  obtain ⟨p₀, p, h0, h1, h2, hh, hfl⟩ := kaonSingleFit_start hp
  have kaonSingleFit_consts : ∀ e ∈ [("t_0_isoscalar", (3 * pion_mass) ^ 2), ("t_0_isovector", (2 * pion_mass) ^ 2)], e.1 ∉ kaonSingleFitFitted :=
    List.forall_mem_cons.mpr ⟨by show "t_0_isoscalar" ∉ kaonSingleFitFitted; decide, List.forall_mem_cons.mpr ⟨by show "t_0_isovector" ∉ kaonSingleFitFitted; decide, List.forall_mem_nil _⟩⟩
  obtain ⟨l1, l2, l3, l4⟩ := kaonSingleFit_lists
  have hg := kaonSingleFit_avoids h2 hh hS1 hS2
  obtain ⟨out, hout, hperm, -⟩ := C58_kaon charged neutral (Or.inl hch)
  have hmem : ∀ q ∈ out, ∃ d ∈ charged ++ neutral, q.1.1 = d.1 ∧ q.2 = d.2 := by
    intro q hq
    rcases List.mem_append.mp (hperm.mem_iff.mp hq) with h | h
    · obtain ⟨d, hd, rfl⟩ := List.mem_map.mp h
      exact ⟨d, List.mem_append_left _ hd, rfl, rfl⟩
    · obtain ⟨d, hd, rfl⟩ := List.mem_map.mp h
      exact ⟨d, List.mem_append_right _ hd, rfl, rfl⟩
  have hol : out.length = (charged ++ neutral).length := by
    rw [hperm.length_eq]; simp
  have hpos' : ∀ d ∈ out.map (·.1), 0 < d.1 := by
    intro d hd
    obtain ⟨q, hq, rfl⟩ := List.mem_map.mp hd
    obtain ⟨d, hd, h2, -⟩ := hmem q hq
    rw [h2]; exact (hpos d hd).1
  have hbad : (∃ d ∈ out.map (·.1), d.1 ∉ S) → ∃ d ∈ charged ++ neutral, d.1 ∉ S := by
    rintro ⟨d, hd, hS⟩
    obtain ⟨q, hq, rfl⟩ := List.mem_map.mp hd
    obtain ⟨d, hd, h2, -⟩ := hmem q hq
    exact ⟨d, hd, by rw [← h2]; exact hS⟩
  unfold runKaonSingleFit
  rw [h0]
  refine .step (PyM.lift_run _ _) (.step (newParams_run p₀ w) ?_)
  rw [hout]
  refine .step (PyM.lift_run _ _) ?_
  dsimp only
  refine .step (h1 { w with heap := w.heap ++ [p₀] } w.heap rfl) ?_
  have hheap : ({ w with heap := w.heap ++ [p] } : World).heap[w.heap.length]? = some p := by simp
  refine .step (singleTask_init _ _ _ _ _ _ hheap) ?_
  have hfree : p.HasFree := by
    have hn : "t_in_isoscalar" ∈ p.names := by rw [(reachable_wellFormed hg.1).names, hg.2.1]; decide +kernel
    obtain ⟨q, hq, hq2⟩ := List.mem_map.mp hn
    refine ⟨q, hq, ?_⟩
    rw [hfl q hq, hq2]; decide +kernel
  have htask : (singleTask .kaonCSFixAccording "Fit" w.heap.length (out.map (fun q => .kaon q.1.1 q.1.2)) (out.map (·.2.1))
      (out.map (·.2.2)) constants p).KaonTask (out.map (·.1)) 32 := by
    refine ⟨Or.inl (by show TaskClass.kaonCSFixAccording ∈ PipelineKind.kaonCS.kaonTasks; decide), by rw [List.map_map]; rfl, rfl, by simp [singleTask], rfl, by simp [singleTask], rfl, ?_, hpos', ?_, ?_⟩
    · intro e he
      obtain ⟨q, hq, rfl⟩ := List.mem_map.mp he
      obtain ⟨d, hd, -, h2⟩ := hmem q hq
      rw [h2]; exact (hpos d hd).2
    · obtain ⟨d, hd⟩ := List.exists_mem_of_ne_nil _ hch
      exact ⟨(d.1, true), List.mem_map.mpr ⟨((d.1, true), d.2), hperm.mem_iff.mpr (List.mem_append_left _ (List.mem_map.mpr ⟨d, hd, rfl⟩)), rfl⟩, rfl⟩
    · rw [List.length_map, hol]; exact hlen
  have hrun := kaonSingleTask_sat rfl htask rfl rfl (c := .kaon) trivial (w := { w with heap := w.heap ++ [p] }) hheap hg hfree
    (by rw [(reachable_wellFormed hg.1).names, hg.2.1]; exact l4) hfit
  refine (hrun.weaken fun e he => ⟨he.1, hbad he.2⟩).bind ?_
  rintro task' w' ⟨k1, p', k2, k3, k4⟩
  exact singleFit_finish (c := .kaon) l1 hg.1 hg.2.1 hh hfl kaonSingleFit_consts k1 k2 k3 k4 _

theorem nucleonSingleFit_names : ∀ n ∈ ParamClass.nucleon.table.initArgs, IsResonanceName n ∨ "t_0_".toList <+: n.toList →
    n ∉ nucleonSingleFitFitted := by decide +kernel

theorem nucleonSingleTask_sat {self : Task} (hcls : self.cls = .nucleonCSFixAccording) {points : List (ℝ × Bool × Bool)} {n : ℕ}
    (hts : self.ts = points.map fun d => .nucleon d.1 d.2.1 d.2.2) (htf : self.ts_fit = self.ts) (hys : self.ys.length = points.length)
    (hnz : ∀ e ∈ self.errors, e ≠ 0) (habove : ∀ d ∈ points, (self.cls.fitted self.constants).Above d.1) (hen : n < points.length)
    (hb : self.use_handpicked_bounds = false) (hdir : self.reports_dir = none) {S : Set ℝ} {w : World}
    {p : ModelParameters ℝ} (hp : w.heap[self.parameters]? = some p) (hg : GoodObject .nucleon false S p) (hf : p.HasFree) (hn : p.names.length = n)
    (hacc : ∃ m, getFFModel p = .ok m) (hfl : ∀ q ∈ p.toList, q.is_fixed = decide (q.name ∉ nucleonSingleFitFitted))
    {env : Env} (henv : env.FitsInside S) :
    (self.run env).Sat w (SingleTaskResult .nucleon S p self.parameters) (· = .zeroDivisionError) := by
  have hset := fixAccording_setUp (Or.inr hcls) hp hg.1
  have hne : points ≠ [] := by
    rintro rfl
    exact absurd hen (Nat.not_lt_zero _)
  have hg' : GoodObject .nucleon self.use_handpicked_bounds S p := by rw [hb]; exact hg
  have hkeep : ∀ args p', p.updateFreeValues args = (.ok (), p') → GoodObject .nucleon self.use_handpicked_bounds S p' →
      ∃ m, getFFModel p' = .ok m := by
    intro args p' hu hgp
    refine accepted_kept hg' hgp hacc fun m v hN hv => kept_of_update hg.1 hgp.1 hfl hu ?_ hv
    have hw := reachable_wellFormed hg.1
    obtain ⟨x, hx⟩ := hw.exists_values
    exact nucleonSingleFit_names m (by have := ((hw.holds_iff hx).mp hv).1; rw [hg.2.1] at this; exact this) hN
  have key := task_result (c := .nucleon) trivial (E := True) hp hg.1 hg' hf hn hset rfl rfl rfl
    (by show self.ts_fit ≠ []; rw [htf, hts]; simpa using hne) (fun b args hb ha hS => ?_) (fun b args hb ha hS => ?_) hnz
    (by show n < self.ys.length; rw [hys]; exact hen) henv (Or.inl hdir)
  · unfold PyM.Sat SingleTaskResult
    revert key
    rcases self.run env w with ⟨e | t, w'⟩
    · exact fun h => h.1
    · rintro ⟨k1, p', k2, k3, -, -, k4⟩
      exact ⟨k1, p', k2, by rw [hb] at k3; exact k3, k4⟩
  · rcases hg'.evalNucleon_of hb ha hS (hkeep args) (self.cls.fitted self.constants) habove (ts := self.ts_fit.map Datapoint.toRow)
      (Or.inr (by rw [htf, hts])) with ⟨rs, hr, -⟩ | hr
    · exact Or.inl ⟨rs, hr⟩
    · exact Or.inr hr
  · have := hg'.evalNucleon_of hb ha hS (hkeep args) (self.cls.fitted self.constants) habove (ts := self.ts) (Or.inl hts)
    rw [← hys] at this
    exact this

theorem nucleonSingleFit_constNames : ∀ n ∈ constantNames .nucleon, n ∉ nucleonSingleFitFitted := by decide +kernel

/-- The data of the nucleon script. -/
theorem prepareNucleonSingleFit_ok {data : List (ℝ × ℝ × ℝ)} (hne : data ≠ []) :
    ∃ out : List ((ℝ × Bool × Bool) × ℝ × ℝ), prepareNucleonSingleFit (data.map (·.1)) (data.map (·.2.1)) (data.map (·.2.2)) [] [] [] =
      .ok (out.map (fun q => .nucleon q.1.1 q.1.2.1 q.1.2.2), out.map (·.2.1), out.map (·.2.2)) ∧
      out.Perm (data.map fun q => ((q.1, true, true), q.2)) := by
  obtain ⟨-, h⟩ := prepare_tagged (fun b : ℝ × Bool × Bool => .nucleon b.1 b.2.1 b.2.2) (fun b => b.1) (fun _ _ _ => rfl)
    (data.map fun q => ((q.1, true, true), q.2))
  obtain ⟨out, h1, h2, -⟩ := h (by simpa using hne)
  refine ⟨out, ?_, h2⟩
  rw [← h1]
  unfold prepareNucleonSingleFit
  simp only [List.map_map, List.map_nil, List.append_nil]
  rfl

seal PyM.Sat in
/-- The nucleon script. -/
theorem nucleonSingleFit_sat {env : Env} {pion_mass : ℝ} (hp : 0 ≤ pion_mass ∧ pion_mass ≤ 0.24) {proton_mass alpha hc_squared : ℝ} (μp μn : ℝ)
    {data : List (ℝ × ℝ × ℝ)} (hdata : ∀ d ∈ data, 0 < d.1 ∧ 4 * proton_mass ^ 2 ≤ d.1 ∧ d.2.2 ≠ 0) (hlen : 37 < data.length)
    (hfit : env.FitsInside ∅) (w : World) :
    (runNucleonSingleFit env pion_mass proton_mass μp μn alpha hc_squared (data.map (·.1)) (data.map (·.2.1)) (data.map (·.2.2))).Sat w
      (SingleFitResult .nucleon ∅ (nucleonScriptConstants pion_mass proton_mass μp μn) nucleonSingleFitStart nucleonSingleFitFitted w.heap.length)
      (· = .zeroDivisionError) := by
  obtain ⟨p₀, p, h0, h1, hg, hh, hfl⟩ := nucleonSingleFit_start hp proton_mass μp μn
  obtain ⟨l1, l2, l3⟩ := nucleonSingleFit_lists
  have hacc := nucleonSingleFit_accepted hp hg hh
  have hconst : ∀ e ∈ nucleonScriptConstants pion_mass proton_mass μp μn, e.1 ∉ nucleonSingleFitFitted := fun e he =>
    nucleonSingleFit_constNames _ (by rw [← (singleFit_constants_nucleon hp proton_mass μp μn).1]; exact List.mem_map_of_mem he)
  have hne : data ≠ [] := by rintro rfl; simp at hlen
  obtain ⟨out, hout, hperm⟩ := prepareNucleonSingleFit_ok hne
  have hmem : ∀ q ∈ out, ∃ d ∈ data, q.1.1 = d.1 ∧ q.2 = d.2 := by
    intro q hq
    obtain ⟨d, hd, rfl⟩ := List.mem_map.mp (hperm.mem_iff.mp hq)
    exact ⟨d, hd, rfl, rfl⟩
  have hol : out.length = data.length := by rw [hperm.length_eq]; simp
  have habove : ∀ d ∈ out.map (·.1), 0 < d.1 ∧ 4 * proton_mass ^ 2 ≤ d.1 := by
    intro d hd
    obtain ⟨q, hq, rfl⟩ := List.mem_map.mp hd
    obtain ⟨d, hd, h2, -⟩ := hmem q hq
    rw [h2]; exact ⟨(hdata d hd).1, (hdata d hd).2.1⟩
  have hnz : ∀ e ∈ out.map (·.2.2), e ≠ 0 := by
    intro e he
    obtain ⟨q, hq, rfl⟩ := List.mem_map.mp he
    obtain ⟨d, hd, -, h2⟩ := hmem q hq
    rw [h2]; exact (hdata d hd).2.2
  have hfree : p.HasFree := by
    have hn : "t_in_dirac_isoscalar" ∈ p.names := by rw [(reachable_wellFormed hg.1).names, hg.2.1]; exact nucleon_tin_free.1
    obtain ⟨q, hq, hq2⟩ := List.mem_map.mp hn
    refine ⟨q, hq, ?_⟩
    rw [hfl q hq, hq2]; decide +kernel
  unfold runNucleonSingleFit
  rw [h0]
  refine .step (PyM.lift_run _ _) (.step (newParams_run p₀ w) ?_)
  rw [hout]
  refine .step (PyM.lift_run _ _) ?_
  dsimp only
  have hm : mutateParams w.heap.length (fun p => p.fixResonances) { w with heap := w.heap ++ [p₀] } =
      (.ok (), { w with heap := w.heap ++ [p] }) := by
    rw [mutateParams_run (p := p₀) (by simp), h1]
    simp
  refine .step hm ?_
  have hheap : ({ w with heap := w.heap ++ [p] } : World).heap[w.heap.length]? = some p := by simp
  refine .step (singleTask_init _ _ _ _ _ _ hheap) ?_
  have hrun := nucleonSingleTask_sat (self := singleTask .nucleonCSFixAccording "Full Fit" w.heap.length
      (out.map (fun q : (ℝ × Bool × Bool) × ℝ × ℝ => Datapoint.nucleon (q.1.1 : ℂ) q.1.2.1 q.1.2.2)) (out.map (fun q : (ℝ × Bool × Bool) × ℝ × ℝ => q.2.1))
      (out.map (fun q : (ℝ × Bool × Bool) × ℝ × ℝ => q.2.2)) ⟨proton_mass, alpha, hc_squared⟩ p)
    rfl (points := out.map (·.1)) (n := 37) (by rw [List.map_map]; rfl) rfl (by simp [singleTask]) hnz habove (by rw [List.length_map, hol]; exact hlen)
    rfl rfl (w := { w with heap := w.heap ++ [p] }) hheap hg hfree
    (by rw [(reachable_wellFormed hg.1).names, hg.2.1]; exact nucleon_count) hacc hfl hfit
  refine hrun.bind ?_
  rintro task' w' ⟨k1, p', k2, k3, k4⟩
  exact singleFit_finish (c := .nucleon) l1 hg.1 hg.2.1 hh hfl hconst k1 k2 k3 k4 _

end UA
