import Verif.Lemmas.PipelinesWitness
import Verif.Lemmas.Decomposition
import Verif.Props.Nucleon

/-!
# A concrete run of the iterative nucleon cross section pipeline

Narrow resonances without couplings and a single point; no fit converges.
-/

namespace UA

open Complex

/-- Zero widths, no free couplings, no anomalous moments: the form factors are products of two poles. -/
noncomputable def quietNucleon : NucleonArgs :=
  { exampleNarrow with
    magnetic_moment_proton := 1, magnetic_moment_neutron := 0
    a_dirac_omega := 0, a_dirac_omega_prime := 0, a_dirac_phi := 0, a_dirac_phi_prime := 0, a_dirac_rho := 0
    a_pauli_omega := 0, a_pauli_phi := 0, a_pauli_phi_prime := 0 }

theorem quiet_proper : quietNucleon.Proper := exampleNucleon_proper
theorem quiet_zeroWidth : quietNucleon.ZeroWidth := exampleNarrow_zeroWidth

theorem quiet_builds (proton electric : Bool) : NucleonClass.old.Builds proton electric quietNucleon := by
  show ∃ m, NucleonBase.init Builder.massSquared.build proton electric quietNucleon = .ok m
  apply NucleonBase.init_ok _ _ _ _ quiet_proper
  · apply initSix_ok <;> apply ex_build <;> norm_num [exampleNucleon, exampleNarrow, quietNucleon]
  · apply initThree_ok <;> apply ex_build <;> norm_num [exampleNucleon, exampleNarrow, quietNucleon]
  · apply initSix_ok <;> apply ex_build <;> norm_num [exampleNucleon, exampleNarrow, quietNucleon]
  · apply initThree_ok <;> apply ex_build <;> norm_num [exampleNucleon, exampleNarrow, quietNucleon]
  all_goals norm_num [exampleNucleon, exampleNarrow, quietNucleon]

theorem quiet_evaluates (proton electric : Bool) : ∃ y, NucleonClass.old.run proton electric quietNucleon 5 = .ok y := by
  obtain ⟨m, b, h⟩ := NucleonClass.run_built quiet_proper (quiet_builds proton electric)
  rw [h, b.evalC_ok (by norm_num)]
  · exact ⟨_, rfl⟩
  · rintro (hs | ⟨p, hp, hs⟩ | hs | hs)
    · norm_num [exampleNucleon, exampleNarrow, quietNucleon] at hs
    · have : ∀ m : ℝ, m ^ 2 ≠ 5 → p = tMesonPole m 0 → False := by
        intro m hm h
        have hp : p = ((m ^ 2 : ℝ) : ℂ) := by
          rw [h, tMesonPole]
          apply Complex.ext <;> simp [← Complex.ofReal_pow]
        rw [hp, conj_ofReal] at hs
        rcases hs with hs | hs <;> exact hm (by exact_mod_cast hs.symm)
      simp only [NucleonArgs.poleS, NucleonArgs.poleT, Six.toList, Three.toList, List.mem_append, List.mem_cons,
        List.not_mem_nil, or_false] at hp
      rcases hp with (hp | hp | hp | hp | hp | hp) | (hp | hp | hp) <;> revert hp <;> apply this <;>
        norm_num [exampleNucleon, exampleNarrow, quietNucleon]
    · exact hs (exampleNucleon_terms .old)
    · norm_num [exampleNucleon, exampleNarrow, quietNucleon] at hs

/-- The form factors of the proton. -/
theorem quiet_value (electric : Bool) :
    NucleonClass.new.run true electric quietNucleon 5 = .ok (1 / 2 * (16 / 11) * (49 / 44) + 1 / 2 * (9 / 4) * (16 / 11)) := by
  rw [C62_zero_width_classes_agree true electric _ quiet_proper quiet_zeroWidth]
  obtain ⟨y, hy⟩ := quiet_evaluates true electric
  rw [hy, (old_run_poles quiet_proper quiet_zeroWidth hy).2]
  congr 1
  simp only [nVal, dsVal, dvVal, psVal, pvVal, NucleonArgs.polesS, NucleonArgs.polesV, NucleonArgs.squaresS, NucleonArgs.squaresV, Six.map, Three.map,
    quietNucleon, exampleNarrow, exampleNucleon]
  norm_num

/-- The values by name. -/
noncomputable def quietValue (n : String) : ℝ := (quietNucleon.byName.lookup n).getD 0

theorem quiet_ofValues : NucleonArgs.ofValues quietValue = quietNucleon := by
  unfold NucleonArgs.ofValues quietValue
  rfl

/-- The parameters as freshly created. -/
noncomputable def quiet : ModelParameters ℝ := ⟨.nucleon, ParamClass.nucleon.table.alwaysFixed, freshData .nucleon quietValue⟩

theorem quiet_reachable : Reachable quiet :=
  .init (init_eq .nucleon (kw := ParamClass.nucleon.table.initArgs.map fun n => (n, quietValue n)) (fun _ hn => lookup_map_self hn) fun p hp => by
    obtain ⟨n, hn, rfl⟩ := List.mem_map.mp hp
    exact hn)

theorem quiet_values : ∀ q ∈ quiet.data, q.value = quietValue q.name := by
  intro q hq
  obtain ⟨n, -, rfl⟩ := List.mem_map.mp hq
  rfl

/-- The cross section of the point does not vanish. -/
theorem quiet_crossSection {p : ModelParameters ℝ} (h : p.WellFormed) (hv : ∀ q ∈ p.data, q.value = quietValue q.name) (hc : p.cls = .nucleon)
    (electric : Bool) : ∃ y, 0 < y ∧ functionCrossSection [.nucleon 5 true electric] 1 1 1 p = .ok [y] := by
  have hw := nucleon_wiring h hv hc
  rw [quiet_ofValues] at hw
  have hcheck : quietNucleon.check = .ok () := by
    have h1 := quiet_value true
    unfold NucleonArgs.check
    rcases hm : NucleonUAModel.init true true quietNucleon with e | m
    · exfalso
      have : NucleonClass.new.run true true quietNucleon 5 = .error e := by
        show (do let m ← NucleonUAModel.init true true quietNucleon; _) = _
        rw [hm]; rfl
      rw [this] at h1; cases h1
    · rfl
  rw [hw.cs, hcheck, except_ok_bind]
  generalize hG : (1 / 2 * (16 / 11) * (49 / 44) + 1 / 2 * (9 / 4) * (16 / 11) : ℂ) = G
  have hGn : ‖G‖ ≠ 0 := by rw [← hG]; norm_num
  have hsq : Real.sqrt (1 / 5) ≠ 0 := by rw [Real.sqrt_ne_zero (by norm_num)]; norm_num
  have hform : ∃ z, z ≠ 0 ∧ (NucleonCS.init 1 1 1).formula 5 ‖G‖ ‖G‖ = .ok z := by
    unfold NucleonCS.formula NucleonCS.init
    have e1 : pyDivR (4 * (1 : ℝ) ^ 2) ‖(5 : ℂ)‖ = .ok (4 / 5) := by
      rw [pyDivR_ok (by norm_num)]; norm_num
    have e2 : pySqrt (1 - 4 / 5) = .ok (Real.sqrt (1 / 5)) := by
      rw [pySqrt_ok (by norm_num)]; norm_num
    simp only [e1, e2, except_ok_bind]
    rw [pyDiv_ok (by norm_num), except_ok_bind, pyDiv_ok (by norm_num), except_ok_bind]
    refine ⟨_, ?_, rfl⟩
    refine mul_ne_zero (div_ne_zero ?_ (by norm_num)) ?_
    · rw [ofReal_ne_zero]
      have := Real.pi_pos
      positivity
    · have : (‖G‖ : ℂ) ^ 2 + ((4 * 1 ^ 2 * ‖G‖ ^ 2 : ℝ) : ℂ) / (2 * 5) = ((‖G‖ ^ 2 * (7 / 5) : ℝ) : ℂ) := by push_cast; ring
      rw [this, ofReal_ne_zero]
      positivity
  obtain ⟨z, hz, hf⟩ := hform
  refine ⟨‖z‖, norm_pos_iff.mpr hz, ?_⟩
  have hpt : nucleonPoint (fun pr _ t => do
      let GE ← NucleonClass.new.run pr true quietNucleon t
      let GM ← NucleonClass.new.run pr false quietNucleon t
      (NucleonCS.init 1 1 1).formula t ‖GE‖ ‖GM‖) (.nucleon 5 true electric) = .ok ‖z‖ := by
    show (do let F ← (do
      let GE ← NucleonClass.new.run true true quietNucleon 5
      let GM ← NucleonClass.new.run true false quietNucleon 5
      (NucleonCS.init 1 1 1).formula 5 ‖GE‖ ‖GM‖); return ‖F‖) = _
    rw [quiet_value, quiet_value, hG, except_ok_bind, except_ok_bind, hf]
    rfl
  rw [List.mapM_cons, hpt]
  rfl

theorem pyFloat_ofReal (x : ℝ) : pyFloat (x : ℂ) = .ok x := by
  unfold pyFloat
  rw [ofReal_im, if_pos rfl, ofReal_re]

/-- The form factor of a positive cross section. -/
theorem transform_point {y e : ℝ} (hy : 0 < y) (electric : Bool) : ∃ q, transformAll ⟨1, 1, 1⟩ [y] [e] [.nucleon 5 true electric] = .ok [q] := by
  have hsq : Real.sqrt (1 / 5) ≠ 0 := by rw [Real.sqrt_ne_zero (by norm_num)]; norm_num
  have hpi := Real.pi_pos
  have hden : 2 * Real.pi * (1 : ℝ) ^ 2 * Real.sqrt (1 / 5) * (2 + 4 / 5) ≠ 0 := by positivity
  have h : ∃ q, transformToEffectiveFormFactor 1 1 y e 5 = .ok q := by
    unfold transformToEffectiveFormFactor
    have e0 : pyDivR (5 : ℝ) (4 * 1 ^ 2) = .ok (5 / 4) := by rw [pyDivR_ok (by norm_num)]; norm_num
    have e1 : pyDivR 1 (5 / 4) = .ok (4 / 5) := by rw [pyDivR_ok (by norm_num)]; norm_num
    have e2 : pySqrt (1 - 4 / 5) = .ok (Real.sqrt (1 / 5)) := by
      rw [pySqrt_ok (by norm_num)]; norm_num
    simp only [e0, e1, e2, except_ok_bind]
    have hq : 0 < 3 * 5 * y / (2 * Real.pi * (1 : ℝ) ^ 2 * Real.sqrt (1 / 5) * (2 + 4 / 5)) := by positivity
    rw [pyDivR_ok hden, except_ok_bind, pyDivR_ok hden, except_ok_bind, pySqrt_ok hq.le, except_ok_bind,
      pyDivR_ok (Real.sqrt_pos.mpr hq).ne', except_ok_bind]
    exact ⟨_, rfl⟩
  obtain ⟨q, hq⟩ := h
  refine ⟨q, ?_⟩
  show List.mapM (fun q : ℝ × ℝ × Datapoint => do
    let z ← q.2.2.attrT
    let t ← pyFloat z
    transformToEffectiveFormFactor 1 1 q.1 q.2.1 t) [(y, e, .nucleon 5 true electric)] = _
  rw [List.mapM_cons, List.mapM_nil]
  have h5 : pyFloat 5 = .ok 5 := pyFloat_ofReal 5
  show (do let x ← (do let t ← pyFloat 5; transformToEffectiveFormFactor 1 1 y e t); let r ← pure []; pure (x :: r)) = _
  rw [h5, except_ok_bind, hq]
  rfl

/-- The momentum of the point. -/
theorem momentum_point (electric : Bool) : ∃ k : ℝ, k < 5 ∧ mapToMomenta 1 [.nucleon 5 true electric] = .ok [.nucleon k true electric] := by
  have h5 : pyFloat 5 = .ok 5 := pyFloat_ofReal 5
  have h : laboratoryMomentum 1 5 = .ok (Real.sqrt 5 / 2) := by
    unfold laboratoryMomentum labMomentum
    rw [h5, except_ok_bind, pySqrt_ok (by norm_num), except_ok_bind, pyDivR_ok (by norm_num)]
    norm_num
  refine ⟨Real.sqrt 5 / 2, ?_, ?_⟩
  · have : Real.sqrt 5 < 10 := by rw [Real.sqrt_lt' (by norm_num)]; norm_num
    linarith
  · show List.mapM _ _ = _
    rw [List.mapM_cons, List.mapM_nil]
    dsimp only
    rw [h]
    rfl

/-! ### The tasks -/

/-- No fit converges. -/
noncomputable def failEnv : Env := constEnv (fun _ => .error (.runtimeError, "Optimal parameters not found")) fun _ => "1.0"

theorem quiet_release : quiet.releaseAllParameters = quiet := rfl

theorem quiet_bounds {p : ModelParameters ℝ} (hr : Reachable p) : ∃ bounds, p.getBoundsForFreeParameters true = .ok bounds := by
  obtain ⟨_, lo, up, -, h, -⟩ := C44_bounds hr true (fun h => by cases h)
  exact ⟨_, h⟩

/-- The full fit. -/
theorem quiet_full {p : ModelParameters ℝ} (hreach : Reachable p) {t : Task} {w : World} (hc : t.cls = .nucleonCSFixAccording) (hb : t.use_handpicked_bounds = true)
    (hp : w.heap[t.parameters]? = some p) :
    ∃ t' w', t.run failEnv w = (.ok t', w') ∧ t'.parameters = t.parameters ∧ w'.heap[t.parameters]? = some p := by
  obtain ⟨bounds, hbd⟩ := quiet_bounds hreach
  have hset : t.setUp w = (.ok { t with partial_f := some (.ofPartial ⟨t.csKind, w.heap.length⟩) }, { w with heap := w.heap ++ [p] }) := by
    have : t.setUp = t.withPartial t.csKind := by unfold Task.setUp; rw [hc]
    rw [this]
    exact withPartial_run hp hreach _
  have hl := heap_set_append hp
  have hr := run_cases (p := p) hset rfl (by show (w.heap ++ [p])[t.parameters]? = _; rw [List.getElem?_append_left hl]; exact hp)
    hreach ⟨hl.ne', p, List.getElem?_concat_length, .refl _⟩
    (by show p.getBoundsForFreeParameters t.use_handpicked_bounds = _; rw [hb]; exact hbd) failEnv
  obtain ⟨h1, h2⟩ := hr.1 .runtimeError "Optimal parameters not found" rfl
  rw [if_pos rfl] at h2
  rcases hrr : t.run failEnv w with ⟨r, w'⟩
  rw [hrr] at h1 h2
  dsimp only at h1 h2
  subst h2
  exact ⟨_, w', rfl, rfl, h1⟩

/-- The residual fit. -/
theorem quiet_residual {t : Task} {w : World} (hc : t.cls = .residual) (hb : t.use_handpicked_bounds = true)
    (hts : t.ts = [.nucleon 5 true true]) (hys : t.ys = [1]) (he : t.errors = [1]) (hk : t.constants = ⟨1, 1, 1⟩)
    {p : ModelParameters ℝ} (hpq : p.fixAllParameters = quiet.fixAllParameters)
    (hp : w.heap[t.parameters]? = some p) : ∃ t' w', t.run failEnv w = (.ok t', w') := by
  have hfix : Reachable quiet.fixAllParameters := .step .fixAll quiet_reachable
  have hwf := reachable_wellFormed hfix
  have hval : ∀ q ∈ quiet.fixAllParameters.data, q.value = quietValue q.name := by
    intro q hq
    obtain ⟨q', hq', rfl⟩ := List.mem_map.mp hq
    exact quiet_values q' hq'
  obtain ⟨y, hy, hcs⟩ := quiet_crossSection hwf hval rfl true
  obtain ⟨q1, hq1⟩ := transform_point (e := 1) hy true
  obtain ⟨q2, hq2⟩ := transform_point (e := 1) one_pos true
  obtain ⟨k, hk5, hmom⟩ := momentum_point true
  have hl := heap_set_append hp
  have hset : ∃ task w₁, t.setUp w = (.ok task, w₁) ∧ task.partial_f = some (.oscillations task.parameters) ∧
      w₁.heap[task.parameters]? = some ⟨.oscillations, [], [⟨"a", 100, false⟩, ⟨"b", 2, false⟩, ⟨"c", 5, false⟩, ⟨"d", 0, false⟩]⟩ ∧
      task.use_handpicked_bounds = true := by
    have : t.setUp = t.setUpResidual := by unfold Task.setUp; rw [hc]
    rw [this]
    unfold Task.setUpResidual
    rw [PyM.bind_ok (mutateParams_run hp _), hpq]
    have hp1 : (w.heap.set t.parameters quiet.fixAllParameters)[t.parameters]? = some quiet.fixAllParameters := by
      rw [List.getElem?_set_self hl]
    rw [PyM.bind_ok (makePartialIn_run (w := { w with heap := w.heap.set t.parameters quiet.fixAllParameters }) hp1 hfix _)]
    rw [PyM.bind_run, callPartialIn_run (q := quiet.fixAllParameters) (by exact List.getElem?_concat_length)]
    have hps : partialSpec t.csKind quiet.fixAllParameters t.ts [] = .ok [y] := by
      unfold partialSpec
      have hu : quiet.fixAllParameters.updateFreeValues [] = (.ok (), quiet.fixAllParameters) := rfl
      rw [hu, hts]
      unfold Task.csKind
      rw [hk]
      exact hcs
    rw [hps]
    dsimp only
    rw [hts, hys, he, hk, hq1, hq2, hmom]
    simp only [except_ok_bind, unzip2, List.isEmpty_cons, Bool.false_eq_true, if_false, List.map_cons, List.map_nil]
    rw [PyM.bind_ok (PyM.lift_run _ _), PyM.bind_ok (PyM.lift_run _ _), PyM.bind_ok (PyM.lift_run _ _)]
    have hsm : (do unzip3 (← smallMomenta 5 (zip3 [Datapoint.nucleon (k : ℂ) true true] (List.zipWith (fun y b => y - b) [q2.1] [q1.1]) [q1.2]))) =
        .ok ([Datapoint.nucleon (k : ℂ) true true], [q2.1 - q1.1], [q1.2]) := by
      show (do unzip3 (← smallMomenta 5 [(Datapoint.nucleon (k : ℂ) true true, q2.1 - q1.1, q1.2)])) = _
      unfold smallMomenta smallMomenta
      show (do unzip3 (← (do let t ← pyFloat (k : ℂ); let rest ← .ok []; pure (if t < 5 then [(Datapoint.nucleon (k : ℂ) true true, q2.1 - q1.1, q1.2)] else rest)))) = _
      rw [pyFloat_ofReal, except_ok_bind, except_ok_bind, if_pos hk5]
      rfl
    rw [hsm, PyM.bind_ok (PyM.lift_run _ _)]
    dsimp only
    have h0 : ParamClass.oscillations.init [("a", (100 : ℝ)), ("b", 2), ("c", 5), ("d", 0)] =
        .ok ⟨.oscillations, [], [⟨"a", 100, false⟩, ⟨"b", 2, false⟩, ⟨"c", 5, false⟩, ⟨"d", 0, false⟩]⟩ := rfl
    rw [h0, PyM.bind_ok (PyM.lift_run _ _), PyM.bind_ok (newParams_run _ _)]
    exact ⟨_, _, rfl, rfl, List.getElem?_concat_length, hb⟩
  obtain ⟨task, w₁, hset, hf, hp', hb'⟩ := hset
  have hro : Reachable (⟨.oscillations, [], [⟨"a", 100, false⟩, ⟨"b", 2, false⟩, ⟨"c", 5, false⟩, ⟨"d", 0, false⟩]⟩ : ModelParameters ℝ) :=
    .init (c := .oscillations) (kw := [("a", (100 : ℝ)), ("b", 2), ("c", 5), ("d", 0)]) rfl
  obtain ⟨_, lo, up, -, hbd, -⟩ := C44_bounds hro true (fun h => by cases h)
  have hr := run_cases hset hf hp' hro ⟨rfl, rfl, hro, _, hp', hro, .refl _⟩ (by rw [hb']; exact hbd) failEnv
  have h2 := (hr.1 .runtimeError "Optimal parameters not found" rfl).2
  rw [if_pos rfl] at h2
  exact ⟨_, _, Prod.ext h2 rfl⟩

/-! ### The pipeline -/

/-- One point. -/
noncomputable def quietPipeline : Pipeline where
  kind := .nucleonCS
  name := "P"
  parameters := 0
  tasks := []
  ts := [.nucleon 5 true true]
  ys := [1]
  errors := [1]
  reports_dir := "reports/P"
  plot := false
  use_handpicked_bounds := true
  constants := ⟨1, 1, 1⟩
  report := "Report P:\n"
  best_fit := .nothing

theorem quietWorld_good : ∀ p ∈ (startWorld [quiet]).heap, Reachable p := by
  intro p hp
  rw [List.mem_singleton.mp hp]
  exact quiet_reachable

/-- The object before the full fit. -/
theorem quiet_fixResonances : quiet.fixResonances = (.ok (), quiet.fixResonances.2) ∧ quiet.fixResonances.2.fixAllParameters = quiet.fixAllParameters :=
  ⟨rfl, rfl⟩

/-- What follows the rounds. -/
theorem quiet_rest {s₁ : Pipeline} {w₁ : World} {p : ModelParameters ℝ} (c1 : s₁.config = quietPipeline.config) (hg : w₁.Good) (hreach : Reachable p)
    (hpq : p.fixAllParameters = quiet.fixAllParameters) (hp1 : w₁.heap[s₁.parameters]? = some p) (title : String) : ∃ self' w', (do
      let self ← s₁.log ("Initializing Task#" ++ toString ([] : List ℤ).length ++ ". " ++ title ++ ".")
      let task_name := "Task#" ++ toString ([] : List ℤ).length ++ ":" ++ title
      let (task, self) ← self.iterativeTask failEnv task_name .nucleonCSFixAccording
      let self ← self.log ("Best fit: " ++ failEnv.strBestFit self.best_fit)
      let self ← self.flushReport
      self.saveReport failEnv (toString ([] : List ℤ).length) task.report
      let number := toString (([] : List ℤ).length + 1)
      let self ← self.log ("Initializing Task#" ++ number ++ ". Residuals.")
      let task_name := "Task#" ++ number ++ ":" ++ TaskClass.residual.pyName
      let task ← self.newTask task_name .residual
      let self ← self.log ("Running " ++ task_name)
      let task ← task.run failEnv
      let self ← self.log (task_name ++ " report: " ++ failEnv.strReport task.report)
      self.saveReport failEnv number task.report
      return self : PyM World Pipeline) w₁ = (.ok self', w') := by
  obtain ⟨s₂, w₂, h3⟩ : ∃ s₂ w₂, s₁.log ("Initializing Task#" ++ toString ([] : List ℤ).length ++ ". " ++ title ++ ".") w₁ = (.ok s₂, w₂) := ⟨_, _, rfl⟩
  rw [PyM.bind_ok h3]
  obtain ⟨t2, -, e2⟩ := Traced.log h3
  have p2 : s₂.parameters = s₁.parameters := by injection h3 with h3 _; injection h3 with h3; rw [← h3]
  dsimp only
  generalize ("Task#" ++ toString ([] : List ℤ).length ++ ":" ++ title) = name
  have hp2 : w₂.heap[s₂.parameters]? = some p := by rw [e2, p2]; exact hp1
  have g2 : w₂.Good := by unfold World.Good; rw [e2]; exact hg
  have c2 : s₂.config = quietPipeline.config := t2.config.trans c1
  obtain ⟨t, hn, q1, q2, q3⟩ : ∃ t, s₂.newTask name .nucleonCSFixAccording w₂ = (.ok t, w₂) ∧ t.cls = .nucleonCSFixAccording ∧
      t.parameters = s₂.parameters ∧ t.use_handpicked_bounds = true := by
    unfold Pipeline.newTask Task.init
    rw [PyM.bind_ok (readParams_run hp2)]
    exact ⟨_, rfl, rfl, rfl, congrArg Pipeline.use_handpicked_bounds c2⟩
  obtain ⟨t', w₃, hrun, k1, k2⟩ := quiet_full hreach (w := { w₂ with stdout := w₂.stdout ++ [printedLine s₂.name ("Running " ++ name)] }) q1 q3
    (by rw [q2]; exact hp2)
  obtain ⟨s₄, w₄, h4, e4, p4⟩ := iterativeTask_run g2 hn hrun
  rw [PyM.bind_ok h4]
  dsimp only
  have c4 : s₄.config = quietPipeline.config := by
    obtain ⟨-, -, -, t4⟩ := iterativeTask_ok g2 h4
    exact t4.config.trans c2
  have p4' : w₄.heap[s₄.parameters]? = some p := by rw [e4, p4, k1]; exact k2
  obtain ⟨s₅, w₅, h5⟩ : ∃ s₅ w₅, s₄.log ("Best fit: " ++ failEnv.strBestFit s₄.best_fit) w₄ = (.ok s₅, w₅) := ⟨_, _, rfl⟩
  rw [PyM.bind_ok h5]
  obtain ⟨t5, d5, e5⟩ := Traced.log h5
  obtain ⟨s₆, w₆, h6⟩ : ∃ s₆ w₆, s₅.flushReport w₅ = (.ok s₆, w₆) := ⟨_, _, rfl⟩
  rw [PyM.bind_ok h6]
  obtain ⟨t6, d6, e6, -⟩ := Traced.flush h6
  obtain ⟨w₇, h7⟩ : ∃ w₇, s₆.saveReport failEnv (toString ([] : List ℤ).length) t'.report w₆ = (.ok (), w₇) := ⟨_, rfl⟩
  rw [PyM.bind_ok h7]
  obtain ⟨-, e7, -⟩ := Traced.save h7
  obtain ⟨s₈, w₈, h8⟩ : ∃ s₈ w₈, s₆.log ("Initializing Task#" ++ toString (([] : List ℤ).length + 1) ++ ". Residuals.") w₇ = (.ok s₈, w₈) := ⟨_, _, rfl⟩
  rw [PyM.bind_ok h8]
  obtain ⟨t8, d8, e8⟩ := Traced.log h8
  have c8 : s₈.config = quietPipeline.config := (t8.config.trans (t6.config.trans t5.config)).trans c4
  have hp8 : w₈.heap[s₈.parameters]? = some p := by
    rw [e8, e7, e6, e5, d8]
    show w₄.heap[s₆.parameters]? = _
    rw [d6]
    show w₄.heap[s₅.parameters]? = _
    rw [d5]
    exact p4'
  generalize ("Task#" ++ toString (([] : List ℤ).length + 1) ++ ":" ++ TaskClass.residual.pyName) = name'
  obtain ⟨r, hr, r1, r2, r3, r4, r5, r6, r7⟩ : ∃ r, s₈.newTask name' .residual w₈ = (.ok r, w₈) ∧ r.cls = .residual ∧
      r.parameters = s₈.parameters ∧ r.use_handpicked_bounds = true ∧ r.ts = [.nucleon 5 true true] ∧ r.ys = [1] ∧ r.errors = [1] ∧
      r.constants = ⟨1, 1, 1⟩ := by
    unfold Pipeline.newTask Task.init
    rw [PyM.bind_ok (readParams_run hp8)]
    exact ⟨_, rfl, rfl, rfl, congrArg Pipeline.use_handpicked_bounds c8, congrArg Pipeline.ts c8, congrArg Pipeline.ys c8,
      congrArg Pipeline.errors c8, congrArg Pipeline.constants c8⟩
  rw [PyM.bind_ok hr]
  obtain ⟨s₉, w₉, h9⟩ : ∃ s₉ w₉, s₈.log ("Running " ++ name') w₈ = (.ok s₉, w₉) := ⟨_, _, rfl⟩
  rw [PyM.bind_ok h9]
  obtain ⟨-, -, e9⟩ := Traced.log h9
  obtain ⟨r', wr, hrun'⟩ := quiet_residual r1 r3 r4 r5 r6 r7 hpq (by rw [e9, r2]; exact hp8)
  rw [PyM.bind_ok hrun']
  exact ⟨_, _, rfl⟩

/-- Without rounds of partial fits: the run completes. -/
theorem quiet_run (nr : ℤ) : ∃ self' w', quietPipeline.runNucleonCSIterative failEnv ⟨[], nr⟩ (startWorld [quiet]) = (.ok self', w') := by
  unfold Pipeline.runNucleonCSIterative
  have hp : (startWorld [quiet]).heap[quietPipeline.parameters]? = some quiet := rfl
  rw [PyM.bind_ok (readParams_run hp)]
  obtain ⟨s₁, w₁, h1⟩ : ∃ s₁ w₁, quietPipeline.log ("Starting. Initial parameters: " ++ failEnv.strParameters quiet.toList) (startWorld [quiet]) = (.ok s₁, w₁) :=
    ⟨_, _, rfl⟩
  rw [PyM.bind_ok h1]
  obtain ⟨t1, -, e1⟩ := Traced.log h1
  have p1 : s₁.parameters = 0 := by injection h1 with h1 _; injection h1 with h1; rw [← h1]; rfl
  have h2 : Pipeline.runRounds failEnv nr 0 [] s₁ w₁ = (.ok s₁, w₁) := rfl
  rw [PyM.bind_ok h2]
  have hp1 : w₁.heap[s₁.parameters]? = some quiet := by rw [e1, p1]; rfl
  dsimp only
  rw [PyM.bind_ok (mutateParams_run hp1 _)]
  rw [quiet_release, set_self hp1]
  clear h2
  have hg1 : w₁.Good := by unfold World.Good; rw [e1]; exact quietWorld_good
  have hc1 := t1.config
  clear t1 e1 h1
  by_cases hf : decide ((([] : List ℤ).length : ℤ) < nr) = true
  · rw [if_pos hf, if_pos hf, PyM.bind_ok (mutateParams_run hp1 _)]
    exact quiet_rest hc1 (hg1.set _ (.step .fixResonances quiet_reachable)) (.step .fixResonances quiet_reachable) quiet_fixResonances.2
      (by simp [heap_set_append hp1]) _
  · rw [if_neg hf, if_neg hf]
    exact quiet_rest hc1 hg1 quiet_reachable rfl hp1 _

end UA
