import Verif.Lemmas.TasksWitness
import Verif.Props.EndToEnd

/-!
# A fit whose values are Python numbers: of all parameters of a kaon model only one mass is free
-/

namespace UA

/-- `KaonParametersB` with only `mass_phi_prime` free. -/
noncomputable def oneMass : ModelParameters ℝ := ((typical .kaonB 1).fixAllParameters.releaseParameters ["mass_phi_prime"]).2

theorem oneMass_reachable : Reachable oneMass :=
  .step (.releaseParameters ["mass_phi_prime"]) (.step .fixAll (typical_reachable .kaonB 1))

theorem oneMass_data : oneMass.data = (typical .kaonB 1).data.map fun q => ⟨q.name, q.value, decide (q.name ≠ "mass_phi_prime")⟩ := rfl

theorem oneMass_cls : oneMass.cls = .kaonB := rfl

theorem oneMass_inside : oneMass.InsideMaximal := by
  refine insideMaximal_of_values (x := typicalValue 1) oneMass_reachable (by rw [oneMass_cls]; trivial) ?_ (by
    rw [oneMass_cls]; exact typical_inside .kaonB one_pos)
  intro q hq
  rw [oneMass_data] at hq
  obtain ⟨r, hr, rfl⟩ := List.mem_map.mp hq
  exact typical_values .kaonB 1 r hr

theorem oneMass_free : oneMass.toList.filter (!·.is_fixed) = [⟨"mass_phi_prime", typicalValue 1 "mass_phi_prime", false⟩] := rfl

/-- A fit of this mass to one point. -/
noncomputable def massTask : Task where
  cls := .kaonFFFixAccording
  name := "Task#0:TaskFixAccordingToParametersFit"
  parameters := 0
  partial_f := none
  ts := [.kaon (3 : ℝ) true]
  ys := [1]
  errors := [1]
  ts_fit := [.kaon (3 : ℝ) true]
  ys_fit := [1]
  errors_fit := [1]
  should_plot := false
  use_handpicked_bounds := false
  constants := ⟨1, 1, 1⟩
  reports_dir := none
  report := ⟨"Task#0:TaskFixAccordingToParametersFit", oneMass.toList, none, none, none, none, none, "started", none, []⟩

theorem massTask_setUp : massTask.setUp (startWorld [oneMass]) =
    (.ok { massTask with partial_f := some (.ofPartial ⟨.formFactor, 1⟩) }, startWorld [oneMass, oneMass]) := by
  obtain ⟨p', h1, h2, h3, h4⟩ := setUp_run (self := massTask) (by decide) (w := startWorld [oneMass]) rfl oneMass_reachable
  have hp : p' = oneMass := by
    have e : p'.toList = oneMass.toList := by
      rw [h3]; exact List.map_id _
    have w1 := reachable_wellFormed h1
    have w2 := reachable_wellFormed oneMass_reachable
    cases p'
    exact congr (congr (congrArg ModelParameters.mk h2) (w1.always.trans ((congrArg (fun c : ParamClass => c.table.alwaysFixed) h2).trans w2.always.symm))) e
  subst hp
  rw [h4, if_neg (by decide)]
  rfl

/-- An environment in which a fit ends with its starting values and the values of the fitted function are Python numbers. -/
noncomputable def pythonEnv : Env where
  curve_fit _ problem := .done (.ok (problem.p0, [[1]]))
  plot _ := .ok ()
  sample _ names k := names.take k
  strFloat _ := ""
  strParameters _ := ""
  strNames _ := ""
  strReport _ := ""
  strBestFit _ := ""
  mkdirFails _ := false
  numpy _ := false

theorem massTask_value : ∃ fs, partialSpec .formFactor oneMass massTask.ts oneMass.getFreeValues = .ok fs := by
  obtain ⟨lo, up, hb, ha⟩ := C80_start oneMass_reachable oneMass_inside
  obtain ⟨p', h1, -, -, -, h2, -⟩ := C80_fit oneMass_reachable (by rw [oneMass_cls]; trivial) oneMass_inside hb ha (points := [(3, true)])
    (by intro d hd; fin_cases hd; norm_num) .formFactor
  refine h2.mpr fun d hd => ⟨(fun h => absurd rfl h), ?_⟩
  rintro ⟨q, hq, hn, he⟩
  obtain rfl : d = (3, true) := by simpa using hd
  have hp' : p' = oneMass := by
    have : oneMass.updateFreeValues oneMass.getFreeValues = (.ok (), oneMass) := rfl
    rw [this] at h1
    exact (congrArg Prod.snd h1).symm
  rw [hp'] at hq
  have hq' : q ∈ oneMass.data := hq
  rw [oneMass_data] at hq'
  obtain ⟨r, hr, rfl⟩ := List.mem_map.mp hq'
  dsimp only at he hn
  rw [typical_values .kaonB 1 r hr] at he
  unfold typicalValue at he
  have hnot : ¬ "t_0_".toList <+: r.name.toList := by
    intro h0
    rcases hl : r.name.toList with _ | ⟨a, _ | ⟨b, _ | ⟨c, l⟩⟩⟩ <;> rw [hl] at h0 hn <;> simp [List.cons_prefix_cons] at h0 hn
    rw [← h0.2.2.1] at hn
    exact absurd hn.2.2.1 (by decide)
  rw [if_neg hnot, if_pos hn] at he
  norm_num at he

end UA
