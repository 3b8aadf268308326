import Verif.Lemmas.RunsNucleon
import Verif.Props.FitScripts

/-!
# Helper lemmas: a whole call of the nucleon script
-/

namespace UA

theorem nucleon_schedule : ∀ k ∈ freeParamsNumbers fitNucleonCSIterative.nr_free_params fitNucleonCSIterative.nr_iterations, 1 ≤ k := by
  decide +kernel

theorem nucleon_count : ParamClass.nucleon.table.initArgs.length = 37 := by decide +kernel

/-- A call of `f` up to the run of the pipeline. -/
theorem fitNucleonF_steps {env : Env} {random : ℕ → ℝ} (hr : ∀ k, 0 < random k ∧ random k < 1) {pion_mass : ℝ} (hp : 0 ≤ pion_mass ∧ pion_mass ≤ 0.24)
    {proton_mass alpha hc_squared : ℝ} (hm : 0 < proton_mass) (ha : alpha ≠ 0) (μp μn : ℝ) {data : List (ℝ × ℝ × ℝ)}
    (hdata : ∀ d ∈ data, 4 * proton_mass ^ 2 < d.1 ∧ 0 < d.2.1 ∧ d.2.2 ≠ 0)
    (hsmall : ∃ d ∈ data, d.1 / (2 * proton_mass) - proton_mass < Real.sqrt (25 + proton_mass ^ 2)) (hlen : 37 < data.length)
    {path_to_reports name : String} {w : World} (hdir : w.fs.exists (pathJoin path_to_reports name) = false)
    (hmk : env.mkdirFails (pathJoin path_to_reports name) = false) {Q : BestFit → World → Prop} {E : PyErr → Prop}
    (K : ∀ (p : ModelParameters ℝ) (P : Pipeline) (points : List (ℝ × Bool × Bool)) (w₁ : World),
      fitNucleonStart random pion_mass proton_mass μp μn w = (.ok w.heap.length, { w with heap := w.heap ++ [p] }) → GoodObject .nucleon true ∅ p →
      P.kind = .nucleonCS → P.parameters = w.heap.length → P.use_handpicked_bounds = true → P.constants = ⟨proton_mass, alpha, hc_squared⟩ →
      points.Perm (data.map fun d => (d.1, true, true)) → P.NucleonRun points p.names.length → P.ResidualData points → w₁.heap = w.heap ++ [p] →
      (P.runNucleonCSIterative env ⟨freeParamsNumbers fitNucleonCSIterative.nr_free_params fitNucleonCSIterative.nr_iterations,
        fitNucleonCSIterative.nr_initial_rounds_with_fixed_resonances⟩).Sat w₁ (fun self' w' => Q self'.best_fit w') E) :
    (fitNucleonF env random pion_mass proton_mass μp μn alpha hc_squared (data.map (·.1)) (data.map (·.2.1)) (data.map (·.2.2)) path_to_reports name).Sat w
      Q E := by
  have hne : data ≠ [] := by rintro rfl; simp at hlen
  obtain ⟨p, m, hstart, h1, h2, h3, -⟩ := C79_nucleon_start hr hp proton_mass μp μn w
  have hg := (goodObject_iff (c := .nucleon) (S := ∅) trivial).mpr ⟨h1, h2, h3, fun _ _ _ => id⟩
  obtain ⟨out, hout, hperm, -⟩ := C58_nucleon data [] [] [] (Or.inl hne)
  simp only [List.map_nil, List.append_nil] at hout hperm
  have hmem : ∀ q ∈ out, ∃ d ∈ data, q.1.1 = d.1 ∧ q.2 = d.2 := by
    intro q hq
    obtain ⟨d, hd, rfl⟩ := List.mem_map.mp (hperm.mem_iff.mp hq)
    exact ⟨d, hd, rfl, rfl⟩
  have hol : out.length = data.length := by rw [hperm.length_eq]; simp
  unfold fitNucleonF
  refine .step hstart ?_
  rw [hout]
  refine .step rfl ?_
  dsimp only
  have hset : setUpReportsDirectory env (pathJoin path_to_reports name) { w with heap := w.heap ++ [p] } =
      (.ok (), { w with heap := w.heap ++ [p], fs := { w.fs with dirs := fun q => q == pathJoin path_to_reports name || w.fs.dirs q } }) := by
    unfold setUpReportsDirectory
    rw [PyM.bind_ok (PyM.get_run _ _)]
    dsimp only
    rw [hdir, if_neg (by decide)]
    exact if_neg (by rw [hmk]; decide)
  let P : Pipeline := {
    kind := .nucleonCS, name := name, parameters := w.heap.length, tasks := [], ts := out.map (fun q => .nucleon q.1.1 q.1.2.1 q.1.2.2),
    ys := out.map (·.2.1), errors := out.map (·.2.2), reports_dir := pathJoin path_to_reports name, plot := false, use_handpicked_bounds := true,
    constants := ⟨proton_mass, alpha, hc_squared⟩, report := "Report " ++ name ++ ":\n",
    best_fit := ⟨none, none, none, none, none, none⟩ }
  refine .step (PyM.bind_ok (f := fun _ => pure P) hset) ?_
  have hd : P.NucleonRun (out.map (·.1)) p.names.length := by
    refine ⟨Or.inl rfl, rfl, by rw [List.map_map]; rfl, by simp [P], by simp [P], ?_, ?_, ?_⟩
    · intro e he
      obtain ⟨q, hq, rfl⟩ := List.mem_map.mp he
      obtain ⟨d, hd, -, h2⟩ := hmem q hq
      rw [h2]; exact (hdata d hd).2.2
    · intro d hd
      obtain ⟨q, hq, rfl⟩ := List.mem_map.mp hd
      obtain ⟨d, hd, h2, -⟩ := hmem q hq
      rw [h2]
      have h4 := (hdata d hd).1
      have h5 : 0 < 4 * proton_mass ^ 2 := by positivity
      exact ⟨by linarith, fun _ => ⟨by linarith, h4.le⟩⟩
    · rw [(reachable_wellFormed h1).names, h2, nucleon_count, List.length_map, hol]; exact hlen
  have hres : P.ResidualData (out.map (·.1)) := by
    refine ⟨hm, ha, ?_, ?_, ?_⟩
    · intro d hd
      obtain ⟨q, hq, rfl⟩ := List.mem_map.mp hd
      obtain ⟨d, hd, h2, -⟩ := hmem q hq
      rw [h2]; exact (hdata d hd).1
    · intro y hy
      obtain ⟨q, hq, rfl⟩ := List.mem_map.mp hy
      obtain ⟨d, hd, -, h2⟩ := hmem q hq
      rw [h2]; exact (hdata d hd).2.1
    · obtain ⟨d, hd, h5⟩ := hsmall
      exact ⟨(d.1, true, true), List.mem_map.mpr ⟨((d.1, true, true), d.2), hperm.mem_iff.mpr (List.mem_map.mpr ⟨d, hd, rfl⟩), rfl⟩, h5⟩
  refine (K p P (out.map (·.1)) { w with heap := w.heap ++ [p], fs := { w.fs with dirs := fun q => q == pathJoin path_to_reports name || w.fs.dirs q } }
    hstart hg rfl rfl rfl rfl ?_ hd hres rfl).bind ?_
  · have := hperm.map fun q : (ℝ × Bool × Bool) × ℝ × ℝ => q.1
    rw [List.map_map] at this
    exact this
  · intro self' w' h
    exact .of_run rfl h

/-- A whole call of `f`. -/
theorem fitNucleonF_sat {env : Env} {random : ℕ → ℝ} (hr : ∀ k, 0 < random k ∧ random k < 1) {pion_mass : ℝ} (hp : 0 ≤ pion_mass ∧ pion_mass ≤ 0.24)
    {proton_mass alpha hc_squared : ℝ} (hm : 0 < proton_mass) (ha : alpha ≠ 0) (μp μn : ℝ) {data : List (ℝ × ℝ × ℝ)}
    (hdata : ∀ d ∈ data, 4 * proton_mass ^ 2 < d.1 ∧ 0 < d.2.1 ∧ d.2.2 ≠ 0)
    (hsmall : ∃ d ∈ data, d.1 / (2 * proton_mass) - proton_mass < Real.sqrt (25 + proton_mass ^ 2)) (hlen : 37 < data.length)
    {path_to_reports name : String} {w : World} (hdir : w.fs.exists (pathJoin path_to_reports name) = false)
    (hmk : env.mkdirFails (pathJoin path_to_reports name) = false) (hfit : env.FitsInside ∅) (hplot : ∀ k, env.plot k = .ok ()) (hsamp : env.Samples) :
    (fitNucleonF env random pion_mass proton_mass μp μn alpha hc_squared (data.map (·.1)) (data.map (·.2.1)) (data.map (·.2.2)) path_to_reports name).Sat w
      (fun _ w' => ∃ p', w'.heap[w.heap.length]? = some p' ∧ GoodObject .nucleon true ∅ p') (· = .zeroDivisionError) := by
  refine fitNucleonF_steps hr hp hm ha μp μn hdata hsmall hlen hdir hmk fun p P points w₁ _ hg hkind hpar hb _ _ hd hres hw₁ => ?_
  refine (runNucleonCSIterative_sat hfit hplot hsamp _ P w₁ hd hkind hres ⟨p, by rw [hpar, hw₁]; simp, by rw [hb]; exact hg, rfl⟩ nucleon_schedule).mono ?_
  rintro self' w' ⟨hsame, p', hp', hg', -⟩
  exact ⟨p', by rw [hsame.parameters, hpar] at hp'; exact hp', by rw [hsame.bounds, hb] at hg'; exact hg'⟩

/-- Forty points of the proton above the threshold, cross sections 1, errors 0.1. -/
noncomputable def fortyPoints : List (ℝ × ℝ × ℝ) := (List.range 40).map fun k : ℕ => ((k : ℝ) / 10 + 4, 1, 0.1)

theorem fortyPoints_spec : (∀ d ∈ fortyPoints, 4 * (0.938 : ℝ) ^ 2 < d.1 ∧ 0 < d.2.1 ∧ d.2.2 ≠ 0) ∧
    (∃ d ∈ fortyPoints, d.1 / (2 * (0.938 : ℝ)) - 0.938 < Real.sqrt (25 + 0.938 ^ 2)) ∧ 37 < fortyPoints.length := by
  refine ⟨fun d hd => ?_, ⟨_, List.mem_map_of_mem (List.mem_range.mpr (show 0 < 40 by norm_num)), ?_⟩, by simp [fortyPoints]⟩
  · obtain ⟨k, -, rfl⟩ := List.mem_map.mp hd
    have : (0 : ℝ) ≤ k := Nat.cast_nonneg k
    dsimp only
    exact ⟨by norm_num; linarith, by norm_num, by norm_num⟩
  · rw [Real.lt_sqrt (by norm_num)]
    norm_num

/-- A pipeline for these points. -/
noncomputable def fortyPipeline (kind : PipelineKind) (tasks : List TaskClass) : Pipeline where
  kind := kind
  name := "P"
  parameters := 0
  tasks := tasks
  ts := (fortyPoints.map fun d => ((d.1, true, true) : ℝ × Bool × Bool)).map fun d => .nucleon d.1 d.2.1 d.2.2
  ys := fortyPoints.map (·.2.1)
  errors := fortyPoints.map (·.2.2)
  reports_dir := "reports/P"
  plot := false
  use_handpicked_bounds := true
  constants := ⟨0.938, 1, 1⟩
  report := ""
  best_fit := .nothing

theorem fortyPipeline_data {kind : PipelineKind} (hk : kind = .nucleonCS ∨ kind = .nucleonFF) (tasks : List TaskClass) {p : ModelParameters ℝ}
    (hr : Reachable p) (hc : p.cls = .nucleon) :
    (fortyPipeline kind tasks).NucleonData p (fortyPoints.map fun d => (d.1, true, true)) ∧
      (fortyPipeline kind tasks).ResidualData (fortyPoints.map fun d => (d.1, true, true)) := by
  obtain ⟨h1, ⟨d5, hd5, h5⟩, h3⟩ := fortyPoints_spec
  refine ⟨⟨hk, rfl, rfl, by simp [fortyPipeline], by simp [fortyPipeline], ?_, ?_, ?_⟩,
    ⟨by norm_num [fortyPipeline], by norm_num [fortyPipeline], ?_, ?_, ⟨_, List.mem_map_of_mem hd5, h5⟩⟩⟩
  · intro e he
    obtain ⟨d, hd, rfl⟩ := List.mem_map.mp he
    exact (h1 d hd).2.2
  · intro e he
    obtain ⟨d, hd, rfl⟩ := List.mem_map.mp he
    have h4 := (h1 d hd).1
    have h5 : (0 : ℝ) < 4 * 0.938 ^ 2 := by norm_num
    exact ⟨by dsimp only; linarith, fun _ => ⟨by dsimp only; linarith, h4.le⟩⟩
  · rw [(reachable_wellFormed hr).names, hc, nucleon_count, List.length_map]; exact h3
  · intro e he
    obtain ⟨d, hd, rfl⟩ := List.mem_map.mp he
    exact (h1 d hd).1
  · intro e he
    obtain ⟨d, hd, rfl⟩ := List.mem_map.mp he
    exact (h1 d hd).2.1

end UA
