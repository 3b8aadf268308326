import Verif.Lemmas.RunsPipeline
import Verif.Lemmas.PipelinesWitness

/-!
# Concrete runs for the examples of C81
-/

namespace UA

open Classical in
/-- An environment whose fits evaluate the function at the starting values and return them, unless they contain an element of `S`. -/
noncomputable def idleEnv (S : Set ℝ) : Env where
  curve_fit _ problem := if ∀ a ∈ problem.p0, a ∉ S then .ask problem.p0 fun _ => .done (.ok (problem.p0, []))
    else .done (.error (.runtimeError, "no optimum"))
  plot _ := .ok ()
  sample _ names k := names.take k
  strFloat _ := "1"
  strParameters _ := ""
  strNames _ := ""
  strReport _ := ""
  strBestFit _ := ""
  mkdirFails _ := false
  numpy _ := true

theorem idleEnv_fits (S : Set ℝ) : (idleEnv S).FitsInside S := by
  intro k problem _ _ hin
  unfold idleEnv
  dsimp only
  split_ifs with h
  · exact ⟨⟨hin, h⟩, fun _ => ⟨hin, h⟩⟩
  · rfl

theorem idleEnv_samples (S : Set ℝ) : (idleEnv S).Samples := fun _ names k hk =>
  ⟨names.take k, List.take_sublist k names, by simpa using hk, List.Perm.refl _⟩

/-- Sixty charged points at `t = 10, 11, …`. -/
noncomputable def sixty : List (ℝ × Bool) := (List.range 60).map fun k : ℕ => ((k : ℝ) + 10, true)

/-- A pipeline for these points, all values 0 and errors 1. -/
noncomputable def sixtyPoints (kind : PipelineKind) (tasks : List TaskClass) : Pipeline where
  kind := kind
  name := "P"
  parameters := 0
  tasks := tasks
  ts := sixty.map fun d => .kaon d.1 d.2
  ys := List.replicate 60 0
  errors := List.replicate 60 1
  reports_dir := "reports/P"
  plot := false
  use_handpicked_bounds := false
  constants := ⟨1, 1, 1⟩
  report := ""
  best_fit := .nothing

theorem typical_insideFor (c : ParamClass) (hc : IsResonanceClass c) : (typical c 1).InsideFor false := by
  have hi := typical_insideMaximal c hc one_pos
  refine ⟨hi, ?_, (fun h => by cases h)⟩
  obtain ⟨dict, hd, h⟩ := hi
  exact ⟨dict, hd, fun q hq _ b hb => (h q hq).1 b hb⟩

end UA
