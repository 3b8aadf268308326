import Verif.Model.FitScripts
import Verif.Lemmas.PipelinesTrace
import Verif.Props.Utils

/-!
# Runs of pipelines keep all parameter objects reachable
-/

namespace UA

theorem log_good (self : Pipeline) (msg : String) : (self.log msg).Keeps KeepsGood := fun _ h => h

theorem flush_good (self : Pipeline) : self.flushReport.Keeps KeepsGood := fun _ h => h

theorem save_good (self : Pipeline) (env : Env) (name : String) (r : Report) : (self.saveReport env name r).Keeps KeepsGood := fun _ h => h

theorem updateBestFit_good (self : Pipeline) (task : Task) : (self.updateBestFit task).Keeps KeepsGood := by
  unfold Pipeline.updateBestFit
  split
  · exact good_pure _
  · split_ifs
    · exact good_pure _
    · exact good_bind (readParams_good _) fun _ => good_bind (good_lift _) fun _ => good_pure _
    · exact good_pure _

theorem newTask_keeps (self : Pipeline) (name : String) (c : TaskClass) : (self.newTask name c).Keeps KeepsGood := by
  unfold Pipeline.newTask Task.init
  exact good_bind (readParams_good _) fun _ => good_pure _

theorem iterativeTask_good (self : Pipeline) (env : Env) (name : String) (c : TaskClass) : (self.iterativeTask env name c).Keeps KeepsGood := by
  unfold Pipeline.iterativeTask
  exact good_bind (newTask_keeps _ _ _) fun _ => good_bind (log_good _ _) fun _ => good_bind (run_good _ _) fun _ => good_bind (log_good _ _) fun _ =>
    good_bind (updateBestFit_good _ _) fun _ => good_pure _

theorem runRounds_good (env : Env) (nr : ℤ) (ks : List ℤ) : ∀ (i : ℕ) (self : Pipeline), (Pipeline.runRounds env nr i ks self).Keeps KeepsGood := by
  induction ks with
  | nil => exact fun _ _ => good_pure _
  | cons k ks ih =>
    intro i self
    unfold Pipeline.runRounds
    exact good_bind (randomlyFreeze_good _ _ _ _ _) fun _ => good_bind (log_good _ _) fun _ => good_bind (iterativeTask_good _ _ _ _) fun _ =>
      good_bind (flush_good _) fun _ => good_bind (save_good _ _ _ _) fun _ => ih _ _

theorem runIterative_good (self : Pipeline) (env : Env) (its : Iterations) : (self.runIterative env its).Keeps KeepsGood := by
  unfold Pipeline.runIterative
  exact good_bind (readParams_good _) fun _ => good_bind (log_good _ _) fun _ => good_bind (runRounds_good _ _ _ _ _) fun _ =>
    good_bind (log_good _ _) fun _ => good_bind (iterativeTask_good _ _ _ _) fun _ => good_bind (log_good _ _) fun _ =>
    good_bind (flush_good _) fun _ => good_bind (save_good _ _ _ _) fun _ => good_pure _

theorem pipelineInit_good (env : Env) (kind : PipelineKind) (name : String) (parameters : ℕ) (tasks : List TaskClass) (ts : List Datapoint)
    (ys errors : List ℝ) (reports_dir : String) (plot handpicked : Bool) (constants : Constants) :
    (Pipeline.init env kind name parameters tasks ts ys errors reports_dir plot handpicked constants).Keeps KeepsGood := by
  unfold Pipeline.init
  refine good_bind ?_ fun _ => good_pure _
  unfold setUpReportsDirectory
  refine good_bind (fun _ h => h) fun there => ?_
  split_ifs
  · exact good_raise _
  · intro w h
    unfold Env.mkdir
    split_ifs <;> exact h

theorem newParams_good {p : ModelParameters ℝ} (h : Reachable p) : (newParams p).Keeps KeepsGood := fun _ hg => hg.append h

theorem script_f_good (script : FitScript) (env : Env) (random : ℕ → ℝ) (pion_mass : ℝ) (constants : Constants)
    (a b c d e f : List ℝ) (path name : String) : (script.f env random pion_mass constants a b c d e f path name).Keeps KeepsGood := by
  unfold FitScript.f FitScript.makeInitialParameters
  refine lift_init_good _ _ fun p hp => good_bind (newParams_good hp) fun ref => good_bind (mutateParams_good _ fun q hq =>
    (C48_only_free hq script.use_handpicked_bounds script.perturbation_size (some script.perturbation_size_resonances) random).1) fun _ =>
    good_bind (good_lift _) fun _ => good_bind (pipelineInit_good _ _ _ _ _ _ _ _ _ _ _ _) fun _ => good_bind (runIterative_good _ _ _) fun _ => good_pure _

end UA
