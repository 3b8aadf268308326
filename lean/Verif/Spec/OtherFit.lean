import Verif.Spec.Tasks

/-!
# Vocabulary for the fits of the background models
-/

namespace UA

/-- The two classes of parameters that belong to background models without a form factor method. -/
def ParamClass.IsBackground (c : ParamClass) : Prop := c = .etgmr ∨ c = .twoPoles

/-- The task classes that fit cross sections. -/
def TaskClass.FitsCrossSections (c : TaskClass) : Prop :=
  c = .etgmr ∨ c = .twoPoles ∨ c = .kaonCSFull ∨ c = .kaonCSFixedCouplings ∨ c = .kaonCSFixAccording ∨ c = .nucleonCSFull ∨
    c = .nucleonCSFixedCouplings ∨ c = .nucleonCSFixAccording

/-- A fitting procedure that only asks for and only returns lists of `n` numbers, and that raises nothing but `RuntimeError` (no optimum
found) by itself. -/
def FitProc.Sized (n : ℕ) : FitProc → Prop
  | .done (.ok (opt, _)) => opt.length = n
  | .done (.error (e, _)) => e = .runtimeError
  | .ask args next => args.length = n ∧ ∀ ys, (next ys).Sized n

/-- The fitting library does so when there are data, `n` being the number of starting values. -/
def Env.FitsSized (env : Env) : Prop :=
  ∀ k problem, problem.xdata ≠ [] → (env.curve_fit k problem).Sized problem.p0.length

/-- The fitting library evaluates the function at least once. -/
def Env.Evaluates (env : Env) : Prop := ∀ k problem, ∃ args next, env.curve_fit k problem = .ask args next

end UA
