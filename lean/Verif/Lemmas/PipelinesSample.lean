import Verif.Spec.Pipelines
import Verif.Lemmas.TasksWitness

/-!
A sampler as required.
-/

namespace UA

open Complex

/-- The sampler that takes the first `k` names is one. -/
theorem constEnv_samples (fit : ℕ → Except (PyErr × String) (List ℝ × Cov)) (str : PyFloat → String) : (constEnv fit str).Samples :=
  fun _ names k hk => ⟨names.take k, List.take_sublist k names, by simp [hk], .refl _⟩

end UA
