import Verif.Spec.Content
import Verif.Lemmas.ParametersInv
import Verif.Lemmas.ParametersTables

/-! Objects with given values. -/

namespace UA

theorem entry_eq {p : ModelParameters ℝ} (hw : p.WellFormed) {v : String → ℝ} (hv : ∀ q ∈ p.data, q.value = v q.name) {n : String}
    (hn : n ∈ p.cls.table.initArgs) : p.entry n = v n := by
  rw [← hw.names] at hn
  obtain ⟨q, hq, hqn⟩ := List.mem_map.mp hn
  unfold ModelParameters.entry ModelParameters.toList
  rcases hf : p.data.find? (·.name == n) with _ | q'
  · rw [List.find?_eq_none] at hf
    exact absurd (by simpa using hqn) (hf q hq)
  · have h1 := List.mem_of_find?_eq_some hf
    have h2 := List.find?_some hf
    rw [hf]
    show q'.value = v n
    rw [hv q' h1, (beq_iff_eq.mp h2 : q'.name = n)]

/-- A fresh object with given values. -/
noncomputable def valueObject (c : ParamClass) (v : String → ℝ) : ModelParameters ℝ := ⟨c, c.table.alwaysFixed, freshData c v⟩

theorem valueObject_reachable (c : ParamClass) (v : String → ℝ) : Reachable (valueObject c v) :=
  .init (init_eq c (kw := c.table.initArgs.map fun n => (n, v n)) (fun _ hn => lookup_map_self hn) fun p hp => by
    obtain ⟨n, hn, rfl⟩ := List.mem_map.mp hp
    exact hn)

theorem valueObject_values (c : ParamClass) (v : String → ℝ) : ∀ q ∈ (valueObject c v).data, q.value = v q.name := by
  intro q hq
  obtain ⟨n, -, rfl⟩ := List.mem_map.mp hq
  rfl

theorem valueObject_entry {c : ParamClass} {v : String → ℝ} {n : String} (hn : n ∈ c.table.initArgs) : (valueObject c v).entry n = v n :=
  entry_eq (reachable_wellFormed (valueObject_reachable c v)) (valueObject_values c v) hn

end UA
