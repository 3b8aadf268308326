import Verif.Lemmas.Units
import Verif.Lemmas.ValueObject
import Verif.Lemmas.ContinuityWitness
import Verif.Lemmas.ContinuityNucleonWitness

/-!
# Property C109: the results do not depend on the unit of energy

Form factors are pure numbers and cross sections are inverse squares of energies (times the constant the caller supplies).
-/

namespace UA

/-- Every object has a counterpart in other units. -/
theorem C109_counterpart {p : ModelParameters ℝ} (h : Reachable p) (k : ℝ) : ∃ p', Reachable p' ∧ p.InUnits k p' := by
  have hw := reachable_wellFormed h
  obtain ⟨v, hv⟩ := hw.exists_values
  refine ⟨valueObject p.cls (scaleValues k v), valueObject_reachable _ _, rfl, fun n hn => ?_⟩
  rw [hw.names] at hn
  rw [valueObject_entry hn, entry_eq hw hv hn]
  rfl

/-- **C109** form factors. For an object of any class, its counterpart in units of energy `k` times smaller, and any list of data points
(named or bare rows, readable or not): evaluating the counterpart at the data points in the new units gives exactly the same outcome,
the same numbers or the same exception. -/
theorem C109_form_factors {k : ℝ} (hk : 0 < k) {p p' : ModelParameters ℝ} (hp : Reachable p) (hp' : Reachable p') (h : p.InUnits k p')
    (ts : List Datapoint) : functionFormFactor (ts.map (·.inUnits k)) p' = functionFormFactor ts p :=
  (eval_inUnits hk hp hp' h ts).1

/-- **C109** cross sections. The mass of the product particle is converted as well; the numbers are divided by `k²`, exceptions stay. -/
theorem C109_cross_sections {k : ℝ} (hk : 0 < k) {p p' : ModelParameters ℝ} (hp : Reachable p) (hp' : Reachable p') (h : p.InUnits k p')
    (ts : List Datapoint) (mass alpha hc_squared : ℝ) :
    functionCrossSection (ts.map (·.inUnits k)) (k * mass) alpha hc_squared p' =
      (functionCrossSection ts mass alpha hc_squared p).map (List.map (· / k ^ 2)) := by
  rw [(eval_inUnits hk hp hp' h ts).2]
  rcases functionCrossSection ts mass alpha hc_squared p with e | rs <;> rfl

/-- **C109** the model of one resonance and the vector-meson-dominance model. -/
theorem C109_other_models {k : ℝ} (hk : 0 < k) (t : ℂ) :
    (∀ t_0 t_in a mass decay_rate : ℝ,
      (do let m ← SingleComponentModel.init (k ^ 2 * t_0) (k ^ 2 * t_in) a (k * mass) (k * decay_rate); m.call ((k ^ 2 : ℝ) * t)) =
        (do let m ← SingleComponentModel.init t_0 t_in a mass decay_rate; m.call t)) ∧
    ∀ mesons : List VectorMeson,
      (VMDModel.create (mesons.map fun v => ⟨v.coefficient, k * v.mass⟩)).call ((k ^ 2 : ℝ) * t) = (VMDModel.create mesons).call t :=
  ⟨fun _ _ _ _ _ => single_scale hk _ _ _ _ _ t, fun mesons => vmd_scale hk mesons t⟩

/-- Cases: a kaon object and a nucleon object in GeV and in MeV. The evaluations succeed, so that the outcomes are numbers. -/
example : ∃ p p' q q' : ModelParameters ℝ, (Reachable p ∧ Reachable p' ∧ p.InUnits 1000 p' ∧ p ≠ p') ∧
    (Reachable q ∧ Reachable q' ∧ q.InUnits 1000 q' ∧ q ≠ q') ∧
    (∃ r, functionFormFactor [.kaon (5 : ℝ) true] p = .ok [r] ∧ functionFormFactor [.kaon (5000000 : ℝ) true] p' = .ok [r]) ∧
    ∃ r, functionCrossSection [.nucleon (5 : ℝ) true true] 1 2 3 q = .ok [r] ∧
      functionCrossSection [.nucleon (5000000 : ℝ) true true] 1000 2 3 q' = .ok [r / 1000000] := by
  have hne : ∀ {c : ParamClass} {v v' : String → ℝ} (n : String), n ∈ c.table.initArgs → v n ≠ v' n → valueObject c v ≠ valueObject c v' := by
    intro c v v' n hn hv h
    exact hv (by rw [← valueObject_entry (c := c) (v := v) hn, ← valueObject_entry (c := c) (v := v') hn, h])
  have hu : ∀ {c : ParamClass} {v : String → ℝ}, (valueObject c v).InUnits 1000 (valueObject c (scaleValues 1000 v)) := by
    intro c v
    refine ⟨rfl, fun n hn => ?_⟩
    rw [(reachable_wellFormed (valueObject_reachable c v)).names] at hn
    rw [valueObject_entry (c := c) hn, valueObject_entry (c := c) hn]
    rfl
  have k0 : (0 : ℝ) < 1000 := by norm_num
  have hin : KaonInside (jumpObject .kaon 2) (.ofValues .kaon (jumpValue 2)) :=
    kaon_inside_wired (jump_reachable _ _) (p := jumpObject .kaon 2) trivial (jump_inside (c := .kaon) trivial one_lt_two)
      (kaon_wiring_values (p := jumpObject .kaon 2) (reachable_wellFormed (jump_reachable _ _)) (jump_values _ _) trivial)
  have htin : ¬ ∃ q ∈ (jumpObject .kaon 2).toList, "t_in_".toList <+: q.name.toList ∧ (5 : ℝ) = q.value := by
    rw [← hin.tin, (thresholds_ofValues .kaon _).2.1, (thresholds_ofValues .kaon _).2.2.2]
    have e1 : jumpValue 2 "t_in_isoscalar" = 2 := by simp [jumpValue, typicalValue]
    have e2 : jumpValue 2 "t_in_isovector" = 2 := by simp [jumpValue, typicalValue]
    rw [e1, e2]
    norm_num
  have hf := hin.eval_eq .formFactor (points := [(5, true)]) (by simp) (by simp) (by simpa using htin)
  have hg := (nucleonCase_args (T := 10) (m := 2) (by norm_num) (by norm_num)).eval_eq (.crossSection 1 2 3) (points := [(5, true, true)]) (by simp) (by
    intro d hd
    simp only [List.mem_cons, List.not_mem_nil, or_false] at hd
    subst hd
    exact ⟨nucleonCase_good (by norm_num) (by norm_num) _ (by norm_num) (by norm_num), by norm_num, by norm_num⟩)
  have e5 : ((1000 ^ 2 : ℝ) : ℂ) * ((5 : ℝ) : ℂ) = ((5000000 : ℝ) : ℂ) := by push_cast; norm_num
  refine ⟨jumpObject .kaon 2, valueObject .kaon (scaleValues 1000 (jumpValue 2)), nucleonCaseObject 10 2,
    valueObject .nucleon (scaleValues 1000 (nucleonCase 10 2)),
    ⟨jump_reachable _ _, valueObject_reachable _ _, hu, hne (v := jumpValue 2) "mass_omega" (by decide) ?_⟩,
    ⟨nucleonCase_reachable _ _, valueObject_reachable _ _, hu, hne (v := nucleonCase 10 2) "mass_omega" (by decide) ?_⟩,
    ⟨_, hf, ?_⟩, ⟨_, hg, ?_⟩⟩
  · rw [scaleValues_one (by decide)]
    have : jumpValue 2 "mass_omega" = 2 := by simp [jumpValue, typicalValue]
    rw [this]; norm_num
  · rw [scaleValues_one (by decide)]
    have : nucleonCase 10 2 "mass_omega" = 2 := by simp [nucleonCase, List.lookup]
    rw [this]; norm_num
  · have := C109_form_factors k0 (jump_reachable _ _) (valueObject_reachable .kaon (scaleValues 1000 (jumpValue 2))) (p := jumpObject .kaon 2) hu
      [.kaon (5 : ℝ) true]
    rw [← e5]
    exact this.trans hf
  · have := C109_cross_sections k0 (nucleonCase_reachable _ _) (valueObject_reachable .nucleon (scaleValues 1000 (nucleonCase 10 2)))
      (p := nucleonCaseObject 10 2) hu [.nucleon (5 : ℝ) true true] 1 2 3
    rw [mul_one] at this
    rw [← e5, show (1000000 : ℝ) = 1000 ^ 2 by norm_num]
    refine this.trans ?_
    rw [show functionCrossSection [.nucleon (5 : ℝ) true true] 1 2 3 (nucleonCaseObject 10 2) = _ from hg]
    rfl

end UA
