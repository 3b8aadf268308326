import Verif.Lemmas.UnitsBounds

/-!
# Property C109: bounds and the unit of energy
-/

namespace UA

/-- **C109** maximal bounds. They hold no number with a unit: for an object of any class and its counterpart in units of energy `k` times
smaller the maximal bounds of the counterpart are the maximal bounds in the new units (or both raise the same exception). -/
theorem C109_bounds {k : ℝ} (hk : 0 < k) {p p' : ModelParameters ℝ} (hp : Reachable p) (hp' : Reachable p') (h : p.InUnits k p') :
    p'.bounds false = (p.bounds false).map (inUnitsBounds k) :=
  bounds_inUnits hk hp hp' h

/-- **C109** handpicked bounds. They are numbers in GeV: whatever units the values are in, the bounds of masses and widths stay the same
numbers, so that the fits with handpicked bounds are confined to values in GeV. -/
theorem C109_handpicked {k : ℝ} {p p' : ModelParameters ℝ} (hp : Reachable p) (hp' : Reachable p') (h : p.InUnits k p') :
    ∃ dict dict', p.bounds true = .ok dict ∧ p'.bounds true = .ok dict' ∧
      ∀ e ∈ dict, "mass_".toList <+: e.1.toList ∨ "decay_rate_".toList <+: e.1.toList → e ∈ dict' :=
  handpicked_inUnits hp hp' h.1

/-- Cases: a kaon object in GeV and in MeV. The maximal bounds exist; the lower bound of a branch point is the threshold in the same
units; the handpicked bounds of the phi mass are the same numbers. -/
example : ∃ p p' : ModelParameters ℝ, (Reachable p ∧ Reachable p' ∧ p.InUnits 1000 p') ∧
    (∃ dict, p.bounds false = .ok dict ∧ ("t_in_isoscalar", (((1 : ℝ) : WithBot ℝ), (⊤ : WithTop ℝ))) ∈ dict) ∧
    (∃ dict, p'.bounds false = .ok dict ∧ ("t_in_isoscalar", (((1000000 : ℝ) : WithBot ℝ), (⊤ : WithTop ℝ))) ∈ dict) ∧
    ∃ dict, p'.bounds true = .ok dict ∧ ∃ e ∈ dict, e.1 = "mass_phi" := by
  have w := reachable_wellFormed (valueObject_reachable .kaon fun _ => 1)
  have b := bounds_eq w (valueObject_values .kaon fun _ => 1) false (fun _ _ _ _ => zero_le_one)
  have m : ("t_in_isoscalar", (((1 : ℝ) : WithBot ℝ), (⊤ : WithTop ℝ))) ∈ boundsV .kaon (fun _ => 1) false :=
    List.mem_map.mpr ⟨("t_in_isoscalar", .value "t_0_isoscalar", .posInf), by decide +kernel, rfl⟩
  refine ⟨valueObject .kaon fun _ => 1, valueObject .kaon (scaleValues 1000 fun _ => 1),
    ⟨valueObject_reachable _ _, valueObject_reachable _ _, valueObject_inUnits _ _ _⟩, ⟨_, b, m⟩, ?_, ?_⟩
  · have h := C109_bounds (by norm_num : (0 : ℝ) < 1000) (valueObject_reachable .kaon fun _ => 1) (valueObject_reachable _ _) (valueObject_inUnits 1000 _ _)
    rw [b] at h
    refine ⟨_, h, List.mem_map.mpr ⟨_, m, ?_⟩⟩
    have : dimension "t_in_isoscalar" = 2 := by decide
    simp only [this]
    refine Prod.ext rfl (Prod.ext ?_ rfl)
    show (((1000 ^ 2 * 1 : ℝ)) : WithBot ℝ) = ((1000000 : ℝ) : WithBot ℝ)
    norm_num
  · refine ⟨_, bounds_eq (reachable_wellFormed (valueObject_reachable _ _)) (valueObject_values _ _) true (fun h => by cases h), ?_⟩
    have : "mass_phi" ∈ ParamClass.kaon.table.handpicked.map (·.1) := by decide +kernel
    obtain ⟨t, ht, e⟩ := List.mem_map.mp this
    exact ⟨_, List.mem_map_of_mem ht, e⟩

end UA
