import Verif.Lemmas.ContinuityNucleonWitness

/-!
# Property C104: the fitted nucleon functions depend continuously on the parameters, away from the thresholds

The nucleon counterpart of C85. The nucleon model compares the real part of the pole of a resonance with the thresholds of its channel.
-/

namespace UA

open Complex ComplexConjugate Filter Topology

/-- **C104** Take a nucleon object inside the maximal bounds, none of whose resonances has its pole exactly above a threshold of its
channel, and a list of points `t ≥ 0` at which the fitted function (form factor or cross section) can be evaluated. For objects inside
the bounds whose values tend to its values, the function can be evaluated at these points for almost all of them, and the results tend
to its results. -/
theorem C104_continuous {ι : Type*} {l : Filter ι} {p : ModelParameters ℝ} (h : Reachable p) (hc : p.cls = .nucleon) (hi : p.InsideMaximal)
    {x : NucleonArgs} (hx : p.HoldsExactly x.byName) (hoff : x.OffThresholds) {P : ι → ModelParameters ℝ}
    (hP : ∀ i, Reachable (P i) ∧ (P i).cls = .nucleon ∧ (P i).InsideMaximal) (ht : ValuesTendTo P l p)
    (kind : PartialKind) {points : List (ℝ × Bool × Bool)} (h0 : ∀ d ∈ points, 0 ≤ d.1) {rs : List ℝ}
    (hr : kind.eval (points.map fun d => .nucleon d.1 d.2.1 d.2.2) p = .ok rs) :
    ResultsTendTo (fun i => kind.eval (points.map fun d => .nucleon d.1 d.2.1 d.2.2) (P i)) l (.ok rs) :=
  nucleon_eval_tends h hc hi hx hoff hP ht kind h0 hr

/-- A case: the mass of the rho approaches 2 and everything else stays; form factors at 0, 5 and 12 (the inelastic thresholds are 10)
and cross sections at 5 and 12. -/
example (m : ℕ → ℝ) (hm : Tendsto m atTop (𝓝 2)) (h1 : ∀ i, 1 < m i) :
    (Reachable (nucleonCaseObject 10 2) ∧ (nucleonCaseObject 10 2).cls = .nucleon ∧ (nucleonCaseObject 10 2).InsideMaximal) ∧
    (∃ x : NucleonArgs, (nucleonCaseObject 10 2).HoldsExactly x.byName ∧ x.OffThresholds) ∧
    (∀ i, Reachable (nucleonCaseObject 10 (m i)) ∧ (nucleonCaseObject 10 (m i)).cls = .nucleon ∧ (nucleonCaseObject 10 (m i)).InsideMaximal) ∧
    ValuesTendTo (fun i => nucleonCaseObject 10 (m i)) atTop (nucleonCaseObject 10 2) ∧
    (∃ rs, PartialKind.formFactor.eval ([((0 : ℝ), true, true), (5, false, false), (12, true, false)].map fun d => .nucleon d.1 d.2.1 d.2.2)
      (nucleonCaseObject 10 2) = .ok rs) ∧
    (∃ rs, (PartialKind.crossSection 1 2 3).eval ([((5 : ℝ), true, true), (12, false, false)].map fun d => .nucleon d.1 d.2.1 d.2.2)
      (nucleonCaseObject 10 2) = .ok rs) := by
  refine ⟨⟨nucleonCase_reachable _ _, rfl, nucleonCase_inside (by norm_num) (by norm_num)⟩, ⟨_, nucleonCase_holds _ _, nucleonCase_off⟩,
    fun i => ⟨nucleonCase_reachable _ _, rfl, nucleonCase_inside (by norm_num) (by linarith [h1 i])⟩, nucleonCase_values_tend hm, ?_, ?_⟩
  · refine ⟨_, (nucleonCase_args (T := 10) (m := 2) (by norm_num) (by norm_num)).eval_eq .formFactor ?_ ?_⟩
    · simp
    · intro d hd
      simp only [List.mem_cons, List.not_mem_nil, or_false] at hd
      rcases hd with rfl | rfl | rfl <;> exact nucleonCase_good (by norm_num) (by norm_num) _ (by norm_num) (by norm_num)
  · refine ⟨_, (nucleonCase_args (T := 10) (m := 2) (by norm_num) (by norm_num)).eval_eq (.crossSection 1 2 3) ?_ ?_⟩
    · simp
    · intro d hd
      simp only [List.mem_cons, List.not_mem_nil, or_false] at hd
      rcases hd with rfl | rfl <;>
        exact ⟨nucleonCase_good (by norm_num) (by norm_num) _ (by norm_num) (by norm_num), by norm_num, by norm_num⟩

/-- **C104** the condition on the poles is needed. There are a nucleon object inside the bounds and objects inside the bounds whose
values tend to its values, such that some form factor at `t = 5` of these tends to a number other than its form factor. The objects
differ in the mass of the rho alone, whose pole reaches the inelastic threshold of the Pauli isovector part from below. -/
theorem C104_jump : ∃ (p : ModelParameters ℝ) (P : ℕ → ModelParameters ℝ) (proton electric : Bool) (y y' : ℝ),
    (Reachable p ∧ p.cls = .nucleon ∧ p.InsideMaximal) ∧ (∀ i, Reachable (P i) ∧ (P i).cls = .nucleon ∧ (P i).InsideMaximal) ∧
    ValuesTendTo P atTop p ∧ y ≠ y' ∧ functionFormFactor [.nucleon (5 : ℝ) proton electric] p = .ok [y] ∧
    ResultsTendTo (fun i => functionFormFactor [.nucleon (5 : ℝ) proton electric] (P i)) atTop (.ok [y']) ∧
    ¬ ResultsTendTo (fun i => functionFormFactor [.nucleon (5 : ℝ) proton electric] (P i)) atTop (.ok [y]) := by
  obtain ⟨pr, el, y, y', hne, hy, hy'⟩ := nucleon_jump_limit
  refine ⟨nucleonCaseObject (15 / 4) 2, fun i => nucleonCaseObject (15 / 4) (approachingMass i), pr, el, y, y',
    ⟨nucleonCase_reachable _ _, rfl, nucleonCase_inside (by norm_num) (by norm_num)⟩,
    fun i => ⟨nucleonCase_reachable _ _, rfl, nucleonCase_inside (by norm_num) (by linarith [(approachingMass_bounds i).1])⟩,
    nucleonCase_values_tend approachingMass_tendsto, hne, hy, hy', ?_⟩
  rintro ⟨ys, h1, h2⟩
  obtain ⟨zs, h3, h4⟩ := hy'
  injection h1 with h1
  injection h3 with h3
  subst h1 h3
  have hd : 0 < |y - y'| / 2 := by have := abs_pos.mpr (sub_ne_zero.mpr hne); linarith
  obtain ⟨i, ⟨a, ha, ha'⟩, b, hb, hb'⟩ := ((h2 _ hd).and (h4 _ hd)).exists
  rw [ha] at hb
  injection hb with hb
  subst hb
  cases ha' with
  | cons ha1 ha2 =>
    cases hb' with
    | cons hb1 hb2 =>
      rw [abs_sub_comm] at ha1
      have := (abs_sub_le y _ y').trans_lt (add_lt_add ha1 hb1)
      linarith

end UA
