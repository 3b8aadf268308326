import Verif.Lemmas.BestCouplings
import Verif.Lemmas.ContinuityNucleonWitness
import Verif.Lemmas.ContinuityWitness

/-!
# Property C110: a fit of the couplings alone has a best solution

`partialSpec kind p ts xs` is what the function handed to `curve_fit` returns for the free values `xs` (C54).
-/

namespace UA

/-- **C110** kaons. Take a kaon object inside the maximal bounds whose free parameters are couplings and for which the form factors (or the
cross sections) can be evaluated at some points `t ≥ 0`, and any data with positive errors for these points. Then the function that is
fitted can be evaluated for every vector of free values, and there is a vector for which the weighted sum of squared deviations from the
data is least. -/
theorem C110_kaon {p : ModelParameters ℝ} (hp : Reachable p) (hc : IsKaonClass p.cls) (hi : p.InsideMaximal) (hf : p.OnlyCouplingsFree)
    (kind : PartialKind) {points : List (ℝ × Bool)} (h0 : ∀ d ∈ points, 0 ≤ d.1) {rs : List ℝ}
    (hr : kind.eval (points.map fun d => .kaon d.1 d.2) p = .ok rs) {ys es : List ℝ} (hl : es.length = points.length) (he : ∀ e ∈ es, 0 < e) :
    (∀ xs, xs.length = p.getFreeValues.length → ∃ fs, partialSpec kind p (points.map fun d => .kaon d.1 d.2) xs = .ok fs ∧ fs.length = points.length) ∧
    ∃ xs fs, partialSpec kind p (points.map fun d => .kaon d.1 d.2) xs = .ok fs ∧
      ∀ zs gs, partialSpec kind p (points.map fun d => .kaon d.1 d.2) zs = .ok gs → weightedSquares ys es fs ≤ weightedSquares ys es gs := by
  refine ⟨fun xs hx => ⟨_, (partialSpec_ok hx).trans (kaon_free hp hc hi hf kind h0 hr hx), by simp⟩, ?_⟩
  obtain ⟨xs, hx, fs, hfs, hbest⟩ := kaon_best hp hc hi hf kind h0 hr (ys := ys) hl he
  refine ⟨xs, fs, (partialSpec_ok hx).trans hfs, fun zs gs hg => ?_⟩
  have hz := partialSpec_length hg
  obtain ⟨gs', hg', hle⟩ := hbest zs hz
  rw [partialSpec_ok hz, hg'] at hg
  cases hg
  exact hle

/-- **C110** nucleons, as for kaons. -/
theorem C110_nucleon {p : ModelParameters ℝ} (hp : Reachable p) (hc : p.cls = .nucleon) (hi : p.InsideMaximal) (hf : p.OnlyCouplingsFree)
    (kind : PartialKind) {points : List (ℝ × Bool × Bool)} (h0 : ∀ d ∈ points, 0 ≤ d.1) {rs : List ℝ}
    (hr : kind.eval (points.map fun d => .nucleon d.1 d.2.1 d.2.2) p = .ok rs) {ys es : List ℝ} (hl : es.length = points.length)
    (he : ∀ e ∈ es, 0 < e) :
    (∀ xs, xs.length = p.getFreeValues.length →
      ∃ fs, partialSpec kind p (points.map fun d => .nucleon d.1 d.2.1 d.2.2) xs = .ok fs ∧ fs.length = points.length) ∧
    ∃ xs fs, partialSpec kind p (points.map fun d => .nucleon d.1 d.2.1 d.2.2) xs = .ok fs ∧
      ∀ zs gs, partialSpec kind p (points.map fun d => .nucleon d.1 d.2.1 d.2.2) zs = .ok gs → weightedSquares ys es fs ≤ weightedSquares ys es gs := by
  refine ⟨fun xs hx => ⟨_, (partialSpec_ok hx).trans (nucleon_free hp hc hi hf kind h0 hr hx).2.2, by simp⟩, ?_⟩
  obtain ⟨xs, hx, fs, hfs, hbest⟩ := nucleon_best hp hc hi hf kind h0 hr (ys := ys) hl he
  refine ⟨xs, fs, (partialSpec_ok hx).trans hfs, fun zs gs hg => ?_⟩
  have hz := partialSpec_length hg
  obtain ⟨gs', hg', hle⟩ := hbest zs hz
  rw [partialSpec_ok hz, hg'] at hg
  cases hg
  exact hle

/-- **C110** the bounds do not cut off the best solution: with only couplings free both kinds of bounds are infinite on both sides for every
free parameter (the maximal ones exist when no threshold is negative). -/
theorem C110_unbounded {p : ModelParameters ℝ} (h : Reachable p) (hf : p.OnlyCouplingsFree) (handpicked : Bool)
    (h0 : handpicked = false → ∀ q ∈ p.toList, "t_0_".toList <+: q.name.toList → 0 ≤ q.value) :
    p.getBoundsForFreeParameters handpicked = .ok (List.replicate p.getFreeValues.length ⊥, List.replicate p.getFreeValues.length ⊤) :=
  free_unbounded h hf handpicked h0

/-- Cases: a kaon object and a nucleon object of which everything but the couplings is fixed with `fix_parameters`; kaon form factors at 0
and 5, nucleon cross sections at 5. Some coupling is free. -/
example : ∃ p q : ModelParameters ℝ, (Reachable p ∧ IsKaonClass p.cls ∧ p.InsideMaximal ∧ p.OnlyCouplingsFree ∧ ∃ r ∈ p.toList, r.is_fixed = false) ∧
    (Reachable q ∧ q.cls = .nucleon ∧ q.InsideMaximal ∧ q.OnlyCouplingsFree ∧ ∃ r ∈ q.toList, r.is_fixed = false) ∧
    (∃ rs, PartialKind.formFactor.eval ([((0 : ℝ), true), (5, false)].map fun d => .kaon d.1 d.2) p = .ok rs) ∧
    ∃ rs, (PartialKind.crossSection 1 2 3).eval ([((5 : ℝ), true, true)].map fun d => .nucleon d.1 d.2.1 d.2.2) q = .ok rs := by
  have htin : ∀ t : ℝ, t ≠ 2 → ¬ ∃ q ∈ (jumpObject .kaon 2).toList, "t_in_".toList <+: q.name.toList ∧ t = q.value := by
    intro t ht
    have hin : KaonInside (jumpObject .kaon 2) (.ofValues .kaon (jumpValue 2)) :=
      kaon_inside_wired (jump_reachable _ _) (p := jumpObject .kaon 2) trivial (jump_inside (c := .kaon) trivial one_lt_two)
        (kaon_wiring_values (p := jumpObject .kaon 2) (reachable_wellFormed (jump_reachable _ _)) (jump_values _ _) trivial)
    rw [← hin.tin, (thresholds_ofValues .kaon _).2.1, (thresholds_ofValues .kaon _).2.2.2]
    have e1 : jumpValue 2 "t_in_isoscalar" = 2 := by simp [jumpValue, typicalValue]
    have e2 : jumpValue 2 "t_in_isovector" = 2 := by simp [jumpValue, typicalValue]
    rw [e1, e2]
    simpa using ht
  obtain ⟨rs, hrs⟩ : ∃ rs, PartialKind.formFactor.eval ([((0 : ℝ), true), (5, false)].map fun d => .kaon d.1 d.2) (jumpObject .kaon 2) = .ok rs := by
    refine (eval_domain (jump_reachable _ _) (p := jumpObject .kaon 2) trivial (jump_inside (c := .kaon) trivial one_lt_two) .formFactor ?_).1.mpr ?_
    · simp
    · intro d hd
      simp only [List.mem_cons, List.not_mem_nil, or_false] at hd
      rcases hd with rfl | rfl <;> exact ⟨fun hk => absurd rfl hk, htin _ (by norm_num)⟩
  have hcs := (nucleonCase_args (T := 10) (m := 2) (by norm_num) (by norm_num)).eval_eq (.crossSection 1 2 3) (points := [(5, true, true)]) (by simp) (by
    intro d hd
    simp only [List.mem_cons, List.not_mem_nil, or_false] at hd
    subst hd
    exact ⟨nucleonCase_good (by norm_num) (by norm_num) _ (by norm_num) (by norm_num), by norm_num, by norm_num⟩)
  obtain ⟨_, p, -, f1, r1, l1, k1⟩ := fix_others (jump_reachable .kaon 2)
  obtain ⟨_, q, -, f2, r2, l2, k2⟩ := fix_others (nucleonCase_reachable 10 2)
  have e1 := kaon_line_values (jump_reachable .kaon 2) (p₀ := jumpObject .kaon 2) trivial (jump_inside (c := .kaon) trivial one_lt_two)
    (jump_reachable .kaon 2) ⟨rfl, fun _ _ _ => rfl⟩ .formFactor (by simp) hrs (jump_values _ _) (jump_values _ _) 1 p r1 l1
  obtain ⟨v, hv⟩ := (reachable_wellFormed (nucleonCase_reachable 10 2)).exists_values
  have e2 := (nucleon_line_values (nucleonCase_reachable 10 2) rfl (nucleonCase_inside (by norm_num) (by norm_num)) (nucleonCase_reachable 10 2)
    ⟨rfl, fun _ _ _ => rfl⟩ (.crossSection 1 2 3) (by simp) hcs hv hv).2 1 q r2 l2
  refine ⟨p, q, ⟨r1, by rw [l1.1.1]; trivial, e1.1, f1, ⟨"a_omega", jumpValue 2 "a_omega", false⟩, k1 _ ?_ rfl (by decide), rfl⟩,
    ⟨r2, l2.1.1, e2.1, f2, ⟨"a_dirac_omega", nucleonCase 10 2 "a_dirac_omega", false⟩, k2 _ ?_ rfl (by decide), rfl⟩, ⟨_, e1.2⟩, ⟨_, e2.2.1⟩⟩
  · exact List.mem_map.mpr ⟨("a_omega", "a_omega", false), by decide +kernel, rfl⟩
  · exact List.mem_map.mpr ⟨("a_dirac_omega", "a_dirac_omega", false), by decide +kernel, rfl⟩

end UA
