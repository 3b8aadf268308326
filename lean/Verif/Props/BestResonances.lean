import Verif.Lemmas.BestResonances
import Verif.Lemmas.BestResonancesWitness

/-!
# Property C111: a fit of masses and widths between the handpicked bounds has a best solution, unless a resonance can change its variant

`partialSpec kind p ts xs` is what the function handed to `curve_fit` returns for the free values `xs` (C54).
-/

namespace UA

/-- **C111** kaons. Take a kaon object inside the maximal bounds whose free parameters are masses and widths, with thresholds `t_0` up to
0.54, and points `t ≥ 0` off the inelastic thresholds (for cross sections also `t ≠ 0`). Suppose no choice of the free values between the
handpicked bounds puts a resonance exactly at the change of its variant. Then the fitted function can be evaluated for every choice between
the bounds, and for one of them the weighted sum of squared deviations from the data is least among all. -/
theorem C111_kaon {p : ModelParameters ℝ} (hp : Reachable p) (hc : IsKaonClass p.cls) (hi : p.InsideMaximal) (hf : p.OnlyResonancesFree)
    (hs : ∀ q ∈ p.toList, "t_0_".toList <+: q.name.toList → q.value ≤ 0.54) {b : List (WithBot ℝ) × List (WithTop ℝ)}
    (hb : p.getBoundsForFreeParameters true = .ok b) (hoff : ∀ xs, Between b xs → (p.updateFreeValues xs).2.OffSwitch)
    (kind : PartialKind) {points : List (ℝ × Bool)} (h0 : ∀ d ∈ points, 0 ≤ d.1) (hcs : kind ≠ .formFactor → ∀ d ∈ points, d.1 ≠ 0)
    (hpt : ∀ d ∈ points, ¬ ∃ q ∈ p.toList, "t_in_".toList <+: q.name.toList ∧ d.1 = q.value) (ys es : List ℝ) :
    ∃ xs, Between b xs ∧ ∃ fs, partialSpec kind p (points.map fun d => .kaon d.1 d.2) xs = .ok fs ∧
      ∀ zs, Between b zs → ∃ gs, partialSpec kind p (points.map fun d => .kaon d.1 d.2) zs = .ok gs ∧
        weightedSquares ys es fs ≤ weightedSquares ys es gs :=
  resonance_best hp (kaon_is_resonance hc) hi hf hs hb kind _ (fun l P x hx hP hr hcx hix hthr ht =>
    eval_tends hr (by rw [hcx]; exact hc) hix (hoff x hx) (by rw [hcx]; exact hP) ht kind h0 hcs fun d hd ⟨q, hq, hn, he⟩ => by
      obtain ⟨q', h1, h2, h3⟩ := hthr q hq ((by decide : "t_".toList <+: "t_in_".toList).trans hn)
      exact hpt d hd ⟨q', h1, by rw [h2]; exact hn, he.trans h3⟩) ys es

/-- **C111** nucleons, where the function must be known to be evaluable between the bounds, and no resonance may have its pole exactly
above a threshold of its channel. -/
theorem C111_nucleon {p : ModelParameters ℝ} (hp : Reachable p) (hc : p.cls = .nucleon) (hi : p.InsideMaximal) (hf : p.OnlyResonancesFree)
    (hs : ∀ q ∈ p.toList, "t_0_".toList <+: q.name.toList → q.value ≤ 0.54) {b : List (WithBot ℝ) × List (WithTop ℝ)}
    (hb : p.getBoundsForFreeParameters true = .ok b)
    (hoff : ∀ xs, Between b xs → ∃ x : NucleonArgs, (p.updateFreeValues xs).2.HoldsExactly x.byName ∧ x.OffThresholds)
    (kind : PartialKind) {points : List (ℝ × Bool × Bool)} (h0 : ∀ d ∈ points, 0 ≤ d.1)
    (hev : ∀ xs, Between b xs → ∃ rs, partialSpec kind p (points.map fun d => .nucleon d.1 d.2.1 d.2.2) xs = .ok rs) (ys es : List ℝ) :
    ∃ xs, Between b xs ∧ ∃ fs, partialSpec kind p (points.map fun d => .nucleon d.1 d.2.1 d.2.2) xs = .ok fs ∧
      ∀ zs, Between b zs → ∃ gs, partialSpec kind p (points.map fun d => .nucleon d.1 d.2.1 d.2.2) zs = .ok gs ∧
        weightedSquares ys es fs ≤ weightedSquares ys es gs :=
  resonance_best hp (by rw [hc]; trivial) hi hf hs hb kind _ (fun l P x hx hP hr hcx hix hthr ht => by
    obtain ⟨a, ha, hoff⟩ := hoff x hx
    obtain ⟨rs, hrs⟩ := hev x hx
    rw [partialSpec_ok (partialSpec_length hrs)] at hrs
    rw [hrs]
    exact nucleon_eval_tends hr (hcx.trans hc) hix ha hoff (by rw [← hc]; exact hP) ht kind h0 hrs) ys es

/-- **C111** there is something to choose from: with masses and widths free the handpicked bounds are finite, one pair for each free
parameter, the lower one not above the upper one. -/
theorem C111_finite {p : ModelParameters ℝ} (hp : Reachable p) (hc : IsResonanceClass p.cls) (hf : p.OnlyResonancesFree) :
    ∃ lo up : List ℝ, p.getBoundsForFreeParameters true = .ok (lo.map (↑), up.map (↑)) ∧ List.Forall₂ (· ≤ ·) lo up ∧
      lo.length = p.getFreeValues.length :=
  resonance_finite hp hc hf

/-- Cases: a kaon object with thresholds 1/10 and 10 of which all masses and widths are free, form factors at 0 and 5; a nucleon object of
which the mass of the rho is free, cross sections at 5. -/
example : (∃ p : ModelParameters ℝ, Reachable p ∧ IsKaonClass p.cls ∧ p.InsideMaximal ∧ p.OnlyResonancesFree ∧
      (∀ q ∈ p.toList, "t_0_".toList <+: q.name.toList → q.value ≤ 0.54) ∧ (∃ q ∈ p.toList, q.is_fixed = false) ∧
      (∀ d ∈ [((0 : ℝ), true), (5, false)], ¬ ∃ q ∈ p.toList, "t_in_".toList <+: q.name.toList ∧ d.1 = q.value) ∧
      ∃ b, p.getBoundsForFreeParameters true = .ok b ∧ ∀ xs, Between b xs → (p.updateFreeValues xs).2.OffSwitch) ∧
    ∃ p : ModelParameters ℝ, Reachable p ∧ p.cls = .nucleon ∧ p.InsideMaximal ∧ p.OnlyResonancesFree ∧
      (∀ q ∈ p.toList, "t_0_".toList <+: q.name.toList → q.value ≤ 0.54) ∧ (∃ q ∈ p.toList, q.is_fixed = false) ∧
      ∃ b, p.getBoundsForFreeParameters true = .ok b ∧
        (∀ xs, Between b xs → ∃ x : NucleonArgs, (p.updateFreeValues xs).2.HoldsExactly x.byName ∧ x.OffThresholds) ∧
        ∀ xs, Between b xs → ∃ rs, partialSpec (.crossSection 1 2 3) p ([((5 : ℝ), true, true)].map fun d => .nucleon d.1 d.2.1 d.2.2) xs = .ok rs := by
  refine ⟨?_, nucleon_rho_case⟩
  obtain ⟨p, h1, h2, h3, h4, h5, h6, h7, h8⟩ := kaon_high_case
  refine ⟨p, h1, h2, h3, h4, h5, h6, fun d hd ⟨q, hq, hn, he⟩ => ?_, h8⟩
  rw [h7 q hq hn] at he
  simp only [List.mem_cons, List.not_mem_nil, or_false] at hd
  rcases hd with rfl | rfl <;> norm_num at he

end UA
