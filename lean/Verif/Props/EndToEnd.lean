import Verif.Lemmas.EndToEnd

/-!
# Property C80: the fitted kaon functions are total inside the bounds
-/

namespace UA

open Complex

/-- **C80** form factors of a kaon class with all values strictly inside the maximal bounds, for real `t ≥ 0`: the evaluation of
a list of points returns exactly when no `t` is one of the two inelastic thresholds held by the object; the only exception is
`ZeroDivisionError`. -/
theorem C80_form_factors {p : ModelParameters ℝ} (h : Reachable p) (hc : IsKaonClass p.cls) (hi : p.InsideMaximal) {points : List (ℝ × Bool)}
    (h0 : ∀ d ∈ points, 0 ≤ d.1) :
    ((∃ rs, functionFormFactor (points.map fun d => .kaon d.1 d.2) p = .ok rs) ↔
      ∀ d ∈ points, ¬ ∃ q ∈ p.toList, "t_in_".toList <+: q.name.toList ∧ d.1 = q.value) ∧
    ∀ e, functionFormFactor (points.map fun d => .kaon d.1 d.2) p = .error e → e = .zeroDivisionError := by
  obtain ⟨x, hx⟩ := kaon_inside h hc hi
  rw [hx.wiring.ff, hx.check, except_ok_bind, mapM_map]
  have hpt : ∀ d : ℝ × Bool, kaonPoint x.run (.kaon d.1 d.2) = (do let F ← x.run d.2 d.1; return ‖F‖) := fun _ => rfl
  constructor
  · rw [mapM_exists_ok]
    refine forall₂_congr fun d hd => ?_
    rw [← hx.run_ok d.2 (h0 d hd), hpt]
    constructor
    · rintro ⟨b, hb⟩
      obtain ⟨F, hF, -⟩ := except_bind_eq_ok.mp hb
      exact ⟨F, hF⟩
    · rintro ⟨F, hF⟩
      exact ⟨‖F‖, by rw [hF]; rfl⟩
  · intro e he
    obtain ⟨d, hd, he⟩ := mapM_eq_error he
    rw [hpt] at he
    rcases hr : x.run d.2 d.1 with e' | F
    · rw [hr] at he
      injection he with he
      rw [← he]
      exact hx.run_error d.2 (h0 d hd) hr
    · rw [hr] at he; cases he

/-- **C80** cross sections likewise, with the origin as a further point where the division is by zero. -/
theorem C80_cross_sections {p : ModelParameters ℝ} (h : Reachable p) (hc : IsKaonClass p.cls) (hi : p.InsideMaximal) {points : List (ℝ × Bool)}
    (h0 : ∀ d ∈ points, 0 ≤ d.1) (m α hc2 : ℝ) :
    ((∃ rs, functionCrossSection (points.map fun d => .kaon d.1 d.2) m α hc2 p = .ok rs) ↔
      ∀ d ∈ points, d.1 ≠ 0 ∧ ¬ ∃ q ∈ p.toList, "t_in_".toList <+: q.name.toList ∧ d.1 = q.value) ∧
    ∀ e, functionCrossSection (points.map fun d => .kaon d.1 d.2) m α hc2 p = .error e → e = .zeroDivisionError := by
  obtain ⟨x, hx⟩ := kaon_inside h hc hi
  rw [hx.wiring.cs, hx.check, except_ok_bind, mapM_map]
  have hpt : ∀ d : ℝ × Bool, kaonPoint (fun c t => (ScalarCS.init m α hc2).call (x.run c) t) (.kaon d.1 d.2) =
    (do let σ ← (ScalarCS.init m α hc2).call (x.run d.2) d.1; return ‖σ‖) := fun _ => rfl
  constructor
  · rw [mapM_exists_ok]
    refine forall₂_congr fun d hd => ?_
    rw [← hx.run_ok d.2 (h0 d hd), hpt]
    obtain ⟨c1, c2⟩ := C30_errors m α hc2 (x.run d.2) d.1
    constructor
    · rintro ⟨b, hb⟩
      obtain ⟨σ, hσ, -⟩ := except_bind_eq_ok.mp hb
      rcases hr : x.run d.2 d.1 with e' | F
      · rw [c1 _ hr] at hσ; cases hσ
      · refine ⟨fun hz => ?_, F, rfl⟩
        rw [(c2 F hr).2 (by rw [hz]; simp)] at hσ
        cases hσ
    · rintro ⟨hz, F, hF⟩
      rcases hs : (ScalarCS.init m α hc2).call (x.run d.2) d.1 with e' | σ
      · exact absurd (((c2 F hF).1).mp ⟨e', hs⟩) (by exact_mod_cast hz)
      · exact ⟨‖σ‖, rfl⟩
  · intro e he
    obtain ⟨d, hd, he⟩ := mapM_eq_error he
    rw [hpt] at he
    obtain ⟨c1, c2⟩ := C30_errors m α hc2 (x.run d.2) d.1
    rcases hr : x.run d.2 d.1 with e' | F
    · rw [c1 _ hr] at he
      injection he with he
      rw [← he]
      exact hx.run_error d.2 (h0 d hd) hr
    · rcases hs : (ScalarCS.init m α hc2).call (x.run d.2) d.1 with e' | σ
      · rw [hs] at he
        injection he with he
        have hz := ((c2 F hr).1).mp ⟨e', hs⟩
        rw [(c2 F hr).2 hz] at hs
        injection hs with hs
        rw [← he, hs]
      · rw [hs] at he; cases he

/-- **C80** the function handed to the optimiser: for arguments strictly between the bounds handed to it, the free values become the
arguments, the result stays inside the maximal bounds, and the call returns exactly when the points avoid the two inelastic
thresholds of the updated object (and the origin, for cross sections); the only exception is `ZeroDivisionError`. -/
theorem C80_fit {p : ModelParameters ℝ} (h : Reachable p) (hc : IsKaonClass p.cls) (hi : p.InsideMaximal) {lo : List (WithBot ℝ)}
    {up : List (WithTop ℝ)} (hb : p.getBoundsForFreeParameters false = .ok (lo, up)) {args : List ℝ}
    (ha : List.Forall₂ (fun b (a : ℝ) => b.1 < (a : WithBot ℝ) ∧ (a : WithTop ℝ) < b.2) (lo.zip up) args) {points : List (ℝ × Bool)}
    (h0 : ∀ d ∈ points, 0 ≤ d.1) (kind : PartialKind) :
    ∃ p', p.updateFreeValues args = (.ok (), p') ∧ p'.getFreeValues = args ∧ p'.getFixedValues = p.getFixedValues ∧ p'.InsideMaximal ∧
      ((∃ rs, partialSpec kind p (points.map fun d => .kaon d.1 d.2) args = .ok rs) ↔
        ∀ d ∈ points, (kind ≠ .formFactor → d.1 ≠ 0) ∧ ¬ ∃ q ∈ p'.toList, "t_in_".toList <+: q.name.toList ∧ d.1 = q.value) ∧
      ∀ e, partialSpec kind p (points.map fun d => .kaon d.1 d.2) args = .error e → e = .zeroDivisionError := by
  obtain ⟨p', hu, hr, hcls, hin, hfv, hF⟩ := insideMaximal_free h hi hb ha
  have hsp : partialSpec kind p (points.map fun d => .kaon d.1 d.2) args = kind.eval (points.map fun d => .kaon d.1 d.2) p' := by
    unfold partialSpec; rw [hu]
  have hlen : args.length = p.getFreeValues.length := by
    rw [updateFreeValues_eq] at hu
    by_contra hne
    rw [if_neg (Ne.symm hne)] at hu
    cases hu
  obtain ⟨p'', hu', -, hfix, -⟩ := C40_update p args hlen
  rw [hu] at hu'
  obtain rfl : p' = p'' := congrArg Prod.snd hu'
  refine ⟨p', hu, hfv, hfix, hin, ?_⟩
  rw [hsp]
  have hc' : IsKaonClass p'.cls := by rw [hcls]; exact hc
  cases kind with
  | formFactor =>
    obtain ⟨h1, h2⟩ := C80_form_factors hr hc' hin h0
    exact ⟨by simpa [PartialKind.eval] using h1, h2⟩
  | crossSection m α hc2 =>
    obtain ⟨h1, h2⟩ := C80_cross_sections hr hc' hin h0 m α hc2
    exact ⟨by simpa [PartialKind.eval] using h1, h2⟩

/-- **C80** the object's own free values are such arguments (so the optimiser may start from them). -/
theorem C80_start {p : ModelParameters ℝ} (h : Reachable p) (hi : p.InsideMaximal) :
    ∃ lo up, p.getBoundsForFreeParameters false = .ok (lo, up) ∧
      List.Forall₂ (fun b (a : ℝ) => b.1 < (a : WithBot ℝ) ∧ (a : WithTop ℝ) < b.2) (lo.zip up) p.getFreeValues := by
  have hw := reachable_wellFormed h
  obtain ⟨v, hv⟩ := hw.exists_values
  obtain ⟨dict, hd, hin⟩ := hi
  obtain ⟨-, h0⟩ := bounds_inv hw hv hd
  obtain ⟨dict', lo, up, hd', hb, hl1, hl2, hF⟩ := C44_bounds h false fun _ q hq ht => by
    rw [hv q hq]; exact h0 rfl _ (by rw [← hw.names]; exact List.mem_map_of_mem hq) ht
  rw [hd] at hd'
  injection hd' with hd'
  subst hd'
  refine ⟨lo, up, hb, ?_⟩
  have hsub : ∀ q ∈ p.toList.filter (!·.is_fixed), q ∈ p.toList := fun q hq => (List.mem_filter.mp hq).1
  have hF' : List.Forall₂ (fun n b => dict.lookup n = some b ∧ BoundLt b.1 b.2) ((p.toList.filter (!·.is_fixed)).map (·.name)) (lo.zip up) := hF
  show List.Forall₂ _ _ ((p.toList.filter (!·.is_fixed)).map (·.value))
  generalize p.toList.filter (!·.is_fixed) = l at hF' hsub
  generalize lo.zip up = bs at hF'
  clear hF hl1 hl2 hb
  induction l generalizing bs with
  | nil => cases hF'; exact .nil
  | cons q l ih =>
    cases hF' with
    | cons h1 h2 => exact .cons ((hin q (hsub q List.mem_cons_self)).1 _ h1.1) (ih (fun r hr => hsub r (List.mem_cons_of_mem _ hr)) _ h2)

/-- Non-trivial instance: masses 2, widths 1, thresholds 1 and 2; points on both sides of the inelastic threshold can be evaluated, a
point on it cannot. -/
example : (∃ rs, functionCrossSection [.kaon (1 : ℝ) true, .kaon (3 : ℝ) false] 1 1 1 (typical .kaonB 1) = .ok rs) ∧
    functionFormFactor [.kaon (2 : ℝ) true] (typical .kaonB 1) = .error .zeroDivisionError := by
  have hr := typical_reachable .kaonB 1
  have hi := typical_insideMaximal .kaonB trivial one_pos
  have hv := typical_values .kaonB 1
  have htin : ∀ q ∈ (typical .kaonB 1).toList, "t_in_".toList <+: q.name.toList → q.value = 2 := by
    intro q hq hn
    rw [hv q hq]
    unfold typicalValue
    rw [if_neg, if_pos hn]
    exact fun h0 => absurd ((List.prefix_of_prefix_length_le h0 hn (by decide))) (by decide)
  refine ⟨(C80_cross_sections hr trivial hi (points := [(1, true), (3, false)]) ?_ 1 1 1).1.mpr ?_, ?_⟩
  · intro d hd; fin_cases hd <;> norm_num
  · intro d hd
    fin_cases hd <;> refine ⟨by norm_num, ?_⟩ <;> rintro ⟨q, hq, hn, he⟩ <;> rw [htin q hq hn] at he <;> norm_num at he
  · obtain ⟨h1, h2⟩ := C80_form_factors hr trivial hi (points := [(2, true)]) (by intro d hd; fin_cases hd; norm_num)
    have hmem : ∃ q ∈ (typical .kaonB 1).toList, q.name = "t_in_isoscalar" := by
      have : "t_in_isoscalar" ∈ (typical .kaonB 1).names := by
        rw [(reachable_wellFormed hr).names]; decide +kernel
      obtain ⟨q, hq, hn⟩ := List.mem_map.mp this
      exact ⟨q, hq, hn⟩
    obtain ⟨q, hq, hn⟩ := hmem
    have hp : "t_in_".toList <+: q.name.toList := by rw [hn]; decide
    rcases he : functionFormFactor ([((2 : ℝ), true)].map fun d => .kaon d.1 d.2) (typical .kaonB 1) with e | rs
    · exact (h2 e he) ▸ he
    · exact absurd ⟨q, hq, hp, (htin q hq hp).symm⟩ (h1.mp ⟨rs, he⟩ _ List.mem_cons_self)

/-- The premises of `C80_fit` can be met: its arguments may be the object's own free values. -/
example : ∃ p', (typical .kaonB 1).updateFreeValues (typical .kaonB 1).getFreeValues = (.ok (), p') ∧ p'.InsideMaximal := by
  have hr := typical_reachable .kaonB 1
  have hi := typical_insideMaximal .kaonB trivial one_pos
  obtain ⟨lo, up, hb, ha⟩ := C80_start hr hi
  obtain ⟨p', h1, -, -, h2, -⟩ := C80_fit hr trivial hi hb ha (points := [(1, true)]) (by intro d hd; fin_cases hd; norm_num) .formFactor
  exact ⟨p', h1, h2⟩

end UA
