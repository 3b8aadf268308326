import Verif.Spec.Kinds
import Verif.Lemmas.KindsFit

/-!
# C103: Python numbers and NumPy numbers

After a fit, the free parameters hold NumPy numbers and the fixed ones Python numbers. A division by zero raises an exception
only if both operands are Python numbers. These theorems compare the evaluation with kinds (`Verif/Model/Kinds*.lean`) to the
one without, in which every division by zero raises (`Verif/Model/Utils.lean`).
-/

namespace UA

open Complex Kinded

/-- **C103 (form factors).** For the kaon classes and the nucleon class, `function_form_factor` raises the same exception or gives
the same numbers whichever values are NumPy numbers (the nucleon mass, which is never fitted, being a Python number). All the numbers it
gives are NumPy numbers if a coupling (or magnetic moment) is one, and all are Python numbers otherwise. -/
theorem C103_form_factor {p : ModelParameters (Num ℝ)} (hp : Reachable p)
    (hc : IsKaonClass p.cls ∨ p.cls = .nucleon ∧ ∀ q ∈ p.toList, q.name = "nucleon_mass" → q.value.np = false) (ts : List Datapoint) :
    Kinded.functionFormFactor ts p = outcome (decide (∃ q ∈ p.toList, IsCoupling q.name ∧ q.value.np = true))
      (functionFormFactor ts (plain p)) := by
  rw [formFactor_of (reachable_wellFormed hp) hc]
  congr 1
  refine Bool.eq_iff_iff.mpr ?_
  simp [numpyCoupling]

/-- **C103 (cross sections).** The same for `function_cross_section`. -/
theorem C103_cross_section {p : ModelParameters (Num ℝ)} (hp : Reachable p)
    (hc : IsKaonClass p.cls ∨ p.cls = .nucleon ∧ ∀ q ∈ p.toList, q.name = "nucleon_mass" → q.value.np = false) (ts : List Datapoint)
    (mass alpha hc_squared : ℝ) :
    Kinded.functionCrossSection ts mass alpha hc_squared p =
      outcome (decide (∃ q ∈ p.toList, IsCoupling q.name ∧ q.value.np = true)) (functionCrossSection ts mass alpha hc_squared (plain p)) := by
  rw [crossSection_of (reachable_wellFormed hp) hc]
  congr 1
  refine Bool.eq_iff_iff.mpr ?_
  simp [numpyCoupling]

/-- Objects with NumPy couplings only, with NumPy masses only, and a nucleon object, together with the kinds of the results. -/
example : Reachable (mixed .kaonB fun n => decide (n = "a_phi")) ∧ IsKaonClass (mixed .kaonB fun n => decide (n = "a_phi")).cls ∧
    numpyCoupling (mixed .kaonB fun n => decide (n = "a_phi")) = true ∧
    numpyCoupling (mixed .kaon fun n => decide ("mass_".toList <+: n.toList)) = false ∧
    (Reachable (mixed .nucleon fun n => decide (n ≠ "nucleon_mass")) ∧
      (∀ q ∈ (mixed .nucleon fun n => decide (n ≠ "nucleon_mass")).toList, q.name = "nucleon_mass" → q.value.np = false) ∧
      numpyCoupling (mixed .nucleon fun n => decide (n ≠ "nucleon_mass")) = true) := by
  refine ⟨mixed_reachable _ _, trivial, ?_, ?_, mixed_reachable _ _, ?_, ?_⟩
  · rw [mixed_kind]; decide +kernel
  · rw [mixed_kind]; decide +kernel
  · intro q hq hn
    obtain ⟨e, -, rfl⟩ := List.mem_map.mp hq
    simpa using hn
  · rw [mixed_kind]; decide +kernel

/-- **C103 (after a fit).** Start from an object with Python values only, as read from the configuration, of a kaon class or the nucleon
class, and give the free parameters NumPy numbers, as the fitting library does when it calls the function and as the task does with
the optimum. Then both functions raise the exceptions and give the numbers of the evaluation without kinds; the numbers are NumPy
numbers exactly if one of the free parameters is a coupling. -/
theorem C103_fit {p : ModelParameters (Num ℝ)} (hp : Reachable p) (hpy : ∀ q ∈ p.toList, q.value.np = false)
    (hc : IsKaonClass p.cls ∨ p.cls = .nucleon) {xs : List ℝ} (hx : p.freeNames.length = xs.length) (ts : List Datapoint) :
    Kinded.functionFormFactor ts (p.updateFreeValues (xs.map fun x => ⟨x, true⟩)).2 =
        outcome (decide (∃ n ∈ p.freeNames, IsCoupling n)) (functionFormFactor ts ((plain p).updateFreeValues xs).2) ∧
      ∀ mass alpha hc_squared, Kinded.functionCrossSection ts mass alpha hc_squared (p.updateFreeValues (xs.map fun x => ⟨x, true⟩)).2 =
        outcome (decide (∃ n ∈ p.freeNames, IsCoupling n))
          (functionCrossSection ts mass alpha hc_squared ((plain p).updateFreeValues xs).2) := by
  have hr : Reachable (p.updateFreeValues (xs.map fun x => (⟨x, true⟩ : Num ℝ))).2 := .step (.updateFreeValues _) hp
  have hw := reachable_wellFormed hr
  have hcls : (p.updateFreeValues (xs.map fun x => (⟨x, true⟩ : Num ℝ))).2.cls = p.cls := by
    rw [updateFreeValues_eq]; split_ifs <;> rfl
  have hc' : IsKaonClass (p.updateFreeValues (xs.map fun x => (⟨x, true⟩ : Num ℝ))).2.cls ∨
      (p.updateFreeValues (xs.map fun x => (⟨x, true⟩ : Num ℝ))).2.cls = .nucleon ∧
      ∀ q ∈ (p.updateFreeValues (xs.map fun x => (⟨x, true⟩ : Num ℝ))).2.toList, q.name = "nucleon_mass" → q.value.np = false := by
    rw [hcls]
    refine hc.imp_right fun h => ⟨h, fun q hq hn => hpy q (update_fixed hq (hw.fixed q hq ?_))⟩
    rw [hw.always, hcls, h, hn]
    decide +kernel
  rw [formFactor_of hw hc', update_kind hpy hx, plain_update]
  refine ⟨rfl, fun m a h => ?_⟩
  rw [crossSection_of hw hc', update_kind hpy hx, plain_update]

/-- An object with Python values and free couplings; one that is free in its masses only. -/
example : (Reachable (mixed .kaonB fun _ => false) ∧ (∀ q ∈ (mixed .kaonB fun _ => false).toList, q.value.np = false) ∧
      ∃ n ∈ (mixed .kaonB fun _ => false).freeNames, IsCoupling n) ∧
    ∃ p : ModelParameters (Num ℝ), Reachable p ∧ (∀ q ∈ p.toList, q.value.np = false) ∧ p.cls = .kaonB ∧
      p.freeNames = ["mass_phi_prime"] ∧ ¬ ∃ n ∈ p.freeNames, IsCoupling n := by
  have hpy : ∀ q ∈ (mixed .kaonB fun _ => false).toList, q.value.np = false := fun q hq => by
    obtain ⟨e, -, rfl⟩ := List.mem_map.mp hq; rfl
  refine ⟨⟨mixed_reachable _ _, hpy, "a_phi", ?_, by decide +kernel⟩,
    oneMassPy, .step (.releaseParameters ["mass_phi_prime"]) (.step .fixAll (mixed_reachable _ _)), ?_, rfl, rfl, ?_⟩
  · exact List.mem_map.mpr ⟨⟨"a_phi", _, false⟩, List.mem_filter.mpr ⟨List.mem_map.mpr ⟨("a_phi", "a_phi", false), by decide +kernel, rfl⟩, rfl⟩, rfl⟩
  · intro q hq
    have hq' : q ∈ oneMassPy.data := hq
    rw [oneMassPy_data] at hq'
    obtain ⟨r, hr, rfl⟩ := List.mem_map.mp hq'
    exact hpy r hr
  · rintro ⟨n, hn, h⟩
    have : n ∈ ["mass_phi_prime"] := hn
    rw [List.mem_singleton.mp this] at h
    revert h; decide +kernel

/-- **C103 (the other models).** For `ETGMRModel` and `TwoPolesModel` the form factors are the same numbers whichever parameters are
NumPy numbers, as long as the evaluation without kinds gives numbers; they are NumPy numbers exactly if a parameter is one. If all
parameters are NumPy numbers, as after a fit with nothing fixed, the one difference is that a division by zero gives a number that is not
finite and does not raise. The cross sections raise or not regardless of kinds. -/
theorem C103_other {p : ModelParameters (Num ℝ)} (hp : Reachable p) (hc : p.cls = .etgmr ∨ p.cls = .twoPoles) (ts : List Datapoint) :
    (∀ vs, functionFormFactor ts (plain p) = .ok vs →
      Kinded.functionFormFactor ts p = .ok (vs.map fun x => ⟨x, decide (∃ q ∈ p.toList, q.value.np = true)⟩)) ∧
    ((∀ q ∈ p.toList, q.value.np = true) → Kinded.functionFormFactor ts p = numpyOutcome (functionFormFactor ts (plain p))) ∧
    ∀ mass alpha hc_squared, Kinded.functionCrossSection ts mass alpha hc_squared p =
      outcome false (functionCrossSection ts mass alpha hc_squared (plain p)) := by
  have hw := reachable_wellFormed hp
  obtain ⟨v, hv⟩ := hw.exists_values
  have hk : ∀ {l : List String}, p.cls.table.initArgs = l → decide (∃ q ∈ p.toList, q.value.np = true) = l.any fun n => (v n).np := by
    rintro l rfl
    rw [← hw.names]
    refine Bool.eq_iff_iff.mpr ?_
    show _ ↔ (p.data.map _).any _ = true
    rw [List.any_map, List.any_eq_true, decide_eq_true_eq]
    exact exists_congr fun q => and_congr_right fun hq => by rw [hv q hq]; rfl
  have hall : ∀ {l : List String}, p.cls.table.initArgs = l → (∀ q ∈ p.toList, q.value.np = true) → ∀ n ∈ l, (v n).np = true := by
    rintro l rfl h n hn
    rw [← hw.names] at hn
    obtain ⟨q, hq, rfl⟩ := List.mem_map.mp hn
    rw [← hv q hq]
    exact h q hq
  rcases hc with hc | hc
  · have hn : p.cls.table.initArgs = ["a", "m_a", "m_d"] := by rw [hc]; rfl
    obtain ⟨h1, h2⟩ := getFF_etgmr hw hv hc
    unfold Kinded.functionFormFactor UA.functionFormFactor Kinded.functionCrossSection UA.functionCrossSection
    rw [h1, h2]
    refine ⟨fun vs h => ?_, fun h => ?_, fun _ _ _ => ?_⟩
    · rw [hk hn]
      refine otherLoop_ok (fun t z hz => ?_) ts h
      rw [etgmr_ok _ _ _ t hz]
      simp [Bool.or_assoc]
    · exact otherLoop_numpy (fun t => etgmr_numpy _ _ _ (hall hn h _ (by simp)) (hall hn h _ (by simp)) t) ts
    · exact noFormFactorLoop_of ts
  · have hn : p.cls.table.initArgs = ["a", "m_1", "m_2"] := by rw [hc]; rfl
    obtain ⟨h1, h2⟩ := getFF_twoPoles hw hv hc
    unfold Kinded.functionFormFactor UA.functionFormFactor Kinded.functionCrossSection UA.functionCrossSection
    rw [h1, h2]
    refine ⟨fun vs h => ?_, fun h => ?_, fun _ _ _ => ?_⟩
    · rw [hk hn]
      refine otherLoop_ok (fun t z hz => ?_) ts h
      rw [twoPoles_ok _ _ _ t hz]
      simp [Bool.or_assoc]
    · exact otherLoop_numpy (fun t => twoPoles_numpy _ _ _ (hall hn h _ (by simp)) (hall hn h _ (by simp)) t) ts
    · exact noFormFactorLoop_of ts

/-- A zero mass: `ZeroDivisionError` for Python numbers, a number that is not finite for NumPy numbers. -/
example (t : ℂ) : Reachable zeroMass ∧ zeroMass.cls = .twoPoles ∧ (∀ q ∈ zeroMass.toList, q.value.np = true) ∧
    functionFormFactor [.nucleon t true true] (plain zeroMass) = .error .zeroDivisionError ∧
    Kinded.functionFormFactor [.nucleon t true true] zeroMass = .error .nonFinite := by
  have h : ∀ q ∈ zeroMass.toList, q.value.np = true := fun q hq => by rw [zeroMass_values q hq]
  refine ⟨zeroMass_reachable, rfl, h, zeroMass_eval t true true, ?_⟩
  rw [(C103_other zeroMass_reachable (.inr rfl) _).2.1 h, zeroMass_eval]
  rfl

end UA
