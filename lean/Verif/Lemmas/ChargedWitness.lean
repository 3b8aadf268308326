import Verif.Props.Identify
import Verif.Lemmas.Strengths
import Verif.Lemmas.ContinuityWitness
import Verif.Lemmas.ValueObject

/-!
# Helper lemmas: kaon objects that differ in one coupling
-/

namespace UA

/-- The values of `jumpValue` with mass 3 and another coupling of the `rho_prime`. -/
noncomputable def rhoValue (a : ℝ) (n : String) : ℝ := if n = "a_rho_prime" then a else jumpValue 3 n

theorem rhoValue_half : rhoValue (1 / 2) = jumpValue 3 := by
  funext n
  unfold rhoValue
  split_ifs with h
  · subst h
    unfold jumpValue
    rw [if_neg (by decide), if_pos (by decide), if_pos rfl]
  · rfl

theorem rhoValue_mix (s : ℝ) : mix s (rhoValue (1 / 2)) (rhoValue 0) = rhoValue ((1 - s) / 2) := by
  funext n
  unfold mix rhoValue
  split_ifs with h1 h2 h2
  · ring
  · ring
  · exact absurd (h2 ▸ by decide) h1
  · rfl

/-- The object. -/
noncomputable def rhoObject (a : ℝ) : ModelParameters ℝ := valueObject .kaonB (rhoValue a)

theorem rho_inside (a : ℝ) : (rhoObject a).InsideMaximal := by
  have hk : IsKaonClass .kaonB := trivial
  have h0 : InsideValues .kaonB (jumpValue 3) := inside_values (jump_reachable .kaonB 3) (by trivial) (jump_values .kaonB 3) (jump_inside hk (by norm_num))
  rw [← rhoValue_half] at h0
  have := insideValues_mix h0 (1 - 2 * a) (rhoValue 0)
  rw [rhoValue_mix, show (1 - (1 - 2 * a)) / 2 = a by ring] at this
  exact insideMaximal_of_values (valueObject_reachable .kaonB (rhoValue a)) (by trivial) (valueObject_values .kaonB _) this

theorem rho_args (a : ℝ) : KaonInside (rhoObject a) (.ofValues .kaonB (rhoValue a)) :=
  kaon_inside_wired (valueObject_reachable .kaonB (rhoValue a)) (by trivial) (rho_inside a)
    (kaon_wiring_values (reachable_wellFormed (valueObject_reachable .kaonB (rhoValue a))) (valueObject_values .kaonB _) (by trivial))

theorem rho_formula (s t : ℝ) (ch : Bool) : (KaonArgs.ofValues .kaonB (rhoValue ((1 - s) / 2))).formula ch t =
    (1 - s) * (KaonArgs.ofValues .kaonB (rhoValue (1 / 2))).formula ch t + s * (KaonArgs.ofValues .kaonB (rhoValue 0)).formula ch t := by
  have := kaon_formula_mix .kaonB s (rhoValue (1 / 2)) (rhoValue 0) ch t
  rw [rhoValue_mix, rhoValue_mix] at this
  rw [this]
  norm_num

/-- The thresholds. -/
theorem rho_thresholds (a : ℝ) : (KaonArgs.ofValues .kaonB (rhoValue a)).t0S = 1 ∧ (KaonArgs.ofValues .kaonB (rhoValue a)).tinS = 2 ∧
    (KaonArgs.ofValues .kaonB (rhoValue a)).t0V = 1 ∧ (KaonArgs.ofValues .kaonB (rhoValue a)).tinV = 2 := by
  obtain ⟨h1, h2, h3, h4⟩ := thresholds_ofValues .kaonB (rhoValue a)
  rw [h1, h2, h3, h4]
  have e : ∀ n ∈ ["t_0_isoscalar", "t_in_isoscalar", "t_0_isovector", "t_in_isovector"], rhoValue a n = typicalValue 1 n := by
    intro n hn
    unfold rhoValue
    rw [if_neg (by rintro rfl; revert hn; decide)]
    exact jumpValue_other (by rintro rfl; revert hn; decide) (by revert n; decide)
  simp only [List.forall_mem_cons, List.not_mem_nil, false_imp_iff, implies_true, and_true] at e
  obtain ⟨e1, e2, e3, e4⟩ := e
  rw [e1, e2, e3, e4]
  refine ⟨?_, ?_, ?_, ?_⟩ <;> unfold typicalValue
  · rw [if_pos (by decide)]
  · rw [if_neg (by decide), if_pos (by decide)]
  · rw [if_pos (by decide)]
  · rw [if_neg (by decide), if_pos (by decide)]

theorem rho_resS (a b : ℝ) : (KaonArgs.ofValues .kaonB (rhoValue a)).resS = (KaonArgs.ofValues .kaonB (rhoValue b)).resS := by
  have e : ∀ n, n ≠ "a_rho_prime" → rhoValue a n = rhoValue b n := fun n hn => by unfold rhoValue; rw [if_neg hn, if_neg hn]
  simp only [KaonArgs.ofValues, KaonArgs.resS, KaonUAModelB.Args.resS, KaonUAModelB.Args.ofValues]
  simp only [e "a_omega" (by decide), e "mass_omega" (by decide), e "decay_rate_omega" (by decide),
    e "mass_omega_prime" (by decide), e "decay_rate_omega_prime" (by decide), e "a_omega_double_prime" (by decide),
    e "mass_omega_double_prime" (by decide), e "decay_rate_omega_double_prime" (by decide), e "a_phi" (by decide), e "mass_phi" (by decide),
    e "decay_rate_phi" (by decide), e "a_phi_prime" (by decide), e "mass_phi_prime" (by decide), e "decay_rate_phi_prime" (by decide),
    e "mass_phi_double_prime" (by decide), e "decay_rate_phi_double_prime" (by decide)]

/-- The coupling of the only resonance with mass 3. -/
theorem rho_couplingAt (a : ℝ) : couplingAt (KaonArgs.ofValues .kaonB (rhoValue a)).resV 3 1 = a := by
  have e : ∀ n ∈ ["mass_rho", "mass_rho_double_prime"], rhoValue a n = 2 := by
    intro n hn
    unfold rhoValue
    rw [if_neg (by rintro rfl; revert hn; decide), jumpValue_other (by rintro rfl; revert hn; decide) (by revert n; decide)]
    unfold typicalValue
    rw [if_neg (by revert n; decide), if_neg (by revert n; decide), if_pos (by revert n; decide)]
  have e1 : rhoValue a "a_rho_prime" = a := if_pos rfl
  have e2 : rhoValue a "mass_rho_prime" = 3 := by unfold rhoValue jumpValue; rw [if_neg (by decide), if_pos rfl]
  have e3 : rhoValue a "decay_rate_rho_prime" = 1 := by
    unfold rhoValue
    rw [if_neg (by decide), jumpValue_other (by decide) (by decide)]
    unfold typicalValue
    rw [if_neg (by decide), if_neg (by decide), if_neg (by decide), if_pos (by decide)]
  simp only [List.forall_mem_cons, List.not_mem_nil, false_imp_iff, implies_true, and_true] at e
  simp only [couplingAt, KaonArgs.ofValues, KaonArgs.resV, KaonUAModelB.Args.resV, KaonUAModelB.Args.ofValues, List.map_cons, List.map_nil,
    List.sum_cons, List.sum_nil, e.1, e.2, e1, e2, e3]
  norm_num

/-- Somewhere the neutral form factors differ. -/
theorem rho_neutral : ∃ t : ℝ, 0 < t ∧ t < 1 ∧ (KaonArgs.ofValues .kaonB (rhoValue (1 / 2))).formula false t ≠ (KaonArgs.ofValues .kaonB (rhoValue 0)).formula false t := by
  by_contra hcon
  push Not at hcon
  obtain ⟨a1, a2, a3, a4⟩ := rho_thresholds (1 / 2)
  obtain ⟨b1, b2, b3, b4⟩ := rho_thresholds 0
  have hne : ∀ a t : ℝ, t < 1 → ¬ ∃ q ∈ (rhoObject a).toList, "t_in_".toList <+: q.name.toList ∧ t = q.value := by
    intro a t ht
    obtain ⟨-, c2, -, c4⟩ := rho_thresholds a
    rw [← (rho_args a).tin, c2, c4]
    rintro (h | h) <;> linarith
  have key := C105_couplings (x := .ofValues .kaonB (rhoValue (1 / 2))) (x' := .ofValues .kaonB (rhoValue 0)) (rho_args _).proper
    ⟨a1.trans b1.symm, a2.trans b2.symm, a3.trans b3.symm, a4.trans b4.symm⟩ (rho_args _).builds (rho_args _).builds le_rfl one_pos a1.ge a3.ge
    (by
      intro ch t h0 h1 u u' hu hu'
      rw [(rho_args _).run_eq ch h0.le (hne _ t h1)] at hu hu'
      injection hu with hu
      injection hu' with hu'
      rw [← hu, ← hu']
      have := hcon t h0 h1
      cases ch
      · exact this
      · unfold KaonArgs.formula at this ⊢
        rw [rho_resS (1 / 2) 0, a1, a2, a3, a4, b1, b2, b3, b4] at this ⊢
        have h2 := add_left_cancel this
        simp only [Bool.false_eq_true, if_false, neg_mul, one_mul, neg_inj] at h2
        rw [h2]) (mass := 3) (width := 1) (by norm_num) one_pos
  have := key.2
  rw [rho_couplingAt, rho_couplingAt] at this
  norm_num at this

/-- Somewhere their absolute values differ. -/
theorem rho_norms : ∃ a t : ℝ, 0 < t ∧ t < 1 ∧
    ‖(KaonArgs.ofValues .kaonB (rhoValue a)).formula false t‖ ≠ ‖(KaonArgs.ofValues .kaonB (rhoValue (1 / 2))).formula false t‖ := by
  obtain ⟨t, h0, h1, hne⟩ := rho_neutral
  by_contra hcon
  push Not at hcon
  have e1 := hcon ((1 - 1) / 2) t h0 h1
  have e2 := hcon ((1 - 2) / 2) t h0 h1
  have q1 := norm_sq_mix 2 ((KaonArgs.ofValues .kaonB (rhoValue (1 / 2))).formula false t) ((KaonArgs.ofValues .kaonB (rhoValue 0)).formula false t)
  have f2 := rho_formula 2 t false
  rw [← f2, e2] at q1
  rw [show ((1 : ℝ) - 1) / 2 = 0 by norm_num] at e1
  rw [e1] at q1
  have : ‖(KaonArgs.ofValues .kaonB (rhoValue (1 / 2))).formula false t - (KaonArgs.ofValues .kaonB (rhoValue 0)).formula false t‖ ^ 2 = 0 := by linarith
  exact hne (sub_eq_zero.mp (norm_eq_zero.mp (pow_eq_zero_iff (two_ne_zero) |>.mp this)))

end UA
