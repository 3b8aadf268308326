import Verif.Model.CrossSections
import Verif.Lemmas.NucleonRun
import Mathlib.Analysis.SpecialFunctions.Pow.Real
import Mathlib.Analysis.SpecialFunctions.Sqrt
import Mathlib.Analysis.Calculus.Deriv.Inv
import Mathlib.Tactic.FieldSimp
import Mathlib.Tactic.LinearCombination

/-!
# Helper lemmas for the cross sections
-/

namespace UA

open Complex

/-- Principal power 3/2 of a non-negative real. -/
theorem cpow_three_half {x : ℝ} (h : 0 ≤ x) : (x : ℂ) ^ (3 / 2 : ℂ) = ((x ^ (3 / 2 : ℝ) : ℝ) : ℂ) := by
  rw [Complex.ofReal_cpow h]; norm_num

theorem rpow_three_half {x : ℝ} (h : 0 ≤ x) : x ^ (3 / 2 : ℝ) = Real.sqrt x ^ 3 := by
  rw [Real.sqrt_eq_rpow, ← Real.rpow_natCast, ← Real.rpow_mul h]; norm_num

theorem ofReal_norm_of_pos {t : ℝ} (h : 0 ≤ t) : ‖(t : ℂ)‖ = t := by simp [abs_of_nonneg h]

/-- The scalar cross section off zero. -/
theorem ScalarCS.call_ok {m a h : ℝ} {ff : ℂ → Except PyErr ℂ} {t F : ℂ} (hF : ff t = .ok F) (ht : t ≠ 0) :
    (ScalarCS.init m a h).call ff t =
      .ok (((h * Real.pi * a ^ 2 / 3 : ℝ) : ℂ) / t * (1 - ((4 * m ^ 2 : ℝ) : ℂ) / t) ^ (3 / 2 : ℂ) * ((‖F‖ : ℝ) : ℂ) ^ 2) := by
  unfold ScalarCS.call ScalarCS.init
  rw [hF, except_ok_bind, pyDiv_ok ht, except_ok_bind, pyDiv_ok ht, except_ok_bind]; rfl

theorem ScalarCS.call_zero {m a h : ℝ} {ff : ℂ → Except PyErr ℂ} {F : ℂ} (hF : ff 0 = .ok F) :
    (ScalarCS.init m a h).call ff 0 = .error .zeroDivisionError := by
  unfold ScalarCS.call
  rw [hF, except_ok_bind, pyDiv_zero]; rfl

/-- The scalar cross section at real `t ≥ 4m²`, `t > 0`, in real form. -/
theorem ScalarCS.call_real {m a h : ℝ} {ff : ℂ → Except PyErr ℂ} {t : ℝ} {F : ℂ} (hF : ff t = .ok F) (ht : 0 < t)
    (h4 : 4 * m ^ 2 ≤ t) :
    (ScalarCS.init m a h).call ff t =
      .ok ((h * Real.pi * a ^ 2 / (3 * t) * Real.sqrt (1 - 4 * m ^ 2 / t) ^ 3 * ‖F‖ ^ 2 : ℝ) : ℂ) := by
  have h1 : 0 ≤ 1 - 4 * m ^ 2 / t := by rw [sub_nonneg, div_le_one ht]; exact h4
  rw [ScalarCS.call_ok hF (by exact_mod_cast ht.ne')]
  have e : (1 - ((4 * m ^ 2 : ℝ) : ℂ) / t) = ((1 - 4 * m ^ 2 / t : ℝ) : ℂ) := by push_cast; ring
  rw [e, cpow_three_half h1, rpow_three_half h1]
  congr 1
  push_cast
  field_simp

theorem NucleonCS.formula_zero (m a h ge gm : ℝ) : (NucleonCS.init m a h).formula 0 ge gm = .error .zeroDivisionError := by
  unfold NucleonCS.formula
  rw [norm_zero, pyDivR_zero]; rfl

theorem NucleonCS.formula_low {m a h ge gm : ℝ} {t : ℂ} (h0 : t ≠ 0) (ht : ‖t‖ < 4 * m ^ 2) :
    (NucleonCS.init m a h).formula t ge gm = .error .valueError := by
  unfold NucleonCS.formula
  have hn : 0 < ‖t‖ := norm_pos_iff.mpr h0
  rw [pyDivR_ok hn.ne', except_ok_bind, pySqrt_neg]
  · rfl
  · show 1 - 4 * m ^ 2 / ‖t‖ < 0
    rw [sub_neg, lt_div_iff₀ hn, one_mul]; exact ht

theorem NucleonCS.formula_ok {m a h ge gm : ℝ} {t : ℂ} (h0 : t ≠ 0) (ht : 4 * m ^ 2 ≤ ‖t‖) :
    (NucleonCS.init m a h).formula t ge gm =
      .ok (((h * 4 * Real.pi * a ^ 2 / 3 * Real.sqrt (1 - 4 * m ^ 2 / ‖t‖) : ℝ) : ℂ) / t *
        ((gm : ℂ) ^ 2 + ((4 * m ^ 2 * ge ^ 2 : ℝ) : ℂ) / (2 * t))) := by
  unfold NucleonCS.formula NucleonCS.init
  have hn : 0 < ‖t‖ := norm_pos_iff.mpr h0
  have h1 : 0 ≤ 1 - 4 * m ^ 2 / ‖t‖ := by rw [sub_nonneg, div_le_one hn]; exact ht
  have h2 : (2 * t) ≠ 0 := mul_ne_zero two_ne_zero h0
  rw [pyDivR_ok hn.ne', except_ok_bind, pySqrt_ok h1, except_ok_bind, pyDiv_ok h0, except_ok_bind, pyDiv_ok h2, except_ok_bind]
  rfl

theorem NucleonCS.formula_real {m a h ge gm t : ℝ} (h0 : 0 < t) (ht : 4 * m ^ 2 ≤ t) :
    (NucleonCS.init m a h).formula t ge gm =
      .ok ((h * (4 * Real.pi * a ^ 2 * Real.sqrt (1 - 4 * m ^ 2 / t) / (3 * t)) * (gm ^ 2 + 2 * m ^ 2 / t * ge ^ 2) : ℝ) : ℂ) := by
  have hc : (t : ℂ) ≠ 0 := by exact_mod_cast h0.ne'
  rw [NucleonCS.formula_ok hc (by rw [ofReal_norm_of_pos h0.le]; exact ht), ofReal_norm_of_pos h0.le]
  congr 1
  push_cast
  field_simp
  ring

/-- The outcome of a nucleon cross-section call as a sequence of three possibly failing steps. -/
theorem NucleonCS.call_fst {σ : Type} (cs : NucleonCS) (ff : FormFactorObject σ) (s : σ) (t : ℂ) :
    (cs.call ff s t).1 = (ff.call (ff.setElectric true s) t).1 >>= fun GE =>
      (ff.call (ff.setElectric false (ff.call (ff.setElectric true s) t).2) t).1 >>= fun GM => cs.formula t ‖GE‖ ‖GM‖ := by
  unfold NucleonCS.call
  dsimp only
  generalize ff.call (ff.setElectric true s) t = r
  obtain ⟨r1, s1⟩ := r
  rcases r1 with e | GE
  · rfl
  · simp only [except_ok_bind]
    generalize ff.call (ff.setElectric false s1) t = r
    obtain ⟨r2, s2⟩ := r
    rcases r2 with e | GM <;> rfl

theorem nucleon_call_fields (m : NucleonUAModel) (t : ℂ) : (m.call t).2.toNucleonBase = m.toNucleonBase := m.call_base t

/-- The relative error of a converted point is half that of the cross section. -/
theorem convertPoint_relative_error {α hc2 m t cs err ff e : ℝ} (hα : α ≠ 0) (hh : 0 < hc2) (ht : 0 < t) (h4 : 4 * m ^ 2 < t)
    (hcs : 0 < cs) (h : convertPoint α hc2 m t cs err = .ok (t, ff, e)) : e / ff = err / cs / 2 := by
  have hr : 0 < 1 - 4 * m ^ 2 / t := by rw [sub_pos, div_lt_one ht]; exact h4
  obtain ⟨c, hc, hcp⟩ : ∃ c, c = hc2 * Real.pi * α ^ 2 / 3 / t * (1 - 4 * m ^ 2 / t) ^ (3 / 2 : ℝ) ∧ 0 < c := by
    refine ⟨_, rfl, ?_⟩
    have := Real.pi_pos
    have := Real.rpow_pos_of_pos hr (3 / 2)
    positivity
  have hcoef : coefficientFunction α hc2 m t = .ok (.float c) := by
    unfold coefficientFunction
    simp only [pyDivR_ok ht.ne', except_ok_bind]
    rw [if_neg (not_lt.mpr hr.le), hc]; rfl
  have hq : 0 < cs / c := by positivity
  have hs : 0 < Real.sqrt (cs / c) := Real.sqrt_pos.mpr hq
  unfold convertPoint at h
  rw [hcoef, except_ok_bind] at h
  simp only at h
  rw [pyDivR_ok hcp.ne', except_ok_bind, pySqrt_ok hq.le, except_ok_bind, pyDivR_ok (by positivity), except_ok_bind] at h
  injection h with h
  injection h with _ h
  injection h with h1 h2
  have e2 : Real.sqrt (cs / c) * Real.sqrt (cs / c) = cs / c := Real.mul_self_sqrt hq.le
  rw [← h1, ← h2, div_div, show 2 * c * Real.sqrt (cs / c) * Real.sqrt (cs / c) = 2 * cs by rw [mul_assoc, e2]; field_simp]
  field_simp

end UA
