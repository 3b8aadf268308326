import Verif.Lemmas.SquareRoot
import Mathlib.Analysis.SpecialFunctions.Pow.Deriv
import Mathlib.Analysis.SpecialFunctions.Pow.Continuity

/-! Continuity of `squareRoot`. -/

namespace UA

open Complex Filter Topology

theorem squareRoot_eq_cpow_upper {z : ℂ} (h : 0 ≤ z.im) : squareRoot z = z ^ (1/2 : ℂ) := by
  by_cases hz : z = 0
  · subst hz; simp [squareRoot_zero]
  · have harg : 0 ≤ z.arg := arg_nonneg_iff.mpr h
    rw [squareRoot]
    simp only [not_lt.mpr harg, if_false]
    rw [cpow_def_of_ne_zero hz, Complex.log]
    rw [add_mul, Complex.exp_add]
    congr 1
    · rw [show ((Real.log ‖z‖ : ℝ) : ℂ) * (1/2) = ((Real.log ‖z‖ * (1/2) : ℝ) : ℂ) by push_cast; ring]
      rw [← ofReal_exp, Real.sqrt_eq_rpow, Real.rpow_def_of_pos (norm_pos_iff.mpr hz)]
    · congr 1; ring

theorem squareRoot_eq_neg_cpow_lower {z : ℂ} (h : z.im < 0) : squareRoot z = - z ^ (1/2 : ℂ) := by
  have hz : z ≠ 0 := by rintro rfl; simp at h
  have harg : z.arg < 0 := arg_neg_iff.mpr h
  rw [squareRoot]
  simp only [harg, if_true]
  rw [cpow_def_of_ne_zero hz, Complex.log]
  rw [add_mul, Complex.exp_add]
  rw [show ((Real.log ‖z‖ : ℝ) : ℂ) * (1/2) = ((Real.log ‖z‖ * (1/2) : ℝ) : ℂ) by push_cast; ring]
  rw [← ofReal_exp, Real.sqrt_eq_rpow, Real.rpow_def_of_pos (norm_pos_iff.mpr hz)]
  rw [← mul_neg]
  congr 1
  rw [show I * ((2 * Real.pi + z.arg : ℝ) : ℂ) / 2 = (z.arg : ℂ) * I * (1/2) + Real.pi * I by push_cast; ring]
  rw [Complex.exp_add, exp_pi_mul_I]
  ring

theorem isOpen_offCut : IsOpen {z : ℂ | ¬ OnCut z} := by
  have : IsClosed {z : ℂ | OnCut z} := by
    have h1 : IsClosed {z : ℂ | z.im = 0} := isClosed_eq continuous_im continuous_const
    have h2 : IsClosed {z : ℂ | 0 ≤ z.re} := isClosed_le continuous_const continuous_re
    exact h1.inter h2
  exact this.isOpen_compl

theorem squareRoot_differentiableAt {z : ℂ} (h : ¬ OnCut z) : DifferentiableAt ℂ squareRoot z := by
  have h1 : DifferentiableAt ℂ (fun z : ℂ => I * (-z) ^ (1/2 : ℂ)) z := by
    apply DifferentiableAt.const_mul
    apply DifferentiableAt.cpow_const differentiableAt_id.neg
    rw [mem_slitPlane_iff]
    by_contra hc
    push Not at hc
    apply h
    simp at hc
    exact ⟨hc.2, hc.1⟩
  apply h1.congr_of_eventuallyEq
  filter_upwards [isOpen_offCut.mem_nhds h] with y hy
  exact squareRoot_eq_cpow hy

theorem squareRoot_norm (z : ℂ) : ‖squareRoot z‖ = Real.sqrt ‖z‖ := by
  have := congrArg norm (squareRoot_sq z)
  rw [norm_pow] at this
  rw [← this, Real.sqrt_sq (norm_nonneg _)]

theorem squareRoot_continuousAt_zero : ContinuousAt squareRoot 0 := by
  rw [ContinuousAt, squareRoot_zero, tendsto_zero_iff_norm_tendsto_zero]
  simp only [squareRoot_norm]
  have : ContinuousAt (fun z : ℂ => Real.sqrt ‖z‖) 0 := (Real.continuous_sqrt.comp continuous_norm).continuousAt
  simpa [ContinuousAt] using this

theorem squareRoot_continuousWithinAt_upper (z : ℂ) : ContinuousWithinAt squareRoot {w | 0 ≤ w.im} z := by
  by_cases h : OnCut z
  · by_cases h0 : z = 0
    · subst h0; exact squareRoot_continuousAt_zero.continuousWithinAt
    · have hre : 0 < z.re := by
        rcases h.2.lt_or_eq with h1 | h1
        · exact h1
        · exact absurd (Complex.ext h1.symm h.1) h0
      have hz : 0 ≤ z.im := h.1.ge
      have : ContinuousAt (fun z : ℂ => z ^ (1/2 : ℂ)) z :=
        continuousAt_cpow_const (Or.inl hre)
      exact this.continuousWithinAt.congr (fun y hy => squareRoot_eq_cpow_upper hy) (squareRoot_eq_cpow_upper hz)
  · exact (squareRoot_differentiableAt h).continuousAt.continuousWithinAt

theorem squareRoot_tendsto_below {x : ℝ} (hx : 0 < x) :
    Tendsto squareRoot (𝓝[{w | w.im < 0}] (x : ℂ)) (𝓝 (- squareRoot x)) := by
  have hz : 0 ≤ (x : ℂ).im := by simp
  have : ContinuousAt (fun z : ℂ => - z ^ (1/2 : ℂ)) (x : ℂ) :=
    (continuousAt_cpow_const (Or.inl (by simpa using hx))).neg
  have h2 := this.continuousWithinAt (s := {w : ℂ | w.im < 0})
  rw [squareRoot_eq_cpow_upper hz]
  apply h2.tendsto.congr'
  filter_upwards [self_mem_nhdsWithin] with y hy
  exact (squareRoot_eq_neg_cpow_lower hy).symm

end UA
