import Verif.Lemmas.Maps
import Verif.Lemmas.SquareRootCont
import Verif.Spec.Maps
import Verif.Spec.MapsRun

/-!
Outcomes of building a map and calling it.
-/

namespace UA

open Complex ComplexConjugate Filter Topology Spec

theorem runTtoW_ok {t_0 t_in : ℝ} (h0 : 0 ≤ t_0) (h : t_0 < t_in) {t : ℂ} (ht : t ≠ t_in) :
    runTtoW t_0 t_in t = .ok (Wval t_0 t_in t) := by
  simp [runTtoW, TtoW_init_ok h0 h.le, TtoW_call_ok h ht]

theorem runTtoW_tin {t_0 t_in : ℝ} (h0 : 0 ≤ t_0) (h : t_0 ≤ t_in) :
    runTtoW t_0 t_in t_in = .error .zeroDivisionError := by
  simp [runTtoW, TtoW_init_ok h0 h, TtoW_call_tin h]

theorem runWtoT_ok {t_0 t_in : ℝ} (h0 : 0 ≤ t_0) (h : t_0 ≤ t_in) {w : ℂ} (hw0 : w ≠ 0) (hw : 1 - w ^ 2 ≠ 0) :
    runWtoT t_0 t_in w = .ok (Tval t_0 t_in w) := by
  simp [runWtoT, WtoT_init_ok h0 h, WtoT_call_ok hw0 hw]

theorem leftHalfDisk_ne {w : ℂ} (hw : w ∈ LeftHalfDisk) : w ≠ 0 ∧ 1 - w ^ 2 ≠ 0 := by
  obtain ⟨h1, h2⟩ := hw
  refine ⟨by rintro rfl; simp at h2, fun h => ?_⟩
  have : ‖w ^ 2‖ = 1 := by
    have : w ^ 2 = 1 := by linear_combination -h
    rw [this]; simp
  rw [norm_pow] at this
  nlinarith [norm_nonneg w]

/-- Points of the open half-disk come from off the cut. -/
theorem Tval_offCut {t_0 t_in : ℝ} (h : t_0 < t_in) {w : ℂ} (hw : w ∈ LeftHalfDisk) :
    Tval t_0 t_in w ∉ HalfLine t_0 := by
  intro hc
  have hWT := Wval_Tval h hw.1 hw.2
  set t := Tval t_0 t_in w with ht
  -- on the cut `z` is real and non-negative, so `tz` is real, so `v` is real or purely imaginary
  obtain ⟨hx1, hx2⟩ := hc
  have e : t = (t.re : ℂ) := Complex.ext rfl (by simpa using hx1)
  have hz : zOf t_0 t = (Real.sqrt (t.re - t_0) : ℂ) := by
    rw [zOf, e, ← ofReal_sub, squareRoot_ofReal (by simpa using sub_nonneg.mpr hx2)]
    simp
  set a := Real.sqrt (t_in - t_0) with ha
  have htz : ((zOf t_0 t + a) / (-zOf t_0 t + a)).im = 0 := by
    rw [tz_im, hz]; simp
  have hv := vOf_sq a (zOf t_0 t)
  rw [← hv] at htz
  have : (vOf a (zOf t_0 t)).re * (vOf a (zOf t_0 t)).im = 0 := by
    simp [pow_two] at htz; linarith
  have hw1 : ‖wOf (vOf a (zOf t_0 t))‖ < 1 := by
    have := hw.1; rw [← hWT] at this; exact this
  have hw2 : (wOf (vOf a (zOf t_0 t))).re < 0 := by
    have := hw.2; rw [← hWT] at this; exact this
  rcases mul_eq_zero.mp this with h3 | h3
  · have h4 := v_add_one_ne (v := vOf a (zOf t_0 t)) h3.ge
    have : ‖wOf (vOf a (zOf t_0 t))‖ = 1 := by
      unfold wOf
      rw [norm_div, norm_mul, norm_I, one_mul, div_eq_one_iff_eq (norm_ne_zero_iff.mpr h4)]
      rw [← sq_eq_sq₀ (norm_nonneg _) (norm_nonneg _), ← normSq_eq_norm_sq, ← normSq_eq_norm_sq]
      simp [normSq_apply, h3]
    linarith
  · rw [wOf_re, h3] at hw2; simp at hw2

end UA
