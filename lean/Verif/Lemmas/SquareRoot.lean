import Verif.Model.Maps
import Mathlib.Tactic.LinearCombination
import Mathlib.Tactic.FieldSimp
import Mathlib.Tactic.Linarith

/-! Helper lemmas about `squareRoot` (the branch with the cut on the positive reals). -/

namespace UA

open Complex ComplexConjugate

/-- The angle used by `squareRoot`. -/
noncomputable def ang (z : ℂ) : ℝ := if z.arg < 0 then 2 * Real.pi + z.arg else z.arg

theorem squareRoot_eq (z : ℂ) : squareRoot z = (Real.sqrt ‖z‖ : ℂ) * Complex.exp ((ang z / 2 : ℝ) * I) := by
  unfold squareRoot ang
  simp only
  congr 2
  split_ifs <;> push_cast <;> ring

theorem ang_nonneg (z : ℂ) : 0 ≤ ang z := by
  unfold ang
  have := neg_pi_lt_arg z
  have := Real.pi_pos
  split_ifs <;> linarith

theorem ang_lt (z : ℂ) : ang z < 2 * Real.pi := by
  unfold ang
  have := arg_le_pi z
  have := Real.pi_pos
  split_ifs <;> linarith

theorem norm_mul_exp_ang (z : ℂ) : (‖z‖ : ℂ) * Complex.exp (ang z * I) = z := by
  unfold ang
  split_ifs
  · push_cast
    rw [add_mul, Complex.exp_add, Complex.exp_two_pi_mul_I, one_mul]
    exact norm_mul_exp_arg_mul_I z
  · exact norm_mul_exp_arg_mul_I z

theorem squareRoot_sq (z : ℂ) : squareRoot z ^ 2 = z := by
  rw [squareRoot_eq, mul_pow, ← Complex.exp_nat_mul, ← Complex.ofReal_pow, Real.sq_sqrt (norm_nonneg z)]
  conv_rhs => rw [← norm_mul_exp_ang z]
  congr 2
  push_cast
  ring

theorem squareRoot_re (z : ℂ) : (squareRoot z).re = Real.sqrt ‖z‖ * Real.cos (ang z / 2) := by
  rw [squareRoot_eq, re_ofReal_mul, exp_ofReal_mul_I_re]

theorem squareRoot_im (z : ℂ) : (squareRoot z).im = Real.sqrt ‖z‖ * Real.sin (ang z / 2) := by
  rw [squareRoot_eq, im_ofReal_mul, exp_ofReal_mul_I_im]

theorem squareRoot_im_nonneg (z : ℂ) : 0 ≤ (squareRoot z).im := by
  rw [squareRoot_im]
  have h1 := ang_nonneg z
  have h2 := ang_lt z
  exact mul_nonneg (Real.sqrt_nonneg _) (Real.sin_nonneg_of_nonneg_of_le_pi (by linarith) (by linarith))

theorem squareRoot_re_nonneg_of_im (z : ℂ) (h : (squareRoot z).im = 0) : 0 ≤ (squareRoot z).re := by
  rw [squareRoot_im] at h
  rw [squareRoot_re]
  rcases mul_eq_zero.mp h with h | h
  · simp [h]
  · have h1 := ang_nonneg z
    have h2 := ang_lt z
    rcases h1.eq_or_lt with h0 | h0
    · rw [← h0]; simp
    · have := Real.sin_pos_of_pos_of_lt_pi (x := ang z / 2) (by linarith) (by linarith)
      linarith

/-- Uniqueness: a square root of `z` with argument in `[0, π)` (or zero) is `squareRoot z`. -/
theorem squareRoot_unique {u z : ℂ} (h : u ^ 2 = z) (him : 0 ≤ u.im) (hre : u.im = 0 → 0 ≤ u.re) :
    squareRoot z = u := by
  have hs := squareRoot_sq z
  rw [← h] at hs
  rcases sq_eq_sq_iff_eq_or_eq_neg.mp hs with h' | h'
  · rw [← h]; exact h'
  · rw [h] at h'
    have h1 := squareRoot_im_nonneg z
    have h2 := squareRoot_re_nonneg_of_im z
    rw [h'] at h1 h2
    simp only [neg_im, neg_re] at h1 h2
    have h3 : u.im = 0 := by linarith
    have h4 := hre h3
    have h5 := h2 (by linarith)
    have h6 : u = 0 := Complex.ext (by simp; linarith) (by simpa using h3)
    rw [h', h6]; simp

theorem squareRoot_zero : squareRoot 0 = 0 := squareRoot_unique (by simp) (by simp) (by simp)
theorem squareRoot_one : squareRoot 1 = 1 := squareRoot_unique (by simp) (by simp) (by simp)
theorem squareRoot_neg_one : squareRoot (-1) = I := squareRoot_unique (by simp) (by simp) (by simp)

theorem squareRoot_ofReal {x : ℝ} (h : 0 ≤ x) : squareRoot x = (Real.sqrt x : ℂ) :=
  squareRoot_unique (by rw [← ofReal_pow, Real.sq_sqrt h]) (by simp) (by simp [Real.sqrt_nonneg])

theorem squareRoot_eq_zero {z : ℂ} : squareRoot z = 0 ↔ z = 0 := by
  constructor
  · intro h
    rw [← squareRoot_sq z, h]; simp
  · rintro rfl; exact squareRoot_zero

/-- A point is on the closed positive real axis (the cut). -/
def OnCut (z : ℂ) : Prop := z.im = 0 ∧ 0 ≤ z.re

theorem squareRoot_im_pos {z : ℂ} (h : ¬ OnCut z) : 0 < (squareRoot z).im := by
  rcases (squareRoot_im_nonneg z).lt_or_eq with h1 | h1
  · exact h1
  · exfalso
    apply h
    rw [← squareRoot_sq z]
    constructor
    · simp [pow_two, ← h1]
    · simp [pow_two, ← h1]; nlinarith [sq_nonneg (squareRoot z).re]

theorem squareRoot_conj {z : ℂ} (h : ¬ OnCut z) : squareRoot (conj z) = - conj (squareRoot z) := by
  apply squareRoot_unique
  · rw [neg_sq, ← map_pow, squareRoot_sq]
  · simpa using squareRoot_im_nonneg z
  · intro h1
    have := squareRoot_im_pos h
    simp at h1
    linarith

/-- Relation with the principal square root, off the cut. -/
theorem squareRoot_eq_cpow {z : ℂ} (h : ¬ OnCut z) : squareRoot z = I * (-z) ^ (1/2 : ℂ) := by
  have hz : z ≠ 0 := by rintro rfl; exact h ⟨rfl, le_refl _⟩
  have hs : ((-z) ^ (1/2 : ℂ)) ^ 2 = -z := by
    rw [← Complex.cpow_nat_mul]; norm_num
  have harg : (-z).arg < Real.pi := by
    rcases (arg_le_pi (-z)).lt_or_eq with h1 | h1
    · exact h1
    · exfalso
      rw [arg_eq_pi_iff] at h1
      exact h ⟨by simpa using h1.2, by have := h1.1; simp at this; linarith⟩
  have harg' := neg_pi_lt_arg (-z)
  have hre : 0 < ((-z) ^ (1/2 : ℂ)).re := by
    rw [cpow_def_of_ne_zero (neg_ne_zero.mpr hz), Complex.exp_re]
    apply mul_pos (Real.exp_pos _)
    apply Real.cos_pos_of_mem_Ioo
    have : (Complex.log (-z) * (1/2 : ℂ)).im = (-z).arg / 2 := by
      have : (1/2 : ℂ) = ((1/2 : ℝ) : ℂ) := by push_cast; rfl
      rw [this, Complex.im_mul_ofReal, Complex.log_im]; ring
    rw [this]
    constructor <;> linarith
  apply squareRoot_unique
  · rw [mul_pow, hs]; simp
  · rw [I_mul_im]; exact hre.le
  · intro h1; rw [I_mul_im] at h1; linarith

end UA
