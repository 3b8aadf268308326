import Verif.Model.AlternateMaps
import Verif.Lemmas.MapsRun

/-!
# Helper lemmas: the alternate inverse maps
-/

namespace UA

open Complex Spec

/-! ### The principal square root -/

theorem cmathSqrt_sq (z : ℂ) : cmathSqrt z ^ 2 = z := by
  unfold cmathSqrt
  rw [mul_pow, ← Complex.exp_nat_mul, ← Complex.ofReal_pow, Real.sq_sqrt (norm_nonneg z)]
  conv_rhs => rw [← norm_mul_exp_arg_mul_I z]
  congr 2
  push_cast
  ring

theorem cmathSqrt_eq (z : ℂ) : cmathSqrt z = (Real.sqrt ‖z‖ : ℂ) * Complex.exp ((z.arg / 2 : ℝ) * I) := by
  unfold cmathSqrt; congr 2; push_cast; ring

theorem cmathSqrt_re_nonneg (z : ℂ) : 0 ≤ (cmathSqrt z).re := by
  rw [cmathSqrt_eq, re_ofReal_mul, exp_ofReal_mul_I_re]
  have h1 := neg_pi_lt_arg z
  have h2 := arg_le_pi z
  exact mul_nonneg (Real.sqrt_nonneg _) (Real.cos_nonneg_of_neg_pi_div_two_le_of_le (by linarith) (by linarith))

theorem cmathSqrt_im_nonneg_of_re (z : ℂ) (h : (cmathSqrt z).re = 0) : 0 ≤ (cmathSqrt z).im := by
  rw [cmathSqrt_eq, re_ofReal_mul, exp_ofReal_mul_I_re] at h
  rw [cmathSqrt_eq, im_ofReal_mul, exp_ofReal_mul_I_im]
  have h1 := neg_pi_lt_arg z
  have h2 := arg_le_pi z
  rcases mul_eq_zero.mp h with h | h
  · simp [h]
  · refine mul_nonneg (Real.sqrt_nonneg _) ?_
    by_contra hc
    push Not at hc
    have hneg : z.arg < 0 := by
      by_contra h3
      push Not at h3
      exact absurd (Real.sin_nonneg_of_nonneg_of_le_pi (by linarith : 0 ≤ z.arg / 2) (by linarith)) (not_le.mpr hc)
    exact (Real.cos_pos_of_mem_Ioo ⟨by linarith, by linarith⟩ : 0 < Real.cos (z.arg / 2)).ne' h

theorem cmathSqrt_unique {u z : ℂ} (h : u ^ 2 = z) (hre : 0 ≤ u.re) (him : u.re = 0 → 0 ≤ u.im) : cmathSqrt z = u := by
  have hs := cmathSqrt_sq z
  rw [← h] at hs
  rcases sq_eq_sq_iff_eq_or_eq_neg.mp hs with h' | h'
  · rw [← h, h']
  · have h1 := cmathSqrt_re_nonneg (u ^ 2)
    have h2 := cmathSqrt_im_nonneg_of_re (u ^ 2)
    rw [h'] at h1 h2
    simp only [neg_re, neg_im] at h1 h2
    have h3 : u.re = 0 := by linarith
    have h4 := him h3
    have h5 := h2 (by linarith)
    have : u = 0 := Complex.ext h3 (by simp; linarith)
    rw [← h, h', this, neg_zero]

theorem cmathSqrt_ofReal {x : ℝ} (h : 0 ≤ x) : cmathSqrt x = (Real.sqrt x : ℂ) :=
  cmathSqrt_unique (by rw [← ofReal_pow, Real.sq_sqrt h]) (by simp [Real.sqrt_nonneg]) (by simp)

theorem sq_im (u : ℂ) : (u ^ 2).im = 2 * (u.re * u.im) := by simp [pow_two]; ring
theorem sq_re (u : ℂ) : (u ^ 2).re = u.re ^ 2 - u.im ^ 2 := by simp [pow_two]

/-! ### The quotient of the two roots -/

/-- `A / B` for roots of `(a ± z)/s`, when it lies in the half plane of the branch. -/
theorem ratio_eq {a : ℝ} {z A B : ℂ} {s : ℝ} (hs : s ≠ 0) (hA : A ^ 2 = (a + z) / s) (hB : B ^ 2 = (a - z) / s)
    (hB0 : B ≠ 0) {u : ℂ} (hu : u = A / B ∨ u = -(A / B)) (him : 0 ≤ u.im) (hre : u.im = 0 → 0 ≤ u.re) : u = vOf a z := by
  refine (squareRoot_unique ?_ him hre).symm
  have hs' : (s : ℂ) ≠ 0 := ofReal_ne_zero.mpr hs
  have h1 : u ^ 2 = (A / B) ^ 2 := by rcases hu with rfl | rfl <;> ring
  have h2 : (a : ℂ) - z ≠ 0 := by
    intro h
    rw [h, zero_div] at hB
    exact hB0 (pow_eq_zero_iff (two_ne_zero)|>.mp hB)
  have h3 : -z + (a : ℂ) ≠ 0 := by intro h; apply h2; linear_combination h
  rw [h1, div_pow, hA, hB]
  field_simp
  ring

theorem div_im' (A B : ℂ) : (A / B).im = (A.im * B.re - A.re * B.im) / normSq B := by
  rw [div_im]; ring
theorem div_re' (A B : ℂ) : (A / B).re = (A.re * B.re + A.im * B.im) / normSq B := by
  rw [div_re]; ring

theorem wOf_ratio {A B : ℂ} (hB : B ≠ 0) : I * (A - B) / (A + B) = wOf (A / B) := by
  unfold wOf
  rw [show A / B - 1 = (A - B) / B by field_simp, show A / B + 1 = (A + B) / B by field_simp, mul_div_assoc',
    div_div_div_cancel_right₀ hB]

theorem wOf_neg {v : ℂ} (h1 : v + 1 ≠ 0) (h2 : v - 1 ≠ 0) : wOf (-v) = -1 / wOf v := by
  unfold wOf
  have h3 : -v + 1 ≠ 0 := by intro h; apply h2; linear_combination -h
  have hI := I_ne_zero
  field_simp
  linear_combination (-(v - 1) * (v + 1)) * I_sq

/-! ### The two versions as total functions -/

theorem sqrt_quot {t_0 t_in : ℝ} (h0 : 0 < t_0) : Real.sqrt ((t_in - t_0) / t_0) = Real.sqrt (t_in - t_0) / Real.sqrt t_0 :=
  Real.sqrt_div' _ h0.le

theorem quot_sq {t_0 : ℝ} (h0 : 0 < t_0) (t : ℂ) : (zOf t_0 t / Real.sqrt t_0) ^ 2 = (t - t_0) / t_0 := by
  rw [div_pow, zOf_sq, ← ofReal_pow, Real.sq_sqrt h0.le]

/-- `(A, B)` are the two roots the quotient is made of. -/
structure Roots (t_0 t_in : ℝ) (t A B : ℂ) : Prop where
  hA : A ^ 2 = ((Real.sqrt (t_in - t_0) : ℝ) + zOf t_0 t) / (Real.sqrt t_0 : ℝ)
  hB : B ^ 2 = ((Real.sqrt (t_in - t_0) : ℝ) - zOf t_0 t) / (Real.sqrt t_0 : ℝ)

theorem version2_eq {t_0 t_in : ℝ} (h0 : 0 < t_0) (h : t_0 < t_in) (t : ℂ) :
    ∃ A B, Roots t_0 t_in t A B ∧ A = squareRoot (((Real.sqrt (t_in - t_0) : ℝ) + zOf t_0 t) / (Real.sqrt t_0 : ℝ)) ∧
      B = squareRoot (((Real.sqrt (t_in - t_0) : ℝ) - zOf t_0 t) / (Real.sqrt t_0 : ℝ)) ∧
      tToWVersion2 t_0 t_in t = pyDiv (I * (A - B)) (A + B) := by
  have hs := Real.sqrt_pos.mpr h0
  have hq : squareRoot ((t - t_0) / t_0) = zOf t_0 t / Real.sqrt t_0 := by
    refine squareRoot_unique (quot_sq h0 t) ?_ ?_
    · rw [div_ofReal_im]; exact div_nonneg (zOf_im_nonneg _ _) hs.le
    · rw [div_ofReal_im, div_ofReal_re, div_eq_zero_iff]
      rintro (h1 | h1)
      · exact div_nonneg (zOf_re_nonneg _ _ h1) hs.le
      · exact absurd h1 hs.ne'
  refine ⟨_, _, ⟨squareRoot_sq _, squareRoot_sq _⟩, rfl, rfl, ?_⟩
  unfold tToWVersion2
  rw [pyDivR_ok h0.ne', except_ok_bind, pyDiv_ok (ofReal_ne_zero.mpr h0.ne'), except_ok_bind,
    squareRoot_ofReal (div_nonneg (sub_nonneg.mpr h.le) h0.le), sqrt_quot h0, hq]
  simp only [ofReal_div, ← add_div, ← sub_div]

theorem version3_eq {t_0 t_in : ℝ} (h0 : 0 < t_0) (h : t_0 < t_in) (t : ℂ) :
    ∃ A B, Roots t_0 t_in t A B ∧ A = cmathSqrt (((Real.sqrt (t_in - t_0) : ℝ) + zOf t_0 t) / (Real.sqrt t_0 : ℝ)) ∧
      B = cmathSqrt (((Real.sqrt (t_in - t_0) : ℝ) - zOf t_0 t) / (Real.sqrt t_0 : ℝ)) ∧
      (0 ≤ t.im → tToWVersion3 t_0 t_in t = pyDiv (I * (A - B)) (A + B)) ∧
      (t.im < 0 → tToWVersion3 t_0 t_in t = pyDiv (I * (B - A)) (B + A)) := by
  have hs := Real.sqrt_pos.mpr h0
  have hz := zOf_im_rel t_0 t
  have hzi := zOf_im_nonneg t_0 t
  have hzr := zOf_re_nonneg t_0 t
  refine ⟨_, _, ⟨cmathSqrt_sq _, cmathSqrt_sq _⟩, rfl, rfl, ?_, ?_⟩
  · intro ht
    have hq : cmathSqrt ((t - t_0) / t_0) = zOf t_0 t / Real.sqrt t_0 := by
      have hre : 0 ≤ (zOf t_0 t).re := by
        rcases hzi.lt_or_eq with h1 | h1
        · by_contra hc; push Not at hc; nlinarith
        · exact hzr h1.symm
      refine cmathSqrt_unique (quot_sq h0 t) ?_ ?_
      · rw [div_ofReal_re]; exact div_nonneg hre hs.le
      · intro _; rw [div_ofReal_im]; exact div_nonneg hzi hs.le
    unfold tToWVersion3
    rw [pyDivR_ok h0.ne', except_ok_bind, pyDiv_ok (ofReal_ne_zero.mpr h0.ne'), except_ok_bind,
      cmathSqrt_ofReal (div_nonneg (sub_nonneg.mpr h.le) h0.le), sqrt_quot h0, hq]
    simp only [ofReal_div, ← add_div, ← sub_div]
  · intro ht
    have hq : cmathSqrt ((t - t_0) / t_0) = -(zOf t_0 t / Real.sqrt t_0) := by
      have hre : (zOf t_0 t).re < 0 := by
        by_contra hc; push Not at hc; nlinarith
      refine cmathSqrt_unique (by rw [neg_sq, quot_sq h0 t]) ?_ ?_
      · rw [neg_re, div_ofReal_re, ← neg_div]; exact div_nonneg (by linarith) hs.le
      · rw [neg_re, div_ofReal_re, ← neg_div]
        intro h1
        exact absurd h1 (div_pos (by linarith) hs).ne'
    unfold tToWVersion3
    rw [pyDivR_ok h0.ne', except_ok_bind, pyDiv_ok (ofReal_ne_zero.mpr h0.ne'), except_ok_bind,
      cmathSqrt_ofReal (div_nonneg (sub_nonneg.mpr h.le) h0.le), sqrt_quot h0, hq]
    simp only [ofReal_div, ← sub_eq_add_neg, sub_neg_eq_add, ← add_div, ← sub_div]

/-! ### The sums never vanish -/

theorem Roots.sum_sq {t_0 t_in : ℝ} {t A B : ℂ} (r : Roots t_0 t_in t A B) :
    A ^ 2 + B ^ 2 = 2 * (Real.sqrt (t_in - t_0) : ℝ) / (Real.sqrt t_0 : ℝ) := by
  rw [r.hA, r.hB, ← add_div]; ring

theorem Roots.not_both {t_0 t_in : ℝ} (h0 : 0 < t_0) (h : t_0 < t_in) {t A B : ℂ} (r : Roots t_0 t_in t A B)
    (hA : A = 0) (hB : B = 0) : False := by
  have h1 := r.sum_sq
  rw [hA, hB] at h1
  have h2 : (Real.sqrt (t_in - t_0) : ℂ) ≠ 0 := ofReal_ne_zero.mpr (sqrt_pos' h).ne'
  have h3 : (Real.sqrt t_0 : ℂ) ≠ 0 := ofReal_ne_zero.mpr (Real.sqrt_pos.mpr h0).ne'
  have h4 : 2 * (Real.sqrt (t_in - t_0) : ℂ) / (Real.sqrt t_0 : ℂ) ≠ 0 := div_ne_zero (mul_ne_zero two_ne_zero h2) h3
  exact h4 (by rw [← h1]; simp)

theorem add_ne_upper {t_0 t_in : ℝ} (h0 : 0 < t_0) (h : t_0 < t_in) {t A B X Y : ℂ} (r : Roots t_0 t_in t A B)
    (hA : A = squareRoot X) (hB : B = squareRoot Y) : A + B ≠ 0 := by
  intro hs
  have him : A.im + B.im = 0 := by simpa using congrArg Complex.im hs
  have hre : A.re + B.re = 0 := by simpa using congrArg Complex.re hs
  have hai : 0 ≤ A.im := hA ▸ squareRoot_im_nonneg X
  have hbi : 0 ≤ B.im := hB ▸ squareRoot_im_nonneg Y
  have ha0 : A.im = 0 := by linarith
  have hb0 : B.im = 0 := by linarith
  have har : 0 ≤ A.re := by rw [hA] at ha0 ⊢; exact squareRoot_re_nonneg_of_im X ha0
  have hbr : 0 ≤ B.re := by rw [hB] at hb0 ⊢; exact squareRoot_re_nonneg_of_im Y hb0
  exact r.not_both h0 h (Complex.ext (by simp; linarith) (by simp [ha0])) (Complex.ext (by simp; linarith) (by simp [hb0]))

theorem add_ne_right {t_0 t_in : ℝ} (h0 : 0 < t_0) (h : t_0 < t_in) {t A B X Y : ℂ} (r : Roots t_0 t_in t A B)
    (hA : A = cmathSqrt X) (hB : B = cmathSqrt Y) : A + B ≠ 0 := by
  intro hs
  have him : A.im + B.im = 0 := by simpa using congrArg Complex.im hs
  have hre : A.re + B.re = 0 := by simpa using congrArg Complex.re hs
  have har : 0 ≤ A.re := hA ▸ cmathSqrt_re_nonneg X
  have hbr : 0 ≤ B.re := hB ▸ cmathSqrt_re_nonneg Y
  have ha0 : A.re = 0 := by linarith
  have hb0 : B.re = 0 := by linarith
  have hai : 0 ≤ A.im := by rw [hA] at ha0 ⊢; exact cmathSqrt_im_nonneg_of_re X ha0
  have hbi : 0 ≤ B.im := by rw [hB] at hb0 ⊢; exact cmathSqrt_im_nonneg_of_re Y hb0
  exact r.not_both h0 h (Complex.ext (by simp [ha0]) (by simp; linarith)) (Complex.ext (by simp [hb0]) (by simp; linarith))

/-! ### Which root it is -/

theorem Roots.B_eq_zero {t_0 t_in : ℝ} (h0 : 0 < t_0) (h : t_0 < t_in) {t A B : ℂ} (r : Roots t_0 t_in t A B) :
    B = 0 ↔ t = t_in := by
  have h3 : (Real.sqrt t_0 : ℂ) ≠ 0 := ofReal_ne_zero.mpr (Real.sqrt_pos.mpr h0).ne'
  rw [← zOf_eq_a h.le, ← pow_eq_zero_iff (two_ne_zero (α := ℕ)) (a := B), r.hB, div_eq_zero_iff]
  constructor
  · rintro (h1 | h1)
    · linear_combination -h1
    · exact absurd h1 h3
  · intro h1; left; linear_combination -h1

/-- Imaginary parts of the arguments of the two roots. -/
theorem Roots.im {t_0 t_in : ℝ} {t A B : ℂ} (r : Roots t_0 t_in t A B) :
    2 * (A.re * A.im) = (zOf t_0 t).im / Real.sqrt t_0 ∧ 2 * (B.re * B.im) = -((zOf t_0 t).im / Real.sqrt t_0) := by
  have h1 := congrArg Complex.im r.hA
  have h2 := congrArg Complex.im r.hB
  rw [sq_im, div_ofReal_im] at h1 h2
  simp only [add_im, sub_im, ofReal_im, zero_add, zero_sub] at h1 h2
  exact ⟨h1, by rw [h2, neg_div]⟩

theorem Roots.re {t_0 t_in : ℝ} {t A B : ℂ} (r : Roots t_0 t_in t A B) :
    A.re ^ 2 - A.im ^ 2 = (Real.sqrt (t_in - t_0) + (zOf t_0 t).re) / Real.sqrt t_0 ∧
      B.re ^ 2 - B.im ^ 2 = (Real.sqrt (t_in - t_0) - (zOf t_0 t).re) / Real.sqrt t_0 := by
  have h1 := congrArg Complex.re r.hA
  have h2 := congrArg Complex.re r.hB
  rw [sq_re, div_ofReal_re] at h1 h2
  simp only [add_re, sub_re, ofReal_re] at h1 h2
  exact ⟨h1, h2⟩

/-- Off the cut with the branch of the model: the other root. -/
theorem ratio_upper_offCut {t_0 t_in : ℝ} (h0 : 0 < t_0) (h : t_0 < t_in) {t A B X Y : ℂ} (r : Roots t_0 t_in t A B)
    (hA : A = squareRoot X) (hB : B = squareRoot Y) (hz : 0 < (zOf t_0 t).im) :
    -(A / B) = vOf (Real.sqrt (t_in - t_0)) (zOf t_0 t) := by
  have hs := Real.sqrt_pos.mpr h0
  obtain ⟨h1, h2⟩ := r.im
  have hp := div_pos hz hs
  have hai : 0 ≤ A.im := hA ▸ squareRoot_im_nonneg X
  have hbi : 0 ≤ B.im := hB ▸ squareRoot_im_nonneg Y
  have har : 0 < A.re := by by_contra hc; push Not at hc; nlinarith
  have hbr : B.re < 0 := by by_contra hc; push Not at hc; nlinarith
  have hai' : 0 < A.im := by rcases hai.lt_or_eq with h3 | h3; exact h3; rw [← h3] at h1; linarith
  have hbi' : 0 < B.im := by rcases hbi.lt_or_eq with h3 | h3; exact h3; rw [← h3] at h2; linarith
  have hB0 : B ≠ 0 := by rintro rfl; simp at hbi'
  have hn := normSq_pos.mpr hB0
  have him : 0 < (-(A / B)).im := by
    rw [neg_im, div_im', ← neg_div]
    exact div_pos (by nlinarith) hn
  exact ratio_eq hs.ne' r.hA r.hB hB0 (.inr rfl) him.le (fun h4 => absurd h4 him.ne')

/-- Off the cut with the principal branch: the root of the model. -/
theorem ratio_right_offCut {t_0 t_in : ℝ} (h0 : 0 < t_0) (h : t_0 < t_in) {t A B X Y : ℂ} (r : Roots t_0 t_in t A B)
    (hA : A = cmathSqrt X) (hB : B = cmathSqrt Y) (hz : 0 < (zOf t_0 t).im) :
    A / B = vOf (Real.sqrt (t_in - t_0)) (zOf t_0 t) := by
  have hs := Real.sqrt_pos.mpr h0
  obtain ⟨h1, h2⟩ := r.im
  have hp := div_pos hz hs
  have har : 0 ≤ A.re := hA ▸ cmathSqrt_re_nonneg X
  have hbr : 0 ≤ B.re := hB ▸ cmathSqrt_re_nonneg Y
  have har' : 0 < A.re := by rcases har.lt_or_eq with h3 | h3; exact h3; rw [← h3] at h1; linarith
  have hbr' : 0 < B.re := by rcases hbr.lt_or_eq with h3 | h3; exact h3; rw [← h3] at h2; linarith
  have hai : 0 < A.im := by by_contra hc; push Not at hc; nlinarith
  have hbi : B.im < 0 := by by_contra hc; push Not at hc; nlinarith
  have hB0 : B ≠ 0 := by rintro rfl; simp at hbi
  have hn := normSq_pos.mpr hB0
  have him : 0 < (A / B).im := by
    rw [div_im']
    exact div_pos (by nlinarith) hn
  exact ratio_eq hs.ne' r.hA r.hB hB0 (.inl rfl) him.le (fun h4 => absurd h4 him.ne')

/-- The first root is positive on the cut, for either branch. -/
theorem A_onCut {t_0 t_in : ℝ} (h0 : 0 < t_0) (h : t_0 < t_in) {t A B X : ℂ} (r : Roots t_0 t_in t A B)
    (hA : A = squareRoot X ∨ A = cmathSqrt X) (hz : (zOf t_0 t).im = 0) : 0 < A.re ∧ A.im = 0 := by
  have hs := Real.sqrt_pos.mpr h0
  have ha := sqrt_pos' h
  have hzr := zOf_re_nonneg t_0 t hz
  have h1 := r.im.1
  have h2 := r.re.1
  rw [hz, zero_div] at h1
  have hp : 0 < A.re ^ 2 - A.im ^ 2 := by rw [h2]; positivity
  have hre : A.re ≠ 0 := by intro h3; rw [h3] at hp; nlinarith [sq_nonneg A.im]
  have him : A.im = 0 := by
    rcases mul_eq_zero.mp (show A.re * A.im = 0 by linarith) with h3 | h3
    · exact absurd h3 hre
    · exact h3
  refine ⟨lt_of_le_of_ne ?_ hre.symm, him⟩
  rcases hA with rfl | rfl
  · exact squareRoot_re_nonneg_of_im X him
  · exact cmathSqrt_re_nonneg X

theorem B_onCut_below {t_0 t_in : ℝ} (h0 : 0 < t_0) {t A B Y : ℂ} (r : Roots t_0 t_in t A B)
    (hB : B = squareRoot Y ∨ B = cmathSqrt Y) (hz : (zOf t_0 t).im = 0) (hlt : (zOf t_0 t).re < Real.sqrt (t_in - t_0)) :
    0 < B.re ∧ B.im = 0 := by
  have hs := Real.sqrt_pos.mpr h0
  have h1 := r.im.2
  have h2 := r.re.2
  rw [hz, zero_div] at h1
  have hp : 0 < B.re ^ 2 - B.im ^ 2 := by rw [h2]; exact div_pos (by linarith) hs
  have hre : B.re ≠ 0 := by intro h3; rw [h3] at hp; nlinarith [sq_nonneg B.im]
  have him : B.im = 0 := by
    rcases mul_eq_zero.mp (show B.re * B.im = 0 by linarith) with h3 | h3
    · exact absurd h3 hre
    · exact h3
  refine ⟨lt_of_le_of_ne ?_ hre.symm, him⟩
  rcases hB with rfl | rfl
  · exact squareRoot_re_nonneg_of_im Y him
  · exact cmathSqrt_re_nonneg Y

theorem B_onCut_above {t_0 t_in : ℝ} (h0 : 0 < t_0) {t A B Y : ℂ} (r : Roots t_0 t_in t A B)
    (hB : B = squareRoot Y ∨ B = cmathSqrt Y) (hz : (zOf t_0 t).im = 0) (hgt : Real.sqrt (t_in - t_0) < (zOf t_0 t).re) :
    B.re = 0 ∧ 0 < B.im := by
  have hs := Real.sqrt_pos.mpr h0
  have h1 := r.im.2
  have h2 := r.re.2
  rw [hz, zero_div] at h1
  have hp : B.re ^ 2 - B.im ^ 2 < 0 := by rw [h2]; exact div_neg_of_neg_of_pos (by linarith) hs
  have him : B.im ≠ 0 := by intro h3; rw [h3] at hp; nlinarith [sq_nonneg B.re]
  have hre : B.re = 0 := by
    rcases mul_eq_zero.mp (show B.re * B.im = 0 by linarith) with h3 | h3
    · exact h3
    · exact absurd h3 him
  refine ⟨hre, lt_of_le_of_ne ?_ him.symm⟩
  rcases hB with rfl | rfl
  · exact squareRoot_im_nonneg Y
  · exact cmathSqrt_im_nonneg_of_re Y hre

/-- Between the branch points both branches give the root of the model. -/
theorem ratio_below {t_0 t_in : ℝ} (h0 : 0 < t_0) (h : t_0 < t_in) {t A B X Y : ℂ} (r : Roots t_0 t_in t A B)
    (hA : A = squareRoot X ∨ A = cmathSqrt X) (hB : B = squareRoot Y ∨ B = cmathSqrt Y)
    (hz : (zOf t_0 t).im = 0) (hlt : (zOf t_0 t).re < Real.sqrt (t_in - t_0)) :
    A / B = vOf (Real.sqrt (t_in - t_0)) (zOf t_0 t) := by
  have hs := Real.sqrt_pos.mpr h0
  obtain ⟨a1, a2⟩ := A_onCut h0 h r hA hz
  obtain ⟨b1, b2⟩ := B_onCut_below h0 r hB hz hlt
  have hB0 : B ≠ 0 := by rintro rfl; simp at b1
  have hn := normSq_pos.mpr hB0
  have him : (A / B).im = 0 := by rw [div_im', a2, b2]; simp
  refine ratio_eq hs.ne' r.hA r.hB hB0 (.inl rfl) him.ge (fun _ => ?_)
  rw [div_re', a2, b2]
  exact div_nonneg (by nlinarith) hn.le

/-- Above the second branch point both give the other root. -/
theorem ratio_above {t_0 t_in : ℝ} (h0 : 0 < t_0) (h : t_0 < t_in) {t A B X Y : ℂ} (r : Roots t_0 t_in t A B)
    (hA : A = squareRoot X ∨ A = cmathSqrt X) (hB : B = squareRoot Y ∨ B = cmathSqrt Y)
    (hz : (zOf t_0 t).im = 0) (hgt : Real.sqrt (t_in - t_0) < (zOf t_0 t).re) :
    -(A / B) = vOf (Real.sqrt (t_in - t_0)) (zOf t_0 t) := by
  have hs := Real.sqrt_pos.mpr h0
  obtain ⟨a1, a2⟩ := A_onCut h0 h r hA hz
  obtain ⟨b1, b2⟩ := B_onCut_above h0 r hB hz hgt
  have hB0 : B ≠ 0 := by rintro rfl; simp at b2
  have hn := normSq_pos.mpr hB0
  have him : 0 < (-(A / B)).im := by
    rw [neg_im, div_im', ← neg_div, a2, b1]
    exact div_pos (by nlinarith) hn
  exact ratio_eq hs.ne' r.hA r.hB hB0 (.inr rfl) him.le (fun h4 => absurd h4 him.ne')

/-! ### Where on the cut -/

theorem zOf_real {t_0 x : ℝ} (hx : t_0 ≤ x) : zOf t_0 (x : ℂ) = (Real.sqrt (x - t_0) : ℂ) := by
  rw [zOf, ← ofReal_sub, squareRoot_ofReal (sub_nonneg.mpr hx)]

theorem wOf_neg_val {t_0 t_in : ℝ} (h : t_0 < t_in) {t : ℂ} (ht0 : t ≠ t_0) (ht : t ≠ t_in) :
    wOf (-(vOf (Real.sqrt (t_in - t_0)) (zOf t_0 t))) = -1 / Wval t_0 t_in t := by
  refine wOf_neg (v_add_one_ne (vOf_re_nonneg (sqrt_pos' h).le (zOf_im_nonneg t_0 t))) ?_
  intro h1
  apply ht0
  rw [← Wval_eq_zero h ht]
  unfold Wval wOf
  rw [h1]; simp

theorem Tval_neg {t_0 t_in : ℝ} (w : ℂ) : Tval t_0 t_in (-w) = Tval t_0 t_in w := by
  unfold Tval
  rw [show -w - 1 / -w = -(w - 1 / w) by rw [div_neg]; ring, neg_sq]

theorem Tval_neg_inv {t_0 t_in : ℝ} (w : ℂ) : Tval t_0 t_in (-1 / w) = Tval t_0 t_in w := by
  unfold Tval
  rw [show -1 / w - 1 / (-1 / w) = w - 1 / w by rw [one_div_div, div_neg, div_one, neg_div]; ring]

theorem lower_ne {t : ℂ} (h : t.im < 0) (x : ℝ) : t ≠ x := by rintro rfl; simp at h

/-- The value of either version once the quotient is known. -/
theorem pyDiv_ratio {A B v : ℂ} (hs : A + B ≠ 0) (hB : B ≠ 0) (hv : A / B = v) : pyDiv (I * (A - B)) (A + B) = .ok (wOf v) := by
  rw [pyDiv_ok hs, wOf_ratio hB, hv]

theorem version2_offCut {t_0 t_in : ℝ} (h0 : 0 < t_0) (h : t_0 < t_in) {t : ℂ} (ht : t ∉ HalfLine t_0) :
    tToWVersion2 t_0 t_in t = .ok (-1 / Wval t_0 t_in t) := by
  obtain ⟨A, B, r, hA, hB, he⟩ := version2_eq h0 h t
  have htin := ne_tin_of_offCut h.le ht
  have ht0 := ne_tin_of_offCut le_rfl ht
  have h1 := ratio_upper_offCut h0 h r hA hB (zOf_im_pos ht)
  rw [he, pyDiv_ratio (add_ne_upper h0 h r hA hB) (fun hb => htin ((r.B_eq_zero h0 h).mp hb)) (neg_eq_iff_eq_neg.mp h1),
    wOf_neg_val h ht0 htin]

theorem version2_below {t_0 t_in x : ℝ} (h0 : 0 < t_0) (h : t_0 < t_in) (hx : t_0 ≤ x) (hx' : x < t_in) :
    tToWVersion2 t_0 t_in x = .ok (Wval t_0 t_in x) := by
  obtain ⟨A, B, r, hA, hB, he⟩ := version2_eq h0 h x
  have htin : (x : ℂ) ≠ t_in := by intro h'; exact hx'.ne (by exact_mod_cast h')
  have h1 := ratio_below h0 h r (.inl hA) (.inl hB) (by rw [zOf_real hx, ofReal_im])
    (by rw [zOf_real hx, ofReal_re]; exact Real.sqrt_lt_sqrt (sub_nonneg.mpr hx) (by linarith))
  rw [he, pyDiv_ratio (add_ne_upper h0 h r hA hB) (fun hb => htin ((r.B_eq_zero h0 h).mp hb)) h1]
  rfl

theorem version2_above {t_0 t_in x : ℝ} (h0 : 0 < t_0) (h : t_0 < t_in) (hx : t_in < x) :
    tToWVersion2 t_0 t_in x = .ok (-1 / Wval t_0 t_in x) := by
  obtain ⟨A, B, r, hA, hB, he⟩ := version2_eq h0 h x
  have htin : (x : ℂ) ≠ t_in := by intro h'; exact hx.ne' (by exact_mod_cast h')
  have ht0 : (x : ℂ) ≠ t_0 := by intro h'; exact (h.trans hx).ne' (by exact_mod_cast h')
  have h1 := ratio_above h0 h r (.inl hA) (.inl hB) (by rw [zOf_real (h.trans hx).le, ofReal_im])
    (by rw [zOf_real (h.trans hx).le, ofReal_re]; exact Real.sqrt_lt_sqrt (sub_nonneg.mpr h.le) (by linarith))
  rw [he, pyDiv_ratio (add_ne_upper h0 h r hA hB) (fun hb => htin ((r.B_eq_zero h0 h).mp hb)) (neg_eq_iff_eq_neg.mp h1),
    wOf_neg_val h ht0 htin]

theorem version2_tin {t_0 t_in : ℝ} (h0 : 0 < t_0) (h : t_0 < t_in) : tToWVersion2 t_0 t_in t_in = .ok I := by
  obtain ⟨A, B, r, hA, hB, he⟩ := version2_eq h0 h t_in
  have hb := (r.B_eq_zero h0 h).mpr rfl
  have hs := add_ne_upper h0 h r hA hB
  rw [hb, add_zero] at hs
  rw [he, hb, sub_zero, add_zero, pyDiv_ok hs, mul_div_cancel_right₀ _ hs]

theorem version3_offCut {t_0 t_in : ℝ} (h0 : 0 < t_0) (h : t_0 < t_in) {t : ℂ} (ht : t ∉ HalfLine t_0) (him : 0 ≤ t.im) :
    tToWVersion3 t_0 t_in t = .ok (Wval t_0 t_in t) := by
  obtain ⟨A, B, r, hA, hB, he, -⟩ := version3_eq h0 h t
  have htin := ne_tin_of_offCut h.le ht
  have h1 := ratio_right_offCut h0 h r hA hB (zOf_im_pos ht)
  rw [he him, pyDiv_ratio (add_ne_right h0 h r hA hB) (fun hb => htin ((r.B_eq_zero h0 h).mp hb)) h1]
  rfl

theorem version3_lower {t_0 t_in : ℝ} (h0 : 0 < t_0) (h : t_0 < t_in) {t : ℂ} (him : t.im < 0) :
    tToWVersion3 t_0 t_in t = .ok (- Wval t_0 t_in t) := by
  obtain ⟨A, B, r, hA, hB, -, he⟩ := version3_eq h0 h t
  have ht : t ∉ HalfLine t_0 := fun hc => him.ne hc.1
  have htin := ne_tin_of_offCut h.le ht
  have h1 := ratio_right_offCut h0 h r hA hB (zOf_im_pos ht)
  have h2 := pyDiv_ratio (add_ne_right h0 h r hA hB) (fun hb => htin ((r.B_eq_zero h0 h).mp hb)) h1
  rw [pyDiv_ok (add_ne_right h0 h r hA hB)] at h2
  injection h2 with h2
  rw [he him, add_comm, pyDiv_ok (add_ne_right h0 h r hA hB)]
  congr 1
  unfold Wval
  rw [← h2]
  ring

theorem version3_below {t_0 t_in x : ℝ} (h0 : 0 < t_0) (h : t_0 < t_in) (hx : t_0 ≤ x) (hx' : x < t_in) :
    tToWVersion3 t_0 t_in x = .ok (Wval t_0 t_in x) := by
  obtain ⟨A, B, r, hA, hB, he, -⟩ := version3_eq h0 h x
  have htin : (x : ℂ) ≠ t_in := by intro h'; exact hx'.ne (by exact_mod_cast h')
  have h1 := ratio_below h0 h r (.inr hA) (.inr hB) (by rw [zOf_real hx, ofReal_im])
    (by rw [zOf_real hx, ofReal_re]; exact Real.sqrt_lt_sqrt (sub_nonneg.mpr hx) (by linarith))
  rw [he (by simp), pyDiv_ratio (add_ne_right h0 h r hA hB) (fun hb => htin ((r.B_eq_zero h0 h).mp hb)) h1]
  rfl

theorem version3_above {t_0 t_in x : ℝ} (h0 : 0 < t_0) (h : t_0 < t_in) (hx : t_in < x) :
    tToWVersion3 t_0 t_in x = .ok (-1 / Wval t_0 t_in x) := by
  obtain ⟨A, B, r, hA, hB, he, -⟩ := version3_eq h0 h x
  have htin : (x : ℂ) ≠ t_in := by intro h'; exact hx.ne' (by exact_mod_cast h')
  have ht0 : (x : ℂ) ≠ t_0 := by intro h'; exact (h.trans hx).ne' (by exact_mod_cast h')
  have h1 := ratio_above h0 h r (.inr hA) (.inr hB) (by rw [zOf_real (h.trans hx).le, ofReal_im])
    (by rw [zOf_real (h.trans hx).le, ofReal_re]; exact Real.sqrt_lt_sqrt (sub_nonneg.mpr h.le) (by linarith))
  rw [he (by simp), pyDiv_ratio (add_ne_right h0 h r hA hB) (fun hb => htin ((r.B_eq_zero h0 h).mp hb))
    (neg_eq_iff_eq_neg.mp h1), wOf_neg_val h ht0 htin]

theorem version3_tin {t_0 t_in : ℝ} (h0 : 0 < t_0) (h : t_0 < t_in) : tToWVersion3 t_0 t_in t_in = .ok I := by
  obtain ⟨A, B, r, hA, hB, he, -⟩ := version3_eq h0 h t_in
  have hb := (r.B_eq_zero h0 h).mpr rfl
  have hs := add_ne_right h0 h r hA hB
  rw [hb, add_zero] at hs
  rw [he (by simp), hb, sub_zero, add_zero, pyDiv_ok hs, mul_div_cancel_right₀ _ hs]

/-- Above the second branch point the value lies on the unit circle. -/
theorem Wval_above_tin {t_0 t_in x : ℝ} (h : t_0 < t_in) (hx : t_in < x) :
    ‖Wval t_0 t_in x‖ = 1 ∧ 0 < (Wval t_0 t_in x).im := by
  have htin : (x : ℂ) ≠ t_in := by intro h'; exact hx.ne' (by exact_mod_cast h')
  have ha := sqrt_pos' h
  have hx0 := h.trans hx
  have hz := zOf_real hx0.le
  have hgt : Real.sqrt (t_in - t_0) < Real.sqrt (x - t_0) := Real.sqrt_lt_sqrt (sub_nonneg.mpr h.le) (by linarith)
  refine ⟨?_, (Wval_im_pos h htin).mpr (by rw [hz, ofReal_re]; linarith)⟩
  have hv := vOf_sq (Real.sqrt (t_in - t_0)) (zOf t_0 (x : ℂ))
  have hre := congrArg Complex.re hv
  have him := congrArg Complex.im hv
  rw [sq_im, tz_im, hz, ofReal_im, mul_zero, zero_div, ← hz] at him
  rw [sq_re, tz_re, hz, normSq_ofReal, ← hz] at hre
  have h1 : -zOf t_0 (x : ℂ) + (Real.sqrt (t_in - t_0) : ℂ) ≠ 0 := by
    rw [hz]; intro h2
    have := congrArg Complex.re h2
    simp at this; linarith
  have hneg : (vOf (Real.sqrt (t_in - t_0)) (zOf t_0 (x : ℂ))).re ^ 2 - (vOf (Real.sqrt (t_in - t_0)) (zOf t_0 (x : ℂ))).im ^ 2 < 0 := by
    rw [hre]
    exact div_neg_of_neg_of_pos (by nlinarith) (normSq_pos' h1)
  have hr0 : (vOf (Real.sqrt (t_in - t_0)) (zOf t_0 (x : ℂ))).re = 0 := by
    rcases mul_eq_zero.mp ((mul_eq_zero.mp him).resolve_left two_ne_zero) with h3 | h3
    · exact h3
    · rw [h3] at hneg; nlinarith [sq_nonneg (vOf (Real.sqrt (t_in - t_0)) (zOf t_0 (x : ℂ))).re]
  have hv1 := v_add_one_ne hr0.ge
  have : normSq (Wval t_0 t_in x) = 1 := by
    unfold Wval wOf
    rw [normSq_div, normSq_mul, normSq_I, one_mul, div_eq_one_iff_eq (normSq_pos' hv1).ne']
    simp [normSq_apply, hr0]
  nlinarith [Complex.normSq_eq_norm_sq (Wval t_0 t_in x), norm_nonneg (Wval t_0 t_in (x : ℂ))]

theorem WtoT_of_Wval {t_0 t_in : ℝ} (h0 : 0 ≤ t_0) (h : t_0 < t_in) {t : ℂ} (ht0 : t ≠ t_0) (ht : t ≠ t_in) {w : ℂ}
    (hw : w = Wval t_0 t_in t ∨ w = - Wval t_0 t_in t ∨ w = -1 / Wval t_0 t_in t) : runWtoT t_0 t_in w = .ok t := by
  have hne := fun h' => ht0 ((Wval_eq_zero h ht).mp h')
  have hsq := Wval_sq_ne_one h ht
  have hT := Tval_Wval h ht0 ht
  rcases hw with rfl | rfl | rfl
  · rw [runWtoT_ok h0 h.le hne hsq, hT]
  · rw [runWtoT_ok h0 h.le (neg_ne_zero.mpr hne) (by rw [neg_sq]; exact hsq), Tval_neg, hT]
  · rw [runWtoT_ok h0 h.le (div_ne_zero (neg_ne_zero.mpr one_ne_zero) hne) ?_, Tval_neg_inv, hT]
    intro h1
    apply hsq
    field_simp at h1
    linear_combination -h1

theorem WtoT_I {t_0 t_in : ℝ} (h0 : 0 ≤ t_0) (h : t_0 < t_in) : runWtoT t_0 t_in I = .ok t_in := by
  have h1 : (1 : ℂ) - I ^ 2 ≠ 0 := by rw [I_sq]; norm_num
  rw [runWtoT_ok h0 h.le I_ne_zero h1, (Tval_iff (t := t_in) I_ne_zero h1).mpr]
  rw [I_sq]; ring

end UA
