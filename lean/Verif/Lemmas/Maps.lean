import Verif.Lemmas.SquareRoot

/-! Helper lemmas about the coordinate maps. -/

namespace UA

open Complex ComplexConjugate

/-! ### Constructors -/

theorem validate_ok {t_0 t_in : ℝ} (h0 : 0 ≤ t_0) (h : t_0 ≤ t_in) :
    validateBranchPointPositions t_0 t_in = .ok () := by
  simp [validateBranchPointPositions, not_lt.mpr h0, not_lt.mpr h]

theorem validate_error {t_0 t_in : ℝ} (h : t_0 < 0 ∨ t_in < t_0) :
    validateBranchPointPositions t_0 t_in = .error .valueError := by
  unfold validateBranchPointPositions
  by_cases h0 : t_0 < 0
  · simp [h0, throw, throwThe, MonadExceptOf.throw]
  · have h1 : t_in < t_0 := h.resolve_left h0
    simp [h0, h1, throw, throwThe, MonadExceptOf.throw]

/-- The object `MapFromTtoW.init` builds. -/
noncomputable def mkTtoW (t_0 t_in : ℝ) : MapFromTtoW := ⟨t_0, t_in, Real.sqrt (t_in - t_0)⟩
/-- The object `MapFromWtoT.init` builds. -/
noncomputable def mkWtoT (t_0 t_in : ℝ) : MapFromWtoT := ⟨t_0, t_in, t_in - t_0⟩

theorem TtoW_init_ok {t_0 t_in : ℝ} (h0 : 0 ≤ t_0) (h : t_0 ≤ t_in) :
    MapFromTtoW.init t_0 t_in = .ok (mkTtoW t_0 t_in) := by
  simp [MapFromTtoW.init, validate_ok h0 h, pySqrt_ok (sub_nonneg.mpr h), mkTtoW]

theorem WtoT_init_ok {t_0 t_in : ℝ} (h0 : 0 ≤ t_0) (h : t_0 ≤ t_in) :
    MapFromWtoT.init t_0 t_in = .ok (mkWtoT t_0 t_in) := by
  simp [MapFromWtoT.init, validate_ok h0 h, mkWtoT]

theorem TtoW_init_error {t_0 t_in : ℝ} (h : t_0 < 0 ∨ t_in < t_0) :
    MapFromTtoW.init t_0 t_in = .error .valueError := by
  simp [MapFromTtoW.init, validate_error h]

theorem WtoT_init_error {t_0 t_in : ℝ} (h : t_0 < 0 ∨ t_in < t_0) :
    MapFromWtoT.init t_0 t_in = .error .valueError := by
  simp [MapFromWtoT.init, validate_error h]

theorem TtoW_init_eq_ok {t_0 t_in : ℝ} {m : MapFromTtoW} (h : MapFromTtoW.init t_0 t_in = .ok m) :
    0 ≤ t_0 ∧ t_0 ≤ t_in ∧ m = mkTtoW t_0 t_in := by
  by_cases hc : t_0 < 0 ∨ t_in < t_0
  · rw [TtoW_init_error hc] at h; cases h
  · push Not at hc
    rw [TtoW_init_ok hc.1 hc.2] at h
    exact ⟨hc.1, hc.2, by injection h with h; exact h.symm⟩

/-! ### The two Möbius steps -/

/-- `z = √(t - t_0)`. -/
noncomputable def zOf (t_0 : ℝ) (t : ℂ) : ℂ := squareRoot (t - t_0)
/-- `v = √((z+a)/(a-z))`. -/
noncomputable def vOf (a : ℝ) (z : ℂ) : ℂ := squareRoot ((z + a) / (-z + a))
/-- `W = i (v-1)/(v+1)`. -/
noncomputable def wOf (v : ℂ) : ℂ := I * (v - 1) / (v + 1)
/-- The value of the map as a total function (meaningful for `t ≠ t_in`). -/
noncomputable def Wval (t_0 t_in : ℝ) (t : ℂ) : ℂ := wOf (vOf (Real.sqrt (t_in - t_0)) (zOf t_0 t))

theorem zOf_sq (t_0 : ℝ) (t : ℂ) : zOf t_0 t ^ 2 = t - t_0 := squareRoot_sq _
theorem zOf_im_nonneg (t_0 : ℝ) (t : ℂ) : 0 ≤ (zOf t_0 t).im := squareRoot_im_nonneg _
theorem zOf_re_nonneg (t_0 : ℝ) (t : ℂ) (h : (zOf t_0 t).im = 0) : 0 ≤ (zOf t_0 t).re :=
  squareRoot_re_nonneg_of_im _ h

theorem sqrt_pos' {t_0 t_in : ℝ} (h : t_0 < t_in) : 0 < Real.sqrt (t_in - t_0) :=
  Real.sqrt_pos.mpr (sub_pos.mpr h)

theorem sqrt_sq' {t_0 t_in : ℝ} (h : t_0 ≤ t_in) : Real.sqrt (t_in - t_0) ^ 2 = t_in - t_0 :=
  Real.sq_sqrt (sub_nonneg.mpr h)

theorem sqrt_sqC {t_0 t_in : ℝ} (h : t_0 ≤ t_in) : (Real.sqrt (t_in - t_0) : ℂ) ^ 2 = t_in - t_0 := by
  rw [← ofReal_pow, sqrt_sq' h]; push_cast; ring

/-- `z = a` exactly at `t = t_in`. -/
theorem zOf_eq_a {t_0 t_in : ℝ} (h : t_0 ≤ t_in) (t : ℂ) :
    zOf t_0 t = Real.sqrt (t_in - t_0) ↔ t = t_in := by
  constructor
  · intro h1
    have := zOf_sq t_0 t
    rw [h1, sqrt_sqC h] at this
    linear_combination -this
  · rintro rfl
    have : ((t_in : ℂ) - t_0) = ((t_in - t_0 : ℝ) : ℂ) := by push_cast; ring
    rw [zOf, this, squareRoot_ofReal (sub_nonneg.mpr h)]

theorem zOf_add_a_ne {a : ℝ} (ha : 0 < a) (t_0 : ℝ) (t : ℂ) : zOf t_0 t + a ≠ 0 := by
  intro h
  have him : (zOf t_0 t).im = 0 := by simpa using congrArg Complex.im h
  have hre : (zOf t_0 t).re + a = 0 := by simpa using congrArg Complex.re h
  have := zOf_re_nonneg t_0 t him
  linarith

theorem a_sub_ne {a : ℝ} {z : ℂ} (h : z ≠ a) : -z + (a : ℂ) ≠ 0 := by
  intro h'; apply h; linear_combination -h'

/-- `Im ((z+a)/(a-z)) = 2 a Im z / |a-z|²`. -/
theorem tz_im (a : ℝ) (z : ℂ) :
    ((z + a) / (-z + a)).im = 2 * a * z.im / normSq (-z + a) := by
  rw [div_im]; simp; ring

theorem tz_re (a : ℝ) (z : ℂ) :
    ((z + a) / (-z + a)).re = (a ^ 2 - normSq z) / normSq (-z + a) := by
  rw [div_re]; simp [normSq_apply]; ring

theorem vOf_sq (a : ℝ) (z : ℂ) : vOf a z ^ 2 = (z + a) / (-z + a) := squareRoot_sq _

theorem vOf_re_nonneg {a : ℝ} (ha : 0 ≤ a) {z : ℂ} (hz : 0 ≤ z.im) : 0 ≤ (vOf a z).re := by
  have h1 : 0 ≤ ((z + a) / (-z + a)).im := by
    rw [tz_im]; exact div_nonneg (mul_nonneg (by linarith) hz) (normSq_nonneg _)
  rw [← vOf_sq] at h1
  have h2 : (vOf a z ^ 2).im = 2 * ((vOf a z).re * (vOf a z).im) := by simp [pow_two]; ring
  rw [h2] at h1
  rcases (show 0 ≤ (vOf a z).im from squareRoot_im_nonneg _).lt_or_eq with h | h
  · by_contra hc
    push Not at hc
    nlinarith
  · exact squareRoot_re_nonneg_of_im _ h.symm

theorem vOf_im_nonneg (a : ℝ) (z : ℂ) : 0 ≤ (vOf a z).im := squareRoot_im_nonneg _

theorem v_add_one_ne {v : ℂ} (h : 0 ≤ v.re) : v + 1 ≠ 0 := by
  intro h'
  have : v.re + 1 = 0 := by simpa using congrArg Complex.re h'
  linarith

theorem TtoW_call_ok {t_0 t_in : ℝ} (h : t_0 < t_in) {t : ℂ} (ht : t ≠ t_in) :
    (mkTtoW t_0 t_in).call t = .ok (Wval t_0 t_in t) := by
  have hz : zOf t_0 t ≠ Real.sqrt (t_in - t_0) := fun h' => ht ((zOf_eq_a h.le t).mp h')
  have h1 := a_sub_ne hz
  have h2 := v_add_one_ne (vOf_re_nonneg (sqrt_pos' h).le (zOf_im_nonneg t_0 t))
  simp only [MapFromTtoW.call, mkTtoW]
  rw [show squareRoot (t - (t_0 : ℂ)) = zOf t_0 t from rfl, pyDiv_ok h1, except_ok_bind]
  rw [show squareRoot ((zOf t_0 t + (Real.sqrt (t_in - t_0) : ℂ)) / (-zOf t_0 t + (Real.sqrt (t_in - t_0) : ℂ)))
    = vOf (Real.sqrt (t_in - t_0)) (zOf t_0 t) from rfl, pyDiv_ok h2]
  rfl

theorem TtoW_call_tin {t_0 t_in : ℝ} (h : t_0 ≤ t_in) :
    (mkTtoW t_0 t_in).call t_in = .error .zeroDivisionError := by
  have hz := (zOf_eq_a h (t_in : ℂ)).mpr rfl
  simp only [MapFromTtoW.call, mkTtoW]
  rw [show squareRoot ((t_in : ℂ) - (t_0 : ℂ)) = zOf t_0 t_in from rfl, hz]
  simp [pyDiv_zero]

/-! ### Algebra of the composite map -/

theorem wOf_one_sub_sq {v : ℂ} (h : v + 1 ≠ 0) :
    (1 - wOf v ^ 2) * (v + 1) ^ 2 = 2 * (v ^ 2 + 1) := by
  unfold wOf
  field_simp
  ring_nf
  simp
  ring

theorem wOf_sq {v : ℂ} (h : v + 1 ≠ 0) : wOf v ^ 2 * (v + 1) ^ 2 = - (v - 1) ^ 2 := by
  unfold wOf
  field_simp
  ring_nf
  simp
  ring

/-- Key identity `z² (1-w²)² = -4 a² w²`. -/
theorem key_identity {a : ℝ} {z : ℂ} (h1 : -z + (a : ℂ) ≠ 0) (h2 : vOf a z + 1 ≠ 0) :
    z ^ 2 * (1 - wOf (vOf a z) ^ 2) ^ 2 = -4 * (a : ℂ) ^ 2 * wOf (vOf a z) ^ 2 := by
  have hv := vOf_sq a z
  rw [eq_div_iff h1] at hv
  set v := vOf a z
  have e1 := wOf_one_sub_sq h2
  have e2 := wOf_sq h2
  set w := wOf v
  have h3 : (v + 1) ^ 4 ≠ 0 := pow_ne_zero _ h2
  apply mul_right_cancel₀ h3
  have e3 : (1 - w ^ 2) ^ 2 * (v + 1) ^ 4 = 4 * (v ^ 2 + 1) ^ 2 := by
    linear_combination ((1 - w ^ 2) * (v + 1) ^ 2 + 2 * (v ^ 2 + 1)) * e1
  have e4 : w ^ 2 * (v + 1) ^ 4 = - (v ^ 2 - 1) ^ 2 := by
    linear_combination (v + 1) ^ 2 * e2
  have e5 : z * (v ^ 2 + 1) = a * (v ^ 2 - 1) := by linear_combination -hv
  linear_combination z ^ 2 * e3 + 4 * (a : ℂ) ^ 2 * e4 +
    4 * (z * (v ^ 2 + 1) + a * (v ^ 2 - 1)) * e5

theorem Wval_identity {t_0 t_in : ℝ} (h : t_0 < t_in) {t : ℂ} (ht : t ≠ t_in) :
    (t - t_0) * (1 - Wval t_0 t_in t ^ 2) ^ 2 = -4 * (t_in - t_0) * Wval t_0 t_in t ^ 2 := by
  have hz : zOf t_0 t ≠ Real.sqrt (t_in - t_0) := fun h' => ht ((zOf_eq_a h.le t).mp h')
  have h1 := a_sub_ne hz
  have h2 := v_add_one_ne (vOf_re_nonneg (sqrt_pos' h).le (zOf_im_nonneg t_0 t))
  have := key_identity h1 h2
  rw [zOf_sq, sqrt_sqC h.le] at this
  exact this

theorem tin_sub_ne {t_0 t_in : ℝ} (h : t_0 < t_in) : ((t_in : ℂ) - t_0) ≠ 0 := by
  rw [← ofReal_sub]; exact ofReal_ne_zero.mpr (sub_pos.mpr h).ne'

theorem Wval_sq_ne_one {t_0 t_in : ℝ} (h : t_0 < t_in) {t : ℂ} (ht : t ≠ t_in) :
    1 - Wval t_0 t_in t ^ 2 ≠ 0 := by
  intro h'
  have := Wval_identity h ht
  rw [h'] at this
  have h2 : Wval t_0 t_in t ^ 2 = 1 := by linear_combination -h'
  rw [h2] at this
  apply tin_sub_ne h
  linear_combination (-1/4 : ℂ) * this.symm

theorem Wval_eq_zero {t_0 t_in : ℝ} (h : t_0 < t_in) {t : ℂ} (ht : t ≠ t_in) :
    Wval t_0 t_in t = 0 ↔ t = t_0 := by
  have hid := Wval_identity h ht
  constructor
  · intro h'
    rw [h'] at hid
    simp at hid
    linear_combination hid
  · rintro rfl
    simp [tin_sub_ne h] at hid
    exact hid

/-! ### The inverse map -/

/-- The value of `MapFromWtoT` as a total function. -/
noncomputable def Tval (t_0 t_in : ℝ) (w : ℂ) : ℂ := t_0 - 4 * (t_in - t_0) / (w - 1 / w) ^ 2

theorem wsub_ne {w : ℂ} (h0 : w ≠ 0) (h1 : 1 - w ^ 2 ≠ 0) : w - 1 / w ≠ 0 := by
  intro h
  apply h1
  field_simp at h
  linear_combination -h

theorem WtoT_call_ok {t_0 t_in : ℝ} {w : ℂ} (h0 : w ≠ 0) (h1 : 1 - w ^ 2 ≠ 0) :
    (mkWtoT t_0 t_in).call w = .ok (Tval t_0 t_in w) := by
  have := wsub_ne h0 h1
  have h2 : (w - 1 / w) ^ 2 ≠ 0 := pow_ne_zero _ this
  simp only [MapFromWtoT.call, mkWtoT, zMinusItsReciprocal]
  rw [pyDiv_ok h0]
  simp only [except_ok_bind, except_pure]
  rw [pyDiv_ok h2]
  simp [Tval]

theorem WtoT_call_zero (t_0 t_in : ℝ) : (mkWtoT t_0 t_in).call 0 = .error .zeroDivisionError := by
  simp [MapFromWtoT.call, zMinusItsReciprocal, pyDiv_zero]

theorem WtoT_call_unit {t_0 t_in : ℝ} {w : ℂ} (h1 : 1 - w ^ 2 = 0) :
    (mkWtoT t_0 t_in).call w = .error .zeroDivisionError := by
  have h0 : w ≠ 0 := by rintro rfl; simp at h1
  have h2 : w - 1 / w = 0 := by field_simp; linear_combination -h1
  simp only [MapFromWtoT.call, zMinusItsReciprocal]
  rw [pyDiv_ok h0]
  simp only [except_ok_bind, except_pure, h2]
  simp [pyDiv_zero]

/-- Cleared form of `t = Tval w`. -/
theorem Tval_iff {t_0 t_in : ℝ} {w t : ℂ} (h0 : w ≠ 0) (h1 : 1 - w ^ 2 ≠ 0) :
    Tval t_0 t_in w = t ↔ (t - t_0) * (1 - w ^ 2) ^ 2 = -4 * (t_in - t_0) * w ^ 2 := by
  have h2 : (w - 1 / w) ^ 2 = (1 - w ^ 2) ^ 2 / w ^ 2 := by field_simp; ring
  unfold Tval
  rw [h2]
  have h3 : (1 - w ^ 2) ^ 2 ≠ 0 := pow_ne_zero _ h1
  have h4 : w ^ 2 ≠ 0 := pow_ne_zero _ h0
  rw [div_div_eq_mul_div]
  constructor
  · rintro rfl
    field_simp
    ring
  · intro h
    rw [sub_eq_iff_eq_add, ← sub_eq_iff_eq_add', eq_div_iff h3]
    linear_combination -h

theorem Tval_Wval {t_0 t_in : ℝ} (h : t_0 < t_in) {t : ℂ} (ht0 : t ≠ t_0) (ht : t ≠ t_in) :
    Tval t_0 t_in (Wval t_0 t_in t) = t :=
  (Tval_iff (fun h' => ht0 ((Wval_eq_zero h ht).mp h')) (Wval_sq_ne_one h ht)).mpr (Wval_identity h ht)

/-! ### Image of the map -/

theorem wOf_norm_le {v : ℂ} (h : 0 ≤ v.re) : ‖wOf v‖ ≤ 1 := by
  have h1 := v_add_one_ne h
  unfold wOf
  rw [norm_div, norm_mul, norm_I, one_mul, div_le_one (norm_pos_iff.mpr h1)]
  rw [← sq_le_sq₀ (norm_nonneg _) (norm_nonneg _), ← normSq_eq_norm_sq, ← normSq_eq_norm_sq]
  simp [normSq_apply]
  nlinarith

theorem wOf_norm_lt {v : ℂ} (h : 0 < v.re) : ‖wOf v‖ < 1 := by
  have h1 := v_add_one_ne h.le
  unfold wOf
  rw [norm_div, norm_mul, norm_I, one_mul, div_lt_one (norm_pos_iff.mpr h1)]
  rw [← sq_lt_sq₀ (norm_nonneg _) (norm_nonneg _), ← normSq_eq_norm_sq, ← normSq_eq_norm_sq]
  simp [normSq_apply]
  nlinarith

theorem wOf_re (v : ℂ) : (wOf v).re = - (2 * v.im) / normSq (v + 1) := by
  unfold wOf
  rw [div_re]; simp; ring

theorem wOf_im (v : ℂ) : (wOf v).im = (normSq v - 1) / normSq (v + 1) := by
  unfold wOf
  rw [div_im]; simp [normSq_apply]; ring

theorem Wval_norm_le {t_0 t_in : ℝ} (h : t_0 < t_in) (t : ℂ) : ‖Wval t_0 t_in t‖ ≤ 1 :=
  wOf_norm_le (vOf_re_nonneg (sqrt_pos' h).le (zOf_im_nonneg t_0 t))

theorem Wval_re_nonpos {t_0 t_in : ℝ} (t : ℂ) : (Wval t_0 t_in t).re ≤ 0 := by
  unfold Wval
  rw [wOf_re]
  have := vOf_im_nonneg (Real.sqrt (t_in - t_0)) (zOf t_0 t)
  exact div_nonpos_of_nonpos_of_nonneg (by linarith) (normSq_nonneg _)

theorem normSq_pos' {z : ℂ} (h : z ≠ 0) : 0 < normSq z := normSq_pos.mpr h

theorem normSq_vOf {a : ℝ} {z : ℂ} :
    normSq (vOf a z) ^ 2 = normSq (z + a) / normSq (-z + a) := by
  rw [← map_pow, vOf_sq, map_div₀]

/-- `|v| > 1` exactly when `Re z > 0`. -/
theorem normSq_v_gt {a : ℝ} (ha : 0 < a) {z : ℂ} (h1 : -z + (a : ℂ) ≠ 0) :
    1 < normSq (vOf a z) ↔ 0 < z.re := by
  have hp := normSq_pos' h1
  have h2 : 1 < normSq (vOf a z) ↔ 1 < normSq (vOf a z) ^ 2 := by
    rw [one_lt_sq_iff₀ (normSq_nonneg _)]
  rw [h2, normSq_vOf, one_lt_div hp]
  simp [normSq_apply]
  constructor
  · intro h; nlinarith
  · intro h; nlinarith

theorem normSq_v_lt {a : ℝ} (ha : 0 < a) {z : ℂ} (h1 : -z + (a : ℂ) ≠ 0) :
    normSq (vOf a z) < 1 ↔ z.re < 0 := by
  have hp := normSq_pos' h1
  have h2 : normSq (vOf a z) < 1 ↔ normSq (vOf a z) ^ 2 < 1 := by
    rw [sq_lt_one_iff₀ (normSq_nonneg _)]
  rw [h2, normSq_vOf, div_lt_one hp]
  simp [normSq_apply]
  constructor
  · intro h; nlinarith
  · intro h; nlinarith

theorem zOf_im_rel (t_0 : ℝ) (t : ℂ) : t.im = 2 * ((zOf t_0 t).re * (zOf t_0 t).im) := by
  have := congrArg Complex.im (zOf_sq t_0 t)
  simp [pow_two] at this
  linarith

theorem Wval_im_pos {t_0 t_in : ℝ} (h : t_0 < t_in) {t : ℂ} (ht : t ≠ t_in) :
    0 < (Wval t_0 t_in t).im ↔ 0 < (zOf t_0 t).re := by
  have hz : zOf t_0 t ≠ Real.sqrt (t_in - t_0) := fun h' => ht ((zOf_eq_a h.le t).mp h')
  have h1 := a_sub_ne hz
  have h2 := v_add_one_ne (vOf_re_nonneg (sqrt_pos' h).le (zOf_im_nonneg t_0 t))
  rw [← normSq_v_gt (sqrt_pos' h) h1]
  unfold Wval
  rw [wOf_im, div_pos_iff_of_pos_right (normSq_pos' h2), sub_pos]

theorem Wval_im_neg {t_0 t_in : ℝ} (h : t_0 < t_in) {t : ℂ} (ht : t ≠ t_in) :
    (Wval t_0 t_in t).im < 0 ↔ (zOf t_0 t).re < 0 := by
  have hz : zOf t_0 t ≠ Real.sqrt (t_in - t_0) := fun h' => ht ((zOf_eq_a h.le t).mp h')
  have h1 := a_sub_ne hz
  have h2 := v_add_one_ne (vOf_re_nonneg (sqrt_pos' h).le (zOf_im_nonneg t_0 t))
  rw [← normSq_v_lt (sqrt_pos' h) h1]
  unfold Wval
  rw [wOf_im, div_neg_iff]
  have := normSq_pos' h2
  constructor
  · rintro (h3 | h3)
    · linarith [h3.2]
    · linarith [h3.1]
  · intro h3; right; exact ⟨by linarith, this⟩

/-! ### Points off the cut -/

theorem offCut_sub {t_0 : ℝ} {t : ℂ} (h : ¬ (t.im = 0 ∧ t_0 ≤ t.re)) : ¬ OnCut (t - t_0) := by
  intro h'
  apply h
  have h1 := h'.1
  have h2 := h'.2
  simp at h1 h2
  exact ⟨h1, h2⟩

theorem zOf_im_pos {t_0 : ℝ} {t : ℂ} (h : ¬ (t.im = 0 ∧ t_0 ≤ t.re)) : 0 < (zOf t_0 t).im :=
  squareRoot_im_pos (offCut_sub h)

theorem ne_tin_of_offCut {t_0 t_in : ℝ} (h : t_0 ≤ t_in) {t : ℂ} (ht : ¬ (t.im = 0 ∧ t_0 ≤ t.re)) :
    t ≠ t_in := by
  rintro rfl; apply ht; simp [h]

theorem vOf_pos {a : ℝ} (ha : 0 < a) {z : ℂ} (hz : 0 < z.im) : 0 < (vOf a z).re ∧ 0 < (vOf a z).im := by
  have h1 : -z + (a : ℂ) ≠ 0 := by
    intro h
    have := congrArg Complex.im h
    simp at this
    linarith
  have h2 : 0 < ((z + a) / (-z + a)).im := by
    rw [tz_im]
    exact div_pos (mul_pos (by linarith) hz) (normSq_pos' h1)
  rw [← vOf_sq] at h2
  have h3 : (vOf a z ^ 2).im = 2 * ((vOf a z).re * (vOf a z).im) := by simp [pow_two]; ring
  rw [h3] at h2
  have h4 := vOf_re_nonneg ha.le hz.le
  have h5 := vOf_im_nonneg a z
  constructor
  · rcases h4.lt_or_eq with h | h
    · exact h
    · rw [← h] at h2; simp at h2
  · rcases h5.lt_or_eq with h | h
    · exact h
    · rw [← h] at h2; simp at h2

theorem Wval_offCut {t_0 t_in : ℝ} (h : t_0 < t_in) {t : ℂ} (ht : ¬ (t.im = 0 ∧ t_0 ≤ t.re)) :
    ‖Wval t_0 t_in t‖ < 1 ∧ (Wval t_0 t_in t).re < 0 := by
  have hv := vOf_pos (sqrt_pos' h) (zOf_im_pos ht)
  refine ⟨wOf_norm_lt hv.1, ?_⟩
  unfold Wval
  rw [wOf_re]
  exact div_neg_of_neg_of_pos (by linarith [hv.2]) (normSq_pos' (v_add_one_ne hv.1.le))

theorem zOf_conj {t_0 : ℝ} {t : ℂ} (ht : ¬ (t.im = 0 ∧ t_0 ≤ t.re)) :
    zOf t_0 (conj t) = - conj (zOf t_0 t) := by
  unfold zOf
  rw [← squareRoot_conj (offCut_sub ht)]
  simp

theorem vOf_conj {a : ℝ} (ha : 0 < a) {z : ℂ} (hz : 0 < z.im) :
    vOf a (- conj z) = 1 / conj (vOf a z) := by
  have hv := vOf_pos ha hz
  have h0 : vOf a z ≠ 0 := by
    intro h; rw [h] at hv; simp at hv
  have h0' : conj (vOf a z) ≠ 0 := by simpa using h0
  apply squareRoot_unique
  · rw [div_pow, ← map_pow, vOf_sq]
    simp only [map_div₀, map_add, map_neg, conj_ofReal, one_pow, neg_neg]
    rw [one_div_div]
  · rw [one_div, inv_im]
    simp
    exact div_nonneg hv.2.le (normSq_nonneg _)
  · intro _
    rw [one_div, inv_re]
    simp
    exact div_nonneg hv.1.le (normSq_nonneg _)

theorem Wval_conj {t_0 t_in : ℝ} (h : t_0 < t_in) {t : ℂ} (ht : ¬ (t.im = 0 ∧ t_0 ≤ t.re)) :
    Wval t_0 t_in (conj t) = conj (Wval t_0 t_in t) := by
  unfold Wval
  rw [zOf_conj ht, vOf_conj (sqrt_pos' h) (zOf_im_pos ht)]
  have hv := vOf_pos (sqrt_pos' h) (zOf_im_pos ht)
  set v := vOf (Real.sqrt (t_in - t_0)) (zOf t_0 t)
  have h0 : conj v ≠ 0 := by
    intro h'; have : v = 0 := by simpa using h'
    rw [this] at hv; simp at hv
  have h1 : conj v + 1 ≠ 0 := by
    have := v_add_one_ne (v := conj v) (by simpa using hv.1.le); exact this
  have h2 : 1 + conj v ≠ 0 := by rwa [add_comm]
  unfold wOf
  simp only [map_div₀, map_mul, map_sub, map_add, map_one, conj_I]
  have h3 : (1 / conj v + 1) ≠ 0 := by
    have : 1 / conj v + 1 = (1 + conj v) / conj v := by field_simp
    rw [this]; exact div_ne_zero h2 h0
  rw [div_eq_div_iff h3 h1]
  field_simp
  ring

/-- Surjectivity onto the half disk with explicit inverse. -/
theorem Wval_Tval {t_0 t_in : ℝ} (h : t_0 < t_in) {w : ℂ} (hw : ‖w‖ < 1) (hr : w.re < 0) :
    Wval t_0 t_in (Tval t_0 t_in w) = w := by
  have hn : normSq w < 1 := by
    rw [normSq_eq_norm_sq]; nlinarith [norm_nonneg w]
  rw [normSq_apply] at hn
  have hw0 : w ≠ 0 := by rintro rfl; simp at hr
  have hw1 : 1 - w ^ 2 ≠ 0 := by
    intro h'
    have : ‖w ^ 2‖ = 1 := by
      have : w ^ 2 = 1 := by linear_combination -h'
      rw [this]; simp
    rw [norm_pow] at this
    nlinarith [norm_nonneg w]
  set a := Real.sqrt (t_in - t_0) with ha
  have hapos : 0 < a := sqrt_pos' h
  have haC : (a : ℂ) ^ 2 = t_in - t_0 := sqrt_sqC h.le
  have hIw : I - w ≠ 0 := by
    intro h'
    have : w = I := by linear_combination -h'
    rw [this] at hr; simp at hr
  have hIwp : 0 < normSq (I - w) := normSq_pos' hIw
  set v := (I + w) / (I - w) with hv
  have hvre : 0 < v.re := by
    have : v.re = (1 - (w.re * w.re + w.im * w.im)) / normSq (I - w) := by
      rw [hv, div_re]; simp; ring
    rw [this]; exact div_pos (by linarith) hIwp
  have hvim : 0 < v.im := by
    have : v.im = (-2 * w.re) / normSq (I - w) := by
      rw [hv, div_im]; simp; ring
    rw [this]; exact div_pos (by linarith) hIwp
  have hvI : v ^ 2 + 1 ≠ 0 := by
    intro h'
    have h1 := congrArg Complex.im h'
    simp [pow_two] at h1
    nlinarith [mul_pos hvre hvim]
  set z := a * (v ^ 2 - 1) / (v ^ 2 + 1) with hz
  have hzim : 0 < z.im := by
    have hp := normSq_pos' hvI
    have e : z.im = (2 * a * (v ^ 2).im) / normSq (v ^ 2 + 1) := by
      rw [hz, div_im]; simp; ring
    rw [e]
    apply div_pos _ hp
    have : (v ^ 2).im = 2 * (v.re * v.im) := by simp [pow_two]; ring
    rw [this]
    exact mul_pos (by linarith) (by nlinarith [mul_pos hvre hvim])
  have hv1 : v * (I - w) = I + w := by rw [hv]; field_simp
  have hz1 : z * (v ^ 2 + 1) = a * (v ^ 2 - 1) := by rw [hz]; field_simp
  -- z squared
  have hzsq : z ^ 2 = Tval t_0 t_in w - t_0 := by
    have hT := (Tval_iff (t_0 := t_0) (t_in := t_in) hw0 hw1).mp rfl
    have h3 : (1 - w ^ 2) ^ 2 ≠ 0 := pow_ne_zero _ hw1
    apply mul_right_cancel₀ h3
    rw [hT, ← haC]
    have e1 : (v ^ 2 + 1) * (I - w) ^ 2 = -2 * (1 - w ^ 2) := by
      have : v ^ 2 * (I - w) ^ 2 = (I + w) ^ 2 := by rw [← mul_pow, hv1]
      linear_combination this + 2 * I_sq
    have e2 : (v ^ 2 - 1) * (I - w) ^ 2 = 4 * I * w := by
      have : v ^ 2 * (I - w) ^ 2 = (I + w) ^ 2 := by rw [← mul_pow, hv1]
      linear_combination this
    have e3 : z * (-2 * (1 - w ^ 2)) = a * (4 * I * w) := by
      rw [← e1, ← e2]; linear_combination (I - w) ^ 2 * hz1
    linear_combination (1/4 : ℂ) * (z * (-2 * (1 - w ^ 2)) + a * (4 * I * w)) * e3
      + 4 * (a : ℂ) ^ 2 * w ^ 2 * I_sq
  have hzOf : zOf t_0 (Tval t_0 t_in w) = z :=
    squareRoot_unique hzsq hzim.le (fun h' => absurd h' hzim.ne')
  have h1 : -z + (a : ℂ) ≠ 0 := by
    intro h'
    have := congrArg Complex.im h'
    simp at this
    linarith
  have hvOf : vOf a z = v := by
    apply squareRoot_unique _ hvim.le (fun h' => absurd h' hvim.ne')
    rw [eq_div_iff h1]
    linear_combination -hz1
  unfold Wval
  rw [hzOf, ← ha, hvOf]
  unfold wOf
  rw [div_eq_iff (v_add_one_ne hvre.le)]
  linear_combination hv1

end UA
