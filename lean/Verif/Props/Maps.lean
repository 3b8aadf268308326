import Verif.Lemmas.MapsRun

/-!
# Properties C01 - C09: `square_root` and the coordinate maps
-/

namespace UA

open Complex ComplexConjugate Filter Topology Spec

/-- **C01** `square_root` is the square root with argument in `[0, π)`, and is the only such number. -/
theorem C01_square_root_branch (z u : ℂ) : IsBranchRoot z u ↔ u = squareRoot z := by
  constructor
  · rintro ⟨h1, h2, h3⟩
    refine (squareRoot_unique h1 (arg_nonneg_iff.mp h2) ?_).symm
    intro h4
    by_contra h5
    exact h3.ne (arg_eq_pi_iff.mpr ⟨not_le.mp h5, h4⟩)
  · rintro rfl
    refine ⟨squareRoot_sq z, arg_nonneg_iff.mpr (squareRoot_im_nonneg z), ?_⟩
    refine lt_of_le_of_ne (arg_le_pi _) ?_
    intro h
    obtain ⟨h1, h2⟩ := arg_eq_pi_iff.mp h
    exact absurd (squareRoot_re_nonneg_of_im z h2) (not_le.mpr h1)

example : IsBranchRoot (-4) (2 * I) := by
  refine ⟨by ring_nf; simp, ?_, ?_⟩
  · exact arg_nonneg_iff.mpr (by simp)
  · refine lt_of_le_of_ne (arg_le_pi _) (fun h => ?_)
    have := (arg_eq_pi_iff.mp h).1
    simp at this

/-- **C02** (analytic off the cut) -/
theorem C02_square_root_differentiable (z : ℂ) (h : z ∉ HalfLine 0) : DifferentiableAt ℂ squareRoot z :=
  squareRoot_differentiableAt h

example : DifferentiableAt ℂ squareRoot (-1) := C02_square_root_differentiable _ (by simp [HalfLine])

/-- **C02** (continuous from above, everywhere) -/
theorem C02_square_root_continuous_from_above (z : ℂ) : ContinuousWithinAt squareRoot {w | 0 ≤ w.im} z :=
  squareRoot_continuousWithinAt_upper z

/-- **C02** (from below a positive real the limit is minus the value, so the function is discontinuous there) -/
theorem C02_square_root_jump (x : ℝ) (hx : 0 < x) :
    Tendsto squareRoot (𝓝[{w | w.im < 0}] (x : ℂ)) (𝓝 (- squareRoot x)) ∧ squareRoot x ≠ - squareRoot x := by
  refine ⟨squareRoot_tendsto_below hx, ?_⟩
  intro h
  have h0 : squareRoot (x : ℂ) = 0 := by linear_combination h / 2
  rw [squareRoot_eq_zero] at h0
  exact hx.ne' (by simpa using h0)

example : Tendsto squareRoot (𝓝[{w | w.im < 0}] ((2 : ℝ) : ℂ)) (𝓝 (- squareRoot (2 : ℝ))) := (C02_square_root_jump 2 (by norm_num)).1

/-- **C02** (continuous at the branch point itself) -/
theorem C02_square_root_continuous_zero : ContinuousAt squareRoot 0 := squareRoot_continuousAt_zero

/-- **C03** What the validation really accepts: `0 ≤ t_0 ≤ t_in`, for both maps; every rejection is a `ValueError`.
Missing from the stated property: `t_0 = t_in` should be rejected too, see `C03_accepts_equal`. -/
theorem C03_validation_partial (t_0 t_in : ℝ) :
    ((∃ m, MapFromTtoW.init t_0 t_in = .ok m) ↔ 0 ≤ t_0 ∧ t_0 ≤ t_in) ∧
    ((∃ m, MapFromWtoT.init t_0 t_in = .ok m) ↔ 0 ≤ t_0 ∧ t_0 ≤ t_in) ∧
    (¬ (0 ≤ t_0 ∧ t_0 ≤ t_in) →
      MapFromTtoW.init t_0 t_in = .error .valueError ∧ MapFromWtoT.init t_0 t_in = .error .valueError) := by
  by_cases h : 0 ≤ t_0 ∧ t_0 ≤ t_in
  · simp [TtoW_init_ok h.1 h.2, WtoT_init_ok h.1 h.2, h]
  · have h' : t_0 < 0 ∨ t_in < t_0 := by
      by_contra hc; push Not at hc; exact h hc
    simp [TtoW_init_error h', WtoT_init_error h', h]

example : (∃ m, MapFromTtoW.init 1 2 = .ok m) ∧ MapFromTtoW.init (-1) 2 = .error .valueError ∧ MapFromWtoT.init 3 2 = .error .valueError :=
  ⟨(C03_validation_partial 1 2).1.mpr (by norm_num), ((C03_validation_partial (-1) 2).2.2 (by norm_num)).1,
    ((C03_validation_partial 3 2).2.2 (by norm_num)).2⟩

/-- **C03** is false of the code as stated: `t_0 = t_in` is accepted although the documentation asks for
`t_in` larger than `t_0`. -/
theorem C03_accepts_equal :
    (¬ ∀ t_0 t_in : ℝ, (∃ m, MapFromTtoW.init t_0 t_in = .ok m) ↔ 0 ≤ t_0 ∧ t_0 < t_in) ∧
    (¬ ∀ t_0 t_in : ℝ, (∃ m, MapFromWtoT.init t_0 t_in = .ok m) ↔ 0 ≤ t_0 ∧ t_0 < t_in) := by
  refine ⟨fun h => ?_, fun h => ?_⟩
  · have := (h 1 1).mp ⟨_, TtoW_init_ok (by norm_num) (le_refl _)⟩
    exact lt_irrefl _ this.2
  · have := (h 1 1).mp ⟨_, WtoT_init_ok (by norm_num) (le_refl _)⟩
    exact lt_irrefl _ this.2

/-- **C04** `MapFromTtoW` raises `ZeroDivisionError` exactly at `t_in` and returns a number elsewhere. -/
theorem C04_TtoW_defined (t_0 t_in : ℝ) (h0 : 0 ≤ t_0) (h : t_0 < t_in) (t : ℂ) :
    (t = t_in → runTtoW t_0 t_in t = .error .zeroDivisionError) ∧
    (t ≠ t_in → ∃ w, runTtoW t_0 t_in t = .ok w) := by
  constructor
  · rintro rfl; exact runTtoW_tin h0 h.le
  · intro ht; exact ⟨_, runTtoW_ok h0 h ht⟩

example : (0 : ℝ) ≤ 1 ∧ (1 : ℝ) < 2 := by norm_num

/-- **C05** The image is in the closed left half of the closed unit disk; half-planes go to half-disks; off the cut
the image is in the open half-disk. -/
theorem C05_image (t_0 t_in : ℝ) (h0 : 0 ≤ t_0) (h : t_0 < t_in) (t w : ℂ) (hw : runTtoW t_0 t_in t = .ok w) :
    ‖w‖ ≤ 1 ∧ w.re ≤ 0 ∧ (0 < t.im → 0 < w.im) ∧ (t.im < 0 → w.im < 0) ∧
    (t ∉ HalfLine t_0 → w ∈ LeftHalfDisk) := by
  have ht : t ≠ t_in := by
    rintro rfl; rw [runTtoW_tin h0 h.le] at hw; cases hw
  rw [runTtoW_ok h0 h ht] at hw
  injection hw with hw
  subst hw
  refine ⟨Wval_norm_le h t, Wval_re_nonpos t, ?_, ?_, fun h1 => Wval_offCut h h1⟩
  · intro h1
    rw [Wval_im_pos h ht]
    have := zOf_im_rel t_0 t
    have h2 := zOf_im_nonneg t_0 t
    by_contra hc; push Not at hc
    nlinarith [mul_nonneg (neg_nonneg.mpr hc) h2]
  · intro h1
    rw [Wval_im_neg h ht]
    have := zOf_im_rel t_0 t
    have h2 := zOf_im_nonneg t_0 t
    by_contra hc; push Not at hc
    nlinarith [mul_nonneg hc h2]

example : ∃ w, runTtoW 1 2 I = .ok w :=
  (C04_TtoW_defined 1 2 (by norm_num) (by norm_num) I).2 (fun h => by simpa using congrArg Complex.im h)

/-- **C06** `t → W → t` is the identity away from the branch points; at the branch points exactly one step raises. -/
theorem C06_roundtrip_t (t_0 t_in : ℝ) (h0 : 0 ≤ t_0) (h : t_0 < t_in) (t : ℂ) :
    (t ≠ t_0 → t ≠ t_in → (do let w ← runTtoW t_0 t_in t; runWtoT t_0 t_in w) = .ok t) ∧
    (t = t_0 → ∃ w, runTtoW t_0 t_in t = .ok w ∧ runWtoT t_0 t_in w = .error .zeroDivisionError) ∧
    (t = t_in → runTtoW t_0 t_in t = .error .zeroDivisionError) := by
  refine ⟨fun ht0 ht => ?_, ?_, ?_⟩
  · rw [runTtoW_ok h0 h ht, except_ok_bind,
      runWtoT_ok h0 h.le (fun h' => ht0 ((Wval_eq_zero h ht).mp h')) (Wval_sq_ne_one h ht), Tval_Wval h ht0 ht]
  · rintro rfl
    have ht : (t_0 : ℂ) ≠ t_in := by intro h'; exact h.ne (by exact_mod_cast h')
    refine ⟨_, runTtoW_ok h0 h ht, ?_⟩
    rw [(Wval_eq_zero h ht).mpr rfl]
    simp [runWtoT, WtoT_init_ok h0 h.le, WtoT_call_zero]
  · rintro rfl; exact runTtoW_tin h0 h.le

example : (do let w ← runTtoW 1 2 5; runWtoT 1 2 w) = .ok 5 :=
  (C06_roundtrip_t 1 2 (by norm_num) (by norm_num) 5).1 (by norm_num) (by norm_num)

/-- **C07** `W → t → W` is the identity on the open left half-disk. -/
theorem C07_roundtrip_W (t_0 t_in : ℝ) (h0 : 0 ≤ t_0) (h : t_0 < t_in) (w : ℂ) (hw : w ∈ LeftHalfDisk) :
    (do let t ← runWtoT t_0 t_in w; runTtoW t_0 t_in t) = .ok w := by
  obtain ⟨hw0, hw1⟩ := leftHalfDisk_ne hw
  rw [runWtoT_ok h0 h.le hw0 hw1, except_ok_bind,
    runTtoW_ok h0 h (ne_tin_of_offCut h.le (Tval_offCut h hw)), Wval_Tval h hw.1 hw.2]

example : (-1/2 : ℂ) ∈ LeftHalfDisk := by constructor <;> norm_num

/-- **C05/C07** The map is a bijection of the plane cut along `[t_0, ∞)` onto the open left half-disk. -/
theorem C07_bijection (t_0 t_in : ℝ) (h0 : 0 ≤ t_0) (h : t_0 < t_in) (w : ℂ) (hw : w ∈ LeftHalfDisk) :
    ∃! t : ℂ, t ∉ HalfLine t_0 ∧ runTtoW t_0 t_in t = .ok w := by
  have hoff := Tval_offCut h hw
  refine ⟨Tval t_0 t_in w, ⟨hoff, ?_⟩, ?_⟩
  · rw [runTtoW_ok h0 h (ne_tin_of_offCut h.le hoff), Wval_Tval h hw.1 hw.2]
  · rintro t ⟨ht, h2⟩
    have htin := ne_tin_of_offCut h.le ht
    rw [runTtoW_ok h0 h htin] at h2
    injection h2 with h2
    have ht0 : t ≠ t_0 := by rintro rfl; apply ht; simp [HalfLine]
    rw [← h2, Tval_Wval h ht0 htin]

example : ∃! t : ℂ, t ∉ HalfLine 1 ∧ runTtoW 1 2 t = .ok (-1/2) :=
  C07_bijection 1 2 (by norm_num) (by norm_num) _ (by constructor <;> norm_num)

/-- **C08** `MapFromWtoT` identifies exactly `w, -w, 1/w, -1/w`. -/
theorem C08_four_to_one (t_0 t_in : ℝ) (h0 : 0 ≤ t_0) (h : t_0 < t_in) (w w' : ℂ)
    (hw : w ≠ 0 ∧ w ≠ 1 ∧ w ≠ -1) (hw' : w' ≠ 0 ∧ w' ≠ 1 ∧ w' ≠ -1) :
    runWtoT t_0 t_in w = runWtoT t_0 t_in w' ↔ (w' = w ∨ w' = -w ∨ w' = 1 / w ∨ w' = -1 / w) := by
  have key : ∀ u : ℂ, u ≠ 1 → u ≠ -1 → 1 - u ^ 2 ≠ 0 := by
    intro u h1 h2 h3
    have : (1 - u) * (1 + u) = 0 := by linear_combination h3
    rcases mul_eq_zero.mp this with h4 | h4
    · exact h1 (by linear_combination -h4)
    · exact h2 (by linear_combination h4)
  have k := key w hw.2.1 hw.2.2
  have k' := key w' hw'.2.1 hw'.2.2
  rw [runWtoT_ok h0 h.le hw.1 k, runWtoT_ok h0 h.le hw'.1 k']
  have hd := tin_sub_ne h
  have hw0 := hw.1
  have hw0' := hw'.1
  have e1 : (Except.ok (Tval t_0 t_in w) = (Except.ok (Tval t_0 t_in w') : Except PyErr ℂ)) ↔
      Tval t_0 t_in w = Tval t_0 t_in w' := by
    constructor
    · intro h; injection h
    · intro h; rw [h]
  rw [e1]
  have e2 : Tval t_0 t_in w = Tval t_0 t_in w' ↔
      w' ^ 2 * (1 - w ^ 2) ^ 2 = w ^ 2 * (1 - w' ^ 2) ^ 2 := by
    have i1 := (Tval_iff (t_0 := t_0) (t_in := t_in) hw0 k).mp rfl
    rw [eq_comm, Tval_iff hw0' k']
    constructor
    · intro i2
      apply mul_left_cancel₀ (mul_ne_zero (by norm_num : (-4 : ℂ) ≠ 0) hd)
      linear_combination -(1 - w ^ 2) ^ 2 * i2 + (1 - w' ^ 2) ^ 2 * i1
    · intro i2
      apply mul_right_cancel₀ (pow_ne_zero 2 k)
      linear_combination (1 - w' ^ 2) ^ 2 * i1 + 4 * (t_in - t_0 : ℂ) * i2
  rw [e2]
  constructor
  · intro h1
    have h2 : (w' - w) * (w' + w) * ((w' * w - 1) * (w' * w + 1)) = 0 := by
      linear_combination -h1 
    rcases mul_eq_zero.mp h2 with h3 | h3 <;> rcases mul_eq_zero.mp h3 with h4 | h4
    · left; linear_combination h4
    · right; left; linear_combination h4
    · right; right; left; rw [eq_div_iff hw0]; linear_combination h4
    · right; right; right; rw [eq_div_iff hw0]; linear_combination h4
  · rintro (rfl | rfl | rfl | rfl)
    · rfl
    · ring
    · field_simp; ring
    · field_simp; ring

example : runWtoT 1 2 2 = runWtoT 1 2 (-2) :=
  (C08_four_to_one 1 2 (by norm_num) (by norm_num) 2 (-2) (by norm_num) (by norm_num)).mpr (Or.inr (Or.inl rfl))
example : runWtoT 1 2 2 ≠ runWtoT 1 2 3 := by
  rw [Ne, C08_four_to_one 1 2 (by norm_num) (by norm_num) 2 3 (by norm_num) (by norm_num)]
  norm_num

/-- **C08** every `t ≠ t_0` is attained. -/
theorem C08_attained (t_0 t_in : ℝ) (h0 : 0 ≤ t_0) (h : t_0 < t_in) (t : ℂ) (ht : t ≠ t_0) :
    ∃ w, runWtoT t_0 t_in w = .ok t := by
  by_cases htin : t = t_in
  · refine ⟨I, ?_⟩
    have h1 : (1 : ℂ) - I ^ 2 ≠ 0 := by rw [I_sq]; norm_num
    rw [runWtoT_ok h0 h.le I_ne_zero h1, (Tval_iff (t := t) I_ne_zero h1).mpr]
    rw [htin, I_sq]; ring
  · refine ⟨Wval t_0 t_in t, ?_⟩
    rw [runWtoT_ok h0 h.le (fun h' => ht ((Wval_eq_zero h htin).mp h')) (Wval_sq_ne_one h htin),
      Tval_Wval h ht htin]

example : ∃ w, runWtoT 1 2 w = .ok 5 := C08_attained 1 2 (by norm_num) (by norm_num) 5 (by norm_num)

/-- **C08** the value returned is the documented one. -/
theorem C08_uniformises (t_0 t_in : ℝ) (h0 : 0 ≤ t_0) (h : t_0 < t_in) (w t : ℂ) :
    runWtoT t_0 t_in w = .ok t ↔ Uniformises t_0 t_in t w := by
  unfold Uniformises
  have hd := tin_sub_ne h
  by_cases hw : w = 0
  · subst hw
    simp [runWtoT, WtoT_init_ok h0 h.le, WtoT_call_zero]
  · by_cases hw1 : 1 - w ^ 2 = 0
    · have h2 : w - w⁻¹ = 0 := by field_simp; linear_combination -hw1
      simp [runWtoT, WtoT_init_ok h0 h.le, WtoT_call_unit hw1, h2, hd]
    · rw [runWtoT_ok h0 h.le hw hw1]
      have : (Except.ok (Tval t_0 t_in w) = (Except.ok t : Except PyErr ℂ)) ↔ Tval t_0 t_in w = t := by
        constructor
        · intro h; injection h
        · intro h; rw [h]
      rw [this, Tval_iff hw hw1]
      have e : (w - w⁻¹) ^ 2 * w ^ 2 = (1 - w ^ 2) ^ 2 := by field_simp; ring
      constructor
      · intro h3
        refine ⟨hw, ?_⟩
        apply mul_right_cancel₀ (pow_ne_zero 2 hw)
        rw [mul_assoc, e, h3]
      · rintro ⟨_, h3⟩
        rw [← e, ← mul_assoc, h3]

example : Uniformises 1 2 (-7/9) 2 ∧ runWtoT 1 2 2 = .ok (-7/9) := by
  have h : Uniformises 1 2 (-7/9) 2 := by constructor <;> norm_num
  exact ⟨h, (C08_uniformises 1 2 (by norm_num) (by norm_num) 2 _).mpr h⟩

/-- **C09** reflection symmetry off the cut. -/
theorem C09_reflection (t_0 t_in : ℝ) (h0 : 0 ≤ t_0) (h : t_0 < t_in) (t : ℂ) (ht : t ∉ HalfLine t_0) :
    runTtoW t_0 t_in (conj t) = (do let w ← runTtoW t_0 t_in t; return conj w) := by
  have h1 := ne_tin_of_offCut h.le ht
  have h2 : conj t ∉ HalfLine t_0 := by
    intro hc; apply ht; simpa [HalfLine] using hc
  rw [runTtoW_ok h0 h h1, runTtoW_ok h0 h (ne_tin_of_offCut h.le h2), Wval_conj h ht]
  rfl

example : runTtoW 1 2 (conj I) = (do let w ← runTtoW 1 2 I; return conj w) :=
  C09_reflection 1 2 (by norm_num) (by norm_num) I (by simp [HalfLine])

/-- **C09** real `t ≤ t_0` give real `W` in `(-1, 0]`. -/
theorem C09_real (t_0 t_in : ℝ) (h0 : 0 ≤ t_0) (h : t_0 < t_in) (x : ℝ) (hx : x ≤ t_0) :
    ∃ r : ℝ, runTtoW t_0 t_in x = .ok (r : ℂ) ∧ -1 < r ∧ r ≤ 0 ∧ (r = 0 ↔ x = t_0) := by
  have hne : (x : ℂ) ≠ t_in := by intro h'; exact (hx.trans_lt h).ne (by exact_mod_cast h')
  rcases hx.lt_or_eq with hlt | heq
  · have hoff : (x : ℂ) ∉ HalfLine t_0 := by simp [HalfLine, hlt]
    have hc := Wval_conj h hoff
    rw [conj_ofReal] at hc
    obtain ⟨r, hr⟩ := Complex.conj_eq_iff_real.mp hc.symm
    have hw := Wval_offCut h hoff
    rw [hr] at hw
    simp at hw
    refine ⟨r, by rw [runTtoW_ok h0 h hne, hr], (abs_lt.mp hw.1).1, hw.2.le, ?_⟩
    constructor
    · intro h'; rw [h'] at hw; exact absurd hw.2 (lt_irrefl _)
    · intro h'; exact absurd h' hlt.ne
  · subst heq
    refine ⟨0, ?_, by norm_num, le_refl _, by simp⟩
    rw [runTtoW_ok h0 h hne, (Wval_eq_zero h hne).mpr rfl]; simp

example : ∃ r : ℝ, runTtoW 1 2 ((1 / 2 : ℝ) : ℂ) = .ok (r : ℂ) ∧ -1 < r ∧ r < 0 := by
  obtain ⟨r, h1, h2, h3, h4⟩ := C09_real 1 2 (by norm_num) (by norm_num) (1 / 2) (by norm_num)
  exact ⟨r, h1, h2, lt_of_le_of_ne h3 fun h => by norm_num [h] at h4⟩

end UA
