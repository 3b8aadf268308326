import Verif.Lemmas.AlternateMaps

/-!
# Property C78: the alternate inverse maps
-/

namespace UA

open Complex Spec

/-- **C78** `t_to_w_version2` (the literature's formula with the branch of the square root used by the model) never fails. It is a
right inverse of `MapFromWtoT` except at `t_0`, where it is `0`. It agrees with the map of the model only on `[t_0, t_in)`;
at every other point where the map of the model is defined it is minus the reciprocal, so off the cut it is outside the
unit disk, on the wrong sheet. -/
theorem C78_version2 (T_0 T_IN : ℝ) (h0 : 0 < T_0) (h : T_0 < T_IN) (t : ℂ) :
    ∃ w, tToWVersion2 T_0 T_IN t = .ok w ∧
      (t = T_0 → w = 0) ∧ (t = T_IN → w = I) ∧ (t ≠ T_0 → runWtoT T_0 T_IN w = .ok t) ∧
      (t.im = 0 → T_0 ≤ t.re → t.re < T_IN → runTtoW T_0 T_IN t = .ok w) ∧
      (¬ (t.im = 0 ∧ T_0 ≤ t.re ∧ t.re ≤ T_IN) → ∃ w₁, runTtoW T_0 T_IN t = .ok w₁ ∧ w₁ ≠ 0 ∧ w = -1 / w₁) ∧
      (t ∉ HalfLine T_0 → 1 < ‖w‖) := by
  by_cases hc : t ∈ HalfLine T_0
  · obtain ⟨x, rfl⟩ : ∃ x : ℝ, t = x := ⟨t.re, Complex.ext (by simp) (by simp [hc.1])⟩
    have hx : T_0 ≤ x := by simpa using hc.2
    rcases lt_trichotomy x T_IN with hlt | rfl | hgt
    · have htin : (x : ℂ) ≠ T_IN := by intro h'; exact hlt.ne (by exact_mod_cast h')
      refine ⟨_, version2_below h0 h hx hlt, fun h1 => (Wval_eq_zero h htin).mpr h1, fun h1 => absurd h1 htin,
        fun h1 => WtoT_of_Wval h0.le h h1 htin (.inl rfl), fun _ _ _ => runTtoW_ok h0.le h htin, fun h1 => ?_, fun h1 => absurd hc h1⟩
      exact absurd ⟨by simp, by simpa using hx, by simpa using hlt.le⟩ h1
    · refine ⟨_, version2_tin h0 h, fun h1 => ?_, fun _ => rfl, fun _ => WtoT_I h0.le h, fun _ _ h1 => ?_, fun h1 => ?_, fun h1 => absurd hc h1⟩
      · exact absurd (by exact_mod_cast h1) h.ne'
      · simp at h1
      · exact absurd ⟨by simp, by simpa using hx, by simp⟩ h1
    · have htin : (x : ℂ) ≠ T_IN := by intro h'; exact hgt.ne' (by exact_mod_cast h')
      have ht0 : (x : ℂ) ≠ T_0 := by intro h'; exact (h.trans hgt).ne' (by exact_mod_cast h')
      refine ⟨_, version2_above h0 h hgt, fun h1 => absurd h1 ht0, fun h1 => absurd h1 htin,
        fun h1 => WtoT_of_Wval h0.le h h1 htin (.inr (.inr rfl)), fun _ _ h1 => ?_,
        fun _ => ⟨_, runTtoW_ok h0.le h htin, fun h1 => ht0 ((Wval_eq_zero h htin).mp h1), rfl⟩, fun h1 => absurd hc h1⟩
      simp at h1; linarith
  · have htin := ne_tin_of_offCut h.le hc
    have ht0 := ne_tin_of_offCut le_rfl hc
    have hne := fun h1 => ht0 ((Wval_eq_zero h htin).mp h1)
    refine ⟨_, version2_offCut h0 h hc, fun h1 => absurd h1 ht0, fun h1 => absurd h1 htin,
      fun h1 => WtoT_of_Wval h0.le h h1 htin (.inr (.inr rfl)), fun h1 h2 _ => absurd ⟨h1, h2⟩ hc,
      fun _ => ⟨_, runTtoW_ok h0.le h htin, hne, rfl⟩, fun _ => ?_⟩
    rw [norm_div, norm_neg, norm_one, one_lt_div (norm_pos_iff.mpr hne)]
    exact (Wval_offCut h hc).1

/-- **C78** `t_to_w_version3` (the same formula with the principal branch) never fails and is a right inverse of `MapFromWtoT`
except at `t_0`, where it is `0`. Its values fill the upper half of the unit disk instead of the left half: it is the map of
the model for `Im t ≥ 0` (up to `t_in` on the real axis), minus it for `Im t < 0`, and minus its reciprocal, which is its mirror
image on the unit circle, above `t_in`. -/
theorem C78_version3 (T_0 T_IN : ℝ) (h0 : 0 < T_0) (h : T_0 < T_IN) (t : ℂ) :
    ∃ w, tToWVersion3 T_0 T_IN t = .ok w ∧ ‖w‖ ≤ 1 ∧ 0 ≤ w.im ∧
      (t = T_0 → w = 0) ∧ (t = T_IN → w = I) ∧ (t ≠ T_0 → runWtoT T_0 T_IN w = .ok t) ∧
      (0 < t.im ∨ t.im = 0 ∧ t.re < T_IN → runTtoW T_0 T_IN t = .ok w) ∧
      (t.im < 0 → runTtoW T_0 T_IN t = .ok (-w)) ∧
      (t.im = 0 → T_IN < t.re → ∃ w₁, runTtoW T_0 T_IN t = .ok w₁ ∧ w₁ ≠ 0 ∧ w = -1 / w₁ ∧ ‖w₁‖ = 1) := by
  by_cases hc : t ∈ HalfLine T_0
  · obtain ⟨x, rfl⟩ : ∃ x : ℝ, t = x := ⟨t.re, Complex.ext (by simp) (by simp [hc.1])⟩
    have hx : T_0 ≤ x := by simpa using hc.2
    rcases lt_trichotomy x T_IN with hlt | rfl | hgt
    · have htin : (x : ℂ) ≠ T_IN := by intro h'; exact hlt.ne (by exact_mod_cast h')
      refine ⟨_, version3_below h0 h hx hlt, Wval_norm_le h _, ?_, fun h1 => (Wval_eq_zero h htin).mpr h1, fun h1 => absurd h1 htin,
        fun h1 => WtoT_of_Wval h0.le h h1 htin (.inl rfl), fun _ => runTtoW_ok h0.le h htin, fun h1 => ?_, fun _ h1 => ?_⟩
      · by_contra hc'
        rw [not_le, Wval_im_neg h htin, zOf_real hx, ofReal_re] at hc'
        exact absurd (Real.sqrt_nonneg _) (not_le.mpr hc')
      · simp at h1
      · simp at h1; linarith
    · refine ⟨_, version3_tin h0 h, by simp, by simp, fun h1 => ?_, fun _ => rfl, fun _ => WtoT_I h0.le h, fun h1 => ?_, fun h1 => ?_,
        fun _ h1 => ?_⟩
      · exact absurd (by exact_mod_cast h1) h.ne'
      · simp at h1
      · simp at h1
      · simp at h1
    · have htin : (x : ℂ) ≠ T_IN := by intro h'; exact hgt.ne' (by exact_mod_cast h')
      have ht0 : (x : ℂ) ≠ T_0 := by intro h'; exact (h.trans hgt).ne' (by exact_mod_cast h')
      obtain ⟨hn, hi⟩ := Wval_above_tin h hgt
      refine ⟨_, version3_above h0 h hgt, by rw [norm_div, norm_neg, norm_one, hn, div_one], ?_, fun h1 => absurd h1 ht0,
        fun h1 => absurd h1 htin, fun h1 => WtoT_of_Wval h0.le h h1 htin (.inr (.inr rfl)), fun h1 => ?_, fun h1 => ?_,
        fun _ _ => ⟨_, runTtoW_ok h0.le h htin, fun h1 => ht0 ((Wval_eq_zero h htin).mp h1), rfl, hn⟩⟩
      · rw [div_im]
        simp only [neg_im, one_im, neg_re, one_re, neg_zero, zero_mul, zero_div, zero_sub]
        rw [neg_mul, one_mul, neg_div, neg_neg]
        exact div_nonneg hi.le (normSq_nonneg _)
      · simp at h1; linarith
      · simp at h1
  · have htin := ne_tin_of_offCut h.le hc
    have ht0 := ne_tin_of_offCut le_rfl hc
    rcases le_or_gt 0 t.im with him | him
    · refine ⟨_, version3_offCut h0 h hc him, Wval_norm_le h _, ?_, fun h1 => absurd h1 ht0, fun h1 => absurd h1 htin,
        fun h1 => WtoT_of_Wval h0.le h h1 htin (.inl rfl), fun _ => runTtoW_ok h0.le h htin, fun h1 => absurd h1 (not_lt.mpr him),
        fun h1 h2 => absurd ⟨h1, (h.trans h2).le⟩ hc⟩
      by_contra hc'
      rw [not_le, Wval_im_neg h htin] at hc'
      have h1 := zOf_im_rel T_0 t
      have h2 := zOf_im_pos hc
      nlinarith
    · refine ⟨_, version3_lower h0 h him, by rw [norm_neg]; exact Wval_norm_le h _, ?_, fun h1 => absurd h1 ht0, fun h1 => absurd h1 htin,
        fun h1 => WtoT_of_Wval h0.le h h1 htin (.inr (.inl rfl)), fun h1 => ?_,
        fun _ => by rw [neg_neg]; exact runTtoW_ok h0.le h htin, fun h1 => absurd h1 him.ne⟩
      · rw [neg_im]
        by_contra hc'
        have h3 : 0 < (Wval T_0 T_IN t).im := by linarith
        rw [Wval_im_pos h htin] at h3
        have h1 := zOf_im_rel T_0 t
        have h2 := zOf_im_pos hc
        nlinarith
      · rcases h1 with h1 | h1
        · linarith
        · linarith [h1.1]

/-- The constants of the module. -/
example : (0 : ℝ) < 1 ∧ (1 : ℝ) < 2 ∧ ((1.7 : ℂ) + I).im ≠ 0 := by norm_num

end UA
