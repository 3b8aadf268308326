import Verif.Lemmas.CrossSections
import Verif.Spec.CrossSections
import Verif.Props.Nucleon

/-!
# Properties C30 - C34 and C61: cross sections, conversions, undressing
-/

namespace UA

open Complex

/-! ### C30 -/

/-- **C30** at real `t > 0`, `t ≥ 4m²` the value is the textbook one. -/
theorem C30_scalar_cross_section (m α hc2 : ℝ) (ff : ℂ → Except PyErr ℂ) (t : ℝ) (F : ℂ) (hF : ff t = .ok F)
    (ht : 0 < t) (h4 : 4 * m ^ 2 ≤ t) :
    (ScalarCS.init m α hc2).call ff t = .ok (scalarSigma m α hc2 t ‖F‖ : ℝ) := by
  rw [ScalarCS.call_real hF ht h4]
  unfold scalarSigma
  congr 2
  ring

/-- A form factor that is `2t`, kaons of mass 1, at `t = 5`. -/
example : (ScalarCS.init 1 1 1).call (fun t => .ok (2 * t)) (5 : ℝ) = .ok (scalarSigma 1 1 1 5 10 : ℝ) := by
  rw [C30_scalar_cross_section 1 1 1 _ 5 (2 * (5 : ℝ)) rfl (by norm_num) (by norm_num)]
  norm_num

/-- **C30** it is non-negative, and zero only at threshold or for a vanishing form factor. -/
theorem C30_sign (m α hc2 : ℝ) (hh : 0 < hc2) (hα : α ≠ 0) (ff : ℂ → Except PyErr ℂ) (t : ℝ) (F y : ℂ)
    (hF : ff t = .ok F) (ht : 0 < t) (h4 : 4 * m ^ 2 ≤ t) (hy : (ScalarCS.init m α hc2).call ff t = .ok y) :
    y.im = 0 ∧ 0 ≤ y.re ∧ (y = 0 ↔ t = 4 * m ^ 2 ∨ F = 0) := by
  rw [C30_scalar_cross_section m α hc2 ff t F hF ht h4] at hy
  injection hy with hy
  subst hy
  have hr : 0 ≤ 1 - 4 * m ^ 2 / t := by rw [sub_nonneg, div_le_one ht]; exact h4
  refine ⟨ofReal_im _, ?_, ?_⟩
  · rw [ofReal_re]; unfold scalarSigma; positivity
  · have hpos : hc2 * (Real.pi * α ^ 2 / (3 * t)) ≠ 0 := by have := Real.pi_pos; positivity
    rw [ofReal_eq_zero, scalarSigma, mul_eq_zero, mul_eq_zero, or_iff_right hpos, pow_eq_zero_iff (by norm_num),
      pow_eq_zero_iff (by norm_num), norm_eq_zero, Real.sqrt_eq_zero hr]
    refine or_congr ?_ Iff.rfl
    rw [sub_eq_zero, eq_comm, div_eq_one_iff_eq ht.ne', eq_comm]

example : ∃ y, (ScalarCS.init 1 1 1).call (fun t => .ok (2 * t)) (5 : ℝ) = .ok y ∧ 0 ≤ y.re ∧ y ≠ 0 := by
  refine ⟨_, C30_scalar_cross_section 1 1 1 _ 5 (2 * (5 : ℝ)) rfl (by norm_num) (by norm_num), ?_⟩
  have h := C30_sign 1 1 1 (by norm_num) (by norm_num) _ 5 (2 * (5 : ℝ)) _ rfl (by norm_num) (by norm_num)
    (C30_scalar_cross_section 1 1 1 (fun t => .ok (2 * t)) 5 (2 * (5 : ℝ)) rfl (by norm_num) (by norm_num))
  exact ⟨h.2.1, by rw [Ne, h.2.2]; norm_num⟩

/-- **C30** exceptions: the form factor's own, and otherwise `ZeroDivisionError` exactly at `t = 0`. -/
theorem C30_errors (m α hc2 : ℝ) (ff : ℂ → Except PyErr ℂ) (t : ℂ) :
    (∀ e, ff t = .error e → (ScalarCS.init m α hc2).call ff t = .error e) ∧
    (∀ F, ff t = .ok F → ((∃ e, (ScalarCS.init m α hc2).call ff t = .error e) ↔ t = 0) ∧
      (t = 0 → (ScalarCS.init m α hc2).call ff t = .error .zeroDivisionError)) := by
  refine ⟨fun e he => ?_, fun F hF => ⟨⟨fun ⟨e, he⟩ => ?_, fun h => ?_⟩, fun h => ?_⟩⟩
  · unfold ScalarCS.call; rw [he]; rfl
  · by_contra h
    rw [ScalarCS.call_ok hF h] at he; cases he
  · subst h; exact ⟨_, ScalarCS.call_zero hF⟩
  · subst h; exact ScalarCS.call_zero hF

example : (ScalarCS.init 1 1 1).call (fun t => .ok (2 * t)) 0 = .error .zeroDivisionError := ((C30_errors 1 1 1 (fun t => .ok (2 * t)) 0).2 _ rfl).2 rfl

/-- Below threshold the code silently continues analytically: `t = 1`, `m = 1` gives the purely imaginary value obtained from
the principal power `(-3)^(3/2)`, not an exception. -/
theorem C30_below_threshold (m α hc2 : ℝ) (ff : ℂ → Except PyErr ℂ) (t : ℝ) (F : ℂ) (hF : ff t = .ok F) (ht : 0 < t)
    (h4 : t < 4 * m ^ 2) :
    ∃ y : ℂ, (ScalarCS.init m α hc2).call ff t = .ok y ∧ y.re = 0 := by
  refine ⟨_, ScalarCS.call_ok hF (by exact_mod_cast ht.ne'), ?_⟩
  have hr : 1 - 4 * m ^ 2 / t < 0 := by rw [sub_neg, lt_div_iff₀ ht, one_mul]; exact h4
  have e : (1 - ((4 * m ^ 2 : ℝ) : ℂ) / t) = ((1 - 4 * m ^ 2 / t : ℝ) : ℂ) := by push_cast; ring
  rw [e, Complex.ofReal_cpow_of_nonpos hr.le]
  have e2 : (-((1 - 4 * m ^ 2 / t : ℝ) : ℂ)) ^ (3 / 2 : ℂ) = (((-(1 - 4 * m ^ 2 / t)) ^ (3 / 2 : ℝ) : ℝ) : ℂ) := by
    rw [← cpow_three_half (by linarith)]; push_cast; rfl
  have e3 : Complex.exp (Real.pi * I * (3 / 2)) = -I := by
    rw [show (Real.pi : ℂ) * I * (3 / 2) = Real.pi * I + Real.pi / 2 * I by ring, Complex.exp_add, Complex.exp_pi_mul_I,
      Complex.exp_pi_div_two_mul_I]; ring
  rw [e2, e3]
  have : (((hc2 * Real.pi * α ^ 2 / 3 : ℝ) : ℂ) / t * ((((-(1 - 4 * m ^ 2 / t)) ^ (3 / 2 : ℝ) : ℝ) : ℂ) * -I) * ((‖F‖ : ℝ) : ℂ) ^ 2) =
      ((hc2 * Real.pi * α ^ 2 / 3 / t * (-(1 - 4 * m ^ 2 / t)) ^ (3 / 2 : ℝ) * ‖F‖ ^ 2 : ℝ) : ℂ) * -I := by
    push_cast; ring
  rw [this, mul_neg, neg_re, re_ofReal_mul, I_re, mul_zero, neg_zero]

example : ∃ y : ℂ, (ScalarCS.init 1 1 1).call (fun t => .ok (2 * t)) (1 : ℝ) = .ok y ∧ y.re = 0 :=
  C30_below_threshold 1 1 1 _ 1 _ rfl (by norm_num) (by norm_num)

/-! ### C31 -/

/-- **C31** the switch the object had before is irrelevant (result and object left behind). -/
theorem C31_switch_irrelevant (cs : NucleonCS) (m : NucleonUAModel) (b : Bool) (t : ℂ) :
    cs.call nucleonFF { m with electric := b } t = cs.call nucleonFF m t := rfl

/-- **C31** what is left behind: all attributes but the switch (and the cache) are unchanged; the switch is `False` unless the
electric evaluation itself raised, in which case it is `True`. -/
theorem C31_object_after (cs : NucleonCS) (m : NucleonUAModel) (t : ℂ) :
    ∃ b, (cs.call nucleonFF m t).2.toNucleonBase = { m.toNucleonBase with electric := b } ∧
      (b = true ↔ ∃ e, (({ m with electric := true } : NucleonUAModel).call t).1 = .error e) := by
  unfold NucleonCS.call
  have h1 : (({ m with electric := true } : NucleonUAModel).call t).2.toNucleonBase = { m.toNucleonBase with electric := true } := rfl
  simp only [nucleonFF]
  generalize ({ m with electric := true } : NucleonUAModel).call t = r at h1
  obtain ⟨r1, s1⟩ := r
  rcases r1 with e | GE
  · exact ⟨true, h1, by simp⟩
  · have h2 : (({ s1 with electric := false } : NucleonUAModel).call t).2.toNucleonBase = { m.toNucleonBase with electric := false } := by
      show ({ s1.toNucleonBase with electric := false } : NucleonBase) = _
      simp only at h1
      rw [h1]
    simp only
    generalize ({ s1 with electric := false } : NucleonUAModel).call t = r at h2
    obtain ⟨r2, s2⟩ := r
    rcases r2 with e | GM
    · exact ⟨false, h2, by simp⟩
    · exact ⟨false, h2, by simp⟩

example : ∃ m₀, NucleonUAModel.init true false exampleNucleon = .ok m₀ := exampleNucleon_builds .new true false

/-- **C31** the value, whatever happened to the object before: exactly what freshly built electric and magnetic models give,
inserted in the formula; exceptions in the order electric, magnetic, formula. -/
theorem C31_value (cs : NucleonCS) (x : NucleonArgs) (proton electric : Bool) (m₀ : NucleonUAModel)
    (h : NucleonUAModel.init proton electric x = .ok m₀) (hist : List NucleonOp) (t : ℂ) :
    let m := hist.foldl NucleonOp.apply m₀
    ((cs.call nucleonFF m t).1 = do
      let GE ← NucleonClass.new.run m.proton true x t
      let GM ← NucleonClass.new.run m.proton false x t
      cs.formula t ‖GE‖ ‖GM‖) := by
  intro m
  have e1 := C24_cache_invisible x proton electric m₀ h (hist ++ [.setElectric true]) t
  have e2 := C24_cache_invisible x proton electric m₀ h (hist ++ [.setElectric true, .call t, .setElectric false]) t
  simp only [List.foldl_append, List.foldl_cons, List.foldl_nil, NucleonOp.apply] at e1 e2
  change _ = NucleonClass.new.run m.proton true x t at e1
  change _ = NucleonClass.new.run m.proton false x t at e2
  rw [← e1, ← e2]
  exact NucleonCS.call_fst cs nucleonFF m t

example : ∃ m₀, NucleonUAModel.init true false exampleNucleon = .ok m₀ := exampleNucleon_builds .new true false

/-- **C31** the formula: real and non-negative at real `t ≥ 4m²`; `ZeroDivisionError` at `t = 0`, `ValueError` for
`0 < |t| < 4m²`, no exception otherwise. -/
theorem C31_formula (m α hc2 : ℝ) (hh : 0 ≤ hc2) (ge gm : ℝ) (t : ℂ) :
    (∀ s : ℝ, t = s → 0 < s → 4 * m ^ 2 ≤ s →
      (NucleonCS.init m α hc2).formula t ge gm = .ok (nucleonSigma m α hc2 s ge gm : ℝ) ∧ 0 ≤ nucleonSigma m α hc2 s ge gm) ∧
    ((NucleonCS.init m α hc2).formula t ge gm = .error .zeroDivisionError ↔ t = 0) ∧
    ((NucleonCS.init m α hc2).formula t ge gm = .error .valueError ↔ t ≠ 0 ∧ ‖t‖ < 4 * m ^ 2) ∧
    ((∃ y, (NucleonCS.init m α hc2).formula t ge gm = .ok y) ↔ t ≠ 0 ∧ 4 * m ^ 2 ≤ ‖t‖) := by
  refine ⟨?_, ?_⟩
  · rintro s rfl hs h4
    refine ⟨NucleonCS.formula_real hs h4, ?_⟩
    unfold nucleonSigma
    have := Real.pi_pos
    positivity
  · by_cases h0 : t = 0
    · subst h0; rw [NucleonCS.formula_zero]; simp
    · rcases lt_or_ge ‖t‖ (4 * m ^ 2) with h | h
      · rw [NucleonCS.formula_low h0 h]; simp [h0, h]
      · rw [NucleonCS.formula_ok h0 h]; simp [h0, h]

example : (NucleonCS.init 1 1 1).formula 5 2 3 = .ok (nucleonSigma 1 1 1 5 2 3 : ℝ) ∧
    (NucleonCS.init 1 1 1).formula I 2 3 = .error .valueError :=
  ⟨((C31_formula 1 1 1 (by norm_num) 2 3 5).1 5 (by norm_num) (by norm_num) (by norm_num)).1,
    (C31_formula 1 1 1 (by norm_num) 2 3 I).2.2.1.mpr ⟨I_ne_zero, by norm_num⟩⟩

/-! ### C32 -/

/-- **C32** above threshold a positive cross section converts to a positive modulus, and the scalar-meson cross section for a
form factor with that modulus returns the measured value. -/
theorem C32_round_trip (α hc2 m t cs err : ℝ) (hα : α ≠ 0) (hh : 0 < hc2) (ht : 0 < t) (h4 : 4 * m ^ 2 < t) (hcs : 0 < cs) :
    ∃ ff e, convertPoint α hc2 m t cs err = .ok (t, ff, e) ∧ 0 < ff ∧
      ∀ (F : ℂ) (form_factor : ℂ → Except PyErr ℂ), form_factor t = .ok F → ‖F‖ = ff →
        (ScalarCS.init m α hc2).call form_factor t = .ok (cs : ℂ) := by
  have hr : 0 < 1 - 4 * m ^ 2 / t := by rw [sub_pos, div_lt_one ht]; exact h4
  obtain ⟨c, hc, hcp⟩ : ∃ c, c = hc2 * Real.pi * α ^ 2 / 3 / t * (1 - 4 * m ^ 2 / t) ^ (3 / 2 : ℝ) ∧ 0 < c := by
    refine ⟨_, rfl, ?_⟩
    have := Real.pi_pos
    have := Real.rpow_pos_of_pos hr (3 / 2)
    positivity
  have hcoef : coefficientFunction α hc2 m t = .ok (.float c) := by
    unfold coefficientFunction
    simp only [pyDivR_ok ht.ne', except_ok_bind]
    rw [if_neg (not_lt.mpr hr.le), hc]; rfl
  have hq : 0 < cs / c := by positivity
  have hs : 0 < Real.sqrt (cs / c) := Real.sqrt_pos.mpr hq
  refine ⟨Real.sqrt (cs / c), err / (2 * c * Real.sqrt (cs / c)), ?_, hs, ?_⟩
  · unfold convertPoint
    rw [hcoef, except_ok_bind]
    simp only
    rw [pyDivR_ok hcp.ne', except_ok_bind, pySqrt_ok hq.le, except_ok_bind, pyDivR_ok (by positivity), except_ok_bind]; rfl
  · intro F form_factor hF hn
    rw [ScalarCS.call_real hF ht h4.le, hn, Real.sq_sqrt hq.le, ← rpow_three_half hr.le]
    congr 2
    have : hc2 * Real.pi * α ^ 2 / (3 * t) * (1 - 4 * m ^ 2 / t) ^ (3 / 2 : ℝ) = c := by rw [hc]; field_simp
    rw [this]; field_simp

example : ∃ ff e, convertPoint 1 1 1 5 2 0.1 = .ok (5, ff, e) ∧ 0 < ff := by
  obtain ⟨ff, e, h, h', -⟩ := C32_round_trip 1 1 1 5 2 0.1 (by norm_num) (by norm_num) (by norm_num) (by norm_num) (by norm_num)
  exact ⟨ff, e, h, h'⟩

/-- **C32** the new error is the derivative of the conversion with respect to the cross section, times the old error. -/
theorem C32_error_propagation (α hc2 m t cs err : ℝ) (hα : α ≠ 0) (hh : 0 < hc2) (ht : 0 < t) (h4 : 4 * m ^ 2 < t) (hcs : 0 < cs) :
    ∃ (f : ℝ → ℝ) (d : ℝ), (∀ c > 0, ∀ e, ∃ e', convertPoint α hc2 m t c e = .ok (t, f c, e')) ∧ HasDerivAt f d cs ∧
      convertPoint α hc2 m t cs err = .ok (t, f cs, d * err) := by
  have hr : 0 < 1 - 4 * m ^ 2 / t := by rw [sub_pos, div_lt_one ht]; exact h4
  obtain ⟨c, hc, hcp⟩ : ∃ c, c = hc2 * Real.pi * α ^ 2 / 3 / t * (1 - 4 * m ^ 2 / t) ^ (3 / 2 : ℝ) ∧ 0 < c := by
    refine ⟨_, rfl, ?_⟩
    have := Real.pi_pos
    have := Real.rpow_pos_of_pos hr (3 / 2)
    positivity
  have hcoef : coefficientFunction α hc2 m t = .ok (.float c) := by
    unfold coefficientFunction
    simp only [pyDivR_ok ht.ne', except_ok_bind]
    rw [if_neg (not_lt.mpr hr.le), hc]; rfl
  have conv : ∀ s > 0, ∀ e, convertPoint α hc2 m t s e = .ok (t, Real.sqrt (s / c), e / (2 * c * Real.sqrt (s / c))) := by
    intro s hs e
    have hq : 0 < s / c := by positivity
    have : 0 < Real.sqrt (s / c) := Real.sqrt_pos.mpr hq
    unfold convertPoint
    rw [hcoef, except_ok_bind]
    simp only
    rw [pyDivR_ok hcp.ne', except_ok_bind, pySqrt_ok hq.le, except_ok_bind, pyDivR_ok (by positivity), except_ok_bind]; rfl
  refine ⟨fun s => Real.sqrt (s / c), 1 / (2 * c * Real.sqrt (cs / c)), fun s hs e => ⟨_, conv s hs e⟩, ?_, ?_⟩
  · have hq : cs / c ≠ 0 := by positivity
    have hd : HasDerivAt (fun s => Real.sqrt (s / c)) (1 / c / (2 * Real.sqrt (cs / c))) cs :=
      HasDerivAt.sqrt ((hasDerivAt_id cs).div_const c) hq
    have e : 1 / (2 * c * Real.sqrt (cs / c)) = 1 / c / (2 * Real.sqrt (cs / c)) := by
      have : Real.sqrt (cs / c) ≠ 0 := (Real.sqrt_pos.mpr (by positivity)).ne'
      field_simp
    rw [e]; exact hd
  · rw [conv cs hcs err]
    congr 3
    ring

example : ∃ (f : ℝ → ℝ) (d : ℝ), HasDerivAt f d 2 ∧ convertPoint 1 1 1 5 2 0.1 = .ok (5, f 2, d * 0.1) := by
  obtain ⟨f, d, -, h, h'⟩ := C32_error_propagation 1 1 1 5 2 0.1 (by norm_num) (by norm_num) (by norm_num) (by norm_num) (by norm_num)
  exact ⟨f, d, h, h'⟩

/-- **C32** `error_for_square_root` is the derivative of the square root times the error. -/
theorem C32_error_for_square_root (val err : ℝ) :
    (0 < val → ∃ d, HasDerivAt Real.sqrt d val ∧ errorForSquareRoot val err = .ok (d * err)) ∧
    (val = 0 → errorForSquareRoot val err = .error .zeroDivisionError) ∧
    (val < 0 → errorForSquareRoot val err = .error .valueError) := by
  refine ⟨fun h => ⟨_, Real.hasDerivAt_sqrt h.ne', ?_⟩, fun h => ?_, fun h => ?_⟩
  · unfold errorForSquareRoot
    have := Real.sqrt_pos.mpr h
    rw [pySqrt_ok h.le, except_ok_bind, pyDivR_ok (by positivity)]; rfl
  · subst h; unfold errorForSquareRoot
    rw [pySqrt_ok le_rfl, except_ok_bind, Real.sqrt_zero, mul_zero, pyDivR_zero]; rfl
  · unfold errorForSquareRoot
    rw [pySqrt_neg h]; rfl

example : errorForSquareRoot 0 1 = .error .zeroDivisionError ∧ errorForSquareRoot (-1) 1 = .error .valueError :=
  ⟨(C32_error_for_square_root 0 1).2.1 rfl, (C32_error_for_square_root (-1) 1).2.2 (by norm_num)⟩

/-- **C32** exceptional inputs of the conversion loop body: `t = 0`, below threshold (`TypeError` from `math.sqrt` of a complex
number), at threshold, negative or zero cross section. -/
theorem C32_exceptions (α hc2 m t cs err : ℝ) (hα : α ≠ 0) (hh : 0 < hc2) :
    (t = 0 → convertPoint α hc2 m t cs err = .error .zeroDivisionError) ∧
    (0 < t → t < 4 * m ^ 2 → convertPoint α hc2 m t cs err = .error .typeError) ∧
    (0 < t → t = 4 * m ^ 2 → convertPoint α hc2 m t cs err = .error .zeroDivisionError) ∧
    (0 < t → 4 * m ^ 2 < t → cs < 0 → convertPoint α hc2 m t cs err = .error .valueError) ∧
    (0 < t → 4 * m ^ 2 < t → cs = 0 → convertPoint α hc2 m t cs err = .error .zeroDivisionError) := by
  have hconst : hc2 * Real.pi * α ^ 2 / 3 ≠ 0 := by have := Real.pi_pos; positivity
  have hcoef : 0 < t → 4 * m ^ 2 ≤ t → coefficientFunction α hc2 m t =
      .ok (.float (hc2 * Real.pi * α ^ 2 / 3 / t * (1 - 4 * m ^ 2 / t) ^ (3 / 2 : ℝ))) := by
    intro ht h4
    have hr : 0 ≤ 1 - 4 * m ^ 2 / t := by rw [sub_nonneg, div_le_one ht]; exact h4
    unfold coefficientFunction
    simp only [pyDivR_ok ht.ne', except_ok_bind]
    rw [if_neg (not_lt.mpr hr)]; rfl
  have hpos : 0 < t → 4 * m ^ 2 < t → 0 < hc2 * Real.pi * α ^ 2 / 3 / t * (1 - 4 * m ^ 2 / t) ^ (3 / 2 : ℝ) := by
    intro ht h4
    have hr : 0 < 1 - 4 * m ^ 2 / t := by rw [sub_pos, div_lt_one ht]; exact h4
    have := Real.pi_pos
    have := Real.rpow_pos_of_pos hr (3 / 2)
    positivity
  refine ⟨fun h => ?_, fun ht h4 => ?_, fun ht h4 => ?_, fun ht h4 hcs => ?_, fun ht h4 hcs => ?_⟩
  · subst h; unfold convertPoint coefficientFunction; simp only [pyDivR_zero, except_error_bind]
  · have hr : 1 - 4 * m ^ 2 / t < 0 := by rw [sub_neg, lt_div_iff₀ ht, one_mul]; exact h4
    have hc : coefficientFunction α hc2 m t =
        .ok (.cplx (((hc2 * Real.pi * α ^ 2 / 3 / t : ℝ) : ℂ) * ((1 - 4 * m ^ 2 / t : ℝ) : ℂ) ^ (3 / 2 : ℂ))) := by
      unfold coefficientFunction
      simp only [pyDivR_ok ht.ne', except_ok_bind]
      rw [if_pos hr]; rfl
    have hne : ((hc2 * Real.pi * α ^ 2 / 3 / t : ℝ) : ℂ) * ((1 - 4 * m ^ 2 / t : ℝ) : ℂ) ^ (3 / 2 : ℂ) ≠ 0 := by
      refine mul_ne_zero (by exact_mod_cast div_ne_zero hconst ht.ne') ?_
      rw [Ne, Complex.cpow_eq_zero_iff, not_and_or]
      left; exact_mod_cast hr.ne
    unfold convertPoint
    rw [hc, except_ok_bind]
    simp only
    rw [pyDiv_ok hne]; rfl
  · unfold convertPoint
    rw [hcoef ht h4.ge, except_ok_bind]
    simp only
    rw [h4, div_self (by rw [← h4]; exact ht.ne'), sub_self, Real.zero_rpow (by norm_num), mul_zero, pyDivR_zero]; rfl
  · unfold convertPoint
    rw [hcoef ht h4.le, except_ok_bind]
    simp only
    rw [pyDivR_ok (hpos ht h4).ne', except_ok_bind, pySqrt_neg (div_neg_of_neg_of_pos hcs (hpos ht h4))]; rfl
  · unfold convertPoint
    rw [hcoef ht h4.le, except_ok_bind]
    simp only
    rw [pyDivR_ok (hpos ht h4).ne', hcs, zero_div, except_ok_bind, pySqrt_ok le_rfl, Real.sqrt_zero, except_ok_bind, mul_zero,
      pyDivR_zero]; rfl

example : convertPoint 1 1 1 3 3 0.2 = .error .typeError ∧ convertPoint 1 1 1 5 (-1) 0.2 = .error .valueError :=
  ⟨(C32_exceptions 1 1 1 3 3 0.2 (by norm_num) (by norm_num)).2.1 (by norm_num) (by norm_num),
    (C32_exceptions 1 1 1 5 (-1) 0.2 (by norm_num) (by norm_num)).2.2.2.1 (by norm_num) (by norm_num) (by norm_num)⟩

/-- **C32** the whole table: when every row is above threshold with a positive cross section the loop finishes, row by row and in
order: `t` is kept, the modulus is positive, the cross section computed from it is that of the row, and the relative error of the
modulus is half that of the cross section. -/
theorem C32_table (α hc2 m : ℝ) (hα : α ≠ 0) (hh : 0 < hc2) (rows : List (ℝ × ℝ × ℝ))
    (h : ∀ r ∈ rows, 0 < r.1 ∧ 4 * m ^ 2 < r.1 ∧ 0 < r.2.1) :
    ∃ out, convertAll α hc2 m (rows.map (·.1)) (rows.map (·.2.1)) (rows.map (·.2.2)) = .ok out ∧
      List.Forall₂ (fun row new => new.1 = row.1 ∧ 0 < new.2.1 ∧
        (∀ (F : ℂ) (form_factor : ℂ → Except PyErr ℂ), form_factor (row.1 : ℝ) = .ok F → ‖F‖ = new.2.1 →
          (ScalarCS.init m α hc2).call form_factor (row.1 : ℝ) = .ok (row.2.1 : ℂ)) ∧
        new.2.2 / new.2.1 = row.2.2 / row.2.1 / 2) rows out := by
  unfold convertAll
  induction rows with
  | nil => exact ⟨[], rfl, .nil⟩
  | cons r rows ih =>
    obtain ⟨out, ho, hf⟩ := ih fun q hq => h q (List.mem_cons_of_mem _ hq)
    obtain ⟨h0, h4, hcs⟩ := h r List.mem_cons_self
    obtain ⟨ff, e, he, hpos, hcall⟩ := C32_round_trip α hc2 m r.1 r.2.1 r.2.2 hα hh h0 h4 hcs
    refine ⟨(r.1, ff, e) :: out, ?_, .cons ⟨rfl, hpos, hcall, ?_⟩ hf⟩
    · simp only [List.map_cons, List.zip_cons_cons, List.mapM_cons]
      rw [he, except_ok_bind, ho]; rfl
    · exact convertPoint_relative_error hα hh h0 h4 hcs he

example : ∀ r ∈ [((5 : ℝ), (2 : ℝ), (0.1 : ℝ)), (6, 3, 0.2)], 0 < r.1 ∧ 4 * (1 : ℝ) ^ 2 < r.1 ∧ 0 < r.2.1 := by
  intro r hr
  simp only [List.mem_cons, List.not_mem_nil, or_false] at hr
  rcases hr with rfl | rfl <;> norm_num

/-- **C32** if the loop stops, it stops with the exception of a row, and every row before that one converts. -/
theorem C32_first_failure (α hc2 m : ℝ) (rows : List (ℝ × ℝ × ℝ)) (e : PyErr)
    (h : convertAll α hc2 m (rows.map (·.1)) (rows.map (·.2.1)) (rows.map (·.2.2)) = .error e) :
    ∃ before r after, rows = before ++ r :: after ∧ convertPoint α hc2 m r.1 r.2.1 r.2.2 = .error e ∧
      ∀ q ∈ before, ∃ new, convertPoint α hc2 m q.1 q.2.1 q.2.2 = .ok new := by
  unfold convertAll at h
  induction rows with
  | nil => cases h
  | cons r rows ih =>
    simp only [List.map_cons, List.zip_cons_cons, List.mapM_cons] at h
    rcases hr : convertPoint α hc2 m r.1 r.2.1 r.2.2 with e' | new
    · rw [hr] at h
      injection h with h
      exact ⟨[], r, rows, rfl, by rw [hr, h], fun q hq => by cases hq⟩
    · rw [hr, except_ok_bind] at h
      have h' : ((rows.map (·.1)).zip ((rows.map (·.2.1)).zip (rows.map (·.2.2)))).mapM
          (fun p => convertPoint α hc2 m p.1 p.2.1 p.2.2) = .error e := by
        rcases hl : ((rows.map (·.1)).zip ((rows.map (·.2.1)).zip (rows.map (·.2.2)))).mapM
          (fun p => convertPoint α hc2 m p.1 p.2.1 p.2.2) with e' | l <;> rw [hl] at h
        · exact hl.trans h
        · cases h
      obtain ⟨before, q, after, rfl, hq, hb⟩ := ih h'
      refine ⟨r :: before, q, after, rfl, hq, fun x hx => ?_⟩
      rcases List.mem_cons.mp hx with rfl | hx
      · exact ⟨_, hr⟩
      · exact hb x hx

/-- A table whose second row is below threshold stops with the `TypeError` of that row. -/
example : convertAll 1 1 1 [5, 3] [2, 3] [0.1, 0.2] = .error .typeError := by
  obtain ⟨ff, e, he, -⟩ := C32_round_trip 1 1 1 5 2 0.1 (by norm_num) (by norm_num) (by norm_num) (by norm_num) (by norm_num)
  unfold convertAll
  simp only [List.zip_cons_cons, List.mapM_cons]
  rw [he, except_ok_bind, (C32_exceptions 1 1 1 3 3 0.2 (by norm_num) (by norm_num)).2.1 (by norm_num) (by norm_num)]
  rfl

/-! ### C33 -/

/-- **C33**, what holds: the effective form factor extracted from the nucleon cross section is, up to the factor `√(ħc²)`, the
usual combination of the moduli (which is `G` when both are `G`). The missing factor is the reason for `_partial`. -/
theorem C33_effective_form_factor_partial (m α hc2 t ge gm err : ℝ) (hm : m ≠ 0) (hα : α ≠ 0) (hh : 0 < hc2)
    (ht : 4 * m ^ 2 < t) (hge : 0 ≤ ge) (hgm : 0 < gm) :
    ∃ σ : ℝ, (NucleonCS.init m α hc2).formula t ge gm = .ok (σ : ℂ) ∧
      ∃ e, transformToEffectiveFormFactor m α σ err t =
        .ok (Real.sqrt hc2 * Real.sqrt ((2 * (t / (4 * m ^ 2)) * gm ^ 2 + ge ^ 2) / (2 * (t / (4 * m ^ 2)) + 1)), e) ∧
      (ge = gm → transformToEffectiveFormFactor m α σ err t = .ok (Real.sqrt hc2 * gm, e)) := by
  have hm2 : 0 < 4 * m ^ 2 := by positivity
  have ht0 : 0 < t := lt_trans hm2 ht
  have hr : 0 < 1 - 4 * m ^ 2 / t := by rw [sub_pos, div_lt_one ht0]; exact ht
  have hb := Real.sqrt_pos.mpr hr
  have hpi := Real.pi_pos
  refine ⟨_, NucleonCS.formula_real ht0 ht.le, ?_⟩
  have htau : t / (4 * m ^ 2) ≠ 0 := by positivity
  have hi : 1 / (t / (4 * m ^ 2)) = 4 * m ^ 2 / t := by field_simp
  have hden : 2 * Real.pi * α ^ 2 * Real.sqrt (1 - 4 * m ^ 2 / t) * (2 + 4 * m ^ 2 / t) ≠ 0 := by positivity
  have hval : 3 * t * (hc2 * (4 * Real.pi * α ^ 2 * Real.sqrt (1 - 4 * m ^ 2 / t) / (3 * t)) * (gm ^ 2 + 2 * m ^ 2 / t * ge ^ 2)) /
      (2 * Real.pi * α ^ 2 * Real.sqrt (1 - 4 * m ^ 2 / t) * (2 + 4 * m ^ 2 / t)) =
      hc2 * ((2 * (t / (4 * m ^ 2)) * gm ^ 2 + ge ^ 2) / (2 * (t / (4 * m ^ 2)) + 1)) := by
    generalize Real.sqrt (1 - 4 * m ^ 2 / t) = β at hb
    field_simp
    ring
  have hX : 0 < (2 * (t / (4 * m ^ 2)) * gm ^ 2 + ge ^ 2) / (2 * (t / (4 * m ^ 2)) + 1) := by positivity
  have hff : 0 < Real.sqrt hc2 * Real.sqrt ((2 * (t / (4 * m ^ 2)) * gm ^ 2 + ge ^ 2) / (2 * (t / (4 * m ^ 2)) + 1)) :=
    mul_pos (Real.sqrt_pos.mpr hh) (Real.sqrt_pos.mpr hX)
  have main : ∃ e, transformToEffectiveFormFactor m α (hc2 * (4 * Real.pi * α ^ 2 * Real.sqrt (1 - 4 * m ^ 2 / t) / (3 * t)) *
      (gm ^ 2 + 2 * m ^ 2 / t * ge ^ 2)) err t = .ok (Real.sqrt hc2 *
        Real.sqrt ((2 * (t / (4 * m ^ 2)) * gm ^ 2 + ge ^ 2) / (2 * (t / (4 * m ^ 2)) + 1)), e) := by
    refine ⟨0.5 * (3 * t * err / (2 * Real.pi * α ^ 2 * Real.sqrt (1 - 4 * m ^ 2 / t) * (2 + 4 * m ^ 2 / t))) / (Real.sqrt hc2 *
        Real.sqrt ((2 * (t / (4 * m ^ 2)) * gm ^ 2 + ge ^ 2) / (2 * (t / (4 * m ^ 2)) + 1))), ?_⟩
    unfold transformToEffectiveFormFactor
    rw [pyDivR_ok hm2.ne', except_ok_bind, pyDivR_ok htau, hi, except_ok_bind, pySqrt_ok hr.le, except_ok_bind]
    simp only [except_ok_bind]
    rw [pyDivR_ok hden, except_ok_bind, hval, pyDivR_ok hden, except_ok_bind, pySqrt_ok (by positivity), except_ok_bind,
      Real.sqrt_mul hh.le, pyDivR_ok hff.ne', except_ok_bind]
    rfl
  obtain ⟨e, he⟩ := main
  refine ⟨e, he, ?_⟩
  rintro rfl
  rw [he]
  have : (2 * (t / (4 * m ^ 2)) * ge ^ 2 + ge ^ 2) / (2 * (t / (4 * m ^ 2)) + 1) = ge ^ 2 := by
    have : 2 * (t / (4 * m ^ 2)) + 1 ≠ 0 := by positivity
    field_simp
  rw [this, Real.sqrt_sq hge]

example : ∃ σ e : ℝ, (NucleonCS.init 1 1 9).formula (5 : ℝ) 2 2 = .ok (σ : ℂ) ∧
    transformToEffectiveFormFactor 1 1 σ 1 5 = .ok (Real.sqrt 9 * 2, e) := by
  obtain ⟨σ, h, e, -, h'⟩ := C33_effective_form_factor_partial 1 1 9 5 2 2 1 (by norm_num) (by norm_num) (by norm_num) (by norm_num)
    (by norm_num) (by norm_num)
  exact ⟨σ, e, h, h' rfl⟩

/-- **C33** for `G = 0` there is no effective form factor at all: the error is divided by it. -/
theorem C33_zero_raises (m α hc2 t err : ℝ) (hm : m ≠ 0) (hα : α ≠ 0) (ht : 4 * m ^ 2 < t) :
    ∃ σ : ℝ, (NucleonCS.init m α hc2).formula t 0 0 = .ok (σ : ℂ) ∧ transformToEffectiveFormFactor m α σ err t = .error .zeroDivisionError := by
  have hm2 : 0 < 4 * m ^ 2 := by positivity
  have ht0 : 0 < t := lt_trans hm2 ht
  have hr : 0 < 1 - 4 * m ^ 2 / t := by rw [sub_pos, div_lt_one ht0]; exact ht
  have hb := Real.sqrt_pos.mpr hr
  have hpi := Real.pi_pos
  refine ⟨_, NucleonCS.formula_real ht0 ht.le, ?_⟩
  have htau : t / (4 * m ^ 2) ≠ 0 := by positivity
  have hi : 1 / (t / (4 * m ^ 2)) = 4 * m ^ 2 / t := by field_simp
  have hden : 2 * Real.pi * α ^ 2 * Real.sqrt (1 - 4 * m ^ 2 / t) * (2 + 4 * m ^ 2 / t) ≠ 0 := by positivity
  unfold transformToEffectiveFormFactor
  rw [pyDivR_ok hm2.ne', except_ok_bind, pyDivR_ok htau, hi, except_ok_bind, pySqrt_ok hr.le, except_ok_bind]
  simp only [except_ok_bind]
  rw [pyDivR_ok hden, except_ok_bind, pyDivR_ok hden, except_ok_bind]
  simp [pySqrt_ok le_rfl, pyDivR_zero]

example : ∃ σ : ℝ, (NucleonCS.init 1 1 4).formula (5 : ℝ) 0 0 = .ok (σ : ℂ) ∧ transformToEffectiveFormFactor 1 1 σ 1 5 = .error .zeroDivisionError :=
  C33_zero_raises 1 1 4 5 1 (by norm_num) (by norm_num) (by norm_num)

/-- **C33 is false** as stated: with `ħc² = 4`, `m = α = 1`, `t = 5`, `G = 1` the extracted effective form factor is 2. -/
theorem C33_false : ¬ ∀ (m α hc2 t G err σ ff e : ℝ), m ≠ 0 → α ≠ 0 → 0 < hc2 → 4 * m ^ 2 < t → 0 < G →
    (NucleonCS.init m α hc2).formula t G G = .ok (σ : ℂ) → transformToEffectiveFormFactor m α σ err t = .ok (ff, e) → ff = G := by
  intro h
  obtain ⟨σ, hσ, e, -, he⟩ := C33_effective_form_factor_partial 1 1 4 5 1 1 0 (by norm_num) (by norm_num) (by norm_num)
    (by norm_num) (by norm_num) (by norm_num)
  have := h 1 1 4 5 1 0 σ _ e (by norm_num) (by norm_num) (by norm_num) (by norm_num) (by norm_num) hσ (he rfl)
  rw [show (4 : ℝ) = 2 ^ 2 by norm_num, Real.sqrt_sq (by norm_num)] at this
  norm_num at this

/-! ### C34 -/

/-- **C34** kinematics: above threshold the momentum is the one of an energy `E = t/(2m) - m`, `E² = p² + m²`; exactly `0` at
threshold; `ValueError` strictly between `0` and threshold. -/
theorem C34_kinematics (m t : ℝ) (hm : 0 < m) :
    (4 * m ^ 2 ≤ t → ∃ p, labMomentum m t = .ok p ∧ 0 ≤ p ∧ (t / (2 * m) - m) ^ 2 = p ^ 2 + m ^ 2) ∧
    (labMomentum m (4 * m ^ 2) = .ok 0) ∧
    (labMomentum m t = .error .valueError ↔ 0 < t ∧ t < 4 * m ^ 2) ∧
    (∀ e, labMomentum m t = .error e → e = .valueError) := by
  have key : 0 ≤ t * (t - 4 * m ^ 2) → labMomentum m t = .ok (Real.sqrt (t * (t - 4 * m ^ 2)) / (2 * m)) := by
    intro h
    unfold labMomentum
    rw [pySqrt_ok h, except_ok_bind, pyDivR_ok (by positivity)]
  have key2 : t * (t - 4 * m ^ 2) < 0 → labMomentum m t = .error .valueError := by
    intro h
    unfold labMomentum
    rw [pySqrt_neg h]; rfl
  have hsign : t * (t - 4 * m ^ 2) < 0 ↔ 0 < t ∧ t < 4 * m ^ 2 := by
    have hm2 : 0 < 4 * m ^ 2 := by positivity
    rw [mul_neg_iff]
    constructor
    · rintro (⟨h1, h2⟩ | ⟨h1, h2⟩)
      · exact ⟨h1, by linarith⟩
      · linarith
    · rintro ⟨h1, h2⟩; left; exact ⟨h1, by linarith⟩
  refine ⟨fun h => ?_, ?_, ?_, ?_⟩
  · have hm2 : 0 < 4 * m ^ 2 := by positivity
    have h0 : 0 ≤ t * (t - 4 * m ^ 2) := mul_nonneg (by linarith) (by linarith)
    refine ⟨_, key h0, by positivity, ?_⟩
    rw [div_pow, Real.sq_sqrt h0]
    field_simp
    ring
  · unfold labMomentum
    rw [sub_self, mul_zero, pySqrt_ok le_rfl, except_ok_bind, pyDivR_ok (by positivity), Real.sqrt_zero, zero_div]
  · rw [← hsign]
    constructor
    · intro h
      by_contra h'
      rw [key (not_lt.mp h')] at h; cases h
    · exact key2
  · intro e he
    rcases lt_or_ge (t * (t - 4 * m ^ 2)) 0 with h | h
    · rw [key2 h] at he; injection he with he; exact he.symm
    · rw [key h] at he; cases he

example : labMomentum 1 4 = .ok 0 ∧ labMomentum 1 3 = .error .valueError := by
  have h := (C34_kinematics 1 3 (by norm_num)).2
  exact ⟨by simpa using h.1, h.2.1.mpr (by norm_num)⟩

/-- **C34** monotonicity above threshold. -/
theorem C34_monotone (m t t' p p' : ℝ) (hm : 0 < m) (h : 4 * m ^ 2 ≤ t) (hlt : t < t')
    (hp : labMomentum m t = .ok p) (hp' : labMomentum m t' = .ok p') : p < p' := by
  obtain ⟨q, hq, q0, hE⟩ := (C34_kinematics m t hm).1 h
  obtain ⟨q', hq', q0', hE'⟩ := (C34_kinematics m t' hm).1 (by linarith)
  rw [hq] at hp; injection hp with hp; subst hp
  rw [hq'] at hp'; injection hp' with hp'; subst hp'
  have h1 : m ≤ t / (2 * m) - m := by
    have : 2 * m ≤ t / (2 * m) := by rw [le_div_iff₀ (by positivity)]; nlinarith
    linarith
  have h2 : t / (2 * m) < t' / (2 * m) := div_lt_div_of_pos_right hlt (by positivity)
  nlinarith

example : ∃ p p', labMomentum 1 5 = .ok p ∧ labMomentum 1 6 = .ok p' ∧ p < p' := by
  obtain ⟨p, hp, -⟩ := (C34_kinematics 1 5 (by norm_num)).1 (by norm_num)
  obtain ⟨p', hp', -⟩ := (C34_kinematics 1 6 (by norm_num)).1 (by norm_num)
  exact ⟨p, p', hp, hp', C34_monotone 1 5 6 p p' (by norm_num) (by norm_num) (by norm_num) hp hp'⟩

/-! ### C61 -/

/-- **C61** undressing: the value is scaled by `(α₀/α_s)²`; squared relative errors add up (statistical, systematic, and twice
the relative error of `α_s`). -/
theorem C61_undress (α₀ α_s α_err cs stat : ℝ) (sys : Option ℝ) (h0 : α₀ ≠ 0) (hs : α_s ≠ 0) (hcs : cs ≠ 0) :
    ∃ e, undressCrossSectionMeasurement α₀ α_s α_err cs stat sys = .ok (cs * (α₀ / α_s) ^ 2, e) ∧
      (e / (cs * (α₀ / α_s) ^ 2)) ^ 2 = (2 * (α_err / α_s)) ^ 2 + (stat / cs) ^ 2 + (sys.getD 0 / cs) ^ 2 ∧
      (α₀ / α_s) ^ 2 * |stat| ≤ |e| ∧ (0 < cs → 0 ≤ e) ∧ (cs < 0 → e ≤ 0) := by
  have hf : (α₀ / α_s) ^ 2 ≠ 0 := by positivity
  obtain ⟨ce, hce, hce2⟩ : ∃ ce, ce = (match sys with | none => stat | some s => errorForAddition stat s) ∧
      ce ^ 2 = stat ^ 2 + (sys.getD 0) ^ 2 := by
    refine ⟨_, rfl, ?_⟩
    cases sys with
    | none => simp
    | some s => simp only [errorForAddition, Option.getD_some]; rw [Real.sq_sqrt (by positivity)]
  set S := (2 * ((α₀ / α_s) ^ 2 / α_s) * α_err / (α₀ / α_s) ^ 2) ^ 2 + (ce / cs) ^ 2 with hS
  have hS0 : 0 ≤ S := by positivity
  have hS1 : S = (2 * (α_err / α_s)) ^ 2 + (stat / cs) ^ 2 + (sys.getD 0 / cs) ^ 2 := by
    rw [hS, div_pow ce, hce2]
    field_simp
    ring
  refine ⟨(α₀ / α_s) ^ 2 * cs * Real.sqrt S, ?_, ?_, ?_, ?_, ?_⟩
  · unfold undressCrossSectionMeasurement errorForMultiplication
    simp only [pyDivR_ok hs, except_ok_bind, pyDivR_ok hf, pyDivR_ok hcs]
    subst hce; cases sys <;> rfl
  · rw [← hS1]
    have : (α₀ / α_s) ^ 2 * cs * Real.sqrt S / (cs * (α₀ / α_s) ^ 2) = Real.sqrt S := by field_simp
    rw [this, Real.sq_sqrt hS0]
  · rw [abs_mul, abs_mul, abs_of_nonneg (Real.sqrt_nonneg S), abs_of_nonneg (by positivity : 0 ≤ (α₀ / α_s) ^ 2), mul_assoc]
    refine mul_le_mul_of_nonneg_left ?_ (by positivity)
    have h1 : (|stat| / |cs|) ^ 2 ≤ S := by
      rw [hS1, ← abs_div, sq_abs]
      have := sq_nonneg (2 * (α_err / α_s))
      have := sq_nonneg (sys.getD 0 / cs)
      linarith
    have h2 : |stat| / |cs| ≤ Real.sqrt S := Real.le_sqrt_of_sq_le h1
    have h3 : 0 < |cs| := abs_pos.mpr hcs
    calc |stat| = |cs| * (|stat| / |cs|) := by field_simp
      _ ≤ _ := mul_le_mul_of_nonneg_left h2 h3.le
  · intro h; positivity
  · intro h
    exact mul_nonpos_of_nonpos_of_nonneg (mul_nonpos_of_nonneg_of_nonpos (by positivity) h.le) (Real.sqrt_nonneg S)

example : ∃ e, undressCrossSectionMeasurement 1 2 0.1 3 0.2 (some 0.3) = .ok (3 * (1 / 2) ^ 2, e) ∧ 0 ≤ e := by
  obtain ⟨e, h, -, -, h', -⟩ := C61_undress 1 2 0.1 3 0.2 (some 0.3) (by norm_num) (by norm_num) (by norm_num)
  exact ⟨e, h, h' (by norm_num)⟩

/-- **C61** with `α_s = α₀` the value is untouched. -/
theorem C61_identity (α α_err cs stat : ℝ) (sys : Option ℝ) (h : α ≠ 0) (hcs : cs ≠ 0) :
    ∃ e, undressCrossSectionMeasurement α α α_err cs stat sys = .ok (cs, e) := by
  obtain ⟨e, he, -⟩ := C61_undress α α α_err cs stat sys h h hcs
  refine ⟨e, ?_⟩
  rw [he, div_self h, one_pow, mul_one]

example : ∃ e, undressCrossSectionMeasurement 2 2 0.1 3 0.2 none = .ok (3, e) := C61_identity 2 0.1 3 0.2 none (by norm_num) (by norm_num)

/-- **C61** exceptions: `ZeroDivisionError` exactly when one of the three divisors vanishes, nothing else. -/
theorem C61_errors (α₀ α_s α_err cs stat : ℝ) (sys : Option ℝ) (e : PyErr) :
    undressCrossSectionMeasurement α₀ α_s α_err cs stat sys = .error e ↔
      e = .zeroDivisionError ∧ (α₀ = 0 ∨ α_s = 0 ∨ cs = 0) := by
  by_cases hs : α_s = 0
  · subst hs
    unfold undressCrossSectionMeasurement
    simp [pyDivR_zero, eq_comm]
  by_cases h0 : α₀ = 0
  · subst h0
    unfold undressCrossSectionMeasurement errorForMultiplication
    simp [pyDivR_ok hs, pyDivR_zero, eq_comm]
  by_cases hcs : cs = 0
  · subst hcs
    have hf : (α₀ / α_s) ^ 2 ≠ 0 := by positivity
    unfold undressCrossSectionMeasurement errorForMultiplication
    simp only [pyDivR_ok hs, except_ok_bind, pyDivR_ok hf, pyDivR_zero, except_error_bind]
    simp [eq_comm]
  · obtain ⟨v, hv, -⟩ := C61_undress α₀ α_s α_err cs stat sys h0 hs hcs
    rw [hv]
    simp [h0, hs, hcs]

example : undressCrossSectionMeasurement 1 2 0.1 0 0.2 none = .error .zeroDivisionError := (C61_errors 1 2 0.1 0 0.2 none _).mpr ⟨rfl, by simp⟩

end UA
