import Verif.Spec.FloatMap
import Verif.Lemmas.Maps

/-!
# Helper facts for property C107: the float model in exact arithmetic
-/

namespace UA

open Complex

/-- A complex number as a pair of exact numbers. -/
def pair (z : ℂ) : exactOps.Cx := ⟨z.re, z.im⟩

theorem pair_inj {z w : ℂ} (h : pair z = pair w) : z = w := by
  have h1 : z.re = w.re := congrArg FloatOps.Cx.re h
  have h2 : z.im = w.im := congrArg FloatOps.Cx.im h
  exact Complex.ext h1 h2

theorem point_pair (z : ℂ) : exactOps.point (pair z) = z := rfl
theorem pair_point (z : exactOps.Cx) : pair (exactOps.point z) = z := rfl

theorem pair_ext {z : ℂ} {w : exactOps.Cx} (h1 : w.re = z.re) (h2 : w.im = z.im) : w = pair z := by
  cases w; cases h1; cases h2; rfl

theorem exact_sub (a b : ℝ) : exactOps.sub a b = (a - b : ℝ) := (sub_eq_add_neg a b).symm
theorem exact_cx (a : ℝ) : exactOps.cx a = pair (a : ℂ) := rfl
theorem exact_csub (z w : ℂ) : exactOps.csub (pair z) (pair w) = pair (z - w) := pair_ext (exact_sub _ _) (exact_sub _ _)
theorem exact_cadd (z w : ℂ) : exactOps.cadd (pair z) (pair w) = pair (z + w) := rfl
theorem exact_cneg (z : ℂ) : exactOps.cneg (pair z) = pair (-z) := rfl
theorem exact_cmul (z w : ℂ) : exactOps.cmul (pair z) (pair w) = pair (z * w) := pair_ext (exact_sub _ _) rfl
theorem exact_cexp (z : ℂ) : exactOps.cexp (pair z) = pair (Complex.exp z) :=
  pair_ext (Complex.exp_re z).symm (Complex.exp_im z).symm

/-- Division by the larger component first is division. -/
theorem exact_cdiv (z w : ℂ) : exactOps.cdiv (pair z) (pair w) = (pyDiv z w).map pair := by
  have hq : ∀ {q : ℂ}, w ≠ 0 → q * w = z → (pyDiv z w).map pair = .ok (pair q) := fun {q} hw h => by
    rw [pyDiv_ok hw, eq_div_of_mul_eq hw h]; rfl
  unfold FloatOps.cdiv
  show (if |w.im| ≤ |w.re| then (if w.re = 0 then Except.error PyErr.zeroDivisionError else _) else _) = _
  by_cases hle : |w.im| ≤ |w.re|
  · rw [if_pos hle]
    by_cases hr : w.re = 0
    · have hi : w.im = 0 := by rw [hr, abs_zero] at hle; exact abs_eq_zero.mp (le_antisymm hle (abs_nonneg _))
      have hw : w = 0 := Complex.ext hr hi
      rw [if_pos hr, hw, pyDiv_zero]; rfl
    · rw [if_neg hr]
      have hw : w ≠ 0 := fun h => hr (by rw [h]; rfl)
      have hd : w.re + w.im * (w.im / w.re) ≠ 0 := by
        have : w.re * (w.re + w.im * (w.im / w.re)) = w.re ^ 2 + w.im ^ 2 := by field_simp
        intro h0
        rw [h0, mul_zero] at this
        have := sq_nonneg w.im
        have h2 : 0 < w.re ^ 2 := by positivity
        linarith
      refine Eq.symm (hq (q := ⟨(z.re + z.im * (w.im / w.re)) / (w.re + w.im * (w.im / w.re)),
        (z.im + -(z.re * (w.im / w.re))) / (w.re + w.im * (w.im / w.re))⟩) hw ?_)
      apply Complex.ext
      · rw [mul_re]; field_simp; ring
      · rw [mul_im]; field_simp; ring
  · rw [if_neg hle]
    have hi : w.im ≠ 0 := fun h => hle (by rw [h, abs_zero]; exact abs_nonneg _)
    have hw : w ≠ 0 := fun h => hi (by rw [h]; rfl)
    have hd : w.re * (w.re / w.im) + w.im ≠ 0 := by
      have : w.im * (w.re * (w.re / w.im) + w.im) = w.re ^ 2 + w.im ^ 2 := by field_simp
      intro h0
      rw [h0, mul_zero] at this
      have := sq_nonneg w.re
      have h2 : 0 < w.im ^ 2 := by positivity
      linarith
    refine Eq.symm (hq (q := ⟨(z.re * (w.re / w.im) + z.im) / (w.re * (w.re / w.im) + w.im),
      (z.im * (w.re / w.im) + -z.re) / (w.re * (w.re / w.im) + w.im)⟩) hw ?_)
    apply Complex.ext
    · rw [mul_re]; field_simp; ring
    · rw [mul_im]; field_simp; ring

theorem exact_squareRoot (z : ℂ) : exactOps.squareRoot (pair z) = .ok (pair (squareRoot z)) := by
  unfold FloatOps.squareRoot
  have hphi : (open Classical in if exactOps.val (exactOps.atan2 z.im z.re) < 0 then
      exactOps.add (exactOps.mul exactOps.two exactOps.pi) (exactOps.atan2 z.im z.re) else exactOps.atan2 z.im z.re) = ang z := by
    unfold ang
    by_cases h : z.arg < 0
    · rw [if_pos h]; exact if_pos h
    · rw [if_neg h]; exact if_neg h
  have hI : (⟨exactOps.zero, exactOps.one⟩ : exactOps.Cx) = pair I := rfl
  simp only
  rw [show (pair z).re = z.re from rfl, show (pair z).im = z.im from rfl, hphi, hI, exact_cx, exact_cmul,
    show exactOps.cx exactOps.two = pair 2 from pair_ext rfl rfl, exact_cdiv, pyDiv_ok two_ne_zero]
  show Except.ok (exactOps.cmul (exactOps.cx (Real.sqrt ‖z‖)) (exactOps.cexp (pair (I * (ang z : ℂ) / 2)))) = _
  rw [exact_cexp, exact_cx, exact_cmul, squareRoot_eq, show I * (ang z : ℂ) / 2 = ((ang z / 2 : ℝ) : ℂ) * I by push_cast; ring]

theorem exact_mapTtoW (t_0 t_in : ℝ) (t : ℂ) : exactOps.mapTtoW t_0 t_in (pair t) = ((mkTtoW t_0 t_in).call t).map pair := by
  have ha : exactOps.a t_0 t_in = Real.sqrt (t_in - t_0) := by
    show Real.sqrt (t_in + -t_0) = _
    rw [← sub_eq_add_neg]
  have hI : (⟨exactOps.zero, exactOps.one⟩ : exactOps.Cx) = pair I := rfl
  have h1 : exactOps.cx exactOps.one = pair 1 := pair_ext rfl rfl
  unfold FloatOps.mapTtoW FloatOps.mapZ FloatOps.mapV FloatOps.mapW
  rw [exact_cx, exact_csub, exact_squareRoot, except_ok_bind]
  simp only [MapFromTtoW.call, mkTtoW]
  rw [ha, exact_cx, exact_cneg, exact_cadd, exact_cadd, exact_cdiv]
  rcases pyDiv (squareRoot (t - (t_0 : ℂ)) + (Real.sqrt (t_in - t_0) : ℂ)) (-squareRoot (t - (t_0 : ℂ)) + (Real.sqrt (t_in - t_0) : ℂ)) with e | q
  · rfl
  · show (exactOps.squareRoot (pair q) >>= _) = _
    rw [exact_squareRoot, except_ok_bind, hI, h1, exact_csub, exact_cadd, exact_cmul, exact_cdiv]
    rfl

end UA
