import Verif.Spec.FloatMap
import Verif.Lemmas.Maps

/-!
# Helper facts for property C107
-/

namespace UA

namespace FloatOps

variable {R : FloatOps} (L : R.Laws)
include L

namespace Laws

theorem zero_add (a b : R.F) (h : R.val a = 0) : R.val (R.add a b) = R.val b := by rw [L.add_comm, L.add_zero _ _ h]
theorem zero_mul (a b : R.F) (h : R.val a = 0) : R.val (R.mul a b) = 0 := by rw [L.mul_comm, L.mul_zero _ _ h]
theorem one_mul (a b : R.F) (h : R.val a = 1) : R.val (R.mul a b) = R.val b := by rw [L.mul_comm, L.mul_one _ _ h]
theorem sub_zero (a b : R.F) (h : R.val b = 0) : R.val (R.sub a b) = R.val a := L.add_zero _ _ (by rw [L.val_neg, h, _root_.neg_zero])
theorem add_congr {a a' b : R.F} (h : R.val a = R.val a') : R.val (R.add a b) = R.val (R.add a' b) :=
  le_antisymm (L.add_mono _ _ _ h.le) (L.add_mono _ _ _ h.ge)
theorem le_add (a b : R.F) (h : 0 ≤ R.val a) : R.val b ≤ R.val (R.add a b) := by
  rw [← L.zero_add R.zero b L.val_zero]; exact L.add_mono _ _ _ (by rw [L.val_zero]; exact h)
theorem add_le (a b : R.F) (h : R.val a ≤ 0) : R.val (R.add a b) ≤ R.val b := by
  rw [← L.zero_add R.zero b L.val_zero]; exact L.add_mono _ _ _ (by rw [L.val_zero]; exact h)
theorem mul_nonneg (a b : R.F) (ha : 0 < R.val a) (hb : 0 ≤ R.val b) : 0 ≤ R.val (R.mul a b) := by
  rcases hb.eq_or_lt with h | h
  · rw [L.mul_zero _ _ h.symm]
  · exact (L.mul_pos _ _ ha h).le
theorem sub_pos (a b : R.F) (h : R.val b < R.val a) : 0 < R.val (R.sub a b) := L.add_pos _ _ (by rw [L.val_neg]; linarith)
theorem sub_neg (a b : R.F) (h : R.val a < R.val b) : R.val (R.sub a b) < 0 := L.add_neg _ _ (by rw [L.val_neg]; linarith)
theorem sub_self (a b : R.F) (h : R.val a = R.val b) : R.val (R.sub a b) = 0 := L.add_cancel _ _ (by rw [L.val_neg]; linarith)
theorem div_nonneg (a b : R.F) (ha : 0 ≤ R.val a) (hb : 0 < R.val b) : 0 ≤ R.val (R.div a b) := by
  rcases ha.eq_or_lt with h | h
  · rw [L.div_zero _ _ h.symm hb.ne']
  · exact (L.div_pos _ _ h hb).le

/-- Division by a real number. -/
theorem cdiv_real {z w : R.Cx} (hi : R.val w.im = 0) (hr : R.val w.re ≠ 0) :
    ∃ q, R.cdiv z w = .ok q ∧ R.val q.re = R.val (R.div z.re w.re) ∧ R.val q.im = R.val (R.div z.im w.re) := by
  have hr0 : R.val (R.div w.im w.re) = 0 := L.div_zero _ _ hi hr
  have hd : R.val (R.add w.re (R.mul w.im (R.div w.im w.re))) = R.val w.re := L.add_zero _ _ (L.zero_mul _ _ hi)
  refine ⟨⟨R.div (R.add z.re (R.mul z.im (R.div w.im w.re))) (R.add w.re (R.mul w.im (R.div w.im w.re))),
    R.div (R.sub z.im (R.mul z.re (R.div w.im w.re))) (R.add w.re (R.mul w.im (R.div w.im w.re)))⟩, ?_, ?_, ?_⟩
  · unfold cdiv
    rw [if_pos (by rw [hi, abs_zero]; exact abs_nonneg _), if_neg hr]
  · exact L.div_congr _ _ _ _ (L.add_zero _ _ (L.mul_zero _ _ hr0)) hd
  · exact L.div_congr _ _ _ _ (L.sub_zero _ _ (L.mul_zero _ _ hr0)) hd

theorem half (phi : R.F) : ∃ h, R.cdiv (R.cmul ⟨R.zero, R.one⟩ (R.cx phi)) (R.cx R.two) = .ok h ∧ R.val h.re = 0 ∧
    R.val h.im = R.val (R.div phi R.two) := by
  obtain ⟨q, hq, h1, h2⟩ := L.cdiv_real (z := R.cmul ⟨R.zero, R.one⟩ (R.cx phi)) (w := R.cx R.two) L.val_zero L.val_two.ne'
  refine ⟨q, hq, ?_, ?_⟩
  · rw [h1]
    refine L.div_zero _ _ ?_ L.val_two.ne'
    show R.val (R.sub (R.mul R.zero phi) (R.mul R.one R.zero)) = 0
    rw [L.sub_zero _ _ (L.mul_zero _ _ L.val_zero), L.zero_mul _ _ L.val_zero]
  · rw [h2]
    refine L.div_congr _ _ _ _ ?_ rfl
    show R.val (R.add (R.mul R.zero R.zero) (R.mul R.one phi)) = _
    rw [L.zero_add _ _ (L.zero_mul _ _ L.val_zero), L.one_mul _ _ L.val_one]

/-- `square_root` with the angle that line 45-46 leaves. -/
theorem squareRoot_parts (z : R.Cx) : ∃ (phi X Y h : R.F) (w : R.Cx), R.squareRoot z = .ok w ∧
    (0 ≤ R.val (R.atan2 z.im z.re) → R.val phi = R.val (R.atan2 z.im z.re)) ∧
    (R.val (R.atan2 z.im z.re) = - R.val R.pi → R.val phi = R.val R.pi) ∧ R.val h = R.val (R.div phi R.two) ∧
    R.val X = R.val (R.cos h) ∧ R.val Y = R.val (R.sin h) ∧
    R.val w.re = R.val (R.mul (R.sqrt (R.hypot z.re z.im)) X) ∧ R.val w.im = R.val (R.mul (R.sqrt (R.hypot z.re z.im)) Y) := by
  obtain ⟨h, hh, h1, h2⟩ := L.half (open Classical in if R.val (R.atan2 z.im z.re) < 0 then R.add (R.mul R.two R.pi) (R.atan2 z.im z.re) else R.atan2 z.im z.re)
  refine ⟨_, (R.cexp h).re, (R.cexp h).im, h.im, R.cmul (R.cx (R.sqrt (R.hypot z.re z.im))) (R.cexp h), ?_, fun hp => ?_, fun hp => ?_, h2, ?_, ?_, ?_, ?_⟩
  · unfold squareRoot
    simp only [hh]
    rfl
  · rw [if_neg (not_lt.mpr hp)]
  · rw [if_pos (by rw [hp]; exact neg_neg_iff_pos.mpr L.pi_pos), L.two_pi _ hp]
  · exact L.one_mul _ _ (L.exp_zero _ h1)
  · exact L.one_mul _ _ (L.exp_zero _ h1)
  · exact L.sub_zero _ _ (L.zero_mul _ _ L.val_zero)
  · exact L.add_zero _ _ (L.zero_mul _ _ L.val_zero)

theorem root_right {z : R.Cx} (hi : R.val z.im = 0) (hr : 0 < R.val z.re) :
    ∃ w s, R.squareRoot z = .ok w ∧ R.val w.im = 0 ∧ R.val s = R.val z.re ∧ R.val w.re = R.val (R.sqrt s) := by
  obtain ⟨phi, X, Y, h, w, hw, hp, -, hh, hX, hY, h1, h2⟩ := L.squareRoot_parts z
  have ha := L.atan2_right _ _ hi hr
  have hphi : R.val phi = 0 := by rw [hp ha.ge, ha]
  have hh0 : R.val h = 0 := by rw [hh, L.div_zero _ _ hphi L.val_two.ne']
  refine ⟨w, R.hypot z.re z.im, hw, ?_, ?_, ?_⟩
  · rw [h2, L.mul_zero _ _ (by rw [hY, L.sin_zero _ hh0])]
  · rw [L.hypot_real _ _ hi, abs_of_pos hr]
  · rw [h1, L.mul_one _ _ (by rw [hX, L.cos_zero _ hh0])]

theorem root_zero {z : R.Cx} (hi : R.val z.im = 0) (hr : R.val z.re = 0) :
    ∃ w, R.squareRoot z = .ok w ∧ R.val w.im = 0 ∧ R.val w.re = 0 := by
  obtain ⟨phi, X, Y, h, w, hw, -, -, -, -, -, h1, h2⟩ := L.squareRoot_parts z
  have hs : R.val (R.sqrt (R.hypot z.re z.im)) = 0 := L.sqrt_zero _ (by rw [L.hypot_real _ _ hi, hr, abs_zero])
  exact ⟨w, hw, by rw [h2, L.zero_mul _ _ hs], by rw [h1, L.zero_mul _ _ hs]⟩

theorem quadrant {s X Y h phi : R.F} (hs : 0 < R.val s) (hp : 0 < R.val phi) (hp' : R.val phi ≤ R.val R.pi) (hh : R.val h = R.val (R.div phi R.two))
    (hX : R.val X = R.val (R.cos h)) (hY : R.val Y = R.val (R.sin h)) : 0 ≤ R.val (R.mul s X) ∧ 0 < R.val (R.mul s Y) := by
  have h1 : 0 < R.val h := by rw [hh]; exact L.div_pos _ _ hp L.val_two
  have h2 : R.val h ≤ R.val (R.div R.pi R.two) := by rw [hh]; exact L.div_mono _ _ _ L.val_two hp'
  exact ⟨L.mul_nonneg _ _ hs (by rw [hX]; exact L.cos_nonneg _ h1 h2), L.mul_pos _ _ hs (by rw [hY]; exact L.sin_pos _ h1 h2)⟩

theorem root_left {z : R.Cx} (hi : R.val z.im = 0) (hr : R.val z.re < 0) :
    ∃ w, R.squareRoot z = .ok w ∧ 0 ≤ R.val w.re ∧ 0 < R.val w.im := by
  obtain ⟨phi, X, Y, h, w, hw, hp, hp', hh, hX, hY, h1, h2⟩ := L.squareRoot_parts z
  have hphi : R.val phi = R.val R.pi := by
    rcases L.atan2_left _ _ hi hr with e | e
    · rw [hp (by rw [e]; exact L.pi_pos.le), e]
    · exact hp' e
  have hs : 0 < R.val (R.sqrt (R.hypot z.re z.im)) := L.sqrt_pos _ (by rw [L.hypot_real _ _ hi]; exact abs_pos.mpr hr.ne)
  have := L.quadrant hs (by rw [hphi]; exact L.pi_pos) hphi.le hh hX hY
  exact ⟨w, hw, by rw [h1]; exact this.1, by rw [h2]; exact this.2⟩

theorem root_upper {z : R.Cx} (hi : 0 < R.val z.im) : ∃ w, R.squareRoot z = .ok w ∧ 0 ≤ R.val w.re ∧ 0 < R.val w.im := by
  obtain ⟨phi, X, Y, h, w, hw, hp, hp', hh, hX, hY, h1, h2⟩ := L.squareRoot_parts z
  obtain ⟨ha, ha'⟩ := L.atan2_upper z.im z.re hi
  have hphi := hp ha.le
  have hs : 0 < R.val (R.sqrt (R.hypot z.re z.im)) := L.sqrt_pos _ (L.hypot_pos _ _ hi.ne')
  have := L.quadrant hs (by rw [hphi]; exact ha) (by rw [hphi]; exact ha') hh hX hY
  exact ⟨w, hw, by rw [h1]; exact this.1, by rw [h2]; exact this.2⟩

/-! ### The map -/

theorem csub_real {t : R.Cx} (ht : R.val t.im = 0) (t_0 : R.F) : R.val (R.csub t (R.cx t_0)).im = 0 ∧ (R.csub t (R.cx t_0)).re = R.sub t.re t_0 :=
  ⟨by show R.val (R.sub t.im R.zero) = 0; rw [L.sub_zero _ _ L.val_zero, ht], rfl⟩

theorem sqrt_nonneg (x : R.F) (h : 0 ≤ R.val x) : 0 ≤ R.val (R.sqrt x) := by
  rcases h.eq_or_lt with h | h
  · rw [L.sqrt_zero _ h.symm]
  · exact (L.sqrt_pos _ h).le

theorem sqrt_congr {x y : R.F} (h : R.val x = R.val y) (h0 : 0 ≤ R.val x) : R.val (R.sqrt x) = R.val (R.sqrt y) :=
  le_antisymm (L.sqrt_mono _ _ h0 h.le) (L.sqrt_mono _ _ (h ▸ h0) h.ge)

/-- The first root from `t_0` on. -/
theorem mapZ_above {t_0 : R.F} {t : R.Cx} (ht : R.val t.im = 0) (h : R.val t_0 ≤ R.val t.re) :
    ∃ z, R.mapZ t_0 t = .ok z ∧ R.val z.im = 0 ∧ R.val z.re = R.val (R.sqrt (R.sub t.re t_0)) := by
  obtain ⟨h1, h2⟩ := L.csub_real ht t_0
  rcases h.eq_or_lt with he | hlt
  · have h0 : R.val (R.sub t.re t_0) = 0 := L.sub_self _ _ he.symm
    obtain ⟨w, hw, hi, hr⟩ := L.root_zero h1 (by rw [h2]; exact h0)
    exact ⟨w, hw, hi, by rw [hr, L.sqrt_zero _ h0]⟩
  · obtain ⟨w, s, hw, hi, hs, hr⟩ := L.root_right h1 (by rw [h2]; exact L.sub_pos _ _ hlt)
    rw [h2] at hs
    exact ⟨w, hw, hi, by rw [hr]; exact L.sqrt_congr hs (by rw [hs]; exact (L.sub_pos _ _ hlt).le)⟩

theorem sub_le_sub {a b c : R.F} (h : R.val a ≤ R.val b) : R.val (R.sub a c) ≤ R.val (R.sub b c) := L.add_mono _ _ _ h

theorem sub_nonneg {a b : R.F} (h : R.val b ≤ R.val a) : 0 ≤ R.val (R.sub a b) := by
  rcases h.eq_or_lt with he | hlt
  · rw [L.sub_self _ _ he.symm]
  · exact (L.sub_pos _ _ hlt).le

/-- Numerator and denominator of the first Möbius transform for real `z`. -/
theorem transform_parts {t_0 t_in : R.F} {z : R.Cx} (hi : R.val z.im = 0) :
    R.val (R.cadd z (R.cx (R.a t_0 t_in))).im = 0 ∧ R.val (R.cadd (R.cneg z) (R.cx (R.a t_0 t_in))).im = 0 := by
  refine ⟨?_, ?_⟩
  · show R.val (R.add z.im R.zero) = 0
    rw [L.add_zero _ _ L.val_zero, hi]
  · show R.val (R.add (R.neg z.im) R.zero) = 0
    rw [L.add_zero _ _ L.val_zero, L.val_neg, hi, _root_.neg_zero]

theorem mapV_equal {t_0 t_in : R.F} {z : R.Cx} (hi : R.val z.im = 0) (he : R.val z.re = R.val (R.a t_0 t_in)) :
    R.mapV t_0 t_in z = .error .zeroDivisionError := by
  obtain ⟨-, h2⟩ := L.transform_parts (t_0 := t_0) (t_in := t_in) hi
  have h3 : R.val (R.cadd (R.cneg z) (R.cx (R.a t_0 t_in))).re = 0 :=
    L.add_cancel _ _ (by show R.val (R.neg z.re) + R.val (R.a t_0 t_in) = 0; rw [L.val_neg]; linarith)
  unfold mapV cdiv
  rw [if_pos (by rw [h2, h3]), if_pos h3]
  rfl

/-- Between the thresholds. -/
theorem mapV_between {t_0 t_in : R.F} {z : R.Cx} (hi : R.val z.im = 0) (h0 : 0 ≤ R.val z.re) (hlt : R.val z.re < R.val (R.a t_0 t_in)) :
    ∃ v, R.mapV t_0 t_in z = .ok v ∧ R.val v.im = 0 ∧ 1 ≤ R.val v.re := by
  obtain ⟨h1, h2⟩ := L.transform_parts (t_0 := t_0) (t_in := t_in) hi
  have hd : 0 < R.val (R.cadd (R.cneg z) (R.cx (R.a t_0 t_in))).re :=
    L.add_pos _ _ (by show 0 < R.val (R.neg z.re) + R.val (R.a t_0 t_in); rw [L.val_neg]; linarith)
  have hd' : R.val (R.cadd (R.cneg z) (R.cx (R.a t_0 t_in))).re ≤ R.val (R.a t_0 t_in) := L.add_le _ _ (by show R.val (R.neg z.re) ≤ 0; rw [L.val_neg]; linarith)
  have hn : R.val (R.a t_0 t_in) ≤ R.val (R.cadd z (R.cx (R.a t_0 t_in))).re := L.le_add _ _ h0
  obtain ⟨q, hq, q1, q2⟩ := L.cdiv_real (z := R.cadd z (R.cx (R.a t_0 t_in))) h2 hd.ne'
  have hq1 : 1 ≤ R.val q.re := by rw [q1]; exact L.one_le_div _ _ hd (hd'.trans hn)
  have hq2 : R.val q.im = 0 := by rw [q2]; exact L.div_zero _ _ h1 hd.ne'
  obtain ⟨w, s, hw, w1, w2, w3⟩ := L.root_right hq2 (by linarith)
  refine ⟨w, ?_, w1, ?_⟩
  · unfold mapV; rw [hq]; exact hw
  · rw [w3, ← L.sqrt_one R.one L.val_one]
    exact L.sqrt_mono _ _ (by rw [L.val_one]; exact zero_le_one) (by rw [L.val_one, w2]; exact hq1)

/-- Above both thresholds. -/
theorem mapV_above {t_0 t_in : R.F} {z : R.Cx} (hi : R.val z.im = 0) (h0 : 0 < R.val (R.a t_0 t_in)) (hlt : R.val (R.a t_0 t_in) < R.val z.re) :
    ∃ v, R.mapV t_0 t_in z = .ok v ∧ 0 ≤ R.val v.re ∧ 0 < R.val v.im := by
  obtain ⟨h1, h2⟩ := L.transform_parts (t_0 := t_0) (t_in := t_in) hi
  have hd : R.val (R.cadd (R.cneg z) (R.cx (R.a t_0 t_in))).re < 0 :=
    L.add_neg _ _ (by show R.val (R.neg z.re) + R.val (R.a t_0 t_in) < 0; rw [L.val_neg]; linarith)
  have hn : 0 < R.val (R.cadd z (R.cx (R.a t_0 t_in))).re := L.add_pos _ _ (by show 0 < R.val z.re + R.val (R.a t_0 t_in); linarith)
  obtain ⟨q, hq, q1, q2⟩ := L.cdiv_real (z := R.cadd z (R.cx (R.a t_0 t_in))) h2 hd.ne
  obtain ⟨w, hw, w1, w2⟩ := L.root_left (z := q) (by rw [q2]; exact L.div_zero _ _ h1 hd.ne) (by rw [q1]; exact L.div_neg _ _ hn hd)
  refine ⟨w, ?_, w1, w2⟩
  unfold mapV; rw [hq]; exact hw

/-- Upper half plane, at most `a` to the right. -/
theorem mapV_upper {t_0 t_in : R.F} {z : R.Cx} (ha : 0 < R.val (R.a t_0 t_in)) (hi : 0 < R.val z.im) (h0 : 0 ≤ R.val z.re)
    (hle : R.val z.re ≤ R.val (R.a t_0 t_in)) : ∃ v, R.mapV t_0 t_in z = .ok v ∧ 0 ≤ R.val v.re ∧ 0 < R.val v.im := by
  set n := R.cadd z (R.cx (R.a t_0 t_in)) with hn
  set d := R.cadd (R.cneg z) (R.cx (R.a t_0 t_in)) with hd
  have n1 : 0 < R.val n.re := L.add_pos _ _ (by show 0 < R.val z.re + R.val (R.a t_0 t_in); linarith)
  have n2 : 0 < R.val n.im := by show 0 < R.val (R.add z.im R.zero); rw [L.add_zero _ _ L.val_zero]; exact hi
  have d2 : R.val d.im < 0 := by
    show R.val (R.add (R.neg z.im) R.zero) < 0
    rw [L.add_zero _ _ L.val_zero, L.val_neg]; linarith
  have d1 : 0 ≤ R.val d.re := by
    rcases hle.eq_or_lt with he | hlt
    · exact (L.add_cancel _ _ (by show R.val (R.neg z.re) + R.val (R.a t_0 t_in) = 0; rw [L.val_neg]; linarith)).ge
    · exact (L.add_pos _ _ (by show 0 < R.val (R.neg z.re) + R.val (R.a t_0 t_in); rw [L.val_neg]; linarith)).le
  have key : ∃ q, R.cdiv n d = .ok q ∧ 0 < R.val q.im := by
    unfold cdiv
    by_cases hc : |R.val d.im| ≤ |R.val d.re|
    · have hpos : 0 < R.val d.re := by
        rcases d1.eq_or_lt with h | h
        · rw [← h, abs_zero] at hc
          exact absurd (abs_pos.mpr d2.ne) (not_lt.mpr hc)
        · exact h
      rw [if_pos hc, if_neg hpos.ne']
      refine ⟨_, rfl, ?_⟩
      have hr : R.val (R.div d.im d.re) < 0 := L.neg_div _ _ d2 hpos
      have m1 : R.val (R.mul n.re (R.div d.im d.re)) < 0 := L.mul_neg _ _ n1 hr
      have m2 : 0 < R.val (R.mul d.im (R.div d.im d.re)) := L.neg_mul_neg _ _ d2 hr
      exact L.div_pos _ _ (L.sub_pos _ _ (by linarith)) (L.add_pos _ _ (by linarith))
    · rw [if_neg hc]
      refine ⟨_, rfl, ?_⟩
      have hr : R.val (R.div d.re d.im) ≤ 0 := by
        rcases d1.eq_or_lt with h | h
        · rw [L.div_zero _ _ h.symm d2.ne]
        · exact (L.div_neg _ _ h d2).le
      have m1 : R.val (R.mul n.im (R.div d.re d.im)) ≤ 0 := by
        rcases hr.eq_or_lt with h | h
        · rw [L.mul_zero _ _ h]
        · exact (L.mul_neg _ _ n2 h).le
      have m2 : R.val (R.mul d.re (R.div d.re d.im)) ≤ 0 := by
        rcases d1.eq_or_lt with h | h
        · rw [L.zero_mul _ _ h.symm]
        · exact (L.mul_neg _ _ h (L.div_neg _ _ h d2)).le
      exact L.neg_div_neg _ _ (L.sub_neg _ _ (by linarith)) (L.add_neg _ _ (by linarith))
  obtain ⟨q, hq, q2⟩ := key
  obtain ⟨w, hw, w1, w2⟩ := L.root_upper q2
  refine ⟨w, ?_, w1, w2⟩
  unfold mapV; rw [← hn, ← hd, hq]; exact hw

/-- The last step for a real number at least one. -/
theorem mapW_real {v : R.Cx} (hi : R.val v.im = 0) (h1 : 1 ≤ R.val v.re) :
    ∃ w, R.mapW v = .ok w ∧ R.val w.re = 0 ∧ 0 ≤ R.val w.im ∧ R.val w.im ≤ 1 := by
  set d := R.cadd v (R.cx R.one) with hd
  set n := R.cmul ⟨R.zero, R.one⟩ (R.csub v (R.cx R.one)) with hn
  have d1 : R.val v.re ≤ R.val d.re := by
    show _ ≤ R.val (R.add v.re R.one)
    rw [L.add_comm]; exact L.le_add _ _ (by rw [L.val_one]; exact zero_le_one)
  have d2 : R.val d.im = 0 := by show R.val (R.add v.im R.zero) = 0; rw [L.add_zero _ _ L.val_zero, hi]
  have hd0 : 0 < R.val d.re := by linarith
  have n1 : R.val n.re = 0 := by
    show R.val (R.sub (R.mul R.zero (R.sub v.re R.one)) (R.mul R.one (R.sub v.im R.zero))) = 0
    rw [L.sub_zero _ _ (L.mul_zero _ _ (by rw [L.sub_zero _ _ L.val_zero, hi])), L.zero_mul _ _ L.val_zero]
  have n2 : R.val n.im = R.val (R.sub v.re R.one) := by
    show R.val (R.add (R.mul R.zero (R.sub v.im R.zero)) (R.mul R.one (R.sub v.re R.one))) = _
    rw [L.zero_add _ _ (L.zero_mul _ _ L.val_zero), L.one_mul _ _ L.val_one]
  have n3 : 0 ≤ R.val n.im := by rw [n2]; exact L.sub_nonneg (by rw [L.val_one]; exact h1)
  have n4 : R.val n.im ≤ R.val d.re := by
    rw [n2]
    refine le_trans ?_ d1
    show R.val (R.add v.re (R.neg R.one)) ≤ _
    rw [L.add_comm]; exact L.add_le _ _ (by rw [L.val_neg, L.val_one]; norm_num)
  obtain ⟨q, hq, q1, q2⟩ := L.cdiv_real (z := n) d2 hd0.ne'
  refine ⟨q, ?_, ?_, ?_, ?_⟩
  · unfold mapW; rw [← hn, ← hd, hq]
  · rw [q1, L.div_zero _ _ n1 hd0.ne']
  · rw [q2]; exact L.div_nonneg _ _ n3 hd0
  · rw [q2]; exact L.div_le_one _ _ hd0 n4

/-- The last step cannot fail in the right half-plane. -/
theorem mapW_ok {v : R.Cx} (h : 0 ≤ R.val v.re) : ∃ w, R.mapW v = .ok w := by
  have d1 : 0 < R.val (R.cadd v (R.cx R.one)).re := by
    show 0 < R.val (R.add v.re R.one)
    exact L.add_pos _ _ (by rw [L.val_one]; linarith)
  unfold mapW cdiv
  split_ifs with h1 h2
  · exact absurd h2 d1.ne'
  · exact ⟨_, rfl⟩
  · exact ⟨_, rfl⟩

theorem a_pos {t_0 t_in : R.F} (h : R.val t_0 < R.val t_in) : 0 < R.val (R.a t_0 t_in) := L.sqrt_pos _ (L.sub_pos _ _ h)

/-- The first root below `t_0`. -/
theorem mapZ_below {t_0 : R.F} {t : R.Cx} (ht : R.val t.im = 0) (h : R.val t.re < R.val t_0) :
    ∃ z, R.mapZ t_0 t = .ok z ∧ 0 ≤ R.val z.re ∧ 0 < R.val z.im := by
  obtain ⟨h1, h2⟩ := L.csub_real ht t_0
  exact L.root_left h1 (by rw [h2]; exact L.sub_neg _ _ h)

end Laws

end FloatOps

end UA
