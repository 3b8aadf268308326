import Verif.Lemmas.FloatMap
import Verif.Lemmas.FloatRounding
import Verif.Lemmas.FloatExact

/-!
# C107: the map from t to W on the real axis in floating-point arithmetic

The theorems hold for every arithmetic with the laws of `FloatOps.Laws`, whatever its precision and whatever the sign of a zero imaginary
part; `C107_double` says that double precision (without overflow and underflow) is one, and `C107_exact` that in exact arithmetic the
float program is the one the rest of the model is about.
-/

namespace UA

open FloatOps

/-- C107, part 1. From `t_0` up to the threshold `t_in`: the result lies exactly on the imaginary axis between `0` and `i`; or the two
computed square roots `√(t - t_0)` and `√(t_in - t_0)` coincide and the call raises `ZeroDivisionError`. -/
theorem C107_below_threshold {R : FloatOps} (L : R.Laws) {t_0 t_in : R.F} {t : R.Cx} (ht : R.val t.im = 0) (h0 : R.val t_0 ≤ R.val t.re)
    (h : R.val t.re < R.val t_in) :
    (R.val (R.sqrt (R.sub t.re t_0)) = R.val (R.sqrt (R.sub t_in t_0)) ∧ R.mapTtoW t_0 t_in t = .error .zeroDivisionError) ∨
    (R.val (R.sqrt (R.sub t.re t_0)) < R.val (R.sqrt (R.sub t_in t_0)) ∧
      ∃ w, R.mapTtoW t_0 t_in t = .ok w ∧ R.val w.re = 0 ∧ 0 ≤ R.val w.im ∧ R.val w.im ≤ 1) := by
  obtain ⟨z, hz, z1, z2⟩ := L.mapZ_above ht h0
  have hs : 0 ≤ R.val (R.sub t.re t_0) := L.sub_nonneg h0
  unfold mapTtoW
  rw [hz]
  rcases (L.sqrt_mono _ _ hs (L.sub_le_sub (c := t_0) h.le)).eq_or_lt with he | hlt
  · left
    refine ⟨he, ?_⟩
    rw [except_ok_bind, L.mapV_equal z1 (by rw [z2, he]; rfl)]
    rfl
  · right
    obtain ⟨v, hv, v1, v2⟩ := L.mapV_between (t_0 := t_0) (t_in := t_in) z1 (by rw [z2]; exact L.sqrt_nonneg _ hs) (by rw [z2]; exact hlt)
    obtain ⟨w, hw, w1, w2, w3⟩ := L.mapW_real v1 v2
    exact ⟨hlt, w, by rw [except_ok_bind, hv, except_ok_bind, hw], w1, w2, w3⟩

/-- In double precision `t_0 = 1/2`, `t_in = 3/2`, `t = 1 - 0.0i`. -/
example : doubleOps.val minusZero = 0 ∧ doubleOps.val dHalf ≤ doubleOps.val doubleOps.one ∧
    doubleOps.val doubleOps.one < doubleOps.val dThreeHalves := by
  rw [dHalf_val, dThreeHalves_val, doubleOps_laws.val_one]; exact ⟨rfl, by norm_num, by norm_num⟩

/-- C107, part 2. At the threshold the call raises `ZeroDivisionError`, as in exact arithmetic. -/
theorem C107_at_threshold {R : FloatOps} (L : R.Laws) {t_0 t_in : R.F} {t : R.Cx} (ht : R.val t.im = 0) (h0 : R.val t_0 ≤ R.val t_in)
    (h : R.val t.re = R.val t_in) : R.mapTtoW t_0 t_in t = .error .zeroDivisionError := by
  obtain ⟨z, hz, z1, z2⟩ := L.mapZ_above ht (t_0 := t_0) (h ▸ h0)
  unfold mapTtoW
  rw [hz, except_ok_bind, L.mapV_equal z1 (by
    rw [z2]
    exact L.sqrt_congr (le_antisymm (L.sub_le_sub h.le) (L.sub_le_sub h.ge)) (L.sub_nonneg (h ▸ h0)))]
  rfl

/-- In double precision `t_0 = 1/2`, `t = t_in = 3/2`. -/
example : doubleOps.mapTtoW dHalf dThreeHalves ⟨dThreeHalves, minusZero⟩ = .error .zeroDivisionError :=
  C107_at_threshold doubleOps_laws rfl (by rw [dHalf_val, dThreeHalves_val]; norm_num) rfl

/-- C107, part 3. Above the threshold the second square root is taken in the upper half-plane, on the branch that the sign of a zero does
not change: its value has a positive imaginary part and a real part that is not negative, and the call succeeds; unless the two computed
square roots coincide. -/
theorem C107_above_threshold {R : FloatOps} (L : R.Laws) {t_0 t_in : R.F} {t : R.Cx} (ht : R.val t.im = 0) (h0 : R.val t_0 < R.val t_in)
    (h : R.val t_in < R.val t.re) :
    (R.val (R.sqrt (R.sub t.re t_0)) = R.val (R.sqrt (R.sub t_in t_0)) ∧ R.mapTtoW t_0 t_in t = .error .zeroDivisionError) ∨
    (R.val (R.sqrt (R.sub t_in t_0)) < R.val (R.sqrt (R.sub t.re t_0)) ∧
      ∃ z v w, R.mapZ t_0 t = .ok z ∧ R.val z.im = 0 ∧ R.mapV t_0 t_in z = .ok v ∧ 0 ≤ R.val v.re ∧ 0 < R.val v.im ∧
        R.mapTtoW t_0 t_in t = .ok w) := by
  obtain ⟨z, hz, z1, z2⟩ := L.mapZ_above ht (t_0 := t_0) (by linarith)
  have hs : 0 ≤ R.val (R.sub t_in t_0) := L.sub_nonneg h0.le
  rcases (L.sqrt_mono _ _ hs (L.sub_le_sub (c := t_0) h.le)).eq_or_lt with he | hlt
  · left
    refine ⟨he.symm, ?_⟩
    unfold mapTtoW
    rw [hz, except_ok_bind, L.mapV_equal z1 (by rw [z2, ← he]; rfl)]
    rfl
  · right
    obtain ⟨v, hv, v1, v2⟩ := L.mapV_above (t_0 := t_0) (t_in := t_in) z1 (L.a_pos h0) (by rw [z2]; exact hlt)
    obtain ⟨w, hw⟩ := L.mapW_ok v1
    exact ⟨hlt, z, v, w, hz, z1, hv, v1, v2, by unfold mapTtoW; rw [hz, except_ok_bind, hv, except_ok_bind, hw]⟩

/-- In double precision `t_0 = 1/4`, `t_in = 1/2`, `t = 3/2 - 0.0i`. -/
example : doubleOps.val minusZero = 0 ∧ doubleOps.val dQuarter < doubleOps.val dHalf ∧ doubleOps.val dHalf < doubleOps.val dThreeHalves := by
  rw [dHalf_val, dThreeHalves_val, dQuarter_val]; exact ⟨rfl, by norm_num, by norm_num⟩

/-- C107, part 4. Below `t_0` the first square root is taken on the same branch: its value has a positive imaginary part and a real part
that is not negative, whatever the sign of the zero imaginary part of `t`. As long as that real part, a rounding error, does not exceed
the computed `√(t_in - t_0)`, the second square root is taken in the upper half-plane as well and the call succeeds. -/
theorem C107_spacelike {R : FloatOps} (L : R.Laws) {t_0 t_in : R.F} {t : R.Cx} (ht : R.val t.im = 0) (h0 : R.val t_0 < R.val t_in)
    (h : R.val t.re < R.val t_0) :
    ∃ z, R.mapZ t_0 t = .ok z ∧ 0 ≤ R.val z.re ∧ 0 < R.val z.im ∧
      (R.val z.re ≤ R.val (R.sqrt (R.sub t_in t_0)) →
        ∃ v w, R.mapV t_0 t_in z = .ok v ∧ 0 ≤ R.val v.re ∧ 0 < R.val v.im ∧ R.mapTtoW t_0 t_in t = .ok w) := by
  obtain ⟨z, hz, z1, z2⟩ := L.mapZ_below ht h
  refine ⟨z, hz, z1, z2, fun hle => ?_⟩
  obtain ⟨v, hv, v1, v2⟩ := L.mapV_upper (t_0 := t_0) (t_in := t_in) (L.a_pos h0) z2 z1 hle
  obtain ⟨w, hw⟩ := L.mapW_ok v1
  exact ⟨v, w, hv, v1, v2, by unfold mapTtoW; rw [hz, except_ok_bind, hv, except_ok_bind, hw]⟩

/-- In double precision `t_0 = 1/2`, `t_in = 3/2`, `t = 1/4 - 0.0i`; the last condition holds as well. -/
example : doubleOps.val minusZero = 0 ∧ doubleOps.val dHalf < doubleOps.val dThreeHalves ∧ doubleOps.val dQuarter < doubleOps.val dHalf ∧
    ∀ z, doubleOps.mapZ dHalf ⟨dQuarter, minusZero⟩ = .ok z → doubleOps.val z.re ≤ doubleOps.val (doubleOps.sqrt (doubleOps.sub dThreeHalves dHalf)) := by
  have h : doubleOps.val dQuarter < doubleOps.val dHalf := by rw [dHalf_val, dQuarter_val]; norm_num
  refine ⟨rfl, by rw [dHalf_val, dThreeHalves_val]; norm_num, h, fun z hz => double_re_le (by rfl) h ?_ hz⟩
  show doubleOps.val dHalf - doubleOps.val dQuarter ≤ _
  rw [dHalf_val, dThreeHalves_val, dQuarter_val]; norm_num

/-- C107, part 5. Double precision, rounding to nearest with ties to even and with signed zeros, has the laws; its `pi` is the float of
`math.pi`. (Overflow and underflow are left out; the functions of the C library are taken to be correctly rounded.) -/
theorem C107_double : doubleOps.Laws ∧ doubleOps.val doubleOps.pi = 7074237752028440 / 2 ^ 51 := ⟨doubleOps_laws, roundDouble_pi.1⟩

/-- C107, part 4 in double precision: the condition on the rounding error holds unless `t` is `2 ^ 106` times farther from `t_0` than
`t_in` is. -/
theorem C107_spacelike_double {t_0 t_in : doubleOps.F} {t : doubleOps.Cx} (ht : doubleOps.val t.im = 0) (h0 : doubleOps.val t_0 < doubleOps.val t_in)
    (h : doubleOps.val t.re < doubleOps.val t_0)
    (hb : doubleOps.val t_0 - doubleOps.val t.re ≤ 2 ^ 106 * (doubleOps.val t_in - doubleOps.val t_0)) :
    ∃ z v w, doubleOps.mapZ t_0 t = .ok z ∧ 0 ≤ doubleOps.val z.re ∧ 0 < doubleOps.val z.im ∧ doubleOps.mapV t_0 t_in z = .ok v ∧
      0 ≤ doubleOps.val v.re ∧ 0 < doubleOps.val v.im ∧ doubleOps.mapTtoW t_0 t_in t = .ok w := by
  obtain ⟨z, hz, z1, z2, hv⟩ := C107_spacelike doubleOps_laws ht h0 h
  obtain ⟨v, w, hv, v1, v2, hw⟩ := hv (double_re_le ht h hb hz)
  exact ⟨z, v, w, hz, z1, z2, hv, v1, v2, hw⟩

/-- `t_0 = 1/2`, `t_in = 3/2`, `t = 1/4 - 0.0i`. -/
example : doubleOps.val minusZero = 0 ∧ doubleOps.val dHalf < doubleOps.val dThreeHalves ∧ doubleOps.val dQuarter < doubleOps.val dHalf ∧
    doubleOps.val dHalf - doubleOps.val dQuarter ≤ 2 ^ 106 * (doubleOps.val dThreeHalves - doubleOps.val dHalf) := by
  rw [dHalf_val, dThreeHalves_val, dQuarter_val]
  exact ⟨rfl, by norm_num, by norm_num, by norm_num⟩

/-- C107, part 6. In exact arithmetic the float program is the modelled `MapFromTtoW`. -/
theorem C107_exact {t_0 t_in : ℝ} {m : MapFromTtoW} (hm : MapFromTtoW.init t_0 t_in = .ok m) (t : ℂ) :
    (exactOps.mapTtoW t_0 t_in ⟨t.re, t.im⟩).map exactOps.point = m.call t := by
  obtain ⟨_, _, rfl⟩ := TtoW_init_eq_ok hm
  have := exact_mapTtoW t_0 t_in t
  rw [show (⟨t.re, t.im⟩ : exactOps.Cx) = pair t from rfl, this]
  rcases (mkTtoW t_0 t_in).call t with e | w <;> rfl

/-- Proper branch points. -/
example : MapFromTtoW.init 0.09 0.1 = .ok (mkTtoW 0.09 0.1) := TtoW_init_ok (by norm_num) (by norm_num)

/-- C107, part 7. The coincidence does happen: in double precision the call raises `ZeroDivisionError` for an argument above the
threshold, where the exact map is defined. (`t_0 = 1/2`, `t_in = 3/2` and `t` the next float.) -/
theorem C107_collapse : ∃ (t_0 t_in t : doubleOps.F) (m : MapFromTtoW) (w : ℂ), 0 < doubleOps.val t_0 ∧ doubleOps.val t_in < doubleOps.val t ∧
    MapFromTtoW.init (doubleOps.val t_0) (doubleOps.val t_in) = .ok m ∧ m.call (doubleOps.val t) = .ok w ∧
    doubleOps.mapTtoW t_0 t_in ⟨t, doubleOps.zero⟩ = .error .zeroDivisionError := by
  have n1 : roundDouble (1 + 1 / 2 ^ 52) = 1 + 1 / 2 ^ 52 := by
    have := roundDouble_fixed (n := 2 ^ 52 + 1) (e := 0) (by norm_num) (by norm_num)
    rw [show ((2 ^ 52 + 1 : ℤ) : ℝ) * (2 : ℝ) ^ ((0 : ℤ) - 52) = 1 + 1 / 2 ^ 52 by
      rw [show ((0 : ℤ) - 52) = -52 by norm_num, zpow_neg]; norm_num] at this
    exact this
  have hlt : doubleOps.val dThreeHalves < doubleOps.val dThreeHalvesNext := by rw [dThreeHalves_val, dThreeHalvesNext_val]; norm_num
  have hlt0 : doubleOps.val dHalf < doubleOps.val dThreeHalves := by rw [dHalf_val, dThreeHalves_val]; norm_num
  refine ⟨dHalf, dThreeHalves, dThreeHalvesNext, _, _, by rw [dHalf_val]; norm_num, hlt, TtoW_init_ok (by rw [dHalf_val]; norm_num) hlt0.le,
    TtoW_call_ok hlt0 (fun h => hlt.ne' (by exact_mod_cast h)), ?_⟩
  rcases C107_above_threshold doubleOps_laws (t := ⟨dThreeHalvesNext, doubleOps.zero⟩) doubleOps_laws.val_zero hlt0 hlt with ⟨_, h⟩ | ⟨h, _⟩
  · exact h
  · exfalso
    refine h.ne ?_
    show doubleOps.val (doubleOps.sqrt (doubleOps.sub dThreeHalves dHalf)) = doubleOps.val (doubleOps.sqrt (doubleOps.sub dThreeHalvesNext dHalf))
    rw [double_sqrt, double_sqrt, double_sub, double_sub, dHalf_val, dThreeHalves_val, dThreeHalvesNext_val,
      show (3 / 2 + 1 / 2 ^ 52 - 1 / 2 : ℝ) = 1 + 1 / 2 ^ 52 by norm_num, n1, roundDouble_sqrt_next,
      show (3 / 2 - 1 / 2 : ℝ) = 1 by norm_num, roundDouble_one, Real.sqrt_one, roundDouble_one]

end UA
