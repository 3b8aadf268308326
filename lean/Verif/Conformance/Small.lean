import Verif.Conformance.Eval
import Verif.Model.OtherModels

/-!
# The small numerical tests

`tests/test_functions.py`, `tests/test_MapFromTtoW.py`, `tests/test_MapFromWtoT.py`, `tests/test_UAComponentVariantA.py`,
`tests/test_UAComponentVariantB.py`, `tests/test_VMDModel.py`, `tests/test_utils.py`. `cmath.isclose` is called there without an absolute
tolerance. Quotients of literals are read as exact quotients.
-/

namespace UA
namespace Conformance

open Complex ComplexConjugate Ball

/-! ### `tests/test_functions.py` -/

theorem reciprocal_close {z e : ℂ} {Z E : Ball} (hz : Mem z Z) (he : Mem e E) (h : (Z.away && closeB (Z - Z.inv) E) = true) :
    ∃ y, zMinusItsReciprocal z = .ok y ∧ IsClose y e 0 := by
  rw [Bool.and_eq_true] at h
  refine ⟨z - 1 / z, ?_, (hz.sub hz.inv).close he h.2 _⟩
  unfold zMinusItsReciprocal
  rw [pyDiv_ok (hz.of_away h.1)]
  rfl

/-- `tests/test_functions.py:14` and `:17`. -/
example : ∃ y, zMinusItsReciprocal 1 = .ok y ∧ IsClose y 0 0 := by
  refine ⟨0, ?_, by unfold IsClose; simp⟩
  unfold zMinusItsReciprocal
  rw [pyDiv_ok one_ne_zero]
  norm_num

/-- `tests/test_functions.py:15`. -/
example : ∃ y, zMinusItsReciprocal ⟨0, 1⟩ = .ok y ∧ IsClose y ⟨0, 2⟩ 0 :=
  reciprocal_close (Z := (ofRat (0) (1) 1)) (E := (ofRat (0) (2) 1)) (mem_gauss (by norm_num) (by norm_num)) (mem_gauss (by norm_num) (by norm_num)) (by decide +kernel)

/-- `tests/test_functions.py:16`. -/
example : ∃ y, zMinusItsReciprocal ⟨0, -2⟩ = .ok y ∧ IsClose y ⟨0, -2.5⟩ 0 :=
  reciprocal_close (Z := (ofRat (0) (-2) 1)) (E := (ofRat (0) (-5) 2)) (mem_gauss (by norm_num) (by norm_num)) (mem_gauss (by norm_num) (by norm_num)) (by decide +kernel)

/-- `tests/test_functions.py:18`. -/
example : ∃ y, zMinusItsReciprocal (⟨1, 1⟩ / ((1.4142135623730951 : ℝ) : ℂ)) = .ok y ∧ IsClose y ⟨0, 1.4142135623730951⟩ 0 :=
  reciprocal_close (E := (ofRat (0) (14142135623730951) 10000000000000000))
    ((mem_gauss (by norm_num) (by norm_num) : Mem ⟨1, 1⟩ (ofRat (1) (1) 1)).div (mem_real (x := 1.4142135623730951) (p := 14142135623730951) (n := 10000000000000000) (by norm_num)))
    (mem_gauss (by norm_num) (by norm_num)) (by decide +kernel)

/-- `tests/test_functions.py:45`. -/
example : IsClose (squareRoot ⟨1, 0⟩) ⟨1, 0⟩ 0 :=
  Mem.close (b := (ofRat (1) (0) 1)) ((mem_gauss (by norm_num) (by norm_num) : Mem ⟨1, 0⟩ (ofRat (1) (0) 1)).sqrt (1329227995784915872903807060280344576) 0)
    (mem_gauss (by norm_num) (by norm_num)) (by decide +kernel) _

/-- `tests/test_functions.py:46`. -/
example : IsClose (squareRoot ⟨-1, 0⟩) ⟨0, 1⟩ 0 :=
  Mem.close (b := (ofRat (0) (1) 1)) ((mem_gauss (by norm_num) (by norm_num) : Mem ⟨-1, 0⟩ (ofRat (-1) (0) 1)).sqrt (0) 1329227995784915872903807060280344576)
    (mem_gauss (by norm_num) (by norm_num)) (by decide +kernel) _

/-- `tests/test_functions.py:47`. -/
example : IsClose (squareRoot ⟨0, 1⟩) (⟨1, 1⟩ / ((1.4142135623730951 : ℝ) : ℂ)) 0 :=
  Mem.close ((mem_gauss (by norm_num) (by norm_num) : Mem ⟨0, 1⟩ (ofRat (0) (1) 1)).sqrt (939906129562517623222788173740722879) 939906129562517623222788173740722878)
    ((mem_gauss (by norm_num) (by norm_num) : Mem ⟨1, 1⟩ (ofRat (1) (1) 1)).div (mem_real (x := 1.4142135623730951) (p := 14142135623730951) (n := 10000000000000000) (by norm_num))) (by decide +kernel) _

/-- `tests/test_functions.py:48`. -/
example : IsClose (squareRoot ⟨0, -1⟩) (⟨-1, 1⟩ / ((1.4142135623730951 : ℝ) : ℂ)) 0 :=
  Mem.close ((mem_gauss (by norm_num) (by norm_num) : Mem ⟨0, -1⟩ (ofRat (0) (-1) 1)).sqrt (-939906129562517623222788173740722879) 939906129562517623222788173740722878)
    ((mem_gauss (by norm_num) (by norm_num) : Mem ⟨-1, 1⟩ (ofRat (-1) (1) 1)).div (mem_real (x := 1.4142135623730951) (p := 14142135623730951) (n := 10000000000000000) (by norm_num))) (by decide +kernel) _

/-- `tests/test_functions.py:49`. -/
example : IsClose (squareRoot ⟨4, 0⟩) ⟨2, 0⟩ 0 :=
  Mem.close (b := (ofRat (2) (0) 1)) ((mem_gauss (by norm_num) (by norm_num) : Mem ⟨4, 0⟩ (ofRat (4) (0) 1)).sqrt (2658455991569831745807614120560689152) 0)
    (mem_gauss (by norm_num) (by norm_num)) (by decide +kernel) _

/-- `tests/test_functions.py:50`. -/
example : IsClose (squareRoot ⟨534, 0⟩) ⟨23.108440016582687, 0⟩ 0 :=
  Mem.close (b := (ofRat (23108440016582687) (0) 1000000000000000)) ((mem_gauss (by norm_num) (by norm_num) : Mem ⟨534, 0⟩ (ofRat (534) (0) 1)).sqrt (30716385408958151565535969377529752384) 0)
    (mem_gauss (by norm_num) (by norm_num)) (by decide +kernel) _

/-- `tests/test_functions.py:51`. -/
example : IsClose (squareRoot ⟨-3, -4⟩) ⟨-1, 2⟩ 0 :=
  Mem.close (b := (ofRat (-1) (2) 1)) ((mem_gauss (by norm_num) (by norm_num) : Mem ⟨-3, -4⟩ (ofRat (-3) (-4) 1)).sqrt (-1329227995784915872903807060280344576) 2658455991569831745807614120560689152)
    (mem_gauss (by norm_num) (by norm_num)) (by decide +kernel) _

/-- `tests/test_functions.py:52`. -/
example : IsClose (squareRoot ⟨10000, -0.000000001⟩) ⟨-100, 0⟩ 0 :=
  Mem.close (b := (ofRat (-100) (0) 1)) ((mem_gauss (by norm_num) (by norm_num) : Mem ⟨10000, -0.000000001⟩ (ofRat (10000000000000) (-1) 1000000000)).sqrt (-132922799578491587290380706194187957073) 6646139978924579364519035)
    (mem_gauss (by norm_num) (by norm_num)) (by decide +kernel) _

/-- `tests/test_functions.py:53`. -/
example : IsClose (squareRoot ⟨0, -9⟩) (⟨-3, 3⟩ / ((1.4142135623730951 : ℝ) : ℂ)) 0 :=
  Mem.close ((mem_gauss (by norm_num) (by norm_num) : Mem ⟨0, -9⟩ (ofRat (0) (-9) 1)).sqrt (-2819718388687552869668364521222168636) 2819718388687552869668364521222168635)
    ((mem_gauss (by norm_num) (by norm_num) : Mem ⟨-3, 3⟩ (ofRat (-3) (3) 1)).div (mem_real (x := 1.4142135623730951) (p := 14142135623730951) (n := 10000000000000000) (by norm_num))) (by decide +kernel) _

/-! ### The maps -/

/-- `tests/test_utils.py:11-12`. -/
example : validateBranchPointPositions 0.1 1 = .ok () ∧ validateBranchPointPositions 0 0.1 = .ok () :=
  ⟨validate_ok (by norm_num) (by norm_num), validate_ok (by norm_num) (by norm_num)⟩

/-- `tests/test_utils.py:14-17`. -/
example : validateBranchPointPositions (-0.1) 1 = .error .valueError ∧ validateBranchPointPositions 0.1 0 = .error .valueError :=
  ⟨validate_error (.inl (by norm_num)), validate_error (.inr (by norm_num))⟩

/-- `tests/test_MapFromTtoW.py:11-13`, `tests/test_MapFromWtoT.py:11-13`. -/
example : (∃ m, MapFromTtoW.init 1 2 = .ok m) ∧ MapFromTtoW.init (-0.1) 1 = .error .valueError ∧ MapFromTtoW.init 0.1 0 = .error .valueError ∧
    (∃ m, MapFromWtoT.init 1 2 = .ok m) ∧ MapFromWtoT.init (-0.1) 1 = .error .valueError ∧ MapFromWtoT.init 0.1 0 = .error .valueError :=
  ⟨⟨_, TtoW_init_ok (by norm_num) (by norm_num)⟩, TtoW_init_error (.inl (by norm_num)), TtoW_init_error (.inr (by norm_num)),
    ⟨_, WtoT_init_ok (by norm_num) (by norm_num)⟩, WtoT_init_error (.inl (by norm_num)), WtoT_init_error (.inr (by norm_num))⟩

theorem TtoW_close {t_0 t_in : ℝ} {t e : ℂ} {T0 Tin T E : Ball} (h0 : 0 ≤ t_0) (hlt : t_0 < t_in) (hT0 : Mem t_0 T0) (hTin : Mem t_in Tin)
    (ht : Mem t T) (he : Mem e E) (u : ℤ) (k : Cert) (h : ((T - Tin).away && closeB (wB T0 ((Tin - T0).sqrt u 0) T k) E) = true) :
    ∃ m, MapFromTtoW.init t_0 t_in = .ok m ∧ ∃ y, m.call t = .ok y ∧ IsClose y e 0 := by
  rw [Bool.and_eq_true] at h
  refine ⟨_, TtoW_init_ok h0 hlt.le, _, TtoW_call_ok hlt (sub_ne_zero.mp ((ht.sub hTin).of_away h.1)), ?_⟩
  exact (mem_Wval hT0 (mem_sqrt_real hTin hT0 hlt.le u) ht k).close he h.2 _

/-- `tests/test_MapFromTtoW.py:20`. -/
example : ∃ m, MapFromTtoW.init 0 0.25 = .ok m ∧ ∃ y, m.call ⟨-4 / 9, 0⟩ = .ok y ∧ IsClose y ⟨-0.5, 0⟩ 0 :=
  TtoW_close (T0 := (ofRat (0) 0 1)) (Tin := (ofRat (1) 0 4)) (T := (ofRat (-4) (0) 9)) (E := (ofRat (-1) (0) 2)) le_rfl (by norm_num) (mem_real (by norm_num)) (mem_real (by norm_num))
    (mem_gauss (by norm_num) (by norm_num)) (mem_gauss (by norm_num) (by norm_num)) 664613997892457936451903530140172288 ⟨0, 886151997189943915269204706853563051, 797536797470949523742284236168206745, 1063382396627932698323045648224275660⟩ (by decide +kernel)

/-- `tests/test_MapFromTtoW.py:21`. -/
example : ∃ m, MapFromTtoW.init 0 0.25 = .ok m ∧ ∃ y, m.call ⟨4 / 25, 0⟩ = .ok y ∧ IsClose y ⟨0, 0.5⟩ 0 :=
  TtoW_close (T0 := (ofRat (0) 0 1)) (Tin := (ofRat (1) 0 4)) (T := (ofRat (4) (0) 25)) (E := (ofRat (0) (1) 2)) le_rfl (by norm_num) (mem_real (by norm_num)) (mem_real (by norm_num))
    (mem_gauss (by norm_num) (by norm_num)) (mem_gauss (by norm_num) (by norm_num)) 664613997892457936451903530140172288 ⟨531691198313966349161522824112137830, 0, 3987683987354747618711421180841033721, 0⟩ (by decide +kernel)

/-- `tests/test_MapFromTtoW.py:22`. -/
example : ∃ m, MapFromTtoW.init 0 0.25 = .ok m ∧ ∃ y, m.call ⟨1, 0⟩ = .ok y ∧ IsClose y ⟨-0.86602540378, 0.5⟩ 0 :=
  TtoW_close (T0 := (ofRat (0) 0 1)) (Tin := (ofRat (1) 0 4)) (T := (ofRat (1) (0) 1)) (E := (ofRat (-43301270189) (25000000000) 50000000000)) le_rfl (by norm_num) (mem_real (by norm_num)) (mem_real (by norm_num))
    (mem_gauss (by norm_num) (by norm_num)) (mem_gauss (by norm_num) (by norm_num)) 664613997892457936451903530140172288 ⟨1329227995784915872903807060280344576, 0, 0, 2302290423542423760813183247545055291⟩ (by decide +kernel)

/-- `tests/test_MapFromTtoW.py:23`. -/
example : ∃ m, MapFromTtoW.init 0 0.25 = .ok m ∧ ∃ y, m.call ⟨0.031069896194, 0.035343944637⟩ = .ok y ∧ IsClose y ⟨-0.1, 0.2⟩ 0 :=
  TtoW_close (T0 := (ofRat (0) 0 1)) (Tin := (ofRat (1) 0 4)) (T := (ofRat (31069896194) (35343944637) 1000000000000)) (E := (ofRat (-1) (2) 10)) le_rfl (by norm_num) (mem_real (by norm_num)) (mem_real (by norm_num))
    (mem_gauss (by norm_num) (by norm_num)) (mem_gauss (by norm_num) (by norm_num)) 664613997892457936451903530140172288 ⟨262718003873827207452969741514797816, 118848620800202359128287270507072874, 1942717839995880911175539766621156341, 408993229475461489484918799682385248⟩ (by decide +kernel)

theorem WtoT_close {t_0 t_in : ℝ} {w e : ℂ} {T0 Tin B E : Ball} (h0 : 0 ≤ t_0) (hlt : t_0 ≤ t_in) (hT0 : Mem t_0 T0) (hTin : Mem t_in Tin)
    (hw : Mem w B) (he : Mem e E)
    (h : (B.away && ((B - B.inv) * (B - B.inv)).away && closeB (T0 - (two + two) * (Tin - T0) / ((B - B.inv) * (B - B.inv))) E) = true) :
    ∃ m, MapFromWtoT.init t_0 t_in = .ok m ∧ ∃ y, m.call w = .ok y ∧ IsClose y e 0 := by
  simp only [Bool.and_eq_true] at h
  obtain ⟨⟨h1, h2⟩, h3⟩ := h
  have hu := hw.sub hw.inv
  have hq := hT0.sub (((mem_two.add mem_two).mul (hTin.sub hT0)).div (hu.mul hu))
  refine ⟨_, WtoT_init_ok h0 hlt, _, ?_, hq.close he h3 _⟩
  · have n1 := hw.of_away h1
    have n2 := (hu.mul hu).of_away h2
    rw [← pow_two] at n2
    simp only [mkWtoT, MapFromWtoT.call, zMinusItsReciprocal, pyDiv_ok n1, except_ok_bind, pure, Except.pure, pyDiv_ok n2]
    congr 1
    push_cast
    ring

/-- `tests/test_MapFromWtoT.py:20`. -/
example : ∃ m, MapFromWtoT.init 0 0.25 = .ok m ∧ ∃ y, m.call ⟨2, 0⟩ = .ok y ∧ IsClose y ⟨-4 / 9, 0⟩ 0 :=
  WtoT_close (T0 := (ofRat (0) 0 1)) (Tin := (ofRat (1) 0 4)) (B := (ofRat (2) (0) 1)) (E := (ofRat (-4) (0) 9)) le_rfl (by norm_num) (mem_real (by norm_num)) (mem_real (by norm_num))
    (mem_gauss (by norm_num) (by norm_num)) (mem_gauss (by norm_num) (by norm_num)) (by decide +kernel)

/-- `tests/test_MapFromWtoT.py:21`. -/
example : ∃ m, MapFromWtoT.init 0 0.25 = .ok m ∧ ∃ y, m.call ⟨0, 0.5⟩ = .ok y ∧ IsClose y ⟨4 / 25, 0⟩ 0 :=
  WtoT_close (T0 := (ofRat (0) 0 1)) (Tin := (ofRat (1) 0 4)) (B := (ofRat (0) (1) 2)) (E := (ofRat (4) (0) 25)) le_rfl (by norm_num) (mem_real (by norm_num)) (mem_real (by norm_num))
    (mem_gauss (by norm_num) (by norm_num)) (mem_gauss (by norm_num) (by norm_num)) (by decide +kernel)

/-- `tests/test_MapFromWtoT.py:22`. -/
example : ∃ m, MapFromWtoT.init 0 0.25 = .ok m ∧ ∃ y, m.call ⟨0, -2⟩ = .ok y ∧ IsClose y ⟨4 / 25, 0⟩ 0 :=
  WtoT_close (T0 := (ofRat (0) 0 1)) (Tin := (ofRat (1) 0 4)) (B := (ofRat (0) (-2) 1)) (E := (ofRat (4) (0) 25)) le_rfl (by norm_num) (mem_real (by norm_num)) (mem_real (by norm_num))
    (mem_gauss (by norm_num) (by norm_num)) (mem_gauss (by norm_num) (by norm_num)) (by decide +kernel)

/-- `tests/test_MapFromWtoT.py:23`. -/
example : ∃ m, MapFromWtoT.init 0 0.25 = .ok m ∧ ∃ y, m.call ⟨-0.1, 0.2⟩ = .ok y ∧ IsClose y ⟨0.031069896194, 0.035343944637⟩ 0 :=
  WtoT_close (T0 := (ofRat (0) 0 1)) (Tin := (ofRat (1) 0 4)) (B := (ofRat (-1) (2) 10)) (E := (ofRat (31069896194) (35343944637) 1000000000000)) le_rfl (by norm_num) (mem_real (by norm_num)) (mem_real (by norm_num))
    (mem_gauss (by norm_num) (by norm_num)) (mem_gauss (by norm_num) (by norm_num)) (by decide +kernel)

/-! ### The components -/

theorem component_value (v : Variant) {w_n w_meson w : ℂ} {N M B : Ball} (hn : Mem w_n N) (hm : Mem w_meson M) (hw : Mem w B)
    (h : (M.away && M.conjB.away && (asymB N).away && (quartB v M B).away) = true) :
    ∃ c, UAComponent.init v w_n w_meson = .ok c ∧
      c.call w = .ok ((1 - w ^ 2) ^ 2 / (1 - w_n ^ 2) ^ 2 * (quart v w_meson w_n / quart v w_meson w)) := by
  simp only [Bool.and_eq_true] at h
  obtain ⟨⟨⟨h1, h2⟩, h3⟩, h4⟩ := h
  have m1 := hm.of_away h1
  have m2 := hm.conj.of_away h2
  have a1 := (mem_asym hn).of_away h3
  have q1 := (mem_quart v hm hw).of_away h4
  cases v
  · refine ⟨⟨.A, w_n, w_meson, (1 - w_n ^ 2) ^ 2, quart .A w_meson w_n⟩, ?_, ?_⟩
    · simp only [UAComponent.init, evalResonantFactorNumerator, variantANumerator, pyDiv_ok m1, pyDiv_ok m2, except_ok_bind]
      rfl
    · have q2 : (w - w_meson) * (w - conj w_meson) * (w - 1 / w_meson) * (w - 1 / conj w_meson) ≠ 0 := q1
      simp only [UAComponent.call, UAComponent.evalAsymptoticFactor, UAComponent.evalResonantFactor, variantAResonantFactor,
        pyDiv_ok a1, pyDiv_ok m1, pyDiv_ok m2, except_ok_bind, pyDiv_ok q2]
      rfl
  · refine ⟨⟨.B, w_n, w_meson, (1 - w_n ^ 2) ^ 2, quart .B w_meson w_n⟩, rfl, ?_⟩
    have q2 : (w - w_meson) * (w - conj w_meson) * (w + w_meson) * (w + conj w_meson) ≠ 0 := q1
    simp only [UAComponent.call, UAComponent.evalAsymptoticFactor, UAComponent.evalResonantFactor, variantBResonantFactor,
      pyDiv_ok a1, except_ok_bind, pyDiv_ok q2]
    rfl

theorem component_close (v : Variant) {w_n w_meson w e : ℂ} {N M B E : Ball} (hn : Mem w_n N) (hm : Mem w_meson M) (hw : Mem w B)
    (he : Mem e E) (h : (M.away && M.conjB.away && (asymB N).away && (quartB v M B).away) = true)
    (hc : closeB (asymB B / asymB N * (quartB v M N / quartB v M B)) E = true) :
    ∃ c, UAComponent.init v w_n w_meson = .ok c ∧ ∃ y, c.call w = .ok y ∧ IsClose y e 0 := by
  obtain ⟨c, h1, h2⟩ := component_value v hn hm hw h
  exact ⟨c, h1, _, h2, Mem.close (((mem_asym hw).div (mem_asym hn)).mul ((mem_quart v hm hn).div (mem_quart v hm hw))) he hc _⟩

/-- `tests/test_UAComponentVariantA.py:13`. -/
example : ∃ c, UAComponent.init .A ⟨2, 0⟩ ⟨3, 1⟩ = .ok c ∧ ∃ y, c.call ⟨0, 0⟩ = .ok y ∧ IsClose y ⟨0.6444444444444444, 0⟩ 0 :=
  component_close .A (N := (ofRat (2) (0) 1)) (M := (ofRat (3) (1) 1)) (B := (ofRat (0) (0) 1)) (E := (ofRat (1611111111111111) (0) 2500000000000000)) (mem_gauss (by norm_num) (by norm_num)) (mem_gauss (by norm_num) (by norm_num)) (mem_gauss (by norm_num) (by norm_num)) (mem_gauss (by norm_num) (by norm_num))
    (by decide +kernel) (by decide +kernel)

/-- `tests/test_UAComponentVariantA.py:15`. -/
example : ∃ c, UAComponent.init .A ⟨2, 0⟩ ⟨3, 1⟩ = .ok c ∧ ∃ y, c.call ⟨0, 1⟩ = .ok y ∧ IsClose y ⟨-0.22032288698955366, 0⟩ 0 :=
  component_close .A (N := (ofRat (2) (0) 1)) (M := (ofRat (3) (1) 1)) (B := (ofRat (0) (1) 1)) (E := (ofRat (-11016144349477683) (0) 50000000000000000)) (mem_gauss (by norm_num) (by norm_num)) (mem_gauss (by norm_num) (by norm_num)) (mem_gauss (by norm_num) (by norm_num)) (mem_gauss (by norm_num) (by norm_num))
    (by decide +kernel) (by decide +kernel)

/-- `tests/test_UAComponentVariantA.py:16`. -/
example : ∃ c, UAComponent.init .A ⟨2, 0⟩ ⟨3, 1⟩ = .ok c ∧ ∃ y, c.call ⟨2.1, -4.3⟩ = .ok y ∧ IsClose y ⟨0.15935491958039452, 0.8787611797211575⟩ 0 :=
  component_close .A (N := (ofRat (2) (0) 1)) (M := (ofRat (3) (1) 1)) (B := (ofRat (21) (-43) 10)) (E := (ofRat (7967745979019726) (43938058986057875) 50000000000000000)) (mem_gauss (by norm_num) (by norm_num)) (mem_gauss (by norm_num) (by norm_num)) (mem_gauss (by norm_num) (by norm_num)) (mem_gauss (by norm_num) (by norm_num))
    (by decide +kernel) (by decide +kernel)

/-- `tests/test_UAComponentVariantA.py:14`. -/
example : ∃ c, UAComponent.init .A ⟨2, 0⟩ ⟨3, 1⟩ = .ok c ∧ ∃ y, c.call 1 = .ok y ∧ IsClose y 0 0 := by
  obtain ⟨c, h1, h2⟩ := component_value .A (w := 1) (N := (ofRat (2) (0) 1)) (M := (ofRat (3) (1) 1)) (B := one) (w_n := ⟨2, 0⟩) (w_meson := ⟨3, 1⟩)
    (mem_gauss (by norm_num) (by norm_num)) (mem_gauss (by norm_num) (by norm_num)) mem_one (by decide +kernel)
  exact ⟨c, h1, _, h2, by unfold IsClose; norm_num⟩

/-- `tests/test_UAComponentVariantB.py:13`. -/
example : ∃ c, UAComponent.init .B ⟨2, 0⟩ ⟨3, 1⟩ = .ok c ∧ ∃ y, c.call ⟨0, 0⟩ = .ok y ∧ IsClose y ⟨0.057777777777777775, 0⟩ 0 :=
  component_close .B (N := (ofRat (2) (0) 1)) (M := (ofRat (3) (1) 1)) (B := (ofRat (0) (0) 1)) (E := (ofRat (2311111111111111) (0) 40000000000000000)) (mem_gauss (by norm_num) (by norm_num)) (mem_gauss (by norm_num) (by norm_num)) (mem_gauss (by norm_num) (by norm_num)) (mem_gauss (by norm_num) (by norm_num))
    (by decide +kernel) (by decide +kernel)

/-- `tests/test_UAComponentVariantB.py:15`. -/
example : ∃ c, UAComponent.init .B ⟨2, 0⟩ ⟨3, 1⟩ = .ok c ∧ ∃ y, c.call ⟨0, 1⟩ = .ok y ∧ IsClose y ⟨0.19753086419753085, 0⟩ 0 :=
  component_close .B (N := (ofRat (2) (0) 1)) (M := (ofRat (3) (1) 1)) (B := (ofRat (0) (1) 1)) (E := (ofRat (3950617283950617) (0) 20000000000000000)) (mem_gauss (by norm_num) (by norm_num)) (mem_gauss (by norm_num) (by norm_num)) (mem_gauss (by norm_num) (by norm_num)) (mem_gauss (by norm_num) (by norm_num))
    (by decide +kernel) (by decide +kernel)

/-- `tests/test_UAComponentVariantB.py:16`. -/
example : ∃ c, UAComponent.init .B ⟨2, 0⟩ ⟨3, 1⟩ = .ok c ∧ ∃ y, c.call ⟨2.1, -4.3⟩ = .ok y ∧ IsClose y ⟨3.5515073618039743, 1.5943390598942047⟩ 0 :=
  component_close .B (N := (ofRat (2) (0) 1)) (M := (ofRat (3) (1) 1)) (B := (ofRat (21) (-43) 10)) (E := (ofRat (35515073618039743) (15943390598942047) 10000000000000000)) (mem_gauss (by norm_num) (by norm_num)) (mem_gauss (by norm_num) (by norm_num)) (mem_gauss (by norm_num) (by norm_num)) (mem_gauss (by norm_num) (by norm_num))
    (by decide +kernel) (by decide +kernel)

/-- `tests/test_UAComponentVariantB.py:14`. -/
example : ∃ c, UAComponent.init .B ⟨2, 0⟩ ⟨3, 1⟩ = .ok c ∧ ∃ y, c.call 1 = .ok y ∧ IsClose y 0 0 := by
  obtain ⟨c, h1, h2⟩ := component_value .B (w := 1) (N := (ofRat (2) (0) 1)) (M := (ofRat (3) (1) 1)) (B := one) (w_n := ⟨2, 0⟩) (w_meson := ⟨3, 1⟩)
    (mem_gauss (by norm_num) (by norm_num)) (mem_gauss (by norm_num) (by norm_num)) mem_one (by decide +kernel)
  exact ⟨c, h1, _, h2, by unfold IsClose; norm_num⟩

/-! ### `tests/test_VMDModel.py` -/

/-- `tests/test_VMDModel.py:10-16`. -/
example : ((⟨[]⟩ : VMDModel).addVectorMeson 1 20.5).vector_mesons = [⟨1, 20.5⟩] := rfl

/-- `tests/test_VMDModel.py:19-21`. -/
example : ∃ v, (VMDModel.create [⟨1.3, 12.4⟩, ⟨1.3, 0.1⟩]).vector_mesons = [⟨1.3, 12.4⟩, v] := ⟨_, rfl⟩

theorem vmd_two {c₁ m₁ c₂ m₂ : ℝ} {t e : ℂ} {C₁ M₁ C₂ M₂ T E : Ball} (h₁ : Mem c₁ C₁) (h₂ : Mem m₁ M₁) (h₃ : Mem c₂ C₂) (h₄ : Mem m₂ M₂)
    (ht : Mem t T) (he : Mem e E)
    (h : ((M₁ * M₁ - T).away && (M₂ * M₂ - T).away &&
      closeB (zero + C₁ * (M₁ * M₁) / (M₁ * M₁ - T) + C₂ * (M₂ * M₂) / (M₂ * M₂ - T)) E) = true) :
    ∃ y, (VMDModel.create [⟨c₁, m₁⟩, ⟨c₂, m₂⟩]).call t = .ok y ∧ IsClose y e 0 := by
  simp only [Bool.and_eq_true] at h
  obtain ⟨⟨n1, n2⟩, h⟩ := h
  have k1 := (h₂.mul h₂).sub ht
  have k2 := (h₄.mul h₄).sub ht
  have hm := (mem_zero.add ((h₁.mul (h₂.mul h₂)).div k1)).add ((h₃.mul (h₄.mul h₄)).div k2)
  refine ⟨_, ?_, hm.close he h _⟩
  have d1 := k1.of_away n1
  have d2 := k2.of_away n2
  simp only [VMDModel.call, VMDModel.create, VMDModel.addVectorMeson, List.foldl, List.nil_append, List.cons_append, evaluateMesonContribution,
    List.foldlM, pow_two, pyDiv_ok d1, pyDiv_ok d2]
  rfl

/-- `tests/test_VMDModel.py:29`. -/
example : ∃ y, (VMDModel.create [⟨1, 10⟩, ⟨0.5, 0.1⟩]).call ⟨0, 0⟩ = .ok y ∧ IsClose y ⟨1.5, 0⟩ 0 :=
  vmd_two (C₁ := (ofRat (1) 0 1)) (M₁ := (ofRat (10) 0 1)) (C₂ := (ofRat (1) 0 2)) (M₂ := (ofRat (1) 0 10)) (T := (ofRat (0) (0) 1)) (E := (ofRat (3) (0) 2))
    (mem_real (by norm_num)) (mem_real (by norm_num)) (mem_real (by norm_num)) (mem_real (by norm_num)) (mem_gauss (by norm_num) (by norm_num)) (mem_gauss (by norm_num) (by norm_num)) (by decide +kernel)

/-- `tests/test_VMDModel.py:30`. -/
example : ∃ y, (VMDModel.create [⟨1, 10⟩, ⟨0.5, 0.1⟩]).call ⟨1, 0⟩ = .ok y ∧ IsClose y ⟨1.0050505050505052, 0⟩ 0 :=
  vmd_two (C₁ := (ofRat (1) 0 1)) (M₁ := (ofRat (10) 0 1)) (C₂ := (ofRat (1) 0 2)) (M₂ := (ofRat (1) 0 10)) (T := (ofRat (1) (0) 1)) (E := (ofRat (2512626262626263) (0) 2500000000000000))
    (mem_real (by norm_num)) (mem_real (by norm_num)) (mem_real (by norm_num)) (mem_real (by norm_num)) (mem_gauss (by norm_num) (by norm_num)) (mem_gauss (by norm_num) (by norm_num)) (by decide +kernel)

/-- `tests/test_VMDModel.py:31`. -/
example : ∃ y, (VMDModel.create [⟨1, 10⟩, ⟨0.5, 0.1⟩]).call ⟨0, 10⟩ = .ok y ∧ IsClose y ⟨0.9900995099004901, 0.09950990049009551⟩ 0 :=
  vmd_two (C₁ := (ofRat (1) 0 1)) (M₁ := (ofRat (10) 0 1)) (C₂ := (ofRat (1) 0 2)) (M₂ := (ofRat (1) 0 10)) (T := (ofRat (0) (10) 1)) (E := (ofRat (99009950990049010) (9950990049009551) 100000000000000000))
    (mem_real (by norm_num)) (mem_real (by norm_num)) (mem_real (by norm_num)) (mem_real (by norm_num)) (mem_gauss (by norm_num) (by norm_num)) (mem_gauss (by norm_num) (by norm_num)) (by decide +kernel)

end Conformance
end UA
