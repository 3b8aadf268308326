import Verif.Lemmas.FloatMap
import Mathlib.Analysis.Real.Pi.Bounds

/-!
# Helper facts for property C107: rounding
-/

namespace UA

open FloatOps

theorem roundingOps_laws {fl : ℝ → ℝ} (idem : ∀ x, fl (fl x) = fl x) (mono : ∀ x y, x ≤ y → fl x ≤ fl y) (odd : ∀ x, fl (-x) = -fl x)
    (one : fl 1 = 1) (two : ∀ x, fl (2 * x) = 2 * fl x) (pos : ∀ x, 0 < x → 0 < fl x) (pi : fl Real.pi ≤ Real.pi) :
    (roundingOps fl idem).Laws := by
  have zero : fl 0 = 0 := by have := odd 0; rw [neg_zero] at this; linarith
  have neg : ∀ x, x < 0 → fl x < 0 := fun x h => by have := pos (-x) (by linarith); rw [odd] at this; linarith
  have two' : fl 2 = 2 := by have := two 1; rwa [mul_one, one, mul_one] at this
  have half : ∀ x, fl (x / 2) = fl x / 2 := fun x => by
    have := two (x / 2)
    rw [mul_div_cancel₀ _ (two_ne_zero)] at this
    linarith
  have hpi : fl (fl Real.pi / fl 2) ≤ Real.pi / 2 := by rw [two', half, idem]; linarith
  exact {
    val_zero := zero
    val_one := one
    val_two := by show 0 < fl 2; rw [two']; norm_num
    val_neg := fun a => by show fl (-a.val) = -a.val; rw [odd, a.fixed]
    add_comm := fun a b => by show fl (a.val + b.val) = fl (b.val + a.val); rw [add_comm]
    add_zero := fun a b (h : b.val = 0) => by show fl (a.val + b.val) = a.val; rw [h, add_zero, a.fixed]
    add_mono := fun a a' b h => mono _ _ (add_le_add_left h b.val)
    add_pos := fun a b h => pos _ h
    add_neg := fun a b h => neg _ h
    add_cancel := fun a b (h : a.val + b.val = 0) => by show fl (a.val + b.val) = 0; rw [h, zero]
    mul_comm := fun a b => by show fl (a.val * b.val) = fl (b.val * a.val); rw [mul_comm]
    mul_zero := fun a b (h : b.val = 0) => by show fl (a.val * b.val) = 0; rw [h, mul_zero, zero]
    mul_one := fun a b (h : b.val = 1) => by show fl (a.val * b.val) = a.val; rw [h, mul_one, a.fixed]
    mul_pos := fun a b h h' => pos _ (mul_pos h h')
    mul_neg := fun a b h h' => neg _ (mul_neg_of_pos_of_neg h h')
    neg_mul_neg := fun a b h h' => pos _ (mul_pos_of_neg_of_neg h h')
    div_zero := fun a b (h : a.val = 0) _ => by show fl (a.val / b.val) = 0; rw [h, zero_div, zero]
    div_pos := fun a b h h' => pos _ (div_pos h h')
    div_neg := fun a b h h' => neg _ (div_neg_of_pos_of_neg h h')
    neg_div := fun a b h h' => neg _ (div_neg_of_neg_of_pos h h')
    neg_div_neg := fun a b h h' => pos _ (div_pos_of_neg_of_neg h h')
    div_mono := fun a a' b h h' => mono _ _ (div_le_div_of_nonneg_right h' h.le)
    one_le_div := fun a b h h' => by
      have := mono _ _ ((one_le_div h).mpr h')
      rwa [one] at this
    div_le_one := fun a b h h' => by
      have := mono _ _ ((div_le_one h).mpr h')
      rwa [one] at this
    div_congr := fun a a' b b' (h : a.val = a'.val) (h' : b.val = b'.val) => by show fl (a.val / b.val) = fl (a'.val / b'.val); rw [h, h']
    sqrt_zero := fun a (h : a.val = 0) => by show fl (Real.sqrt a.val) = 0; rw [h, Real.sqrt_zero, zero]
    sqrt_one := fun a (h : a.val = 1) => by show fl (Real.sqrt a.val) = 1; rw [h, Real.sqrt_one, one]
    sqrt_pos := fun a h => pos _ (Real.sqrt_pos.mpr h)
    sqrt_mono := fun a b _ h => mono _ _ (Real.sqrt_le_sqrt h)
    hypot_real := fun a b (h : b.val = 0) => by
      show fl ‖(⟨a.val, b.val⟩ : ℂ)‖ = |a.val|
      rw [h, show (⟨a.val, 0⟩ : ℂ) = ((a.val : ℝ) : ℂ) from rfl, Complex.norm_real, Real.norm_eq_abs]
      rcases abs_choice a.val with e | e <;> rw [e]
      · exact a.fixed
      · rw [odd, a.fixed]
    hypot_pos := fun a b h => pos _ (norm_pos_iff.mpr fun h' => h (congrArg Complex.im h'))
    pi_pos := pos _ Real.pi_pos
    two_pi := fun b (h : b.val = -fl Real.pi) => by
      show fl (fl (fl 2 * fl Real.pi) + b.val) = fl Real.pi
      rw [h, two', two, idem, show 2 * fl Real.pi + -fl Real.pi = fl Real.pi by ring, idem]
    atan2_right := fun y x (h : y.val = 0) (h' : 0 < x.val) => by
      have hx : x.negative = false := by unfold SignedFloat.negative; rw [if_neg (not_lt.mpr h'.le), if_pos h']
      show fl (if y.val = 0 then (if y.negative then -1 else 1) * (if x.negative then Real.pi else 0) else Complex.arg ⟨x.val, y.val⟩) = 0
      rw [if_pos h, hx, if_neg Bool.false_ne_true, mul_zero, zero]
    atan2_left := fun y x (h : y.val = 0) (h' : x.val < 0) => by
      have hx : x.negative = true := by unfold SignedFloat.negative; rw [if_pos h']
      show fl (if y.val = 0 then (if y.negative then -1 else 1) * (if x.negative then Real.pi else 0) else Complex.arg ⟨x.val, y.val⟩) = fl Real.pi ∨
        fl (if y.val = 0 then (if y.negative then -1 else 1) * (if x.negative then Real.pi else 0) else Complex.arg ⟨x.val, y.val⟩) = -fl Real.pi
      rw [if_pos h, hx, if_pos rfl]
      cases y.negative
      · left; rw [if_neg Bool.false_ne_true, one_mul]
      · right; rw [if_pos rfl, neg_one_mul, odd]
    atan2_upper := fun y x (h : 0 < y.val) => by
      have h0 : 0 ≤ Complex.arg ⟨x.val, y.val⟩ := Complex.arg_nonneg_iff.mpr h.le
      have h1 : Complex.arg ⟨x.val, y.val⟩ ≠ 0 := fun h' => by
        have := (Complex.arg_eq_zero_iff.mp h').2
        exact h.ne' this
      show 0 < fl (if y.val = 0 then (if y.negative then -1 else 1) * (if x.negative then Real.pi else 0) else Complex.arg ⟨x.val, y.val⟩) ∧
        fl (if y.val = 0 then (if y.negative then -1 else 1) * (if x.negative then Real.pi else 0) else Complex.arg ⟨x.val, y.val⟩) ≤ fl Real.pi
      rw [if_neg h.ne']
      exact ⟨pos _ (lt_of_le_of_ne h0 h1.symm), mono _ _ (Complex.arg_le_pi _)⟩
    exp_zero := fun a (h : a.val = 0) => by show fl (Real.exp a.val) = 1; rw [h, Real.exp_zero, one]
    cos_zero := fun a (h : a.val = 0) => by show fl (Real.cos a.val) = 1; rw [h, Real.cos_zero, one]
    sin_zero := fun a (h : a.val = 0) => by show fl (Real.sin a.val) = 0; rw [h, Real.sin_zero, zero]
    cos_nonneg := fun a (h : 0 < a.val) (h' : a.val ≤ fl (fl Real.pi / fl 2)) => by
      show 0 ≤ fl (Real.cos a.val)
      have := mono _ _ (Real.cos_nonneg_of_neg_pi_div_two_le_of_le (x := a.val) (by linarith [Real.pi_pos]) (h'.trans hpi))
      rwa [zero] at this
    sin_pos := fun a (h : 0 < a.val) (h' : a.val ≤ fl (fl Real.pi / fl 2)) =>
      pos _ (Real.sin_pos_of_pos_of_lt_pi h (by linarith [h'.trans hpi, Real.pi_pos])) }

/-! ### Double precision -/

theorem roundEven_int (n : ℤ) : roundEven n = n := by
  unfold roundEven
  rw [if_pos (Or.inl (by rw [Int.fract_intCast]; norm_num)), Int.floor_intCast]

theorem roundEven_bounds (y : ℝ) : ⌊y⌋ ≤ roundEven y ∧ roundEven y ≤ ⌊y⌋ + 1 := by
  unfold roundEven
  split_ifs <;> omega

theorem roundEven_mono {x y : ℝ} (h : x ≤ y) : roundEven x ≤ roundEven y := by
  rcases (Int.floor_mono h).eq_or_lt with he | hlt
  · have hf : Int.fract x ≤ Int.fract y := by
      have h1 := Int.self_sub_floor x
      have h2 := Int.self_sub_floor y
      rw [← h1, ← h2, he]; linarith
    unfold roundEven
    by_cases hy : Int.fract y < 1 / 2 ∨ (Int.fract y = 1 / 2 ∧ Even ⌊y⌋)
    · have hx : Int.fract x < 1 / 2 ∨ (Int.fract x = 1 / 2 ∧ Even ⌊x⌋) := by
        rcases hy with hy | ⟨hy, hev⟩
        · exact Or.inl (lt_of_le_of_lt hf hy)
        · rcases (hy ▸ hf).eq_or_lt with h' | h'
          · exact Or.inr ⟨h', he ▸ hev⟩
          · exact Or.inl h'
      rw [if_pos hx, if_pos hy, he]
    · rw [if_neg hy]
      split_ifs <;> omega
  · have h1 := (roundEven_bounds x).2
    have h2 := (roundEven_bounds y).1
    omega

/-- `2 ^ e ≤ y < 2 ^ (e + 1)`. -/
theorem log_bounds {y : ℝ} (h : 0 < y) : (2 : ℝ) ^ Int.log 2 y ≤ y ∧ y < (2 : ℝ) ^ (Int.log 2 y + 1) := by
  have h1 := Int.zpow_log_le_self (b := 2) (r := y) (by norm_num) h
  have h2 := Int.lt_zpow_succ_log_self (b := 2) (by norm_num) y
  exact ⟨by exact_mod_cast h1, by exact_mod_cast h2⟩

theorem log_eq {y : ℝ} {e : ℤ} (h1 : (2 : ℝ) ^ e ≤ y) (h2 : y < (2 : ℝ) ^ (e + 1)) : Int.log 2 y = e := by
  have h0 : 0 < y := lt_of_lt_of_le (by positivity) h1
  obtain ⟨h3, h4⟩ := log_bounds h0
  have a1 : (2 : ℝ) ^ e < (2 : ℝ) ^ (Int.log 2 y + 1) := lt_of_le_of_lt h1 h4
  have a2 : (2 : ℝ) ^ Int.log 2 y < (2 : ℝ) ^ (e + 1) := lt_of_le_of_lt h3 h2
  have b1 := (zpow_lt_zpow_iff_right₀ (by norm_num : (1 : ℝ) < 2)).mp a1
  have b2 := (zpow_lt_zpow_iff_right₀ (by norm_num : (1 : ℝ) < 2)).mp a2
  omega

theorem two_zpow_split (e : ℤ) : (2 : ℝ) ^ e = 2 ^ 52 * (2 : ℝ) ^ (e - 52) := by
  rw [zpow_sub₀ (by norm_num)]; norm_num; ring

/-- The significand is between `2 ^ 52` and `2 ^ 53`. -/
theorem significand {y : ℝ} (h : 0 < y) :
    (2 : ℤ) ^ 52 ≤ roundEven (y / 2 ^ (Int.log 2 y - 52)) ∧ roundEven (y / 2 ^ (Int.log 2 y - 52)) ≤ (2 : ℤ) ^ 53 := by
  obtain ⟨h1, h2⟩ := log_bounds h
  have hp : (0 : ℝ) < 2 ^ (Int.log 2 y - 52) := by positivity
  rw [two_zpow_split] at h1
  have e2 : (2 : ℝ) ^ (Int.log 2 y + 1) = 2 ^ 53 * (2 : ℝ) ^ (Int.log 2 y - 52) := by
    rw [zpow_add₀ (by norm_num), two_zpow_split, zpow_one]; ring
  rw [e2] at h2
  constructor
  · rw [← roundEven_int ((2 : ℤ) ^ 52)]
    refine roundEven_mono ?_
    rw [le_div_iff₀ hp]; push_cast; linarith
  · rw [← roundEven_int ((2 : ℤ) ^ 53)]
    refine roundEven_mono ?_
    rw [div_le_iff₀ hp]; push_cast; linarith

theorem roundPos_bounds {y : ℝ} (h : 0 < y) : (2 : ℝ) ^ Int.log 2 y ≤ roundPos y ∧ roundPos y ≤ (2 : ℝ) ^ (Int.log 2 y + 1) := by
  obtain ⟨h1, h2⟩ := significand h
  have hp : (0 : ℝ) < 2 ^ (Int.log 2 y - 52) := by positivity
  have e2 : (2 : ℝ) ^ (Int.log 2 y + 1) = 2 ^ 53 * (2 : ℝ) ^ (Int.log 2 y - 52) := by
    rw [zpow_add₀ (by norm_num), two_zpow_split, zpow_one]; ring
  rw [e2, two_zpow_split]
  unfold roundPos
  exact ⟨mul_le_mul_of_nonneg_right (by exact_mod_cast h1) hp.le, mul_le_mul_of_nonneg_right (by exact_mod_cast h2) hp.le⟩

theorem roundPos_pos {y : ℝ} (h : 0 < y) : 0 < roundPos y := lt_of_lt_of_le (by positivity) (roundPos_bounds h).1

theorem roundPos_mono {x y : ℝ} (hx : 0 < x) (h : x ≤ y) : roundPos x ≤ roundPos y := by
  have hy : 0 < y := lt_of_lt_of_le hx h
  rcases (Int.log_mono_right (b := 2) hx h).eq_or_lt with he | hlt
  · unfold roundPos
    rw [he]
    have hp : (0 : ℝ) < 2 ^ (Int.log 2 y - 52) := by positivity
    refine mul_le_mul_of_nonneg_right ?_ hp.le
    exact_mod_cast roundEven_mono (div_le_div_of_nonneg_right h hp.le)
  · refine (roundPos_bounds hx).2.trans (le_trans ?_ (roundPos_bounds hy).1)
    exact zpow_le_zpow_right₀ (by norm_num) (by omega)

/-- A number with at most 53 digits is left alone. -/
theorem roundPos_fixed {n e : ℤ} (h1 : (2 : ℤ) ^ 52 ≤ n) (h2 : n ≤ (2 : ℤ) ^ 53) : roundPos ((n : ℝ) * (2 : ℝ) ^ (e - 52)) = n * (2 : ℝ) ^ (e - 52) := by
  have hp : ∀ e : ℤ, (0 : ℝ) < 2 ^ e := fun e => by positivity
  have key : ∀ {n e : ℤ}, (2 : ℤ) ^ 52 ≤ n → n < (2 : ℤ) ^ 53 → roundPos ((n : ℝ) * (2 : ℝ) ^ (e - 52)) = n * (2 : ℝ) ^ (e - 52) := by
    intro n e h1 h2
    have hl : Int.log 2 ((n : ℝ) * (2 : ℝ) ^ (e - 52)) = e := by
      refine log_eq ?_ ?_
      · rw [two_zpow_split]; exact mul_le_mul_of_nonneg_right (by exact_mod_cast h1) (hp _).le
      · rw [zpow_add₀ (by norm_num), two_zpow_split e, zpow_one]
        have : (n : ℝ) < 2 ^ 53 := by exact_mod_cast h2
        nlinarith [hp (e - 52)]
    unfold roundPos
    rw [hl, mul_div_assoc, div_self (hp _).ne', mul_one, roundEven_int]
  rcases h2.eq_or_lt with rfl | h2
  · have := key (n := (2 : ℤ) ^ 52) (e := e + 1) le_rfl (by norm_num)
    have e1 : (((2 : ℤ) ^ 52 : ℤ) : ℝ) * (2 : ℝ) ^ (e + 1 - 52) = (((2 : ℤ) ^ 53 : ℤ) : ℝ) * (2 : ℝ) ^ (e - 52) := by
      rw [show e + 1 - 52 = (e - 52) + 1 by ring, zpow_add₀ (by norm_num), zpow_one]; push_cast; ring
    rwa [e1] at this
  · exact key h1 h2

theorem roundPos_idem {y : ℝ} (h : 0 < y) : roundPos (roundPos y) = roundPos y := by
  obtain ⟨h1, h2⟩ := significand h
  exact roundPos_fixed h1 h2

theorem roundPos_two {y : ℝ} (h : 0 < y) : roundPos (2 * y) = 2 * roundPos y := by
  obtain ⟨h1, h2⟩ := log_bounds h
  have hl : Int.log 2 (2 * y) = Int.log 2 y + 1 := by
    refine log_eq ?_ ?_
    · rw [zpow_add₀ (by norm_num), zpow_one]; linarith
    · rw [zpow_add₀ (by norm_num), zpow_one]; linarith
  unfold roundPos
  rw [hl, show Int.log 2 y + 1 - 52 = (Int.log 2 y - 52) + 1 by ring, zpow_add₀ (by norm_num), zpow_one,
    show 2 * y / (2 ^ (Int.log 2 y - 52) * 2) = y / (2 : ℝ) ^ (Int.log 2 y - 52) by field_simp]
  ring

theorem roundDouble_pos {x : ℝ} (h : 0 < x) : roundDouble x = roundPos x := by
  unfold roundDouble; rw [if_neg h.ne', if_pos h]

theorem roundDouble_odd (x : ℝ) : roundDouble (-x) = -roundDouble x := by
  unfold roundDouble
  rcases lt_trichotomy x 0 with h | h | h
  · rw [if_neg (by linarith), if_pos (by linarith), if_neg h.ne, if_neg (by linarith), neg_neg]
  · subst h; simp
  · rw [if_neg (by linarith), if_neg (by linarith), if_neg h.ne', if_pos h, neg_neg]

theorem roundDouble_zero : roundDouble 0 = 0 := by unfold roundDouble; rw [if_pos rfl]

/-- A law that is symmetric needs proof for positive numbers only. -/
theorem roundDouble_idem (x : ℝ) : roundDouble (roundDouble x) = roundDouble x := by
  have key : ∀ y : ℝ, 0 < y → roundDouble (roundDouble y) = roundDouble y := fun y h => by
    rw [roundDouble_pos h, roundDouble_pos (roundPos_pos h), roundPos_idem h]
  rcases lt_trichotomy x 0 with h | h | h
  · have := key (-x) (by linarith)
    rw [roundDouble_odd, roundDouble_odd] at this
    linarith
  · rw [h, roundDouble_zero, roundDouble_zero]
  · exact key x h

theorem roundDouble_two (x : ℝ) : roundDouble (2 * x) = 2 * roundDouble x := by
  have key : ∀ y : ℝ, 0 < y → roundDouble (2 * y) = 2 * roundDouble y := fun y h => by
    rw [roundDouble_pos h, roundDouble_pos (by linarith), roundPos_two h]
  rcases lt_trichotomy x 0 with h | h | h
  · have := key (-x) (by linarith)
    rw [mul_neg, roundDouble_odd, roundDouble_odd] at this
    linarith
  · rw [h, mul_zero, roundDouble_zero, mul_zero]
  · exact key x h

theorem roundDouble_sign {x : ℝ} (h : 0 < x) : 0 < roundDouble x := by rw [roundDouble_pos h]; exact roundPos_pos h

theorem roundDouble_mono (x y : ℝ) (h : x ≤ y) : roundDouble x ≤ roundDouble y := by
  have hn : ∀ {z : ℝ}, z < 0 → roundDouble z < 0 := fun {z} hz => by
    have := roundDouble_sign (x := -z) (by linarith)
    rw [roundDouble_odd] at this; linarith
  rcases lt_trichotomy x 0 with hx | hx | hx
  · rcases lt_trichotomy y 0 with hy | hy | hy
    · have := roundPos_mono (x := -y) (y := -x) (by linarith) (by linarith)
      rw [← roundDouble_pos (by linarith), ← roundDouble_pos (by linarith), roundDouble_odd, roundDouble_odd] at this
      linarith
    · rw [hy, roundDouble_zero]; exact (hn hx).le
    · exact ((hn hx).trans (roundDouble_sign hy)).le
  · subst hx
    rw [roundDouble_zero]
    rcases h.eq_or_lt with hy | hy
    · rw [← hy, roundDouble_zero]
    · exact (roundDouble_sign hy).le
  · rw [roundDouble_pos hx, roundDouble_pos (lt_of_lt_of_le hx h)]; exact roundPos_mono hx h

theorem roundDouble_one : roundDouble 1 = 1 := by
  rw [roundDouble_pos one_pos]
  have := roundPos_fixed (n := (2 : ℤ) ^ 52) (e := 0) le_rfl (by norm_num)
  norm_num at this
  exact this

/-- The float `math.pi`. -/
theorem roundDouble_pi : roundDouble Real.pi = 7074237752028440 / 2 ^ 51 ∧ roundDouble Real.pi ≤ Real.pi := by
  have h1 := Real.pi_gt_d20
  have h2 := Real.pi_lt_d20
  have hl : Int.log 2 Real.pi = 1 := log_eq (by norm_num; linarith) (by norm_num; linarith)
  have hv : roundDouble Real.pi = 7074237752028440 / 2 ^ 51 := by
    rw [roundDouble_pos Real.pi_pos]
    unfold roundPos
    rw [hl]
    have hz : (2 : ℝ) ^ ((1 : ℤ) - 52) = 1 / 2 ^ 51 := by
      rw [show (1 : ℤ) - 52 = -51 by norm_num, zpow_neg]; norm_num
    rw [hz, div_div_eq_mul_div, div_one]
    have hf : ⌊Real.pi * 2 ^ 51⌋ = 7074237752028440 := by
      rw [Int.floor_eq_iff]; push_cast; constructor <;> norm_num <;> linarith
    have : roundEven (Real.pi * 2 ^ 51) = 7074237752028440 := by
      unfold roundEven
      rw [if_pos (Or.inl ?_), hf]
      rw [← Int.self_sub_floor, hf]; push_cast; linarith
    rw [this]; push_cast; ring
  refine ⟨hv, ?_⟩
  rw [hv]
  norm_num
  linarith

/-- Double precision without overflow and underflow. -/
noncomputable def doubleOps : FloatOps := roundingOps roundDouble roundDouble_idem

theorem doubleOps_laws : doubleOps.Laws :=
  roundingOps_laws roundDouble_idem roundDouble_mono roundDouble_odd roundDouble_one roundDouble_two (fun _ => roundDouble_sign) roundDouble_pi.2

/-- A number with at most 53 digits, as a float. -/
theorem roundDouble_fixed {n e : ℤ} (h1 : (2 : ℤ) ^ 52 ≤ n) (h2 : n ≤ (2 : ℤ) ^ 53) :
    roundDouble ((n : ℝ) * (2 : ℝ) ^ (e - 52)) = n * (2 : ℝ) ^ (e - 52) := by
  have hn : (0 : ℝ) < n := by exact_mod_cast lt_of_lt_of_le (by norm_num) h1
  rw [roundDouble_pos (by positivity), roundPos_fixed h1 h2]

/-- The square roots of `1` and of the next float are the same float. -/
theorem roundDouble_sqrt_next : roundDouble (Real.sqrt (1 + 1 / 2 ^ 52)) = 1 := by
  set r := Real.sqrt (1 + 1 / 2 ^ 52) with hr
  have h1 : 1 ≤ r := by rw [hr, Real.one_le_sqrt]; norm_num
  have h2 : r < 1 + 1 / 2 ^ 53 := by rw [hr, Real.sqrt_lt' (by norm_num)]; norm_num
  have hl : Int.log 2 r = 0 := log_eq (by norm_num; exact h1) (by norm_num at h2 ⊢; linarith)
  rw [roundDouble_pos (by linarith)]
  unfold roundPos
  rw [hl]
  have hz : (2 : ℝ) ^ ((0 : ℤ) - 52) = 1 / 2 ^ 52 := by
    rw [show (0 : ℤ) - 52 = -52 by norm_num, zpow_neg]; norm_num
  rw [hz, div_div_eq_mul_div, div_one]
  have hf : ⌊r * 2 ^ 52⌋ = 4503599627370496 := by
    rw [Int.floor_eq_iff]; push_cast; constructor <;> norm_num at h2 ⊢ <;> linarith
  have : roundEven (r * 2 ^ 52) = 4503599627370496 := by
    unfold roundEven
    rw [if_pos (Or.inl ?_), hf]
    rw [← Int.self_sub_floor, hf]; push_cast; norm_num at h2 ⊢; linarith
  rw [this]; norm_num

/-- The double `n * 2 ^ (e - 52)`. -/
noncomputable def doubleOf (n e : ℤ) (h1 : (2 : ℤ) ^ 52 ≤ n) (h2 : n ≤ (2 : ℤ) ^ 53) (bit : Bool := false) : doubleOps.F :=
  ⟨(n : ℝ) * (2 : ℝ) ^ (e - 52), roundDouble_fixed h1 h2, bit⟩

/-- The double `-0.0`. -/
noncomputable def minusZero : doubleOps.F := ⟨0, roundDouble_zero, true⟩

/-- The doubles of the examples. -/
noncomputable def dHalf : doubleOps.F := doubleOf (2 ^ 52) (-1) (by norm_num) (by norm_num)
noncomputable def dQuarter : doubleOps.F := doubleOf (2 ^ 52) (-2) (by norm_num) (by norm_num)
noncomputable def dThreeHalves : doubleOps.F := doubleOf (3 * 2 ^ 51) 0 (by norm_num) (by norm_num)
noncomputable def dThreeHalvesNext : doubleOps.F := doubleOf (3 * 2 ^ 51 + 1) 0 (by norm_num) (by norm_num)

theorem dHalf_val : doubleOps.val dHalf = 1 / 2 := by
  show (((2 ^ 52 : ℤ) : ℝ)) * (2 : ℝ) ^ ((-1 : ℤ) - 52) = _
  rw [show ((-1 : ℤ) - 52) = -53 by norm_num, zpow_neg]; norm_num
theorem dQuarter_val : doubleOps.val dQuarter = 1 / 4 := by
  show (((2 ^ 52 : ℤ) : ℝ)) * (2 : ℝ) ^ ((-2 : ℤ) - 52) = _
  rw [show ((-2 : ℤ) - 52) = -54 by norm_num, zpow_neg]; norm_num
theorem dThreeHalves_val : doubleOps.val dThreeHalves = 3 / 2 := by
  show (((3 * 2 ^ 51 : ℤ) : ℝ)) * (2 : ℝ) ^ ((0 : ℤ) - 52) = _
  rw [show ((0 : ℤ) - 52) = -52 by norm_num, zpow_neg]; norm_num
theorem dThreeHalvesNext_val : doubleOps.val dThreeHalvesNext = 3 / 2 + 1 / 2 ^ 52 := by
  show (((3 * 2 ^ 51 + 1 : ℤ) : ℝ)) * (2 : ℝ) ^ ((0 : ℤ) - 52) = _
  rw [show ((0 : ℤ) - 52) = -52 by norm_num, zpow_neg]; norm_num

theorem double_sub (a b : doubleOps.F) : doubleOps.val (doubleOps.sub a b) = roundDouble (doubleOps.val a - doubleOps.val b) := by
  show roundDouble (a.val + roundDouble (-b.val)) = roundDouble (a.val - b.val)
  rw [roundDouble_odd, b.fixed, ← sub_eq_add_neg]

theorem double_sqrt (a : doubleOps.F) : doubleOps.val (doubleOps.sqrt a) = roundDouble (Real.sqrt (doubleOps.val a)) := rfl

theorem roundDouble_pow (k : ℕ) (x : ℝ) : roundDouble (2 ^ k * x) = 2 ^ k * roundDouble x := by
  induction k with
  | zero => simp
  | succ k ih => rw [pow_succ, mul_comm _ (2 : ℝ), mul_assoc, roundDouble_two, ih]; ring

theorem roundDouble_nonneg {x : ℝ} (h : 0 ≤ x) : 0 ≤ roundDouble x := by
  have := roundDouble_mono 0 x h
  rwa [roundDouble_zero] at this

/-- The cosine of half of the float `pi`. -/
theorem double_cos_half : Real.cos (7074237752028440 / 2 ^ 52) ≤ 1 / 2 ^ 53 := by
  have h1 := Real.pi_gt_d20
  have h2 := Real.pi_lt_d20
  have h3 : (0 : ℝ) ≤ Real.pi / 2 - 7074237752028440 / 2 ^ 52 := by norm_num; linarith
  rw [← Real.sin_pi_div_two_sub]
  refine (Real.sin_le h3).trans ?_
  norm_num; linarith

/-- Below `t_0` the real part of the first root is a rounding error. -/
theorem double_mapZ_below {t_0 : doubleOps.F} {t : doubleOps.Cx} (ht : doubleOps.val t.im = 0) (h : doubleOps.val t.re < doubleOps.val t_0) {z : doubleOps.Cx}
    (hz : doubleOps.mapZ t_0 t = .ok z) :
    doubleOps.val z.re ≤ roundDouble (Real.sqrt (roundDouble (doubleOps.val t_0 - doubleOps.val t.re))) / 2 ^ 53 := by
  have L := doubleOps_laws
  obtain ⟨h1, h2⟩ := L.csub_real ht t_0
  obtain ⟨phi, X, Y, hh, w, hw, p1, p2, h3, h4, h5, h6, h7⟩ := L.squareRoot_parts (doubleOps.csub t (doubleOps.cx t_0))
  have hneg : doubleOps.val (doubleOps.csub t (doubleOps.cx t_0)).re < 0 := by rw [h2]; exact L.sub_neg _ _ h
  have hphi : doubleOps.val phi = doubleOps.val doubleOps.pi := by
    rcases L.atan2_left _ _ h1 hneg with e | e
    · rw [p1 (by rw [e]; exact L.pi_pos.le), e]
    · exact p2 e
  obtain rfl : w = z := by rw [show doubleOps.mapZ t_0 t = _ from hw] at hz; injection hz
  have hpi : doubleOps.val doubleOps.pi = 7074237752028440 / 2 ^ 51 := roundDouble_pi.1
  have h2' : doubleOps.val doubleOps.two = 2 := by
    show roundDouble 2 = 2
    have := roundDouble_two 1
    rwa [mul_one, roundDouble_one, mul_one] at this
  have hhalf : doubleOps.val hh = 7074237752028440 / 2 ^ 52 := by
    rw [h3]
    show roundDouble (doubleOps.val phi / doubleOps.val doubleOps.two) = _
    rw [hphi, h2', hpi]
    have := roundDouble_two (7074237752028440 / 2 ^ 51 / 2)
    rw [mul_div_cancel₀ _ two_ne_zero, ← hpi, show roundDouble (doubleOps.val doubleOps.pi) = doubleOps.val doubleOps.pi from doubleOps.pi.fixed] at this
    rw [hpi] at this
    linarith
  have hX : doubleOps.val X ≤ 1 / 2 ^ 53 := by
    rw [h4]
    show roundDouble (Real.cos (doubleOps.val hh)) ≤ _
    rw [hhalf]
    have hc := roundDouble_mono _ _ double_cos_half
    have e := roundDouble_pow 53 (1 / 2 ^ 53)
    rw [mul_one_div_cancel (by norm_num), roundDouble_one] at e
    linarith
  have hs : doubleOps.val (doubleOps.sqrt (doubleOps.hypot (doubleOps.csub t (doubleOps.cx t_0)).re (doubleOps.csub t (doubleOps.cx t_0)).im)) =
      roundDouble (Real.sqrt (roundDouble (doubleOps.val t_0 - doubleOps.val t.re))) := by
    rw [double_sqrt, L.hypot_real _ _ h1, abs_of_neg hneg, h2, double_sub, ← roundDouble_odd, neg_sub]
  set s := roundDouble (Real.sqrt (roundDouble (doubleOps.val t_0 - doubleOps.val t.re))) with hsd
  have hs0 : 0 ≤ s := roundDouble_nonneg (Real.sqrt_nonneg _)
  rw [h6]
  show roundDouble (doubleOps.val (doubleOps.sqrt _) * doubleOps.val X) ≤ _
  rw [hs]
  have h8 := roundDouble_mono (s * doubleOps.val X) (s * (1 / 2 ^ 53)) (mul_le_mul_of_nonneg_left hX hs0)
  have e := roundDouble_pow 53 (s * (1 / 2 ^ 53))
  rw [show (2 : ℝ) ^ 53 * (s * (1 / 2 ^ 53)) = s by field_simp, hsd, roundDouble_idem, ← hsd] at e
  rw [div_eq_mul_one_div]
  linarith

theorem double_re_le {t_0 t_in : doubleOps.F} {t : doubleOps.Cx} (ht : doubleOps.val t.im = 0) (h : doubleOps.val t.re < doubleOps.val t_0)
    (hb : doubleOps.val t_0 - doubleOps.val t.re ≤ 2 ^ 106 * (doubleOps.val t_in - doubleOps.val t_0)) {z : doubleOps.Cx}
    (hz : doubleOps.mapZ t_0 t = .ok z) : doubleOps.val z.re ≤ doubleOps.val (doubleOps.sqrt (doubleOps.sub t_in t_0)) := by
  refine (double_mapZ_below ht h hz).trans ?_
  rw [double_sqrt, double_sub, div_le_iff₀ (by norm_num)]
  have h1 := roundDouble_mono _ _ hb
  rw [roundDouble_pow] at h1
  have h2 := roundDouble_mono _ _ (Real.sqrt_le_sqrt h1)
  rw [show (2 : ℝ) ^ 106 = (2 ^ 53) ^ 2 by norm_num, Real.sqrt_mul (by positivity), Real.sqrt_sq (by positivity), roundDouble_pow] at h2
  linarith

end UA
