import Verif.Model.FloatMap
import Mathlib.Analysis.SpecialFunctions.Trigonometric.Basic
import Mathlib.Data.Int.Log

/-!
# Vocabulary for property C107: what is known of a rounding arithmetic
-/

namespace UA

namespace FloatOps

variable (R : FloatOps)

/-- The laws of an arithmetic that rounds symmetrically and monotonically, without underflow: exact in the cases where the result is
one of the operands, right sign otherwise, and so on for the functions. Nothing is said about how precise the results are. IEEE 754
arithmetic (rounding to nearest) in its normal range satisfies them. The argument of `-0.0 + x i` may come out on either side: for a
negative real number `atan2` is `pi` or `-pi` depending on the sign of the zero. -/
structure Laws : Prop where
  val_zero : R.val R.zero = 0
  val_one : R.val R.one = 1
  val_two : 0 < R.val R.two
  val_neg : ∀ a, R.val (R.neg a) = - R.val a
  add_comm : ∀ a b, R.val (R.add a b) = R.val (R.add b a)
  add_zero : ∀ a b, R.val b = 0 → R.val (R.add a b) = R.val a
  add_mono : ∀ a a' b, R.val a ≤ R.val a' → R.val (R.add a b) ≤ R.val (R.add a' b)
  add_pos : ∀ a b, 0 < R.val a + R.val b → 0 < R.val (R.add a b)
  add_neg : ∀ a b, R.val a + R.val b < 0 → R.val (R.add a b) < 0
  add_cancel : ∀ a b, R.val a + R.val b = 0 → R.val (R.add a b) = 0
  mul_comm : ∀ a b, R.val (R.mul a b) = R.val (R.mul b a)
  mul_zero : ∀ a b, R.val b = 0 → R.val (R.mul a b) = 0
  mul_one : ∀ a b, R.val b = 1 → R.val (R.mul a b) = R.val a
  mul_pos : ∀ a b, 0 < R.val a → 0 < R.val b → 0 < R.val (R.mul a b)
  mul_neg : ∀ a b, 0 < R.val a → R.val b < 0 → R.val (R.mul a b) < 0
  neg_mul_neg : ∀ a b, R.val a < 0 → R.val b < 0 → 0 < R.val (R.mul a b)
  div_zero : ∀ a b, R.val a = 0 → R.val b ≠ 0 → R.val (R.div a b) = 0
  div_pos : ∀ a b, 0 < R.val a → 0 < R.val b → 0 < R.val (R.div a b)
  div_neg : ∀ a b, 0 < R.val a → R.val b < 0 → R.val (R.div a b) < 0
  neg_div : ∀ a b, R.val a < 0 → 0 < R.val b → R.val (R.div a b) < 0
  neg_div_neg : ∀ a b, R.val a < 0 → R.val b < 0 → 0 < R.val (R.div a b)
  div_mono : ∀ a a' b, 0 < R.val b → R.val a ≤ R.val a' → R.val (R.div a b) ≤ R.val (R.div a' b)
  one_le_div : ∀ a b, 0 < R.val b → R.val b ≤ R.val a → 1 ≤ R.val (R.div a b)
  div_le_one : ∀ a b, 0 < R.val b → R.val a ≤ R.val b → R.val (R.div a b) ≤ 1
  div_congr : ∀ a a' b b', R.val a = R.val a' → R.val b = R.val b' → R.val (R.div a b) = R.val (R.div a' b')
  sqrt_zero : ∀ a, R.val a = 0 → R.val (R.sqrt a) = 0
  sqrt_one : ∀ a, R.val a = 1 → R.val (R.sqrt a) = 1
  sqrt_pos : ∀ a, 0 < R.val a → 0 < R.val (R.sqrt a)
  sqrt_mono : ∀ a b, 0 ≤ R.val a → R.val a ≤ R.val b → R.val (R.sqrt a) ≤ R.val (R.sqrt b)
  hypot_real : ∀ a b, R.val b = 0 → R.val (R.hypot a b) = |R.val a|
  hypot_pos : ∀ a b, R.val b ≠ 0 → 0 < R.val (R.hypot a b)
  pi_pos : 0 < R.val R.pi
  two_pi : ∀ b, R.val b = - R.val R.pi → R.val (R.add (R.mul R.two R.pi) b) = R.val R.pi
  atan2_right : ∀ y x, R.val y = 0 → 0 < R.val x → R.val (R.atan2 y x) = 0
  atan2_left : ∀ y x, R.val y = 0 → R.val x < 0 → R.val (R.atan2 y x) = R.val R.pi ∨ R.val (R.atan2 y x) = - R.val R.pi
  atan2_upper : ∀ y x, 0 < R.val y → 0 < R.val (R.atan2 y x) ∧ R.val (R.atan2 y x) ≤ R.val R.pi
  exp_zero : ∀ a, R.val a = 0 → R.val (R.exp a) = 1
  cos_zero : ∀ a, R.val a = 0 → R.val (R.cos a) = 1
  sin_zero : ∀ a, R.val a = 0 → R.val (R.sin a) = 0
  /-- Up to half of the float `pi`, which is less than π/2. -/
  cos_nonneg : ∀ a, 0 < R.val a → R.val a ≤ R.val (R.div R.pi R.two) → 0 ≤ R.val (R.cos a)
  sin_pos : ∀ a, 0 < R.val a → R.val a ≤ R.val (R.div R.pi R.two) → 0 < R.val (R.sin a)

/-- Both components of a computed complex number as a point of the plane. -/
def point (z : R.Cx) : ℂ := ⟨R.val z.re, R.val z.im⟩

end FloatOps

/-- Exact real arithmetic. -/
noncomputable def exactOps : FloatOps where
  F := ℝ
  val := id
  zero := 0
  one := 1
  two := 2
  pi := Real.pi
  neg := Neg.neg
  add := (· + ·)
  mul := (· * ·)
  div := (· / ·)
  sqrt := Real.sqrt
  exp := Real.exp
  cos := Real.cos
  sin := Real.sin
  hypot a b := ‖(⟨a, b⟩ : ℂ)‖
  atan2 y x := Complex.arg ⟨x, y⟩

/-- A number that the rounding `fl` leaves alone, with a sign bit. The bit matters for zero only: `-0.0` has it set. -/
structure SignedFloat (fl : ℝ → ℝ) where
  val : ℝ
  fixed : fl val = val
  bit : Bool

/-- `copysign(1, x) < 0`. -/
noncomputable def SignedFloat.negative {fl : ℝ → ℝ} (a : SignedFloat fl) : Bool := open Classical in
  if a.val < 0 then true else if 0 < a.val then false else a.bit

/-- The result `x` of an operation, rounded; `bit` is the sign of the result if it is zero. -/
def rounded (fl : ℝ → ℝ) (idem : ∀ x, fl (fl x) = fl x) (x : ℝ) (bit : Bool) : SignedFloat fl := ⟨fl x, idem x, bit⟩

/-- The arithmetic in which every result is the exact one rounded by `fl`, with the signs of zeros as in IEEE 754: a sum that cancels is
`+0.0`, a product or quotient has the sign of its factors, `sqrt` and `sin` keep the sign, and `atan2` of a zero depends on both signs. -/
noncomputable def roundingOps (fl : ℝ → ℝ) (idem : ∀ x, fl (fl x) = fl x) : FloatOps where
  F := SignedFloat fl
  val := SignedFloat.val
  zero := rounded fl idem 0 false
  one := rounded fl idem 1 false
  two := rounded fl idem 2 false
  pi := rounded fl idem Real.pi false
  neg a := rounded fl idem (-a.val) (!a.bit)
  add a b := rounded fl idem (a.val + b.val) (a.negative && b.negative)
  mul a b := rounded fl idem (a.val * b.val) (xor a.negative b.negative)
  div a b := rounded fl idem (a.val / b.val) (xor a.negative b.negative)
  sqrt a := rounded fl idem (Real.sqrt a.val) a.negative
  exp a := rounded fl idem (Real.exp a.val) false
  cos a := rounded fl idem (Real.cos a.val) false
  sin a := rounded fl idem (Real.sin a.val) a.negative
  hypot a b := rounded fl idem ‖(⟨a.val, b.val⟩ : ℂ)‖ false
  atan2 y x := open Classical in
    rounded fl idem
      (if y.val = 0 then (if y.negative then -1 else 1) * (if x.negative then Real.pi else 0) else Complex.arg ⟨x.val, y.val⟩) y.negative

/-- Rounding to the nearest integer, ties to even. -/
noncomputable def roundEven (y : ℝ) : ℤ := open Classical in
  if Int.fract y < 1 / 2 ∨ (Int.fract y = 1 / 2 ∧ Even ⌊y⌋) then ⌊y⌋ else ⌊y⌋ + 1

/-- Rounding of a positive number to a binary number with 53 significant digits. -/
noncomputable def roundPos (y : ℝ) : ℝ := roundEven (y / 2 ^ (Int.log 2 y - 52)) * (2 : ℝ) ^ (Int.log 2 y - 52)

/-- Rounding to nearest, ties to even, with 53 significant binary digits and any exponent: the rounding of double precision apart from
overflow and underflow. -/
noncomputable def roundDouble (x : ℝ) : ℝ := open Classical in if x = 0 then 0 else if 0 < x then roundPos x else - roundPos (-x)

end UA
