import Verif.Lemmas.Maps
import Verif.Lemmas.SquareRoot

/-!
# Rigorous numerical evaluation

Discs in the complex plane with integer centre and radius, in units of `2 ^ -120`, and operations on them that are proved to
contain the exact results. Used only by the conformance files, which compare the model with the numbers in `/repo/tests`.
Nothing here models code of `/repo`.
-/

namespace UA

open Complex ComplexConjugate

/-- The unit: a number `z` is represented by integers close to `z * S`. -/
def S : ℕ := 2 ^ 120

theorem S_pos : (0 : ℝ) < (S : ℝ) := by unfold S; norm_num
theorem S_ne : (S : ℂ) ≠ 0 := by
  have := S_pos
  have h : (S : ℝ) ≠ 0 := this.ne'
  exact_mod_cast h

/-- A disc with centre `(re + im i) / S` and radius `rad / S`; `real` says the number is real, `ok = false` says nothing. -/
structure Ball where
  re : ℤ
  im : ℤ
  rad : ℕ
  real : Bool
  ok : Bool
deriving DecidableEq

namespace Ball

/-- A Gaussian integer. -/
def gi (a b : ℤ) : ℂ := ⟨a, b⟩

/-- The scaled centre. -/
def c (b : Ball) : ℂ := gi b.re b.im

/-- `z` lies in the disc. -/
def Mem (z : ℂ) (b : Ball) : Prop := b.ok = true → ‖z * S - b.c‖ ≤ b.rad ∧ (b.real = true → z.im = 0)

theorem gi_re (a b : ℤ) : (gi a b).re = a := rfl
theorem gi_im (a b : ℤ) : (gi a b).im = b := rfl
theorem gi_add (a b x y : ℤ) : gi (a + x) (b + y) = gi a b + gi x y := by apply Complex.ext <;> simp [gi]
theorem gi_sub (a b x y : ℤ) : gi (a - x) (b - y) = gi a b - gi x y := by apply Complex.ext <;> simp [gi]
theorem gi_neg (a b : ℤ) : gi (-a) (-b) = - gi a b := by apply Complex.ext <;> simp [gi]
theorem gi_conj (a b : ℤ) : gi a (-b) = conj (gi a b) := by apply Complex.ext <;> simp [gi]
theorem gi_mul (a b x y : ℤ) : gi (a * x - b * y) (a * y + b * x) = gi a b * gi x y := by apply Complex.ext <;> simp [gi]
theorem gi_norm (a b : ℤ) : ‖gi a b‖ ≤ ((a.natAbs + b.natAbs : ℕ) : ℝ) := by
  refine (Complex.norm_le_abs_re_add_abs_im _).trans (le_of_eq ?_)
  simp [gi_re, gi_im, Nat.cast_natAbs]
theorem gi_norm_max (a b : ℤ) : ((max a.natAbs b.natAbs : ℕ) : ℝ) ≤ ‖gi a b‖ := by
  have h1 := Complex.abs_re_le_norm (gi a b)
  have h2 := Complex.abs_im_le_norm (gi a b)
  rw [gi_re] at h1; rw [gi_im] at h2
  rw [Nat.cast_max]
  refine max_le ?_ ?_
  · simpa [Nat.cast_natAbs] using h1
  · simpa [Nat.cast_natAbs] using h2

/-- Rounding down both parts of a quotient by a positive integer moves a number by at most `2`. -/
theorem gi_div (a b : ℤ) {n : ℤ} (hn : 0 < n) : ‖gi a b / (n : ℂ) - gi (a / n) (b / n)‖ ≤ 2 := by
  have hn' : (0 : ℝ) < n := by exact_mod_cast hn
  have key : ∀ x : ℤ, |(x : ℝ) / n - ((x / n : ℤ) : ℝ)| ≤ 1 := by
    intro x
    have e : ((x / n : ℤ) : ℝ) * n + ((x % n : ℤ) : ℝ) = x := by
      have := Int.mul_ediv_add_emod x n
      have h2 : (n * (x / n) + x % n : ℤ) = x := this
      rw [← h2]; push_cast
      have h3 : n * (x / n) + x % n = x := h2
      rw [h3]; ring
    have m0 : (0 : ℝ) ≤ ((x % n : ℤ) : ℝ) := by exact_mod_cast Int.emod_nonneg x hn.ne'
    have m1 : ((x % n : ℤ) : ℝ) < n := by exact_mod_cast Int.emod_lt_of_pos x hn
    have : (x : ℝ) / n - ((x / n : ℤ) : ℝ) = ((x % n : ℤ) : ℝ) / n := by
      field_simp; linarith
    rw [this, abs_of_nonneg (by positivity), div_le_one hn']; exact m1.le
  have e : gi a b / (n : ℂ) - gi (a / n) (b / n) = ⟨(a : ℝ) / n - ((a / n : ℤ) : ℝ), (b : ℝ) / n - ((b / n : ℤ) : ℝ)⟩ := by
    apply Complex.ext
    · rw [Complex.sub_re, gi_re]
      have : (gi a b / (n : ℂ)).re = (a : ℝ) / n := by
        rw [show (n : ℂ) = ((n : ℝ) : ℂ) by push_cast; rfl, Complex.div_ofReal_re, gi_re]
      rw [this]
    · rw [Complex.sub_im, gi_im]
      have : (gi a b / (n : ℂ)).im = (b : ℝ) / n := by
        rw [show (n : ℂ) = ((n : ℝ) : ℂ) by push_cast; rfl, Complex.div_ofReal_im, gi_im]
      rw [this]
  rw [e]
  refine (Complex.norm_le_abs_re_add_abs_im _).trans ?_
  have := key a; have := key b
  simp only
  linarith

/-- Rounded-up quotient of naturals. -/
theorem div_up (a n : ℕ) (hn : 0 < n) : (a : ℝ) / n ≤ ((a / n + 1 : ℕ) : ℝ) := by
  have hn' : (0 : ℝ) < n := by exact_mod_cast hn
  rw [div_le_iff₀ hn']
  have := Nat.lt_div_mul_add (a := a) hn
  have h2 : a ≤ (a / n + 1) * n := by rw [add_mul, one_mul]; exact this.le
  exact_mod_cast h2

/-! ### Operations -/

def add (a b : Ball) : Ball := ⟨a.re + b.re, a.im + b.im, a.rad + b.rad, a.real && b.real, a.ok && b.ok⟩
def neg (a : Ball) : Ball := ⟨-a.re, -a.im, a.rad, a.real, a.ok⟩
def sub (a b : Ball) : Ball := ⟨a.re - b.re, a.im - b.im, a.rad + b.rad, a.real && b.real, a.ok && b.ok⟩
def conjB (a : Ball) : Ball := ⟨a.re, -a.im, a.rad, a.real, a.ok⟩
def mul (a b : Ball) : Ball :=
  ⟨(a.re * b.re - a.im * b.im) / (S : ℤ), (a.re * b.im + a.im * b.re) / (S : ℤ),
   ((a.re.natAbs + a.im.natAbs) * b.rad + (b.re.natAbs + b.im.natAbs) * a.rad + a.rad * b.rad) / S + 3,
   a.real && b.real, a.ok && b.ok⟩
/-- `1 / z`. -/
def inv (a : Ball) : Ball :=
  let n : ℤ := a.re * a.re + a.im * a.im
  let m : ℕ := max a.re.natAbs a.im.natAbs
  ⟨a.re * S * S / n, (-a.im) * S * S / n, S * S * a.rad / (m * (m - a.rad)) + 3, a.real, a.ok && decide (a.rad < m)⟩
def div (a b : Ball) : Ball := mul a (inv b)
/-- A complex number given by a rational real and imaginary part. -/
def ofRat (p q : ℤ) (n : ℕ) : Ball := ⟨p * S / n, q * S / n, 2, q == 0, decide (0 < n)⟩
/-- `squareRoot z`, with a proposed scaled value `u` for it. -/
def sqrt (a : Ball) (u v : ℤ) : Ball :=
  let e : ℕ := (a.re * S - (u * u - v * v)).natAbs + (a.im * S - 2 * u * v).natAbs + a.rad * S
  if a.real && decide ((a.rad : ℤ) ≤ a.re) then
    ⟨u, 0, e / u.natAbs + 1, true, a.ok && decide (0 < u) && decide (v = 0)⟩
  else ⟨u, v, e / v.natAbs + 1, false, a.ok && decide (0 < v)⟩

instance : Add Ball := ⟨add⟩
instance : Neg Ball := ⟨neg⟩
instance : Sub Ball := ⟨sub⟩
instance : Mul Ball := ⟨mul⟩
instance : Div Ball := ⟨div⟩

theorem Mem.add {x y : ℂ} {a b : Ball} (hx : Mem x a) (hy : Mem y b) : Mem (x + y) (a + b) := by
  intro h
  have h' : a.ok = true ∧ b.ok = true := Bool.and_eq_true_iff.mp (show (a.ok && b.ok) = true from h)
  obtain ⟨h1, r1⟩ := hx h'.1
  obtain ⟨h2, r2⟩ := hy h'.2
  refine ⟨?_, fun hr => ?_⟩
  · have e : (x + y) * S - (a + b).c = (x * S - a.c) + (y * S - b.c) := by
      rw [show (a + b).c = a.c + b.c from gi_add _ _ _ _]; ring
    rw [e]
    refine (norm_add_le _ _).trans ?_
    have : (((a + b).rad : ℕ) : ℝ) = a.rad + b.rad := by
      rw [show (a + b).rad = a.rad + b.rad from rfl]; push_cast; rfl
    rw [this]; linarith
  · have hr' : a.real = true ∧ b.real = true := Bool.and_eq_true_iff.mp (show (a.real && b.real) = true from hr)
    rw [Complex.add_im, r1 hr'.1, r2 hr'.2, add_zero]

theorem Mem.neg {x : ℂ} {a : Ball} (hx : Mem x a) : Mem (-x) (-a) := by
  intro h
  obtain ⟨h1, r1⟩ := hx h
  refine ⟨?_, fun hr => ?_⟩
  · have e : -x * S - (-a).c = - (x * S - a.c) := by
      rw [show (-a).c = -a.c from gi_neg _ _]; ring
    rw [e, norm_neg]; exact h1
  · rw [Complex.neg_im, r1 hr, neg_zero]

theorem Mem.sub {x y : ℂ} {a b : Ball} (hx : Mem x a) (hy : Mem y b) : Mem (x - y) (a - b) := by
  have := hx.add hy.neg
  rw [← sub_eq_add_neg] at this
  intro h
  obtain ⟨h1, r1⟩ := this h
  refine ⟨?_, r1⟩
  have e : (a + -b).c = (a - b).c := by
    show gi (a.re + -b.re) (a.im + -b.im) = gi (a.re - b.re) (a.im - b.im)
    rw [← sub_eq_add_neg, ← sub_eq_add_neg]
  rw [e] at h1; exact h1

theorem Mem.conj {x : ℂ} {a : Ball} (hx : Mem x a) : Mem (conj x) a.conjB := by
  intro h
  obtain ⟨h1, r1⟩ := hx h
  refine ⟨?_, fun hr => ?_⟩
  · have e : (starRingEnd ℂ) x * S - a.conjB.c = (starRingEnd ℂ) (x * S - a.c) := by
      rw [show a.conjB.c = (starRingEnd ℂ) a.c from gi_conj _ _, map_sub, map_mul, map_natCast]
    rw [e, RCLike.norm_conj]; exact h1
  · rw [Complex.conj_im, r1 hr, neg_zero]

theorem Mem.mul {x y : ℂ} {a b : Ball} (hx : Mem x a) (hy : Mem y b) : Mem (x * y) (a * b) := by
  intro h
  have h' : a.ok = true ∧ b.ok = true := Bool.and_eq_true_iff.mp (show (a.ok && b.ok) = true from h)
  obtain ⟨h1, r1⟩ := hx h'.1
  obtain ⟨h2, r2⟩ := hy h'.2
  refine ⟨?_, fun hr => ?_⟩
  · set e := x * S - a.c with he
    set f := y * S - b.c with hf
    have hS : (S : ℂ) ≠ 0 := S_ne
    have hS0 : (0 : ℤ) < (S : ℤ) := by unfold S; norm_num
    have hx' : x * S = a.c + e := by rw [he]; ring
    have hy' : y * S = b.c + f := by rw [hf]; ring
    have e1 : x * y * S = a.c * b.c / S + (a.c * f + b.c * e + e * f) / S := by
      have : x * y * S * S = (a.c + e) * (b.c + f) := by rw [← hx', ← hy']; ring
      field_simp
      linear_combination this
    have hc := gi_div (a.re * b.re - a.im * b.im) (a.re * b.im + a.im * b.re) hS0
    rw [gi_mul] at hc
    have e2 : x * y * S - (a * b).c = (a.c * b.c / S - (a * b).c) + (a.c * f + b.c * e + e * f) / S := by rw [e1]; ring
    rw [e2]
    refine (norm_add_le _ _).trans ?_
    have n1 : ‖(a.c * f + b.c * e + e * f) / (S : ℂ)‖ ≤
        (((a.re.natAbs + a.im.natAbs) * b.rad + (b.re.natAbs + b.im.natAbs) * a.rad + a.rad * b.rad : ℕ) : ℝ) / (S : ℕ) := by
      rw [norm_div, Complex.norm_natCast]
      refine div_le_div_of_nonneg_right ?_ S_pos.le
      refine (norm_add_le _ _).trans ?_
      refine (add_le_add_left (norm_add_le _ _) _).trans ?_
      rw [norm_mul, norm_mul, norm_mul]
      have ha := gi_norm a.re a.im
      have hb := gi_norm b.re b.im
      have m1 : ‖a.c‖ * ‖f‖ ≤ ((a.re.natAbs + a.im.natAbs : ℕ) : ℝ) * b.rad := mul_le_mul ha h2 (norm_nonneg _) (Nat.cast_nonneg _)
      have m2 : ‖b.c‖ * ‖e‖ ≤ ((b.re.natAbs + b.im.natAbs : ℕ) : ℝ) * a.rad := mul_le_mul hb h1 (norm_nonneg _) (Nat.cast_nonneg _)
      have m3 : ‖e‖ * ‖f‖ ≤ (a.rad : ℝ) * b.rad := mul_le_mul h1 h2 (norm_nonneg _) (Nat.cast_nonneg _)
      push_cast at m1 m2 ⊢
      linarith
    have n2 := n1.trans (div_up _ S (by unfold S; norm_num))
    have n3 : ‖a.c * b.c / (S : ℂ) - (a * b).c‖ ≤ 2 := by
      have : (((S : ℤ) : ℂ)) = (S : ℂ) := by push_cast; rfl
      rw [this] at hc
      exact hc
    have : (((a * b).rad : ℕ) : ℝ) = ((((a.re.natAbs + a.im.natAbs) * b.rad + (b.re.natAbs + b.im.natAbs) * a.rad + a.rad * b.rad) / S + 1 : ℕ) : ℝ) + 2 := by
      rw [show (a * b).rad = ((a.re.natAbs + a.im.natAbs) * b.rad + (b.re.natAbs + b.im.natAbs) * a.rad + a.rad * b.rad) / S + 3 from rfl]
      push_cast; ring
    rw [this]; linarith
  · have hr' : a.real = true ∧ b.real = true := Bool.and_eq_true_iff.mp (show (a.real && b.real) = true from hr)
    rw [Complex.mul_im, r1 hr'.1, r2 hr'.2]; ring

/-- A disc that does not reach the origin. -/
theorem Mem.ne_zero {x : ℂ} {a : Ball} (hx : Mem x a) (h : a.ok = true) (hr : a.rad < max a.re.natAbs a.im.natAbs) : x ≠ 0 := by
  rintro rfl
  obtain ⟨h1, -⟩ := hx h
  rw [zero_mul, zero_sub, norm_neg] at h1
  have h2 := gi_norm_max a.re a.im
  have h3 : ((max a.re.natAbs a.im.natAbs : ℕ) : ℝ) ≤ a.rad := h2.trans h1
  have h4 : max a.re.natAbs a.im.natAbs ≤ a.rad := by exact_mod_cast h3
  omega

theorem Mem.inv {x : ℂ} {a : Ball} (hx : Mem x a) : Mem (1 / x) a.inv := by
  intro h
  have h' : a.ok = true ∧ a.rad < max a.re.natAbs a.im.natAbs := by
    have := h
    simp only [Ball.inv, Bool.and_eq_true, decide_eq_true_eq] at this
    exact this
  have hx0 : x ≠ 0 := hx.ne_zero h'.1 h'.2
  obtain ⟨h1, r1⟩ := hx h'.1
  refine ⟨?_, fun hr => ?_⟩
  · set m := max a.re.natAbs a.im.natAbs with hm
    set e := x * S - a.c with he
    have hS : (S : ℂ) ≠ 0 := S_ne
    have hmc : (m : ℝ) ≤ ‖a.c‖ := gi_norm_max a.re a.im
    have hm0 : 0 < m := by omega
    have hm0' : (0 : ℝ) < m := by exact_mod_cast hm0
    have hc0 : a.c ≠ 0 := fun h0 => by rw [h0, norm_zero] at hmc; linarith
    have hd : ((m - a.rad : ℕ) : ℝ) = m - a.rad := by rw [Nat.cast_sub h'.2.le]
    have hd0 : 0 < m - a.rad := by omega
    have hd0' : (0 : ℝ) < ((m - a.rad : ℕ) : ℝ) := by exact_mod_cast hd0
    have hxS : (m : ℝ) - a.rad ≤ ‖x * S‖ := by
      have : ‖a.c‖ ≤ ‖x * S‖ + ‖e‖ := by
        have e0 : a.c = x * S - e := by rw [he]; ring
        rw [e0]; exact (norm_sub_le _ _)
      linarith
    have e1 : 1 / x * S - S * S / a.c = - (S * S * e / (a.c * (x * S))) := by
      rw [he]; field_simp; ring
    have n1 : ‖(1 / x * S - S * S / a.c : ℂ)‖ ≤ ((S * S * a.rad : ℕ) : ℝ) / ((m * (m - a.rad) : ℕ) : ℝ) := by
      rw [e1, norm_neg, norm_div, norm_mul, norm_mul, norm_mul, Complex.norm_natCast]
      push_cast [hd]
      rw [hd] at hd0'
      gcongr
    have n2 := n1.trans (div_up _ _ (Nat.mul_pos hm0 hd0))
    have hn0 : (0 : ℤ) < a.re * a.re + a.im * a.im := by
      rcases lt_or_eq_of_le (add_nonneg (mul_self_nonneg a.re) (mul_self_nonneg a.im)) with h | h
      · exact h
      · exfalso
        have z1 : a.re = 0 := by nlinarith [mul_self_nonneg a.re, mul_self_nonneg a.im]
        have z2 : a.im = 0 := by nlinarith [mul_self_nonneg a.re, mul_self_nonneg a.im]
        exact hc0 (by rw [Ball.c, z1, z2]; apply Complex.ext <;> simp [gi])
    have e3 : gi (a.re * S * S) ((-a.im) * S * S) / ((a.re * a.re + a.im * a.im : ℤ) : ℂ) = S * S / a.c := by
      have hn' : ((a.re * a.re + a.im * a.im : ℤ) : ℂ) ≠ 0 := by exact_mod_cast hn0.ne'
      have hk : ((a.re * a.re + a.im * a.im : ℤ) : ℂ) = a.c * (starRingEnd ℂ) a.c := by
        apply Complex.ext <;> simp [Ball.c, gi] <;> ring
      have hg : gi (a.re * S * S) ((-a.im) * S * S) = S * S * (starRingEnd ℂ) a.c := by
        apply Complex.ext <;> simp [Ball.c, gi] <;> ring
      rw [hg, hk]
      have hcc : (starRingEnd ℂ) a.c ≠ 0 := by simpa using hc0
      field_simp
    have hcd := gi_div (a.re * S * S) ((-a.im) * S * S) hn0
    rw [e3] at hcd
    have e4 : 1 / x * S - a.inv.c = (1 / x * S - S * S / a.c) + (S * S / a.c - a.inv.c) := by ring
    rw [e4]
    refine (norm_add_le _ _).trans ?_
    have hc' : ‖(S * S / a.c - a.inv.c : ℂ)‖ ≤ 2 := hcd
    have : ((a.inv.rad : ℕ) : ℝ) = ((S * S * a.rad / (m * (m - a.rad)) + 1 : ℕ) : ℝ) + 2 := by
      rw [show a.inv.rad = S * S * a.rad / (m * (m - a.rad)) + 3 from rfl]; push_cast; ring
    rw [this]; linarith
  · have : x.im = 0 := r1 hr
    rw [one_div, Complex.inv_im, this]; simp

theorem Mem.div {x y : ℂ} {a b : Ball} (hx : Mem x a) (hy : Mem y b) : Mem (x / y) (a / b) := by
  have := hx.mul hy.inv
  rw [show x * (1 / y) = x / y by ring] at this
  exact this

theorem mem_ofRat {z : ℂ} {p q : ℤ} {n : ℕ} (h : z * n = gi p q) : Mem z (ofRat p q n) := by
  intro h0
  have hn : 0 < n := by simpa [ofRat] using h0
  have hn' : (0 : ℤ) < (n : ℤ) := by exact_mod_cast hn
  have hnc : (n : ℂ) ≠ 0 := by exact_mod_cast hn.ne'
  refine ⟨?_, fun hr => ?_⟩
  · have := gi_div (p * S) (q * S) hn'
    have e : gi (p * S) (q * S) / ((n : ℤ) : ℂ) = z * S := by
      have : gi (p * S) (q * S) = gi p q * S := by apply Complex.ext <;> simp [gi]
      rw [this, ← h]; push_cast; field_simp
    rw [e] at this
    have h2 : (((ofRat p q n).rad : ℕ) : ℝ) = 2 := by
      rw [show (ofRat p q n).rad = 2 from rfl]; norm_num
    rw [h2]; exact this
  · have hq : q = 0 := by simpa [ofRat] using hr
    have hz : z = gi p q / n := by rw [← h]; field_simp
    rw [hz, hq, show (n : ℂ) = ((n : ℝ) : ℂ) by push_cast; rfl, Complex.div_ofReal_im, gi_im]; simp

theorem Mem.sqrt {x : ℂ} {a : Ball} (hx : Mem x a) (u v : ℤ) : Mem (squareRoot x) (a.sqrt u v) := by
  intro h
  set e : ℕ := (a.re * S - (u * u - v * v)).natAbs + (a.im * S - 2 * u * v).natAbs + a.rad * S with he
  set w := squareRoot x with hw
  have hsq : w ^ 2 = x := squareRoot_sq x
  have hS := S_ne
  have main : ∀ (hok : a.ok = true) (d : ℕ), 0 < d → (d : ℝ) ≤ ‖w * S + gi u v‖ → ‖w * S - gi u v‖ ≤ ((e / d + 1 : ℕ) : ℝ) := by
    intro hok d hd hle
    obtain ⟨h1, -⟩ := hx hok
    have hd' : (0 : ℝ) < d := by exact_mod_cast hd
    have e1 : (w * S - gi u v) * (w * S + gi u v) = gi (a.re * S - (u * u - v * v)) (a.im * S - 2 * u * v) + (x * S - a.c) * S := by
      have k1 : gi (a.re * S - (u * u - v * v)) (a.im * S - 2 * u * v) = a.c * S - gi u v * gi u v := by
        rw [← gi_mul]; apply Complex.ext <;> simp [Ball.c, gi]; ring
      rw [k1]
      linear_combination S * S * hsq
    have n1 : ‖w * S - gi u v‖ * ‖w * S + gi u v‖ ≤ e := by
      rw [← norm_mul, e1]
      refine (norm_add_le _ _).trans ?_
      have := gi_norm (a.re * S - (u * u - v * v)) (a.im * S - 2 * u * v)
      rw [norm_mul, Complex.norm_natCast, he]
      have h2 : ‖x * S - a.c‖ * (S : ℝ) ≤ a.rad * S := mul_le_mul_of_nonneg_right h1 S_pos.le
      push_cast at this ⊢
      linarith
    have n2 : ‖w * S - gi u v‖ ≤ (e : ℝ) / d := by
      rw [le_div_iff₀ hd']
      exact (mul_le_mul_of_nonneg_left hle (norm_nonneg _)).trans n1
    exact n2.trans (div_up _ _ hd)
  by_cases hc : (a.real && decide ((a.rad : ℤ) ≤ a.re)) = true
  · have hval : a.sqrt u v = ⟨u, 0, e / u.natAbs + 1, true, a.ok && decide (0 < u) && decide (v = 0)⟩ := by
      unfold Ball.sqrt; simp only; rw [if_pos hc]
    rw [hval] at h ⊢
    simp only [Bool.and_eq_true, decide_eq_true_eq] at h hc
    obtain ⟨⟨hok, hu⟩, hv⟩ := h
    subst hv
    obtain ⟨h1, r1⟩ := hx hok
    have him := r1 hc.1
    have hre : 0 ≤ x.re := by
      have := (Complex.abs_re_le_norm (x * S - a.c)).trans h1
      rw [Complex.sub_re, Complex.mul_re, Complex.natCast_re, Complex.natCast_im, mul_zero, sub_zero] at this
      have h3 := (abs_le.mp this).1
      have h4 : ((a.rad : ℤ) : ℝ) ≤ (a.re : ℝ) := by exact_mod_cast hc.2
      have h5 : (a.c.re : ℝ) = a.re := rfl
      rw [h5] at h3
      have h6 : 0 ≤ x.re * S := by push_cast at h4; linarith
      exact nonneg_of_mul_nonneg_left h6 S_pos
    have hxr : x = ((x.re : ℝ) : ℂ) := by apply Complex.ext <;> simp [him]
    have hwr : w = ((Real.sqrt x.re : ℝ) : ℂ) := by rw [hw, hxr, squareRoot_ofReal hre]; simp
    refine ⟨?_, fun _ => by rw [hwr]; simp⟩
    refine main hok u.natAbs (by omega) ?_
    have := Complex.re_le_norm (w * S + gi u 0)
    refine le_trans ?_ this
    rw [hwr, Complex.add_re, gi_re]
    have h7 : ((Real.sqrt x.re : ℂ) * S).re = Real.sqrt x.re * S := by simp
    rw [h7]
    have h8 : ((u.natAbs : ℕ) : ℝ) = u := by
      rw [Nat.cast_natAbs, abs_of_pos hu]
    rw [h8]
    have := mul_nonneg (Real.sqrt_nonneg x.re) S_pos.le
    linarith
  · have hval : a.sqrt u v = ⟨u, v, e / v.natAbs + 1, false, a.ok && decide (0 < v)⟩ := by
      unfold Ball.sqrt; simp only; rw [if_neg hc]
    rw [hval] at h ⊢
    simp only [Bool.and_eq_true, decide_eq_true_eq] at h
    obtain ⟨hok, hv⟩ := h
    refine ⟨?_, fun h => by cases h⟩
    refine main hok v.natAbs (by omega) ?_
    have := Complex.abs_im_le_norm (w * S + gi u v)
    refine le_trans ?_ ((le_abs_self _).trans this)
    rw [Complex.add_im, gi_im]
    have h7 : (w * S).im = w.im * S := by simp
    rw [h7]
    have h8 : ((v.natAbs : ℕ) : ℝ) = v := by rw [Nat.cast_natAbs, abs_of_pos hv]
    rw [h8]
    have := mul_nonneg (squareRoot_im_nonneg x) S_pos.le
    rw [← hw] at this
    linarith

/-- Replacing a disc by a larger one given by literals. -/
def within (a b : Ball) : Bool :=
  a.ok && decide ((a.re - b.re).natAbs + (a.im - b.im).natAbs + a.rad ≤ b.rad) && (!b.real || a.real)

theorem Mem.within {x : ℂ} {a b : Ball} (hx : Mem x a) (h : a.within b = true) : Mem x b := by
  simp only [Ball.within, Bool.and_eq_true, decide_eq_true_eq] at h
  obtain ⟨⟨hok, hr⟩, hreal⟩ := h
  obtain ⟨h1, r1⟩ := hx hok
  intro _
  refine ⟨?_, fun hb => ?_⟩
  · have e : x * S - b.c = (x * S - a.c) + gi (a.re - b.re) (a.im - b.im) := by
      rw [gi_sub]; simp only [Ball.c]; ring
    rw [e]
    refine (norm_add_le _ _).trans ?_
    have := gi_norm (a.re - b.re) (a.im - b.im)
    have h2 : (((a.re - b.re).natAbs + (a.im - b.im).natAbs + a.rad : ℕ) : ℝ) ≤ b.rad := by exact_mod_cast hr
    push_cast at this h2
    linarith
  · rw [hb] at hreal
    exact r1 (by simpa using hreal)

end Ball
end UA
