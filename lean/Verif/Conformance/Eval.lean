import Verif.Conformance.Ball
import Verif.Lemmas.KaonRun

/-!
# Rigorous numerical evaluation of the models

The operations of `Ball.lean` applied to the formulas of the map, of a component and of the kaon form factors.
-/

namespace UA

open Complex ComplexConjugate

namespace Ball

def zero : Ball := ⟨0, 0, 0, true, true⟩
def one : Ball := ⟨S, 0, 0, true, true⟩
def two : Ball := ⟨2 * S, 0, 0, true, true⟩
def imag : Ball := ⟨0, S, 0, false, true⟩

theorem mem_zero : Mem 0 zero := fun _ => by simp [zero, c, gi, Complex.ext_iff]
theorem mem_one : Mem 1 one := fun _ => by
  refine ⟨?_, fun _ => rfl⟩
  rw [show (1 : ℂ) * S - one.c = 0 by apply Complex.ext <;> simp [one, c, gi]]; simp [one]
theorem mem_two : Mem 2 two := fun _ => by
  refine ⟨?_, fun _ => by norm_num⟩
  rw [show (2 : ℂ) * S - two.c = 0 by apply Complex.ext <;> simp [two, c, gi]]; simp [two]
theorem mem_imag : Mem I imag := fun _ => by
  refine ⟨?_, fun h => by cases h⟩
  rw [show I * S - imag.c = 0 by apply Complex.ext <;> simp [imag, c, gi]]; simp [imag]

/-- A rational real number. -/
theorem mem_real {x : ℝ} {p : ℤ} {n : ℕ} (h : x * n = p) : Mem (x : ℂ) (ofRat p 0 n) :=
  mem_ofRat (by
    apply Complex.ext
    · rw [gi_re, ← h]; simp
    · rw [gi_im]; simp)

/-- A complex number with rational parts. -/
theorem mem_gauss {x y : ℝ} {p q : ℤ} {n : ℕ} (hx : x * n = p) (hy : y * n = q) : Mem ⟨x, y⟩ (ofRat p q n) :=
  mem_ofRat (by
    apply Complex.ext
    · rw [gi_re, ← hx]; simp
    · rw [gi_im, ← hy]; simp)

/-- Approximations to the two square roots taken by the map. -/
structure Cert where
  z₁ : ℤ
  z₂ : ℤ
  v₁ : ℤ
  v₂ : ℤ

/-- The conformal variable. -/
def wB (T0 A T : Ball) (k : Cert) : Ball :=
  let Z := (T - T0).sqrt k.z₁ k.z₂
  let V := ((Z + A) / (-Z + A)).sqrt k.v₁ k.v₂
  imag * (V - one) / (V + one)

theorem mem_sqrt_real {x y : ℝ} {X Y : Ball} (hx : Mem x X) (hy : Mem y Y) (h : y ≤ x) (u : ℤ) :
    Mem (Real.sqrt (x - y) : ℂ) ((X - Y).sqrt u 0) := by
  rw [← squareRoot_ofReal (sub_nonneg.mpr h)]
  have := (hx.sub hy).sqrt u 0
  push_cast at this ⊢
  exact this

theorem mem_Wval {t_0 t_in : ℝ} {t : ℂ} {T0 A T : Ball} (h0 : Mem t_0 T0) (hA : Mem (Real.sqrt (t_in - t_0) : ℂ) A) (ht : Mem t T) (k : Cert) :
    Mem (Wval t_0 t_in t) (wB T0 A T k) := by
  unfold Wval wOf vOf zOf wB
  have hz := (ht.sub h0).sqrt k.z₁ k.z₂
  have hv := ((hz.add hA).div (hz.neg.add hA)).sqrt k.v₁ k.v₂
  exact (mem_imag.mul (hv.sub mem_one)).div (hv.add mem_one)

/-- The pole of a resonance from its mass and half its width. -/
def poleB (M G : Ball) : Ball :=
  let q := M - imag * G / two
  q * q

theorem mem_pole {m g : ℝ} {M G : Ball} (hm : Mem m M) (hg : Mem g G) : Mem (tMesonPole m g) (poleB M G) := by
  have hq := hm.sub ((mem_imag.mul hg).div mem_two)
  have := hq.mul hq
  rw [← pow_two] at this
  unfold tMesonPole poleB
  exact this

def quartB (v : Variant) (wm w : Ball) : Ball :=
  match v with
  | .A => (w - wm) * (w - wm.conjB) * (w - wm.inv) * (w - wm.conjB.inv)
  | .B => (w - wm) * (w - wm.conjB) * (w + wm) * (w + wm.conjB)

theorem mem_quart (v : Variant) {wm w : ℂ} {M B : Ball} (hm : Mem wm M) (h : Mem w B) : Mem (quart v wm w) (quartB v M B) := by
  cases v
  · exact (((h.sub hm).mul (h.sub hm.conj)).mul (h.sub hm.inv)).mul (h.sub hm.conj.inv)
  · exact (((h.sub hm).mul (h.sub hm.conj)).mul (h.add hm)).mul (h.add hm.conj)

/-- `(1 - w²)²`. -/
def asymB (w : Ball) : Ball :=
  let q := one - w * w
  q * q

theorem mem_asym {w : ℂ} {B : Ball} (h : Mem w B) : Mem ((1 - w ^ 2) ^ 2) (asymB B) := by
  have q := mem_one.sub (h.mul h)
  have := q.mul q
  rw [← pow_two, ← pow_two] at this
  exact this

def fB (v : Variant) (B0 Bp Bt : Ball) : Ball :=
  asymB Bt / asymB B0 * (quartB v Bp B0 / quartB v Bp Bt)

theorem mem_Fval (v : Variant) {t_0 t_in : ℝ} {p t : ℂ} {B0 Bp Bt : Ball} (h0 : Mem (Wval t_0 t_in 0) B0)
    (hp : Mem (Wval t_0 t_in p) Bp) (ht : Mem (Wval t_0 t_in t) Bt) : Mem (Fval v t_0 t_in p t) (fB v B0 Bp Bt) :=
  ((mem_asym ht).div (mem_asym h0)).mul ((mem_quart v hp h0).div (mem_quart v hp ht))

/-- What is known numerically of a resonance: its coupling, its variant and its pole in the conformal variable. -/
structure ResB where
  a : Ball
  v : Variant
  p : Ball

def fsumB (ds : List ResB) (B0 Bt : Ball) : Ball :=
  match ds with
  | [] => zero
  | d :: ds => d.a * fB d.v B0 d.p Bt + fsumB ds B0 Bt

/-- The numerical data describe the resonance. -/
def ResOK (t_0 t_in : ℝ) (r : Res) (d : ResB) : Prop :=
  Mem r.a d.a ∧ r.var t_in = d.v ∧ Mem (Wval t_0 t_in r.pole) d.p

theorem mem_FsumL {t_0 t_in : ℝ} {rs : List Res} {ds : List ResB} {B0 Bt : Ball} {t : ℂ} (h : List.Forall₂ (ResOK t_0 t_in) rs ds)
    (h0 : Mem (Wval t_0 t_in 0) B0) (ht : Mem (Wval t_0 t_in t) Bt) : Mem (FsumL t_0 t_in rs t) (fsumB ds B0 Bt) := by
  induction h with
  | nil => simpa [FsumL, fsumB] using mem_zero
  | @cons r d rs ds hr _ ih =>
    obtain ⟨ha, hv, hp⟩ := hr
    have : FsumL t_0 t_in (r :: rs) t = (r.a : ℂ) * Fval (r.var t_in) t_0 t_in r.pole t + FsumL t_0 t_in rs t := by simp [FsumL]
    rw [this, hv]
    exact (ha.mul (mem_Fval d.v h0 hp ht)).add ih

/-- The disc stays away from the origin. -/
def away (a : Ball) : Bool := a.ok && decide (a.rad < max a.re.natAbs a.im.natAbs)

theorem Mem.of_away {x : ℂ} {a : Ball} (h : Mem x a) (ha : a.away = true) : x ≠ 0 := by
  simp only [away, Bool.and_eq_true, decide_eq_true_eq] at ha
  exact h.ne_zero ha.1 ha.2

/-- Python's `cmath.isclose(a, b, abs_tol=…)` with its default relative tolerance `1e-9`. -/
def IsClose (a b : ℂ) (abs_tol : ℝ) : Prop := ‖a - b‖ ≤ max (1e-9 * max ‖a‖ ‖b‖) abs_tol

/-- A sufficient test: relative tolerance against the expected value alone. -/
def closeB (a : Ball) (e : Ball) : Bool :=
  a.ok && e.ok && decide (((a.re - e.re).natAbs + (a.im - e.im).natAbs + a.rad + e.rad) * 10 ^ 9 + e.rad ≤ max e.re.natAbs e.im.natAbs)

theorem Mem.close {x y : ℂ} {a b : Ball} (hx : Mem x a) (hy : Mem y b) (h : closeB a b = true) (abs_tol : ℝ) : IsClose x y abs_tol := by
  simp only [closeB, Bool.and_eq_true, decide_eq_true_eq] at h
  obtain ⟨⟨ha, hb⟩, h⟩ := h
  obtain ⟨h1, -⟩ := hx ha
  obtain ⟨h2, -⟩ := hy hb
  have hS := S_pos
  have k1 : ‖(x - y) * S‖ ≤ (((a.re - b.re).natAbs + (a.im - b.im).natAbs + a.rad + b.rad : ℕ) : ℝ) := by
    have e : (x - y) * S = (x * S - a.c) - (y * S - b.c) + gi (a.re - b.re) (a.im - b.im) := by
      rw [gi_sub]; simp only [Ball.c]; ring
    rw [e]
    refine (norm_add_le _ _).trans ?_
    have n1 := norm_sub_le (x * S - a.c) (y * S - b.c)
    have n2 := gi_norm (a.re - b.re) (a.im - b.im)
    push_cast at n2 ⊢
    linarith
  have k2 : ((max b.re.natAbs b.im.natAbs : ℕ) : ℝ) - b.rad ≤ ‖y * S‖ := by
    have n1 := gi_norm_max b.re b.im
    have n2 : ‖b.c‖ ≤ ‖y * S‖ + ‖y * S - b.c‖ := by
      have : b.c = y * S - (y * S - b.c) := by ring
      calc ‖b.c‖ = ‖y * S - (y * S - b.c)‖ := by rw [← this]
        _ ≤ _ := norm_sub_le _ _
    have n3 : ((max b.re.natAbs b.im.natAbs : ℕ) : ℝ) ≤ ‖b.c‖ := n1
    linarith
  have h' : ((((a.re - b.re).natAbs + (a.im - b.im).natAbs + a.rad + b.rad : ℕ) : ℝ)) * 10 ^ 9 + b.rad ≤ ((max b.re.natAbs b.im.natAbs : ℕ) : ℝ) := by
    exact_mod_cast h
  rw [norm_mul, Complex.norm_natCast] at k1 k2
  have k3 : ‖x - y‖ * S ≤ (1e-9 * ‖y‖) * S := by nlinarith
  have k4 : ‖x - y‖ ≤ 1e-9 * ‖y‖ := le_of_mul_le_mul_right k3 hS
  refine le_max_of_le_left (k4.trans ?_)
  exact mul_le_mul_of_nonneg_left (le_max_right _ _) (by norm_num)

/-! ### The kaon form factors -/

/-- The numerical data of one channel of a kaon model. -/
structure ChanOK (t_0 t_in : ℝ) (rs : List Res) (T0 A B0 : Ball) (ds : List ResB) : Prop where
  h0 : Mem t_0 T0
  hA : Mem (Real.sqrt (t_in - t_0) : ℂ) A
  hB : Mem (Wval t_0 t_in 0) B0
  hr : List.Forall₂ (ResOK t_0 t_in) rs ds

/-- The points are not poles of the channel. -/
theorem ChanOK.not_pole {t_0 t_in : ℝ} {rs : List Res} {T0 A B0 Bt : Ball} {ds : List ResB} {ts : List (ℝ × UAComponent)}
    (k : ChanOK t_0 t_in rs T0 A B0 ds) (h0 : 0 ≤ t_0) (hlt : t_0 < t_in) (hb : buildTerms t_0 t_in rs = .ok ts) {t : ℂ} (ht : t ≠ t_in)
    (hw : Mem (Wval t_0 t_in t) Bt) (h : ds.all (fun d => (quartB d.v d.p Bt).away) = true) :
    ∀ r ∈ rs, t ≠ r.pole ∧ t ≠ conj r.pole := by
  obtain ⟨_, _, _, hr⟩ := k
  induction hr generalizing ts with
  | nil => simp
  | @cons r d rs ds h1 _ ih =>
    rw [List.all_cons, Bool.and_eq_true] at h
    obtain ⟨c, cs, b1, b2, _⟩ := buildTerms_cons hb
    intro r' hr'
    rcases List.mem_cons.mp hr' with rfl | hr'
    · have B := (buildComponent_built h0 hlt b1).1
      have := (mem_quart d.v h1.2.2 hw).of_away h.1
      refine ⟨fun e => this ?_, fun e => this ?_⟩
      · exact (quart_eq_zero B.hlt B.hp0 B.hpin ht d.v).mpr (Or.inl e)
      · exact (quart_eq_zero B.hlt B.hp0 B.hpin ht d.v).mpr (Or.inr e)
    · exact ih b2 h.2 r' hr'

/-- The value of a kaon model. -/
def kaonB (chS chV : Ball × Ball × Ball × List ResB) (T : Ball) (kS kV : Cert) (charged : Bool) : Ball :=
  fsumB chS.2.2.2 chS.2.2.1 (wB chS.1 chS.2.1 T kS) + (if charged then one else -one) * fsumB chV.2.2.2 chV.2.2.1 (wB chV.1 chV.2.1 T kV)

/-- The point is no threshold and no pole. -/
def kaonRegular (chS chV : Ball × Ball × Ball × List ResB) (T TinS TinV : Ball) (kS kV : Cert) : Bool :=
  (T - TinS).away && (T - TinV).away && chS.2.2.2.all (fun d => (quartB d.v d.p (wB chS.1 chS.2.1 T kS)).away) &&
    chV.2.2.2.all (fun d => (quartB d.v d.p (wB chV.1 chV.2.1 T kV)).away)

theorem kaon_value {x : KaonArgs} {charged : Bool} (hb : x.Builds charged) (hx : x.Proper)
    {chS chV : Ball × Ball × Ball × List ResB} (oS : ChanOK x.t0S x.tinS x.resS chS.1 chS.2.1 chS.2.2.1 chS.2.2.2)
    (oV : ChanOK x.t0V x.tinV x.resV chV.1 chV.2.1 chV.2.2.1 chV.2.2.2) {t : ℂ} {T TinS TinV : Ball} (hre : 0 ≤ t.re)
    (ht : Mem t T) (hS : Mem x.tinS TinS) (hV : Mem x.tinV TinV) (kS kV : Cert) (h : kaonRegular chS chV T TinS TinV kS kV = true) :
    ∃ y, x.run charged t = .ok y ∧ Mem y (kaonB chS chV T kS kV charged) := by
  simp only [kaonRegular, Bool.and_eq_true] at h
  obtain ⟨⟨⟨h1, h2⟩, h3⟩, h4⟩ := h
  obtain ⟨k, hk, hrun⟩ := KaonArgs.get_view hb
  have n1 : t ≠ x.tinS := sub_ne_zero.mp ((ht.sub hS).of_away h1)
  have n2 : t ≠ x.tinV := sub_ne_zero.mp ((ht.sub hV).of_away h2)
  have wS := mem_Wval oS.h0 oS.hA ht kS
  have wV := mem_Wval oV.h0 oV.hA ht kV
  have p1 := oS.not_pole hk.h0S hx.1 hk.hS n1 wS h3
  have p2 := oV.not_pole hk.h0V hx.2 hk.hV n2 wV h4
  have hns : ¬ Singular x.tinS x.tinV x.resS x.resV t := by
    rintro (h | h | ⟨r, hr, h⟩)
    · exact n1 h
    · exact n2 h
    · rcases List.mem_append.mp hr with hr | hr
      · exact h.elim (p1 r hr).1 (p1 r hr).2
      · exact h.elim (p2 r hr).1 (p2 r hr).2
  refine ⟨_, (hrun t).trans (hk.call_ok hx.1 hx.2 hre hns), ?_⟩
  have hs : Mem (if charged = true then (1 : ℂ) else -1) (if charged then one else -one) := by
    cases charged
    · exact mem_one.neg
    · exact mem_one
  exact (mem_FsumL oS.hr oS.hB wS).add (hs.mul (mem_FsumL oV.hr oV.hB wV))

theorem kaon_close {x : KaonArgs} {charged : Bool} (hb : x.Builds charged) (hx : x.Proper)
    {chS chV : Ball × Ball × Ball × List ResB} (oS : ChanOK x.t0S x.tinS x.resS chS.1 chS.2.1 chS.2.2.1 chS.2.2.2)
    (oV : ChanOK x.t0V x.tinV x.resV chV.1 chV.2.1 chV.2.2.1 chV.2.2.2) {t e : ℂ} {T TinS TinV E : Ball} (hre : 0 ≤ t.re)
    (ht : Mem t T) (hS : Mem x.tinS TinS) (hV : Mem x.tinV TinV) (he : Mem e E) (kS kV : Cert)
    (h : (kaonRegular chS chV T TinS TinV kS kV && closeB (kaonB chS chV T kS kV charged) E) = true) :
    ∃ y, x.run charged t = .ok y ∧ IsClose y e 1e-15 := by
  rw [Bool.and_eq_true] at h
  obtain ⟨y, hy, hm⟩ := kaon_value hb hx oS oV hre ht hS hV kS kV h.1
  exact ⟨y, hy, hm.close he h.2 _⟩

end Ball
end UA
