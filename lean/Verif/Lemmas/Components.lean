import Verif.Model.Components
import Verif.Lemmas.Maps

/-! Helper lemmas about resonance components. -/

namespace UA

open Complex ComplexConjugate

/-- The quartic polynomial in the component's denominator. -/
noncomputable def quart (v : Variant) (wm w : ℂ) : ℂ :=
  match v with
  | .A => (w - wm) * (w - conj wm) * (w - 1 / wm) * (w - 1 / conj wm)
  | .B => (w - wm) * (w - conj wm) * (w + wm) * (w + conj wm)

/-- The object `UAComponent.init` builds. -/
noncomputable def mkComp (v : Variant) (w_n wm : ℂ) : UAComponent :=
  ⟨v, w_n, wm, (1 - w_n ^ 2) ^ 2, quart v wm w_n⟩

theorem conj_ne_zero' {w : ℂ} (h : w ≠ 0) : conj w ≠ 0 := by simpa using h

theorem comp_init_ok {v : Variant} {w_n wm : ℂ} (h : wm ≠ 0) :
    UAComponent.init v w_n wm = .ok (mkComp v w_n wm) := by
  cases v
  · simp only [UAComponent.init, evalResonantFactorNumerator, variantANumerator]
    rw [pyDiv_ok h, pyDiv_ok (conj_ne_zero' h)]
    rfl
  · rfl

theorem comp_init_A_zero (w_n : ℂ) : UAComponent.init .A w_n 0 = .error .zeroDivisionError := by
  simp [UAComponent.init, evalResonantFactorNumerator, variantANumerator, pyDiv_zero]

theorem comp_resonant {v : Variant} {w_n wm : ℂ} (h : wm ≠ 0) (w : ℂ) :
    (mkComp v w_n wm).evalResonantFactor w = pyDiv (quart v wm w_n) (quart v wm w) := by
  cases v
  · simp only [UAComponent.evalResonantFactor, mkComp, variantAResonantFactor]
    rw [pyDiv_ok h, pyDiv_ok (conj_ne_zero' h)]
    rfl
  · rfl

theorem comp_call_ok {v : Variant} {w_n wm w : ℂ} (h : wm ≠ 0) (hn : 1 - w_n ^ 2 ≠ 0) (hq : quart v wm w ≠ 0) :
    (mkComp v w_n wm).call w =
      .ok ((1 - w ^ 2) ^ 2 / (1 - w_n ^ 2) ^ 2 * (quart v wm w_n / quart v wm w)) := by
  simp only [UAComponent.call, comp_resonant h, UAComponent.evalAsymptoticFactor]
  rw [show (mkComp v w_n wm).asymptotic_factor_denominator = (1 - w_n ^ 2) ^ 2 from rfl,
    pyDiv_ok (pow_ne_zero 2 hn), pyDiv_ok hq]
  rfl

theorem comp_call_zero {v : Variant} {w_n wm w : ℂ} (h : wm ≠ 0) (hn : 1 - w_n ^ 2 ≠ 0) (hq : quart v wm w = 0) :
    (mkComp v w_n wm).call w = .error .zeroDivisionError := by
  simp only [UAComponent.call, comp_resonant h, UAComponent.evalAsymptoticFactor]
  rw [show (mkComp v w_n wm).asymptotic_factor_denominator = (1 - w_n ^ 2) ^ 2 from rfl,
    pyDiv_ok (pow_ne_zero 2 hn), hq, pyDiv_zero]
  rfl

/-! ### The resonance pole -/

theorem tMesonPole_re (m g : ℝ) : (tMesonPole m g).re = m ^ 2 - g ^ 2 / 4 := by
  simp [tMesonPole, pow_two]; ring

theorem tMesonPole_im (m g : ℝ) : (tMesonPole m g).im = - (m * g) := by
  simp [tMesonPole, pow_two]; ring

theorem tMesonPole_zero_width (m : ℝ) : tMesonPole m 0 = ((m ^ 2 : ℝ) : ℂ) := by
  simp [tMesonPole]

theorem tMesonPole_eq_real {m g x : ℝ} (hx : 0 ≤ x) : tMesonPole m g = x ↔ g = 0 ∧ m ^ 2 = x := by
  constructor
  · intro h
    have h1 := congrArg Complex.re h
    have h2 := congrArg Complex.im h
    rw [tMesonPole_re] at h1
    rw [tMesonPole_im] at h2
    simp at h1 h2
    rcases h2 with h2 | h2
    · subst h2
      have : g ^ 2 ≤ 0 := by nlinarith
      have hg : g = 0 := by nlinarith [sq_nonneg g, pow_eq_zero_iff (n := 2) (a := g) (by norm_num)]
      subst hg
      simp at h1; subst h1; simp
    · subst h2; simp at h1; exact ⟨rfl, h1⟩
  · rintro ⟨rfl, h⟩
    rw [tMesonPole_zero_width, h]

theorem zero_ne_tin {t_0 t_in : ℝ} (h0 : 0 ≤ t_0) (h : t_0 < t_in) : (0 : ℂ) ≠ t_in := by
  intro h'
  have : (0 : ℝ) = t_in := by exact_mod_cast h'
  linarith

/-- What a successful build means, for either of the two `_build_component` texts. -/
structure Built (t_0 t_in : ℝ) (p : ℂ) (v : Variant) (c : UAComponent) : Prop where
  h0 : 0 ≤ t_0
  hlt : t_0 < t_in
  hp0 : p ≠ t_0
  hpin : p ≠ t_in
  hpz : p ≠ 0
  hc : c = mkComp v (Wval t_0 t_in 0) (Wval t_0 t_in p)

/-- General shape of both builders. -/
noncomputable def buildWith (t_0 t_in r : ℝ) (p : ℂ) : Except PyErr UAComponent := do
  let m ← MapFromTtoW.init t_0 t_in
  let w_n ← m.call 0
  let w_meson ← m.call p
  if r < t_0 then throw .valueError
  else if r < t_in then UAComponent.init .A w_n w_meson
  else UAComponent.init .B w_n w_meson

theorem buildComponent_eq (t_0 t_in m g : ℝ) : buildComponent t_0 t_in m g = buildWith t_0 t_in (m ^ 2) (tMesonPole m g) := rfl
theorem nucleonBuildComponent_eq (t_0 t_in m g : ℝ) :
    nucleonBuildComponent t_0 t_in m g = buildWith t_0 t_in (tMesonPole m g).re (tMesonPole m g) := rfl

theorem buildWith_eq {t_0 t_in r : ℝ} {p : ℂ} (h0 : 0 ≤ t_0) (h : t_0 < t_in) (hpin : p ≠ t_in) :
    buildWith t_0 t_in r p = (if r < t_0 then .error .valueError
      else if r < t_in then UAComponent.init .A (Wval t_0 t_in 0) (Wval t_0 t_in p)
      else UAComponent.init .B (Wval t_0 t_in 0) (Wval t_0 t_in p)) := by
  simp only [buildWith, TtoW_init_ok h0 h.le, except_ok_bind, TtoW_call_ok h (zero_ne_tin h0 h), TtoW_call_ok h hpin]
  rfl

theorem buildWith_tin {t_0 t_in r : ℝ} (h0 : 0 ≤ t_0) (h : t_0 < t_in) :
    buildWith t_0 t_in r t_in = .error .zeroDivisionError := by
  simp only [buildWith, TtoW_init_ok h0 h.le, except_ok_bind, TtoW_call_ok h (zero_ne_tin h0 h), TtoW_call_tin h.le]
  rfl

theorem buildWith_ok {t_0 t_in r : ℝ} {p : ℂ} (h0 : 0 ≤ t_0) (h : t_0 < t_in) (hpin : p ≠ t_in) (hp0 : p ≠ t_0)
    (hr : t_0 ≤ r) : buildWith t_0 t_in r p =
      .ok (mkComp (if r < t_in then .A else .B) (Wval t_0 t_in 0) (Wval t_0 t_in p)) := by
  rw [buildWith_eq h0 h hpin, if_neg (not_lt.mpr hr)]
  have hw : Wval t_0 t_in p ≠ 0 := fun h' => hp0 ((Wval_eq_zero h hpin).mp h')
  split_ifs <;> exact comp_init_ok hw

theorem Built.wm_ne {t_0 t_in : ℝ} {p : ℂ} {v : Variant} {c : UAComponent} (b : Built t_0 t_in p v c) :
    Wval t_0 t_in p ≠ 0 := fun h' => b.hp0 ((Wval_eq_zero b.hlt b.hpin).mp h')

theorem Built.wn_ne {t_0 t_in : ℝ} {p : ℂ} {v : Variant} {c : UAComponent} (b : Built t_0 t_in p v c) :
    1 - Wval t_0 t_in 0 ^ 2 ≠ 0 := Wval_sq_ne_one b.hlt (zero_ne_tin b.h0 b.hlt)

theorem Tval_conj (t_0 t_in : ℝ) (w : ℂ) : Tval t_0 t_in (conj w) = conj (Tval t_0 t_in w) := by
  simp only [Tval, map_sub, map_div₀, map_mul, map_pow, conj_ofReal, map_one, map_ofNat]

theorem Tval_neg (t_0 t_in : ℝ) (w : ℂ) : Tval t_0 t_in (-w) = Tval t_0 t_in w := by
  have : (-w - 1 / -w) = -(w - 1 / w) := by rw [div_neg]; ring
  simp only [Tval, this, neg_sq]

theorem Tval_inv (t_0 t_in : ℝ) (w : ℂ) : Tval t_0 t_in (1 / w) = Tval t_0 t_in w := by
  have : (1 / w - 1 / (1 / w)) = -(w - 1 / w) := by rw [one_div_one_div]; ring
  simp only [Tval, this, neg_sq]

theorem conj_eq_of_onHalfLine {t_0 : ℝ} {p : ℂ} (h : p.im = 0 ∧ t_0 ≤ p.re) : conj p = p := by
  apply Complex.ext <;> simp [h.1]

/-- The quartic vanishes at `W(t)` exactly for `t` the pole or its mirror image. -/
theorem quart_eq_zero {t_0 t_in : ℝ} (h : t_0 < t_in) {p t : ℂ} (hp0 : p ≠ t_0) (hpin : p ≠ t_in) (ht : t ≠ t_in)
    (v : Variant) : quart v (Wval t_0 t_in p) (Wval t_0 t_in t) = 0 ↔ t = p ∨ t = conj p := by
  have hwm : Wval t_0 t_in p ≠ 0 := fun h' => hp0 ((Wval_eq_zero h hpin).mp h')
  have hTp : Tval t_0 t_in (Wval t_0 t_in p) = p := Tval_Wval h hp0 hpin
  constructor
  · intro hq
    by_cases ht0 : t = t_0
    · -- W(t_0) = 0, the quartic at 0 is a product of non-zero factors
      exfalso
      rw [(Wval_eq_zero h ht).mpr ht0] at hq
      have hc := conj_ne_zero' hwm
      cases v <;> simp [quart, hwm] at hq
    · have hTt : Tval t_0 t_in (Wval t_0 t_in t) = t := Tval_Wval h ht0 ht
      set wm := Wval t_0 t_in p with hwmdef
      set w := Wval t_0 t_in t with hwdef
      have key : w = wm ∨ w = conj wm ∨ w = 1 / wm ∨ w = 1 / conj wm ∨ w = -wm ∨ w = -conj wm := by
        cases v
        · simp only [quart, mul_eq_zero, sub_eq_zero] at hq
          tauto
        · simp only [quart, mul_eq_zero, sub_eq_zero, add_eq_zero_iff_eq_neg] at hq
          tauto
      rcases key with e | e | e | e | e | e <;> rw [e] at hTt
      · left; rw [← hTt, hTp]
      · right; rw [← hTt, Tval_conj, hTp]
      · left; rw [← hTt, Tval_inv, hTp]
      · right; rw [← hTt, Tval_inv, Tval_conj, hTp]
      · left; rw [← hTt, Tval_neg, hTp]
      · right; rw [← hTt, Tval_neg, Tval_conj, hTp]
  · intro h1
    have key : Wval t_0 t_in t = Wval t_0 t_in p ∨ Wval t_0 t_in t = conj (Wval t_0 t_in p) := by
      rcases h1 with rfl | rfl
      · left; rfl
      · by_cases hcut : p.im = 0 ∧ t_0 ≤ p.re
        · left; rw [conj_eq_of_onHalfLine hcut]
        · right; exact Wval_conj h hcut
    rcases key with e | e <;> rw [e] <;> cases v <;> simp [quart]

/-- The value of a built component at `W(t)`. -/
noncomputable def Fval (v : Variant) (t_0 t_in : ℝ) (p t : ℂ) : ℂ :=
  (1 - Wval t_0 t_in t ^ 2) ^ 2 / (1 - Wval t_0 t_in 0 ^ 2) ^ 2 *
    (quart v (Wval t_0 t_in p) (Wval t_0 t_in 0) / quart v (Wval t_0 t_in p) (Wval t_0 t_in t))

theorem Built.call_ok {t_0 t_in : ℝ} {p : ℂ} {v : Variant} {c : UAComponent} (b : Built t_0 t_in p v c)
    {t : ℂ} (ht : t ≠ t_in) (h1 : t ≠ p) (h2 : t ≠ conj p) :
    c.call (Wval t_0 t_in t) = .ok (Fval v t_0 t_in p t) := by
  rw [b.hc]
  exact comp_call_ok b.wm_ne b.wn_ne (fun h => by
    rcases (quart_eq_zero b.hlt b.hp0 b.hpin ht v).mp h with h | h
    · exact h1 h
    · exact h2 h)

theorem Built.call_error {t_0 t_in : ℝ} {p : ℂ} {v : Variant} {c : UAComponent} (b : Built t_0 t_in p v c)
    {t : ℂ} (ht : t ≠ t_in) (h : t = p ∨ t = conj p) :
    c.call (Wval t_0 t_in t) = .error .zeroDivisionError := by
  rw [b.hc]
  exact comp_call_zero b.wm_ne b.wn_ne ((quart_eq_zero b.hlt b.hp0 b.hpin ht v).mpr h)

theorem Built.quart_wn_ne {t_0 t_in : ℝ} {p : ℂ} {v : Variant} {c : UAComponent} (b : Built t_0 t_in p v c) :
    quart v (Wval t_0 t_in p) (Wval t_0 t_in 0) ≠ 0 := by
  intro h
  rcases (quart_eq_zero b.hlt b.hp0 b.hpin (zero_ne_tin b.h0 b.hlt) v).mp h with h | h
  · exact b.hpz h.symm
  · exact b.hpz (by simpa using h.symm)

theorem Built.Fval_zero {t_0 t_in : ℝ} {p : ℂ} {v : Variant} {c : UAComponent} (b : Built t_0 t_in p v c) :
    Fval v t_0 t_in p 0 = 1 := by
  unfold Fval
  rw [div_self (pow_ne_zero 2 b.wn_ne), div_self b.quart_wn_ne, one_mul]

theorem tMesonPole_ne_zero_of {m g t_0 : ℝ} (h0 : 0 ≤ t_0) (hm : t_0 ≤ m ^ 2) (hp0 : tMesonPole m g ≠ t_0) :
    tMesonPole m g ≠ 0 := by
  intro h
  have := (tMesonPole_eq_real (m := m) (g := g) (le_refl 0)).mp (by simpa using h)
  apply hp0
  have : t_0 = 0 := by linarith [this.2]
  rw [h, this]; simp

/-- Characterisation of success of the kaon-style builder. -/
theorem buildComponent_built {t_0 t_in m g : ℝ} (h0 : 0 ≤ t_0) (h : t_0 < t_in) {c : UAComponent}
    (hb : buildComponent t_0 t_in m g = .ok c) :
    Built t_0 t_in (tMesonPole m g) (if m ^ 2 < t_in then .A else .B) c ∧ t_0 ≤ m ^ 2 := by
  rw [buildComponent_eq] at hb
  by_cases hpin : tMesonPole m g = t_in
  · rw [hpin, buildWith_tin h0 h] at hb; cases hb
  · by_cases hr : m ^ 2 < t_0
    · rw [buildWith_eq h0 h hpin, if_pos hr] at hb; cases hb
    · by_cases hp0 : tMesonPole m g = t_0
      · exfalso
        have hg := (tMesonPole_eq_real h0).mp hp0
        rw [buildWith_eq h0 h hpin, if_neg hr, if_pos (by rw [hg.2]; exact h)] at hb
        rw [(Wval_eq_zero h hpin).mpr hp0, comp_init_A_zero] at hb
        cases hb
      · push Not at hr
        rw [buildWith_ok h0 h hpin hp0 hr] at hb
        injection hb with hb
        exact ⟨⟨h0, h, hp0, hpin, tMesonPole_ne_zero_of h0 hr hp0, hb.symm⟩, hr⟩

theorem nucleonBuildComponent_built {t_0 t_in m g : ℝ} (h0 : 0 ≤ t_0) (h : t_0 < t_in) {c : UAComponent}
    (hb : nucleonBuildComponent t_0 t_in m g = .ok c) :
    Built t_0 t_in (tMesonPole m g) (if (tMesonPole m g).re < t_in then .A else .B) c ∧ t_0 ≤ (tMesonPole m g).re := by
  rw [nucleonBuildComponent_eq] at hb
  by_cases hpin : tMesonPole m g = t_in
  · rw [hpin, buildWith_tin h0 h] at hb; cases hb
  · by_cases hr : (tMesonPole m g).re < t_0
    · rw [buildWith_eq h0 h hpin, if_pos hr] at hb; cases hb
    · by_cases hp0 : tMesonPole m g = t_0
      · exfalso
        have hre : (tMesonPole m g).re = t_0 := by rw [hp0]; simp
        rw [buildWith_eq h0 h hpin, if_neg hr, if_pos (by rw [hre]; exact h)] at hb
        rw [(Wval_eq_zero h hpin).mpr hp0, comp_init_A_zero] at hb
        cases hb
      · push Not at hr
        rw [buildWith_ok h0 h hpin hp0 hr] at hb
        injection hb with hb
        have hm : t_0 ≤ m ^ 2 := by
          rw [tMesonPole_re] at hr; nlinarith [sq_nonneg g]
        exact ⟨⟨h0, h, hp0, hpin, tMesonPole_ne_zero_of h0 hm hp0, hb.symm⟩, hr⟩

/-! ### Zero width: on the cut the image is on the imaginary axis or the unit circle -/

theorem Wval_between {t_0 t_in x : ℝ} (h1 : t_0 ≤ x) (h2 : x < t_in) :
    conj (Wval t_0 t_in x) = - Wval t_0 t_in x := by
  have h : t_0 < t_in := h1.trans_lt h2
  have hz : zOf t_0 x = (Real.sqrt (x - t_0) : ℂ) := by
    rw [zOf, ← ofReal_sub, squareRoot_ofReal (sub_nonneg.mpr h1)]
  have hlt : Real.sqrt (x - t_0) < Real.sqrt (t_in - t_0) :=
    Real.sqrt_lt_sqrt (sub_nonneg.mpr h1) (by linarith)
  have h3 : 0 ≤ (Real.sqrt (x - t_0) + Real.sqrt (t_in - t_0)) / (-Real.sqrt (x - t_0) + Real.sqrt (t_in - t_0)) :=
    div_nonneg (by positivity) (by linarith)
  have hv : vOf (Real.sqrt (t_in - t_0)) (zOf t_0 x) =
      ((Real.sqrt ((Real.sqrt (x - t_0) + Real.sqrt (t_in - t_0)) / (-Real.sqrt (x - t_0) + Real.sqrt (t_in - t_0))) : ℝ) : ℂ) := by
    rw [vOf, hz, ← squareRoot_ofReal h3]
    push_cast
    rfl
  rw [Wval, hv]
  set r := Real.sqrt ((Real.sqrt (x - t_0) + Real.sqrt (t_in - t_0)) / (-Real.sqrt (x - t_0) + Real.sqrt (t_in - t_0)))
  simp only [wOf, map_div₀, map_mul, map_sub, map_add, map_one, conj_I, conj_ofReal]
  ring

theorem Wval_above {t_0 t_in x : ℝ} (h : t_0 < t_in) (h2 : t_in < x) :
    conj (Wval t_0 t_in x) = 1 / Wval t_0 t_in x := by
  have h1 : t_0 ≤ x := by linarith
  have hne : (x : ℂ) ≠ t_in := by intro h'; exact h2.ne' (by exact_mod_cast h')
  have hne0 : (x : ℂ) ≠ t_0 := by intro h'; exact (h.trans h2).ne' (by exact_mod_cast h')
  have hw : Wval t_0 t_in x ≠ 0 := fun h' => hne0 ((Wval_eq_zero h hne).mp h')
  have hz : zOf t_0 x = (Real.sqrt (x - t_0) : ℂ) := by
    rw [zOf, ← ofReal_sub, squareRoot_ofReal (sub_nonneg.mpr h1)]
  have hlt : Real.sqrt (t_in - t_0) < Real.sqrt (x - t_0) :=
    Real.sqrt_lt_sqrt (by linarith) (by linarith)
  set s := Real.sqrt (x - t_0) with hs
  set a := Real.sqrt (t_in - t_0) with ha
  have h3 : 0 ≤ (s + a) / (s - a) := div_nonneg (add_nonneg (Real.sqrt_nonneg _) (Real.sqrt_nonneg _)) (by linarith)
  have hv : vOf a (zOf t_0 x) = I * ((Real.sqrt ((s + a) / (s - a)) : ℝ) : ℂ) := by
    apply squareRoot_unique
    · rw [mul_pow, I_sq, ← ofReal_pow, Real.sq_sqrt h3, hz]
      push_cast
      have e1 : (s : ℂ) - a ≠ 0 := by
        rw [← ofReal_sub]; exact ofReal_ne_zero.mpr (by linarith)
      have e2 : -(s : ℂ) + a ≠ 0 := by
        intro h'; apply e1; linear_combination -h'
      field_simp
      ring
    · simp [Real.sqrt_nonneg]
    · simp
  have hnorm : ‖Wval t_0 t_in x‖ = 1 := by
    rw [Wval, hv]
    set r := Real.sqrt ((s + a) / (s - a))
    have h4 : (I * (r : ℂ)) + 1 ≠ 0 := by
      intro h'; have := congrArg Complex.re h'; simp at this
    unfold wOf
    rw [norm_div, norm_mul, norm_I, one_mul, div_eq_one_iff_eq (norm_ne_zero_iff.mpr h4)]
    rw [← sq_eq_sq₀ (norm_nonneg _) (norm_nonneg _), ← normSq_eq_norm_sq, ← normSq_eq_norm_sq]
    simp [normSq_apply]
  rw [eq_div_iff hw, mul_comm, mul_conj, normSq_eq_norm_sq, hnorm]; simp

/-- For zero width the quartic is the VMD pole in disguise: `q(W(t)) (p - t_0) = (1-W(t)²)² (p - t)`. -/
theorem quart_zero_width {t_0 t_in x : ℝ} (h : t_0 < t_in) (hx : t_0 < x) (hxin : x ≠ t_in) {t : ℂ} (ht : t ≠ t_in) :
    quart (if x < t_in then .A else .B) (Wval t_0 t_in x) (Wval t_0 t_in t) * (x - t_0) =
      (1 - Wval t_0 t_in t ^ 2) ^ 2 * (x - t) := by
  have hne : (x : ℂ) ≠ t_in := by intro h'; exact hxin (by exact_mod_cast h')
  have hne0 : (x : ℂ) ≠ t_0 := by intro h'; exact hx.ne' (by exact_mod_cast h')
  have hwm : Wval t_0 t_in x ≠ 0 := fun h' => hne0 ((Wval_eq_zero h hne).mp h')
  have hwm1 := Wval_sq_ne_one h hne
  have i1 := Wval_identity h ht
  have i2 := Wval_identity h hne
  have hq : quart (if x < t_in then .A else .B) (Wval t_0 t_in x) (Wval t_0 t_in t) * Wval t_0 t_in x ^ 2 =
      (Wval t_0 t_in t ^ 2 - Wval t_0 t_in x ^ 2) * (Wval t_0 t_in t ^ 2 * Wval t_0 t_in x ^ 2 - 1) := by
    split_ifs with hlt
    · simp only [quart]
      rw [Wval_between hx.le hlt]
      field_simp
      ring
    · have : t_in < x := lt_of_le_of_ne (not_lt.mp hlt) (Ne.symm hxin)
      simp only [quart]
      rw [Wval_above h this]
      field_simp
      ring
  set q := quart (if x < t_in then .A else .B) (Wval t_0 t_in x) (Wval t_0 t_in t)
  set w := Wval t_0 t_in t
  set u := Wval t_0 t_in x
  apply mul_right_cancel₀ (mul_ne_zero (pow_ne_zero 2 hwm) (pow_ne_zero 2 hwm1))
  have e1 : q * (x - t_0) * (u ^ 2 * (1 - u ^ 2) ^ 2) =
      (w ^ 2 - u ^ 2) * (w ^ 2 * u ^ 2 - 1) * (-4 * (t_in - t_0) * u ^ 2) := by
    linear_combination ((x : ℂ) - t_0) * (1 - u ^ 2) ^ 2 * hq + (w ^ 2 - u ^ 2) * (w ^ 2 * u ^ 2 - 1) * i2
  rw [e1]
  linear_combination (-u ^ 2 * (1 - w ^ 2) ^ 2) * i2 + u ^ 2 * (1 - u ^ 2) ^ 2 * i1

theorem Fval_zero_width {t_0 t_in x : ℝ} (h0 : 0 ≤ t_0) (h : t_0 < t_in) (hx : t_0 < x) (hxin : x ≠ t_in) {t : ℂ}
    (ht : t ≠ t_in) (htx : t ≠ x) :
    Fval (if x < t_in then .A else .B) t_0 t_in x t = x / (x - t) := by
  have i1 := quart_zero_width h hx hxin ht
  have i0 := quart_zero_width h hx hxin (zero_ne_tin h0 h)
  have hne : (x : ℂ) ≠ t_in := by intro h'; exact hxin (by exact_mod_cast h')
  have hne0 : (x : ℂ) ≠ t_0 := by intro h'; exact hx.ne' (by exact_mod_cast h')
  have hq : quart (if x < t_in then .A else .B) (Wval t_0 t_in x) (Wval t_0 t_in t) ≠ 0 := by
    intro h'
    rcases (quart_eq_zero h hne0 hne ht _).mp h' with h'' | h''
    · exact htx h''
    · exact htx (by simpa using h'')
  have hd : (x : ℂ) - t_0 ≠ 0 := sub_ne_zero.mpr hne0
  have hxt : (x : ℂ) - t ≠ 0 := sub_ne_zero.mpr (Ne.symm htx)
  have hwn := Wval_sq_ne_one h (zero_ne_tin h0 h)
  unfold Fval
  set q := quart (if x < t_in then .A else .B) (Wval t_0 t_in x) (Wval t_0 t_in t)
  set q0 := quart (if x < t_in then .A else .B) (Wval t_0 t_in x) (Wval t_0 t_in 0)
  set w := Wval t_0 t_in t
  set w0 := Wval t_0 t_in 0
  rw [div_mul_div_comm, div_eq_div_iff (mul_ne_zero (pow_ne_zero 2 hwn) hq) hxt]
  apply mul_right_cancel₀ hd
  linear_combination (1 - w ^ 2) ^ 2 * (x - t) * i0 - x * (1 - w0 ^ 2) ^ 2 * i1

/-! ### Reflection -/

theorem quart_conj (v : Variant) (wm w : ℂ) : quart v wm (conj w) = conj (quart v wm w) := by
  cases v
  · simp only [quart, map_mul, map_sub, map_div₀, map_one, conj_conj]; ring
  · simp only [quart, map_mul, map_sub, map_add, conj_conj]; ring

theorem Wval_real_below {t_0 t_in x : ℝ} (h : t_0 < t_in) (hx : x ≤ t_0) : conj (Wval t_0 t_in x) = Wval t_0 t_in x := by
  rcases hx.lt_or_eq with hlt | rfl
  · have hoff : ¬ ((x : ℂ).im = 0 ∧ t_0 ≤ (x : ℂ).re) := by simp [hlt]
    have hc := Wval_conj h hoff
    rw [conj_ofReal] at hc
    exact hc.symm
  · have hne : (x : ℂ) ≠ t_in := by intro h'; exact h.ne (by exact_mod_cast h')
    rw [(Wval_eq_zero h hne).mpr rfl]; simp

theorem Fval_conj {v : Variant} {t_0 t_in : ℝ} (h0 : 0 ≤ t_0) (h : t_0 < t_in) {p t : ℂ}
    (ht : ¬ (t.im = 0 ∧ t_0 ≤ t.re)) : Fval v t_0 t_in p (conj t) = conj (Fval v t_0 t_in p t) := by
  have hn := Wval_real_below h h0
  rw [ofReal_zero] at hn
  have hq := quart_conj v (Wval t_0 t_in p) (Wval t_0 t_in 0)
  rw [hn] at hq
  unfold Fval
  rw [Wval_conj h ht, quart_conj]
  simp only [map_mul, map_div₀, map_pow, map_sub, map_one, hn, ← hq]

theorem Fval_real {v : Variant} {t_0 t_in x : ℝ} (h0 : 0 ≤ t_0) (h : t_0 < t_in) {p : ℂ} (hx : x ≤ t_0) :
    conj (Fval v t_0 t_in p x) = Fval v t_0 t_in p x := by
  have hn := Wval_real_below h h0
  rw [ofReal_zero] at hn
  have hx' := Wval_real_below h hx
  have hq := quart_conj v (Wval t_0 t_in p) (Wval t_0 t_in 0)
  rw [hn] at hq
  have hq' := quart_conj v (Wval t_0 t_in p) (Wval t_0 t_in x)
  rw [hx'] at hq'
  unfold Fval
  simp only [map_mul, map_div₀, map_pow, map_sub, map_one, hn, hx', ← hq, ← hq']

end UA
