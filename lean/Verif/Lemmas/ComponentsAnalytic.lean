import Verif.Lemmas.Components
import Verif.Lemmas.SquareRootCont

/-! Analyticity and asymptotics of resonance components. -/

namespace UA

open Complex ComplexConjugate Filter Topology

theorem isOpen_offHalfLine (t_0 : ℝ) : IsOpen {t : ℂ | ¬ (t.im = 0 ∧ t_0 ≤ t.re)} := by
  have : IsClosed {t : ℂ | t.im = 0 ∧ t_0 ≤ t.re} := by
    have h1 : IsClosed {z : ℂ | z.im = 0} := isClosed_eq continuous_im continuous_const
    have h2 : IsClosed {z : ℂ | t_0 ≤ z.re} := isClosed_le continuous_const continuous_re
    exact h1.inter h2
  exact this.isOpen_compl

theorem Wval_differentiableAt {t_0 t_in : ℝ} (h : t_0 < t_in) {t : ℂ} (ht : ¬ (t.im = 0 ∧ t_0 ≤ t.re)) :
    DifferentiableAt ℂ (Wval t_0 t_in) t := by
  have ha := sqrt_pos' h
  have hzim := zOf_im_pos ht
  have hz : DifferentiableAt ℂ (zOf t_0) t :=
    (squareRoot_differentiableAt (offCut_sub ht)).comp t (differentiableAt_id.sub_const _)
  have h1 : -zOf t_0 t + (Real.sqrt (t_in - t_0) : ℂ) ≠ 0 := by
    intro h'
    have := congrArg Complex.im h'
    simp at this
    linarith
  have htz : DifferentiableAt ℂ (fun t => (zOf t_0 t + (Real.sqrt (t_in - t_0) : ℂ)) /
      (-zOf t_0 t + (Real.sqrt (t_in - t_0) : ℂ))) t :=
    (hz.add_const _).div (hz.neg.add_const _) h1
  have hoff : ¬ OnCut ((zOf t_0 t + (Real.sqrt (t_in - t_0) : ℂ)) / (-zOf t_0 t + (Real.sqrt (t_in - t_0) : ℂ))) := by
    intro hc
    have := hc.1
    rw [tz_im] at this
    have h2 : 0 < 2 * Real.sqrt (t_in - t_0) * (zOf t_0 t).im / normSq (-zOf t_0 t + (Real.sqrt (t_in - t_0) : ℂ)) :=
      div_pos (mul_pos (by linarith) hzim) (normSq_pos' h1)
    linarith
  have hv : DifferentiableAt ℂ (fun t => vOf (Real.sqrt (t_in - t_0)) (zOf t_0 t)) t :=
    DifferentiableAt.comp (g := squareRoot) t (squareRoot_differentiableAt hoff) htz
  have h3 := v_add_one_ne (vOf_pos ha hzim).1.le
  exact ((hv.sub_const 1).const_mul I).div (hv.add_const 1) h3

theorem quart_differentiable (v : Variant) (wm : ℂ) : Differentiable ℂ (quart v wm) := by
  cases v
  · show Differentiable ℂ (fun w => (w - wm) * (w - conj wm) * (w - 1 / wm) * (w - 1 / conj wm))
    fun_prop
  · show Differentiable ℂ (fun w => (w - wm) * (w - conj wm) * (w + wm) * (w + conj wm))
    fun_prop

theorem Fval_differentiableAt {v : Variant} {t_0 t_in : ℝ} (h : t_0 < t_in) {p t : ℂ}
    (hp0 : p ≠ t_0) (hpin : p ≠ t_in)
    (ht : ¬ (t.im = 0 ∧ t_0 ≤ t.re)) (h1 : t ≠ p) (h2 : t ≠ conj p) :
    DifferentiableAt ℂ (Fval v t_0 t_in p) t := by
  have hW := Wval_differentiableAt h ht
  have hq : DifferentiableAt ℂ (fun t => quart v (Wval t_0 t_in p) (Wval t_0 t_in t)) t :=
    (quart_differentiable v _).differentiableAt.comp t hW
  have hq0 : quart v (Wval t_0 t_in p) (Wval t_0 t_in t) ≠ 0 := by
    intro h'
    rcases (quart_eq_zero h hp0 hpin (ne_tin_of_offCut h.le ht) v).mp h' with h' | h'
    · exact h1 h'
    · exact h2 h'
  have hnum : DifferentiableAt ℂ (fun t => (1 - Wval t_0 t_in t ^ 2) ^ 2 / (1 - Wval t_0 t_in 0 ^ 2) ^ 2) t :=
    (((differentiableAt_const 1).sub (hW.pow 2)).pow 2).div_const _
  exact hnum.mul ((differentiableAt_const _).div hq hq0)

/-- Near the resonance position off the cut the component is unbounded: a genuine pole. -/
theorem Fval_tendsto_infty {v : Variant} {t_0 t_in : ℝ} {p : ℂ} {c : UAComponent} (b : Built t_0 t_in p v c)
    {t : ℂ} (ht : ¬ (t.im = 0 ∧ t_0 ≤ t.re)) (h : t = p ∨ t = conj p) :
    Tendsto (fun s => ‖Fval v t_0 t_in p s‖) (𝓝[≠] t) atTop := by
  have hW := (Wval_differentiableAt b.hlt ht).continuousAt
  have htin := ne_tin_of_offCut b.hlt.le ht
  have hq : Tendsto (fun s => quart v (Wval t_0 t_in p) (Wval t_0 t_in s)) (𝓝[≠] t) (𝓝 0) := by
    have h1 : ContinuousAt (fun s => quart v (Wval t_0 t_in p) (Wval t_0 t_in s)) t :=
      ContinuousAt.comp (g := quart v (Wval t_0 t_in p)) (quart_differentiable v _).continuous.continuousAt hW
    have h2 := (quart_eq_zero b.hlt b.hp0 b.hpin htin v).mpr h
    have h3 := h1.tendsto.mono_left (nhdsWithin_le_nhds (s := {t}ᶜ))
    rwa [h2] at h3
  have hev : ∀ᶠ s in 𝓝[≠] t, quart v (Wval t_0 t_in p) (Wval t_0 t_in s) ≠ 0 := by
    have hopen : ∀ᶠ s in 𝓝[≠] t, ¬ (s.im = 0 ∧ t_0 ≤ s.re) :=
      (nhdsWithin_le_nhds (s := {t}ᶜ)) ((isOpen_offHalfLine t_0).mem_nhds ht)
    have hp : ∀ᶠ s in 𝓝[≠] t, s ≠ p ∧ s ≠ conj p := by
      have e1 : ∀ q : ℂ, ∀ᶠ s in 𝓝[≠] t, s ≠ q := by
        intro q
        by_cases hqt : t = q
        · subst hqt; exact self_mem_nhdsWithin
        · exact (nhdsWithin_le_nhds (s := {t}ᶜ)) (isOpen_ne.mem_nhds hqt)
      exact (e1 p).and (e1 (conj p))
    filter_upwards [hopen, hp] with s hs1 hs2 h'
    rcases (quart_eq_zero b.hlt b.hp0 b.hpin (ne_tin_of_offCut b.hlt.le hs1) v).mp h' with h' | h'
    · exact hs2.1 h'
    · exact hs2.2 h'
  have hinv : Tendsto (fun s => ‖quart v (Wval t_0 t_in p) (Wval t_0 t_in s)‖⁻¹) (𝓝[≠] t) atTop := by
    apply Tendsto.inv_tendsto_nhdsGT_zero
    rw [tendsto_nhdsWithin_iff]
    refine ⟨by simpa using hq.norm, ?_⟩
    filter_upwards [hev] with s hs
    exact norm_pos_iff.mpr hs
  have hpre : Tendsto (fun s => ‖(1 - Wval t_0 t_in s ^ 2) ^ 2 / (1 - Wval t_0 t_in 0 ^ 2) ^ 2 *
      quart v (Wval t_0 t_in p) (Wval t_0 t_in 0)‖) (𝓝[≠] t)
      (𝓝 ‖(1 - Wval t_0 t_in t ^ 2) ^ 2 / (1 - Wval t_0 t_in 0 ^ 2) ^ 2 *
      quart v (Wval t_0 t_in p) (Wval t_0 t_in 0)‖) := by
    have : ContinuousAt (fun s => (1 - Wval t_0 t_in s ^ 2) ^ 2 / (1 - Wval t_0 t_in 0 ^ 2) ^ 2 *
      quart v (Wval t_0 t_in p) (Wval t_0 t_in 0)) t :=
      (((continuousAt_const.sub (hW.pow 2)).pow 2).div_const _).mul continuousAt_const
    exact (this.norm.tendsto).mono_left nhdsWithin_le_nhds
  have hpos : 0 < ‖(1 - Wval t_0 t_in t ^ 2) ^ 2 / (1 - Wval t_0 t_in 0 ^ 2) ^ 2 *
      quart v (Wval t_0 t_in p) (Wval t_0 t_in 0)‖ := by
    rw [norm_pos_iff]
    exact mul_ne_zero (div_ne_zero (pow_ne_zero 2 (Wval_sq_ne_one b.hlt htin)) (pow_ne_zero 2 b.wn_ne)) b.quart_wn_ne
  have := hpre.pos_mul_atTop hpos hinv
  refine this.congr (fun s => ?_)
  unfold Fval
  rw [norm_mul, norm_mul, norm_div _ (quart v (Wval t_0 t_in p) (Wval t_0 t_in s))]
  ring

/-! ### Asymptotics -/

theorem one_sub_Wval_sq_norm {t_0 t_in : ℝ} (h : t_0 < t_in) {t : ℂ} (ht : t ≠ t_in) :
    ‖t - t_0‖ * ‖(1 - Wval t_0 t_in t ^ 2) ^ 2‖ ≤ 4 * (t_in - t_0) := by
  rw [← norm_mul, Wval_identity h ht, norm_mul, norm_mul]
  have h1 : ‖((t_in : ℂ) - t_0)‖ = t_in - t_0 := by
    rw [← ofReal_sub, norm_real, Real.norm_of_nonneg (by linarith)]
  have h2 : ‖Wval t_0 t_in t ^ 2‖ ≤ 1 := by
    rw [norm_pow]; exact pow_le_one₀ (norm_nonneg _) (Wval_norm_le h t)
  rw [h1]
  have h3 : ‖(-4 : ℂ)‖ = 4 := by simp
  rw [h3]
  nlinarith

theorem Wval_add_one_sq {t_0 t_in : ℝ} (h : t_0 < t_in) {t : ℂ} (ht : t ≠ t_in) :
    ‖t - t_0‖ * ‖Wval t_0 t_in t + 1‖ ^ 2 ≤ 4 * (t_in - t_0) := by
  refine le_trans ?_ (one_sub_Wval_sq_norm h ht)
  apply mul_le_mul_of_nonneg_left _ (norm_nonneg _)
  have e : (1 - Wval t_0 t_in t ^ 2) ^ 2 = (1 - Wval t_0 t_in t) ^ 2 * (Wval t_0 t_in t + 1) ^ 2 := by ring
  rw [e, norm_mul, norm_pow, norm_pow]
  have h1 : 1 ≤ ‖1 - Wval t_0 t_in t‖ := by
    have h2 := abs_re_le_norm (1 - Wval t_0 t_in t)
    have h3 := Wval_re_nonpos (t_0 := t_0) (t_in := t_in) t
    have h4 : (1 : ℝ) ≤ (1 - Wval t_0 t_in t).re := by simp; exact h3
    exact h4.trans ((le_abs_self _).trans h2)
  have : 1 ≤ ‖1 - Wval t_0 t_in t‖ ^ 2 := one_le_pow₀ h1
  nlinarith [sq_nonneg ‖Wval t_0 t_in t + 1‖]

theorem quart_neg_one_ne {v : Variant} {wm : ℂ} (h0 : wm ≠ 0) (h1 : 1 - wm ^ 2 ≠ 0) : quart v wm (-1) ≠ 0 := by
  have hc0 := conj_ne_zero' h0
  have e1 : wm ≠ -1 := by rintro rfl; simp at h1
  have e2 : wm ≠ 1 := by rintro rfl; simp at h1
  have c1 : conj wm ≠ -1 := by intro h; apply e1; have := congrArg conj h; simpa using this
  have c2 : conj wm ≠ 1 := by intro h; apply e2; have := congrArg conj h; simpa using this
  cases v
  · simp only [quart]
    refine mul_ne_zero (mul_ne_zero (mul_ne_zero ?_ ?_) ?_) ?_
    · exact sub_ne_zero.mpr (Ne.symm e1)
    · exact sub_ne_zero.mpr (Ne.symm c1)
    · rw [sub_ne_zero]; intro h; rw [eq_div_iff h0] at h; exact e1 (by linear_combination -h)
    · rw [sub_ne_zero]; intro h; rw [eq_div_iff hc0] at h; exact c1 (by linear_combination -h)
  · simp only [quart]
    refine mul_ne_zero (mul_ne_zero (mul_ne_zero ?_ ?_) ?_) ?_
    · exact sub_ne_zero.mpr (Ne.symm e1)
    · exact sub_ne_zero.mpr (Ne.symm c1)
    · intro h; exact e2 (by linear_combination h)
    · intro h; exact c2 (by linear_combination h)

/-- `|F(t)| ≤ C/|t|` for large `t`, and `t` is then none of the exceptional points. -/
theorem Built.fall_off {t_0 t_in : ℝ} {p : ℂ} {v : Variant} {c : UAComponent} (b : Built t_0 t_in p v c) :
    ∃ C R : ℝ, 0 < C ∧ 0 < R ∧ ∀ t : ℂ, R ≤ ‖t‖ →
      t ≠ t_in ∧ t ≠ p ∧ t ≠ conj p ∧ ‖Fval v t_0 t_in p t‖ ≤ C / ‖t‖ := by
  have h := b.hlt
  set wm := Wval t_0 t_in p
  have hq := quart_neg_one_ne (v := v) b.wm_ne (Wval_sq_ne_one h b.hpin)
  set m := ‖quart v wm (-1)‖ with hm
  have hmpos : 0 < m := norm_pos_iff.mpr hq
  have hcont : ContinuousAt (fun w => ‖quart v wm w‖) (-1) := (quart_differentiable v wm).continuous.norm.continuousAt
  have hev : ∀ᶠ w in 𝓝 (-1 : ℂ), m / 2 < ‖quart v wm w‖ := hcont.eventually_const_lt (by linarith)
  obtain ⟨δ, hδ, hball⟩ := Metric.eventually_nhds_iff.mp hev
  set D := t_in - t_0
  have hD : 0 < D := sub_pos.mpr h
  set B := ‖quart v wm (Wval t_0 t_in 0)‖
  set A := ‖(1 - Wval t_0 t_in 0 ^ 2) ^ 2‖
  have hA : 0 < A := norm_pos_iff.mpr (pow_ne_zero 2 b.wn_ne)
  have hB : 0 < B := norm_pos_iff.mpr b.quart_wn_ne
  refine ⟨8 * D / A * (B / (m / 2)), 2 * t_0 + 4 * D * 2 / δ ^ 2 + t_in + ‖p‖ + 1, by positivity, ?_, ?_⟩
  · have := b.h0
    have : 0 ≤ ‖p‖ := norm_nonneg _
    have : 0 ≤ 4 * D * 2 / δ ^ 2 := by positivity
    linarith
  intro t ht
  have hpn : 0 ≤ ‖p‖ := norm_nonneg _
  have hδ2 : 0 ≤ 4 * D * 2 / δ ^ 2 := by positivity
  have h0 := b.h0
  have htin : t ≠ t_in := by
    rintro rfl
    rw [norm_real, Real.norm_of_nonneg (by linarith)] at ht
    linarith
  have htp : t ≠ p := by rintro rfl; linarith
  have htc : t ≠ conj p := by rintro rfl; rw [norm_conj] at ht; linarith
  refine ⟨htin, htp, htc, ?_⟩
  have hsub : ‖t‖ / 2 ≤ ‖t - t_0‖ := by
    have := norm_sub_norm_le t (t_0 : ℂ)
    rw [norm_real, Real.norm_of_nonneg h0] at this
    linarith
  have htpos : 0 < ‖t‖ := by linarith
  have hspos : 0 < ‖t - t_0‖ := by linarith
  have hclose : dist (Wval t_0 t_in t) (-1) < δ := by
    rw [dist_eq_norm, sub_neg_eq_add]
    have h1 := Wval_add_one_sq h htin
    have h2 : 4 * D < ‖t - t_0‖ * δ ^ 2 := by
      have : 4 * D * 2 / δ ^ 2 < ‖t‖ := by linarith
      rw [div_lt_iff₀ (by positivity)] at this
      nlinarith [sq_nonneg δ]
    have h3 : ‖Wval t_0 t_in t + 1‖ ^ 2 < δ ^ 2 := lt_of_mul_lt_mul_left (h1.trans_lt h2) hspos.le
    exact lt_of_pow_lt_pow_left₀ 2 hδ.le h3
  have hden := hball hclose
  have hnum := one_sub_Wval_sq_norm h htin
  unfold Fval
  rw [norm_mul, norm_div, norm_div]
  have e1 : ‖(1 - Wval t_0 t_in t ^ 2) ^ 2‖ ≤ 8 * D / ‖t‖ := by
    rw [le_div_iff₀ htpos]
    nlinarith [norm_nonneg ((1 - Wval t_0 t_in t ^ 2) ^ 2)]
  calc ‖(1 - Wval t_0 t_in t ^ 2) ^ 2‖ / A * (B / ‖quart v wm (Wval t_0 t_in t)‖)
      ≤ (8 * D / ‖t‖) / A * (B / (m / 2)) := by gcongr
    _ = 8 * D / A * (B / (m / 2)) / ‖t‖ := by field_simp

end UA
