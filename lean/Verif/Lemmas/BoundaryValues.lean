import Verif.Lemmas.Continuity
import Verif.Lemmas.NucleonRun
import Verif.Spec.BoundaryValues

/-! Limits of the form factors at the real axis. -/

namespace UA

open Complex ComplexConjugate Filter Topology

/-- The closed upper half plane. -/
def UpperHalf : Set ℂ := {t | 0 ≤ t.im}

theorem Wval_im_nonneg {t_0 t_in : ℝ} (h : t_0 < t_in) {t : ℂ} (ht : t ≠ t_in) (hu : 0 ≤ t.im) : 0 ≤ (Wval t_0 t_in t).im := by
  by_contra hc
  have hz := (Wval_im_neg h ht).mp (not_le.mp hc)
  have h1 := zOf_im_rel t_0 t
  have h2 := zOf_im_nonneg t_0 t
  have h3 : (zOf t_0 t).im = 0 := by
    rcases h2.lt_or_eq with h4 | h4
    · nlinarith [mul_pos_of_neg_of_neg hz (neg_lt_zero.mpr h4)]
    · exact h4.symm
  exact absurd (zOf_re_nonneg t_0 t h3) (not_le.mpr hz)

/-- The coordinate map with its limit from above filled in at `t_in`. -/
noncomputable def Wext (t_0 t_in : ℝ) (t : ℂ) : ℂ := if t = t_in then I else Wval t_0 t_in t

theorem Wext_ne {t_0 t_in : ℝ} {t : ℂ} (ht : t ≠ t_in) : Wext t_0 t_in t = Wval t_0 t_in t := if_neg ht

theorem Wext_tin_bound {t_0 t_in : ℝ} (h : t_0 < t_in) {t : ℂ} (hu : 0 ≤ t.im) :
    ‖Wext t_0 t_in t - I‖ ≤ Real.sqrt (4 * ‖t - t_in‖ / (t_in - t_0)) := by
  by_cases ht : t = t_in
  · simp [Wext, ht]
  rw [Wext_ne ht]
  have hd : 0 < t_in - t_0 := sub_pos.mpr h
  have id := Wval_identity h ht
  have hn := Wval_norm_le h t
  have him := Wval_im_nonneg h ht hu
  generalize Wval t_0 t_in t = w at *
  have e1 : ((t_in : ℂ) - t_0) * (1 + w ^ 2) ^ 2 = -(t - t_in) * (1 - w ^ 2) ^ 2 := by linear_combination id
  have hw2 : ‖1 - w ^ 2‖ ≤ 2 := by
    calc ‖1 - w ^ 2‖ ≤ ‖(1 : ℂ)‖ + ‖w ^ 2‖ := norm_sub_le _ _
      _ ≤ 1 + 1 := by rw [norm_one, norm_pow]; nlinarith [norm_nonneg w]
      _ = 2 := by norm_num
  have e2 : (t_in - t_0) * ‖1 + w ^ 2‖ ^ 2 = ‖t - t_in‖ * ‖1 - w ^ 2‖ ^ 2 := by
    have := congrArg norm e1
    rw [norm_mul, norm_mul, norm_neg, norm_pow, norm_pow, ← ofReal_sub, norm_real, Real.norm_of_nonneg hd.le] at this
    exact this
  have e3 : ‖1 + w ^ 2‖ ^ 2 ≤ 4 * ‖t - t_in‖ / (t_in - t_0) := by
    rw [le_div_iff₀ hd]
    have h4 : ‖1 - w ^ 2‖ ^ 2 ≤ 4 := by nlinarith [norm_nonneg (1 - w ^ 2)]
    nlinarith [mul_le_mul_of_nonneg_left h4 (norm_nonneg (t - t_in))]
  have e4 : ‖w - I‖ * ‖w + I‖ = ‖1 + w ^ 2‖ := by
    rw [← norm_mul]; congr 1; linear_combination (-1 : ℂ) * I_sq
  have e5 : 1 ≤ ‖w + I‖ := by
    have := Complex.abs_im_le_norm (w + I)
    rw [add_im, I_im, abs_of_nonneg (by linarith)] at this
    linarith
  calc ‖w - I‖ ≤ ‖w - I‖ * ‖w + I‖ := le_mul_of_one_le_right (norm_nonneg _) e5
    _ = ‖1 + w ^ 2‖ := e4
    _ ≤ _ := Real.le_sqrt_of_sq_le e3

theorem Wext_continuousWithinAt {t_0 t_in : ℝ} (h : t_0 < t_in) (s : ℂ) : ContinuousWithinAt (Wext t_0 t_in) UpperHalf s := by
  by_cases hs : s = t_in
  · subst hs
    have hI : Wext t_0 t_in t_in = I := if_pos rfl
    rw [ContinuousWithinAt, hI, tendsto_iff_norm_sub_tendsto_zero]
    have hlim : Tendsto (fun t : ℂ => Real.sqrt (4 * ‖t - t_in‖ / (t_in - t_0))) (𝓝[UpperHalf] (t_in : ℂ)) (𝓝 0) := by
      have : Continuous fun t : ℂ => Real.sqrt (4 * ‖t - t_in‖ / (t_in - t_0)) := by fun_prop
      have := (this.tendsto (t_in : ℂ)).mono_left (nhdsWithin_le_nhds (s := UpperHalf))
      simpa using this
    refine squeeze_zero' (Eventually.of_forall fun t => norm_nonneg _) ?_ hlim
    filter_upwards [self_mem_nhdsWithin] with t ht
    exact Wext_tin_bound h ht
  · have hz : Tendsto (fun t => zOf t_0 t) (𝓝[UpperHalf] s) (𝓝 (zOf t_0 s)) := by
      refine (squareRoot_continuousWithinAt_upper (s - t_0)).tendsto.comp (tendsto_nhdsWithin_iff.mpr ⟨?_, ?_⟩)
      · exact ((continuous_id.sub continuous_const).tendsto s).mono_left nhdsWithin_le_nhds
      · filter_upwards [self_mem_nhdsWithin] with t ht
        simpa [UpperHalf] using ht
    have := Wval_tendsto (u := fun t : ℂ => t) h tendsto_const_nhds tendsto_const_nhds hs hz
    rw [ContinuousWithinAt, Wext_ne hs]
    refine this.congr' ?_
    filter_upwards [nhdsWithin_le_nhds (isOpen_ne.mem_nhds hs)] with t ht
    exact (Wext_ne ht).symm

theorem quart_I_ne {t_0 t_in : ℝ} (h : t_0 < t_in) {p : ℂ} (hp0 : p ≠ t_0) (hpin : p ≠ t_in) (v : Variant) :
    quart v (Wval t_0 t_in p) I ≠ 0 := by
  have id := Wval_identity h hpin
  have hm : Wval t_0 t_in p ≠ 0 := fun h' => hp0 ((Wval_eq_zero h hpin).mp h')
  have hsq : Wval t_0 t_in p ^ 2 ≠ -1 := by
    intro h'
    rw [h'] at id
    apply hpin
    linear_combination id / 4
  generalize Wval t_0 t_in p = m at *
  have hcm : conj m ≠ 0 := by simpa using hm
  have hcsq : conj m ^ 2 ≠ -1 := by
    intro h'
    apply hsq
    have := congrArg conj h'
    simpa using this
  have k : ∀ {n : ℂ}, n ^ 2 ≠ -1 → I - n ≠ 0 ∧ I + n ≠ 0 := fun {n} hn => by
    constructor <;> intro h' <;> apply hn
    · rw [← sub_eq_zero.mp h', I_sq]
    · rw [eq_neg_of_add_eq_zero_right h', neg_sq, I_sq]
  have k' : ∀ {n : ℂ}, n ≠ 0 → n ^ 2 ≠ -1 → I - 1 / n ≠ 0 := fun {n} hn0 hn h' => by
    apply hn
    have e : I * n = 1 := by
      have := sub_eq_zero.mp h'
      rw [this]; field_simp
    have : n = -I := by linear_combination (-I) * e + n * I_sq
    rw [this, neg_sq, I_sq]
  cases v
  · exact mul_ne_zero (mul_ne_zero (mul_ne_zero (k hsq).1 (k hcsq).1) (k' hm hsq)) (k' hcm hcsq)
  · exact mul_ne_zero (mul_ne_zero (mul_ne_zero (k hsq).1 (k hcsq).1) (k hsq).2) (k hcsq).2

/-- The component with its limit from above filled in at `t_in`. -/
noncomputable def Fext (v : Variant) (t_0 t_in : ℝ) (p t : ℂ) : ℂ :=
  (1 - Wext t_0 t_in t ^ 2) ^ 2 / (1 - Wval t_0 t_in 0 ^ 2) ^ 2 *
    (quart v (Wval t_0 t_in p) (Wval t_0 t_in 0) / quart v (Wval t_0 t_in p) (Wext t_0 t_in t))

theorem Fext_ne (v : Variant) {t_0 t_in : ℝ} (p : ℂ) {t : ℂ} (ht : t ≠ t_in) : Fext v t_0 t_in p t = Fval v t_0 t_in p t := by
  rw [Fext, Wext_ne ht, Fval]

theorem Fext_continuousWithinAt (v : Variant) {t_0 t_in : ℝ} (h : t_0 < t_in) {p s : ℂ} (hp0 : p ≠ t_0) (hpin : p ≠ t_in)
    (h1 : s ≠ p) (h2 : s ≠ conj p) : ContinuousWithinAt (Fext v t_0 t_in p) UpperHalf s := by
  have hw := Wext_continuousWithinAt h s
  have hm : Wval t_0 t_in p ≠ 0 := fun h' => hp0 ((Wval_eq_zero h hpin).mp h')
  have hq : quart v (Wval t_0 t_in p) (Wext t_0 t_in s) ≠ 0 := by
    by_cases hs : s = t_in
    · rw [show Wext t_0 t_in s = I from if_pos hs]
      exact quart_I_ne h hp0 hpin v
    · rw [Wext_ne hs]
      intro hq
      exact ((quart_eq_zero h hp0 hpin hs v).mp hq).elim h1 h2
  exact ((tendsto_const_nhds.sub (hw.tendsto.pow 2)).pow 2).div_const _ |>.mul
    (tendsto_const_nhds.div (quart_tendsto v tendsto_const_nhds hw.tendsto hm) hq)

theorem eventually_off (L : List ℂ) (s : ℂ) : ∀ᶠ t in 𝓝[≠] s, t ∉ L := by
  induction L with
  | nil => simp
  | cons a L ih =>
    have ha : ∀ᶠ t in 𝓝[≠] s, t ≠ a := by
      by_cases h : s = a
      · subst h; exact self_mem_nhdsWithin
      · exact nhdsWithin_le_nhds (isOpen_ne.mem_nhds h)
    filter_upwards [ih, ha] with t h1 h2
    simp [h1, h2]

/-- From continuity within the upper half plane to the limit from above. -/
theorem limitFromAbove_of {f : ℂ → Except PyErr ℂ} {g : ℂ → ℂ} {s : ℝ} (hg : ContinuousWithinAt g UpperHalf (s : ℂ))
    {L : List ℂ} (hf : ∀ t : ℂ, 0 ≤ t.re → t ∉ L → f t = .ok (g t)) : LimitFromAbove f s (g s) := by
  intro ε hε
  have h1 := hg.tendsto.eventually (Metric.ball_mem_nhds (g s) hε)
  have h2 := eventually_off L (s : ℂ)
  rw [eventually_nhdsWithin_iff] at h1 h2
  obtain ⟨δ, hδ, hall⟩ := Metric.eventually_nhds_iff.mp (h1.and h2)
  refine ⟨δ, hδ, fun t hre him hne hd => ?_⟩
  obtain ⟨a, b⟩ := hall (by rwa [dist_eq_norm])
  refine ⟨g t, hf t hre (b hne), ?_⟩
  have := a him
  rwa [dist_eq_norm] at this

/-- Reflection turns a limit from above into one from below. -/
theorem LimitFromAbove.reflect {f : ℂ → Except PyErr ℂ} {s : ℝ} {y : ℂ} (h : LimitFromAbove f s y)
    (hf : ∀ t : ℂ, t.im ≠ 0 → ∀ u, f t = .ok u → f (conj t) = .ok (conj u)) : LimitFromBelow f s (conj y) := by
  intro ε hε
  obtain ⟨δ, hδ, hall⟩ := h ε hε
  refine ⟨δ, hδ, fun t hre him hd => ?_⟩
  obtain ⟨u, hu, hn⟩ := hall (conj t) (by simpa using hre) (by simpa using him.le)
    (fun h' => by have := congrArg Complex.im h'; simp at this; exact him.ne this)
    (by rw [← conj_ofReal, ← map_sub, norm_conj]; exact hd)
  refine ⟨conj u, ?_, by rw [← map_sub, norm_conj]; exact hn⟩
  have := hf (conj t) (by simpa using him.ne) u hu
  rwa [conj_conj] at this

/-- Limits are unique. -/
theorem LimitFromAbove.unique {f : ℂ → Except PyErr ℂ} {s : ℝ} (hs : 0 ≤ s) {y y' : ℂ} (h : LimitFromAbove f s y) (h' : LimitFromAbove f s y') :
    y = y' := by
  by_contra hne
  have hd : 0 < ‖y - y'‖ / 2 := by have := norm_pos_iff.mpr (sub_ne_zero.mpr hne); linarith
  obtain ⟨δ, hδ, h1⟩ := h _ hd
  obtain ⟨δ', hδ', h2⟩ := h' _ hd
  have hm : 0 < min δ δ' / 2 := by have := lt_min hδ hδ'; linarith
  let t : ℂ := s + (min δ δ' / 2 : ℝ) * I
  have e : t - s = (min δ δ' / 2 : ℝ) * I := by simp [t]
  have hn : ‖t - s‖ = min δ δ' / 2 := by rw [e, norm_mul, norm_I, mul_one, norm_real, Real.norm_of_nonneg hm.le]
  have hre : 0 ≤ t.re := by simpa [t] using hs
  have him : 0 ≤ t.im := by simpa [t] using hm.le
  have htne : t ≠ s := fun h' => by rw [h', sub_self, norm_zero] at hn; exact hm.ne hn
  have l1 := min_le_left δ δ'
  have l2 := min_le_right δ δ'
  have l0 := lt_min hδ hδ'
  obtain ⟨u, a1, a2⟩ := h1 t hre him htne (by rw [hn]; linarith)
  obtain ⟨u', b1, b2⟩ := h2 t hre him htne (by rw [hn]; linarith)
  rw [a1] at b1
  injection b1 with b1
  subst b1
  have := norm_sub_le_norm_sub_add_norm_sub y u y'
  rw [norm_sub_rev y u] at this
  linarith

/-! ### Kaons -/

noncomputable def FsumX (t_0 t_in : ℝ) (rs : List Res) (t : ℂ) : ℂ :=
  (rs.map (fun r => (r.a : ℂ) * Fext (r.var t_in) t_0 t_in r.pole t)).sum

theorem FsumX_ne {t_0 t_in : ℝ} (rs : List Res) {t : ℂ} (ht : t ≠ t_in) : FsumX t_0 t_in rs t = FsumL t_0 t_in rs t := by
  unfold FsumX FsumL
  simp only [Fext_ne _ _ ht]

theorem FsumX_continuousWithinAt {t_0 t_in : ℝ} (h0 : 0 ≤ t_0) (h : t_0 < t_in) {rs : List Res} {ts : List (ℝ × UAComponent)}
    (hb : buildTerms t_0 t_in rs = .ok ts) {s : ℂ} (hp : ∀ r ∈ rs, s ≠ r.pole ∧ s ≠ conj r.pole) :
    ContinuousWithinAt (FsumX t_0 t_in rs) UpperHalf s := by
  induction rs generalizing ts with
  | nil => exact continuousWithinAt_const
  | cons r rs ih =>
    obtain ⟨c, cs, h1, h2, rfl⟩ := buildTerms_cons hb
    have B := (buildComponent_built h0 h h1).1
    have hr := hp r (by simp)
    have := ih h2 fun r' hr' => hp r' (by simp [hr'])
    have e : FsumX t_0 t_in (r :: rs) = fun t => (r.a : ℂ) * Fext (r.var t_in) t_0 t_in r.pole t + FsumX t_0 t_in rs t := by
      funext t; simp [FsumX]
    rw [e]
    exact (continuousWithinAt_const.mul (Fext_continuousWithinAt _ h B.hp0 B.hpin hr.1 hr.2)).add this

/-! ### Nucleons -/

noncomputable def Six.X (t_0 t_in : ℝ) (V : Six Variant) (P : Six ℂ) (t : ℂ) : Six ℂ := Six.map₂ (fun v p => Fext v t_0 t_in p t) V P
noncomputable def Three.X (t_0 t_in : ℝ) (V : Three Variant) (P : Three ℂ) (t : ℂ) : Three ℂ := Three.map₂ (fun v p => Fext v t_0 t_in p t) V P

theorem Six.X_ne {t_0 t_in : ℝ} (V : Six Variant) (P : Six ℂ) {t : ℂ} (ht : t ≠ t_in) : Six.X t_0 t_in V P t = Six.F t_0 t_in V P t := by
  simp only [Six.X, Six.F, Fext_ne _ _ ht]
theorem Three.X_ne {t_0 t_in : ℝ} (V : Three Variant) (P : Three ℂ) {t : ℂ} (ht : t ≠ t_in) : Three.X t_0 t_in V P t = Three.F t_0 t_in V P t := by
  simp only [Three.X, Three.F, Fext_ne _ _ ht]

theorem dsVal_continuousWithinAt (x : NucleonArgs) (c : Six ℂ) {f1 f2 f3 f4 f5 f6 : ℂ → ℂ} {S : Set ℂ} {s : ℂ}
    (h1 : ContinuousWithinAt f1 S s) (h2 : ContinuousWithinAt f2 S s) (h3 : ContinuousWithinAt f3 S s)
    (h4 : ContinuousWithinAt f4 S s) (h5 : ContinuousWithinAt f5 S s) (h6 : ContinuousWithinAt f6 S s) :
    ContinuousWithinAt (fun t => dsVal x ⟨f1 t, f2 t, f3 t, f4 t, f5 t, f6 t⟩ c) S s := by
  simp only [dsVal, dTerm, div_eq_mul_inv]; fun_prop

theorem psVal_continuousWithinAt (x : NucleonArgs) (c : Six ℂ) {f1 f2 f3 f4 f5 f6 : ℂ → ℂ} {S : Set ℂ} {s : ℂ}
    (h1 : ContinuousWithinAt f1 S s) (h2 : ContinuousWithinAt f2 S s) (h3 : ContinuousWithinAt f3 S s)
    (h4 : ContinuousWithinAt f4 S s) (h5 : ContinuousWithinAt f5 S s) (h6 : ContinuousWithinAt f6 S s) :
    ContinuousWithinAt (fun t => psVal x ⟨f1 t, f2 t, f3 t, f4 t, f5 t, f6 t⟩ c) S s := by
  simp only [psVal, pTerm, div_eq_mul_inv]; fun_prop

theorem dvVal_continuousWithinAt (x : NucleonArgs) (c : Three ℂ) {f1 f2 f3 : ℂ → ℂ} {S : Set ℂ} {s : ℂ}
    (h1 : ContinuousWithinAt f1 S s) (h2 : ContinuousWithinAt f2 S s) (h3 : ContinuousWithinAt f3 S s) :
    ContinuousWithinAt (fun t => dvVal x ⟨f1 t, f2 t, f3 t⟩ c) S s := by
  simp only [dvVal, dTerm, div_eq_mul_inv]; fun_prop

theorem pvVal_continuousWithinAt (x : NucleonArgs) {f1 f2 f3 : ℂ → ℂ} {S : Set ℂ} {s : ℂ}
    (h1 : ContinuousWithinAt f1 S s) (h2 : ContinuousWithinAt f2 S s) (h3 : ContinuousWithinAt f3 S s) :
    ContinuousWithinAt (fun t => pvVal x ⟨f1 t, f2 t, f3 t⟩) S s := by
  simp only [pvVal]; fun_prop

/-! ### Runs -/

theorem real_ne_conj {s : ℝ} {p : ℂ} (h : (s : ℂ) ≠ p) : (s : ℂ) ≠ conj p := fun h' => h (by
  have := congrArg conj h'
  rwa [conj_conj, conj_ofReal] at this)

theorem LimitFromBelow.unique {f : ℂ → Except PyErr ℂ} {s : ℝ} (hs : 0 ≤ s) {y y' : ℂ} (h : LimitFromBelow f s y) (h' : LimitFromBelow f s y') :
    y = y' := by
  by_contra hne
  have hd : 0 < ‖y - y'‖ / 2 := by have := norm_pos_iff.mpr (sub_ne_zero.mpr hne); linarith
  obtain ⟨δ, hδ, h1⟩ := h _ hd
  obtain ⟨δ', hδ', h2⟩ := h' _ hd
  have hm : 0 < min δ δ' / 2 := by have := lt_min hδ hδ'; linarith
  let t : ℂ := s - (min δ δ' / 2 : ℝ) * I
  have e : t - s = -((min δ δ' / 2 : ℝ) * I) := by simp [t]
  have hn : ‖t - s‖ = min δ δ' / 2 := by rw [e, norm_neg, norm_mul, norm_I, mul_one, norm_real, Real.norm_of_nonneg hm.le]
  have hre : 0 ≤ t.re := by simpa [t] using hs
  have him : t.im < 0 := by simpa [t] using hm
  have l1 := min_le_left δ δ'
  have l2 := min_le_right δ δ'
  have l0 := lt_min hδ hδ'
  obtain ⟨u, a1, a2⟩ := h1 t hre him (by rw [hn]; linarith)
  obtain ⟨u', b1, b2⟩ := h2 t hre him (by rw [hn]; linarith)
  rw [a1] at b1
  injection b1 with b1
  subst b1
  have := norm_sub_le_norm_sub_add_norm_sub y u y'
  rw [norm_sub_rev y u] at this
  linarith

/-- A limit from above is the value, if the extension is. -/
theorem kaon_above (x : KaonArgs) (ch : Bool) (hp : x.Proper) (hb : x.Builds ch) {s : ℝ}
    (hr : ∀ r ∈ x.resS ++ x.resV, (s : ℂ) ≠ polePosition r.mass r.decay) :
    ∃ y, LimitFromAbove (x.run ch) s y ∧ ∀ u, x.run ch s = .ok u → u = y := by
  obtain ⟨k, b, hk⟩ := KaonArgs.get_view hb
  have hr' : ∀ r ∈ x.resS ++ x.resV, (s : ℂ) ≠ r.pole ∧ (s : ℂ) ≠ conj r.pole := fun r h => by
    have := hr r h
    rw [← tMesonPole_eq] at this
    exact ⟨this, real_ne_conj this⟩
  have cS := FsumX_continuousWithinAt b.h0S hp.1 b.hS (s := s) fun r h => hr' r (List.mem_append_left _ h)
  have cV := FsumX_continuousWithinAt b.h0V hp.2 b.hV (s := s) fun r h => hr' r (List.mem_append_right _ h)
  have hval : ∀ t : ℂ, 0 ≤ t.re → ¬ Singular x.tinS x.tinV x.resS x.resV t →
      x.run ch t = .ok (FsumX x.t0S x.tinS x.resS t + (if ch then 1 else -1) * FsumX x.t0V x.tinV x.resV t) := by
    intro t hre hs
    obtain ⟨h1, h2, -, -⟩ := not_singular hs
    rw [hk, b.call_ok hp.1 hp.2 hre hs, FsumX_ne _ h1, FsumX_ne _ h2]
  refine ⟨_, limitFromAbove_of (g := fun t => FsumX x.t0S x.tinS x.resS t + (if ch then 1 else -1) * FsumX x.t0V x.tinV x.resV t)
    (cS.add (continuousWithinAt_const.mul cV))
    (L := [(x.tinS : ℂ), (x.tinV : ℂ)] ++ ((x.resS ++ x.resV).map Res.pole ++ (x.resS ++ x.resV).map fun r => conj r.pole)) ?_, ?_⟩
  · intro t hre hL
    refine hval t hre ?_
    rintro (h | h | ⟨r, h1, h | h⟩) <;> apply hL
    · simp [h]
    · simp [h]
    · exact List.mem_append_right _ (List.mem_append_left _ (List.mem_map.mpr ⟨r, h1, h.symm⟩))
    · exact List.mem_append_right _ (List.mem_append_right _ (List.mem_map.mpr ⟨r, h1, h.symm⟩))
  · intro u hu
    by_cases hre : (s : ℂ).re < 0
    · rw [hk, k.call_neg hre] at hu; cases hu
    · have hre' := not_lt.mp hre
      by_cases hs : Singular x.tinS x.tinV x.resS x.resV s
      · rw [hk, b.call_zeroDiv hp.1 hp.2 hre' hs] at hu; cases hu
      · rw [hval _ hre' hs] at hu
        injection hu with hu
        exact hu.symm

theorem SixBuilt.X_continuous {t_0 t_in : ℝ} {P : Six ℂ} {V : Six Variant} {K : Six UAComponent} (b : SixBuilt t_0 t_in P V K)
    {s : ℂ} (hp : ∀ p ∈ P.toList, s ≠ p ∧ s ≠ conj p) :
    ContinuousWithinAt (fun t => (Six.X t_0 t_in V P t).omega) UpperHalf s ∧ ContinuousWithinAt (fun t => (Six.X t_0 t_in V P t).omega_prime) UpperHalf s ∧
    ContinuousWithinAt (fun t => (Six.X t_0 t_in V P t).omega_double_prime) UpperHalf s ∧ ContinuousWithinAt (fun t => (Six.X t_0 t_in V P t).phi) UpperHalf s ∧
    ContinuousWithinAt (fun t => (Six.X t_0 t_in V P t).phi_prime) UpperHalf s ∧ ContinuousWithinAt (fun t => (Six.X t_0 t_in V P t).phi_double_prime) UpperHalf s := by
  have k : ∀ {p : ℂ} {v : Variant} {c : UAComponent}, Built t_0 t_in p v c → p ∈ P.toList → ContinuousWithinAt (fun t => Fext v t_0 t_in p t) UpperHalf s :=
    fun B h => Fext_continuousWithinAt _ B.hlt B.hp0 B.hpin (hp _ h).1 (hp _ h).2
  exact ⟨k b.omega (by simp [Six.toList]), k b.omega_prime (by simp [Six.toList]), k b.omega_double_prime (by simp [Six.toList]),
    k b.phi (by simp [Six.toList]), k b.phi_prime (by simp [Six.toList]), k b.phi_double_prime (by simp [Six.toList])⟩

theorem ThreeBuilt.X_continuous {t_0 t_in : ℝ} {P : Three ℂ} {V : Three Variant} {K : Three UAComponent} (b : ThreeBuilt t_0 t_in P V K)
    {s : ℂ} (hp : ∀ p ∈ P.toList, s ≠ p ∧ s ≠ conj p) :
    ContinuousWithinAt (fun t => (Three.X t_0 t_in V P t).rho) UpperHalf s ∧ ContinuousWithinAt (fun t => (Three.X t_0 t_in V P t).rho_prime) UpperHalf s ∧
    ContinuousWithinAt (fun t => (Three.X t_0 t_in V P t).rho_double_prime) UpperHalf s := by
  have k : ∀ {p : ℂ} {v : Variant} {c : UAComponent}, Built t_0 t_in p v c → p ∈ P.toList → ContinuousWithinAt (fun t => Fext v t_0 t_in p t) UpperHalf s :=
    fun B h => Fext_continuousWithinAt _ B.hlt B.hp0 B.hpin (hp _ h).1 (hp _ h).2
  exact ⟨k b.rho (by simp [Three.toList]), k b.rho_prime (by simp [Three.toList]), k b.rho_double_prime (by simp [Three.toList])⟩

/-- The value of the nucleon model with the limits from above filled in. -/
noncomputable def nExt (thr : ℝ → ℝ → ℝ) (proton electric : Bool) (x : NucleonArgs) (cDS : Six ℂ) (cDV : Three ℂ) (cPS : Six ℂ) (t : ℂ) : ℂ :=
  nVal x proton electric t
    (dsVal x (Six.X x.t_0_dirac_isoscalar x.t_in_dirac_isoscalar (x.thrS thr x.t_in_dirac_isoscalar) x.poleS t) cDS)
    (dvVal x (Three.X x.t_0_dirac_isovector x.t_in_dirac_isovector (x.thrT thr x.t_in_dirac_isovector) x.poleT t) cDV)
    (psVal x (Six.X x.t_0_pauli_isoscalar x.t_in_pauli_isoscalar (x.thrS thr x.t_in_pauli_isoscalar) x.poleS t) cPS)
    (pvVal x (Three.X x.t_0_pauli_isovector x.t_in_pauli_isovector (x.thrT thr x.t_in_pauli_isovector) x.poleT t))

theorem NBuilt.nExt_continuous {thr : ℝ → ℝ → ℝ} {proton electric : Bool} {x : NucleonArgs} {m : NucleonBase} (b : NBuilt thr proton electric x m)
    (cDS : Six ℂ) (cDV : Three ℂ) (cPS : Six ℂ) {s : ℂ} (hp : ∀ p ∈ x.poleS.toList ++ x.poleT.toList, s ≠ p ∧ s ≠ conj p) :
    ContinuousWithinAt (nExt thr proton electric x cDS cDV cPS) UpperHalf s := by
  have hpS : ∀ p ∈ x.poleS.toList, s ≠ p ∧ s ≠ conj p := fun p h => hp p (List.mem_append_left _ h)
  have hpT : ∀ p ∈ x.poleT.toList, s ≠ p ∧ s ≠ conj p := fun p h => hp p (List.mem_append_right _ h)
  obtain ⟨a1, a2, a3, a4, a5, a6⟩ := b.ds.X_continuous hpS
  obtain ⟨b1, b2, b3⟩ := b.dv.X_continuous hpT
  obtain ⟨c1, c2, c3, c4, c5, c6⟩ := b.ps.X_continuous hpS
  obtain ⟨d1, d2, d3⟩ := b.pv.X_continuous hpT
  have e1 := dsVal_continuousWithinAt x cDS a1 a2 a3 a4 a5 a6
  have e2 := dvVal_continuousWithinAt x cDV b1 b2 b3
  have e3 := psVal_continuousWithinAt x cPS c1 c2 c3 c4 c5 c6
  have e4 := pvVal_continuousWithinAt x d1 d2 d3
  have key : ∀ {f1 f2 f3 f4 : ℂ → ℂ}, ContinuousWithinAt f1 UpperHalf s → ContinuousWithinAt f2 UpperHalf s → ContinuousWithinAt f3 UpperHalf s →
      ContinuousWithinAt f4 UpperHalf s → ContinuousWithinAt (fun t => nVal x proton electric t (f1 t) (f2 t) (f3 t) (f4 t)) UpperHalf s := by
    intro f1 f2 f3 f4 h1 h2 h3 h4
    cases electric <;> simp only [nVal, if_true, if_false, Bool.false_eq_true, div_eq_mul_inv] <;> fun_prop
  exact key e1 e2 e3 e4

theorem nucleon_above (k : NucleonClass) (proton electric : Bool) (x : NucleonArgs) (hx : x.Proper) {t' u' : ℂ}
    (hev : k.run proton electric x t' = .ok u') {s : ℝ} (hr : ∀ r ∈ x.resonances, (s : ℂ) ≠ polePosition r.1 r.2) :
    ∃ y, LimitFromAbove (k.run proton electric x) s y ∧ ∀ u, k.run proton electric x s = .ok u → u = y := by
  have hb := NucleonClass.builds_of_run hev
  obtain ⟨m, b, h⟩ := NucleonClass.run_built hx hb
  have hev' := hev
  rw [h] at hev'
  have hns := (b.evalC_iff (evalC_re hev')).mp ⟨_, hev'⟩
  have hpoles : ∀ p ∈ x.poleS.toList ++ x.poleT.toList, (s : ℂ) ≠ p ∧ (s : ℂ) ≠ conj p := by
    intro p hp
    have : (s : ℂ) ≠ p := by
      simp only [NucleonArgs.resonances, List.mem_cons, List.not_mem_nil, or_false, forall_eq_or_imp, forall_eq, ← tMesonPole_eq] at hr
      obtain ⟨r1, r2, r3, r4, r5, r6, r7, r8, r9⟩ := hr
      simp only [NucleonArgs.poleS, NucleonArgs.poleT, Six.toList, Three.toList, List.cons_append, List.nil_append, List.mem_cons, List.not_mem_nil, or_false] at hp
      rcases hp with rfl | rfl | rfl | rfl | rfl | rfl | rfl | rfl | rfl <;> assumption
    exact ⟨this, real_ne_conj this⟩
  have hval : ∀ t : ℂ, 0 ≤ t.re → ¬ NSingular x electric (k.cDS x) (k.cDV x) (k.cPS x) t →
      k.run proton electric x t = .ok (nExt k.thr proton electric x (k.cDS x) (k.cDV x) (k.cPS x) t) := by
    intro t hre hs
    rw [h, b.evalC_ok hre hs, nExt]
    unfold NSingular at hs
    push Not at hs
    obtain ⟨⟨a1, a2, a3, a4⟩, -⟩ := hs
    rw [Six.X_ne _ _ a1, Three.X_ne _ _ a2, Six.X_ne _ _ a3, Three.X_ne _ _ a4]
    rfl
  refine ⟨_, limitFromAbove_of (b.nExt_continuous (k.cDS x) (k.cDV x) (k.cPS x) hpoles)
    (L := [(x.t_in_dirac_isoscalar : ℂ), (x.t_in_dirac_isovector : ℂ), (x.t_in_pauli_isoscalar : ℂ), (x.t_in_pauli_isovector : ℂ)] ++
      ((x.poleS.toList ++ x.poleT.toList) ++ (x.poleS.toList ++ x.poleT.toList).map conj)) ?_, ?_⟩
  · intro t hre hL
    refine hval t hre ?_
    rintro (h' | ⟨p, h1, h' | h'⟩ | h' | h')
    · apply hL
      refine List.mem_append_left _ ?_
      simpa using h'
    · exact hL (List.mem_append_right _ (List.mem_append_left _ (h' ▸ h1)))
    · exact hL (List.mem_append_right _ (List.mem_append_right _ (List.mem_map.mpr ⟨p, h1, h'.symm⟩)))
    · exact hns (Or.inr (Or.inr (Or.inl h')))
    · exact hns (Or.inr (Or.inr (Or.inr h')))
  · intro u hu
    have hu' := hu
    rw [h] at hu'
    have hs := (b.evalC_iff (evalC_re hu')).mp ⟨_, hu'⟩
    rw [hval _ (evalC_re hu') hs] at hu
    injection hu with hu
    exact hu.symm

end UA
