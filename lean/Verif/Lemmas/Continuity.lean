import Verif.Lemmas.KaonRun
import Verif.Lemmas.ComponentsRun
import Verif.Lemmas.SquareRootCont
import Verif.Spec.Continuity

/-! The form-factor formulas as functions of the parameters: limits, and the jump at the change of variant. -/

namespace UA

open Complex ComplexConjugate Filter Topology

variable {ι : Type*} {l : Filter ι}

theorem squareRoot_tendsto {u : ι → ℂ} {z : ℂ} (hu : Tendsto u l (𝓝 z)) (him : ∀ i, 0 ≤ (u i).im) :
    Tendsto (fun i => squareRoot (u i)) l (𝓝 (squareRoot z)) :=
  (squareRoot_continuousWithinAt_upper z).tendsto.comp (tendsto_nhdsWithin_iff.mpr ⟨hu, Eventually.of_forall him⟩)

theorem tendsto_ofReal {f : ι → ℝ} {x : ℝ} (h : Tendsto f l (𝓝 x)) : Tendsto (fun i => (f i : ℂ)) l (𝓝 (x : ℂ)) :=
  (Complex.continuous_ofReal.tendsto x).comp h

theorem zOf_tendsto_real {t0 : ι → ℝ} {t_0 : ℝ} (h : Tendsto t0 l (𝓝 t_0)) (x : ℝ) :
    Tendsto (fun i => zOf (t0 i) x) l (𝓝 (zOf t_0 x)) :=
  squareRoot_tendsto (tendsto_const_nhds.sub (tendsto_ofReal h)) (fun i => by simp)

theorem zOf_tendsto_off {t0 : ι → ℝ} {t_0 : ℝ} (h : Tendsto t0 l (𝓝 t_0)) {u : ι → ℂ} {t : ℂ} (hu : Tendsto u l (𝓝 t))
    (ht : ¬ (t.im = 0 ∧ t_0 ≤ t.re)) : Tendsto (fun i => zOf (t0 i) (u i)) l (𝓝 (zOf t_0 t)) :=
  (squareRoot_differentiableAt (offCut_sub ht)).continuousAt.tendsto.comp (hu.sub (tendsto_ofReal h))

theorem Wval_tendsto {t0 tin : ι → ℝ} {t_0 t_in : ℝ} (h : t_0 < t_in) (h0 : Tendsto t0 l (𝓝 t_0)) (hin : Tendsto tin l (𝓝 t_in))
    {u : ι → ℂ} {t : ℂ} (ht : t ≠ t_in) (hz : Tendsto (fun i => zOf (t0 i) (u i)) l (𝓝 (zOf t_0 t))) :
    Tendsto (fun i => Wval (t0 i) (tin i) (u i)) l (𝓝 (Wval t_0 t_in t)) := by
  have ha : Tendsto (fun i => ((Real.sqrt (tin i - t0 i) : ℝ) : ℂ)) l (𝓝 ((Real.sqrt (t_in - t_0) : ℝ) : ℂ)) :=
    tendsto_ofReal ((Real.continuous_sqrt.tendsto _).comp (hin.sub h0))
  have hne : -zOf t_0 t + (Real.sqrt (t_in - t_0) : ℂ) ≠ 0 := a_sub_ne fun h' => ht ((zOf_eq_a h.le t).mp h')
  have hv : Tendsto (fun i => vOf (Real.sqrt (tin i - t0 i)) (zOf (t0 i) (u i))) l (𝓝 (vOf (Real.sqrt (t_in - t_0)) (zOf t_0 t))) := by
    refine squareRoot_tendsto ((hz.add ha).div (hz.neg.add ha) hne) fun i => ?_
    rw [tz_im]
    exact div_nonneg (mul_nonneg (by have := Real.sqrt_nonneg (tin i - t0 i); linarith) (zOf_im_nonneg _ _)) (normSq_nonneg _)
  have hd : vOf (Real.sqrt (t_in - t_0)) (zOf t_0 t) + 1 ≠ 0 := v_add_one_ne (vOf_re_nonneg (Real.sqrt_nonneg _) (zOf_im_nonneg _ _))
  exact ((tendsto_const_nhds.mul (hv.sub tendsto_const_nhds))).div (hv.add tendsto_const_nhds) hd

theorem quart_tendsto (v : Variant) {a b : ι → ℂ} {wm w : ℂ} (ha : Tendsto a l (𝓝 wm)) (hb : Tendsto b l (𝓝 w)) (hm : wm ≠ 0) :
    Tendsto (fun i => quart v (a i) (b i)) l (𝓝 (quart v wm w)) := by
  have hc : Tendsto (fun i => conj (a i)) l (𝓝 (conj wm)) := (Complex.continuous_conj.tendsto wm).comp ha
  have hcm : conj wm ≠ 0 := by simpa using hm
  cases v
  · exact (((hb.sub ha).mul (hb.sub hc)).mul (hb.sub (tendsto_const_nhds.div ha hm))).mul (hb.sub (tendsto_const_nhds.div hc hcm))
  · exact (((hb.sub ha).mul (hb.sub hc)).mul (hb.add ha)).mul (hb.add hc)

/-- One component, the variant kept, as all its parameters converge; the argument is real, or off the cut. -/
theorem Fval_tendsto (v : Variant) {t0 tin : ι → ℝ} {t_0 t_in : ℝ} (hn : 0 ≤ t_0) (h : t_0 < t_in) (h0 : Tendsto t0 l (𝓝 t_0))
    (hin : Tendsto tin l (𝓝 t_in)) {u : ι → ℂ} {p : ℂ} (hu : Tendsto u l (𝓝 p)) (hp : p.im ≠ 0) {t : ℂ} (ht : t ≠ t_in)
    (hz : Tendsto (fun i => zOf (t0 i) t) l (𝓝 (zOf t_0 t))) (h1 : t ≠ p) (h2 : t ≠ conj p) :
    Tendsto (fun i => Fval v (t0 i) (tin i) (u i) t) l (𝓝 (Fval v t_0 t_in p t)) := by
  have hoff : ¬ (p.im = 0 ∧ t_0 ≤ p.re) := fun hh => hp hh.1
  have hpin : p ≠ t_in := fun hh => hp (by rw [hh]; simp)
  have hp0 : p ≠ t_0 := fun hh => hp (by rw [hh]; simp)
  have hpz : p ≠ 0 := fun hh => hp (by rw [hh]; simp)
  have h0in : (0 : ℂ) ≠ t_in := zero_ne_tin hn h
  have w := Wval_tendsto h h0 hin ht hz
  have w0 := Wval_tendsto h h0 hin h0in (by simpa using zOf_tendsto_real h0 0)
  have wp := Wval_tendsto h h0 hin hpin (zOf_tendsto_off h0 hu hoff)
  have hm : Wval t_0 t_in p ≠ 0 := fun h' => hp0 ((Wval_eq_zero h hpin).mp h')
  refine ((((tendsto_const_nhds.sub (w.pow 2)).pow 2)).div (((tendsto_const_nhds.sub (w0.pow 2)).pow 2))
    (pow_ne_zero 2 (Wval_sq_ne_one h h0in))).mul ((quart_tendsto v wp w0 hm).div (quart_tendsto v wp w hm) ?_)
  intro hq
  rcases (quart_eq_zero h hp0 hpin ht v).mp hq with hq | hq
  · exact h1 hq
  · exact h2 hq

theorem Wval_injective {t_0 t_in : ℝ} (h : t_0 < t_in) {t t' : ℂ} (ht : t ≠ t_in) (ht' : t' ≠ t_in)
    (he : Wval t_0 t_in t = Wval t_0 t_in t') : t = t' := by
  have a := Wval_identity h ht
  have b := Wval_identity h ht'
  rw [he, ← b] at a
  have := mul_right_cancel₀ (pow_ne_zero 2 (Wval_sq_ne_one h ht')) a
  linear_combination this

/-- The two variants give different values of the component at every `t` other than 0. -/
theorem Fval_variants_ne {t_0 t_in : ℝ} (hn : 0 ≤ t_0) (h : t_0 < t_in) {p t : ℂ} (hp : p.im ≠ 0) (ht : t ≠ t_in) (htz : t ≠ 0)
    (h1 : t ≠ p) (h2 : t ≠ conj p) : Fval .A t_0 t_in p t ≠ Fval .B t_0 t_in p t := by
  have hoff : ¬ (p.im = 0 ∧ t_0 ≤ p.re) := fun hh => hp hh.1
  have hpin : p ≠ t_in := fun hh => hp (by rw [hh]; simp)
  have hp0 : p ≠ t_0 := fun hh => hp (by rw [hh]; simp)
  have hpz : p ≠ 0 := fun hh => hp (by rw [hh]; simp)
  have h0in : (0 : ℂ) ≠ t_in := zero_ne_tin hn h
  obtain ⟨m1, m2⟩ := Wval_offCut h hoff
  have hm : Wval t_0 t_in p ≠ 0 := fun h' => hp0 ((Wval_eq_zero h hpin).mp h')
  have hqA := fun hq => (quart_eq_zero h hp0 hpin ht .A).mp hq
  have hqB := fun hq => (quart_eq_zero h hp0 hpin ht .B).mp hq
  have hnA := fun hq => (quart_eq_zero h hp0 hpin h0in .A).mp hq
  have hsq := Wval_sq_ne_one h ht
  have hsq0 := Wval_sq_ne_one h h0in
  have hwn : Wval t_0 t_in t ≠ Wval t_0 t_in 0 := fun he => htz (Wval_injective h ht h0in he)
  have hreal : (Wval t_0 t_in 0).im = 0 := by
    have := Wval_real_below h hn
    rw [Complex.ofReal_zero] at this
    exact Complex.conj_eq_iff_im.mp this
  have hn1 := Wval_norm_le h 0
  have hn2 : (Wval t_0 t_in 0).re ≤ 0 := Wval_re_nonpos 0
  have hw1 := Wval_norm_le h t
  have hw2 : (Wval t_0 t_in t).re ≤ 0 := Wval_re_nonpos t
  unfold Fval
  generalize Wval t_0 t_in p = m at *
  generalize Wval t_0 t_in 0 = n at *
  generalize Wval t_0 t_in t = w at *
  have hcm : conj m ≠ 0 := by simpa using hm
  have hfac : (1 - w ^ 2) ^ 2 / (1 - n ^ 2) ^ 2 ≠ 0 := div_ne_zero (pow_ne_zero 2 hsq) (pow_ne_zero 2 hsq0)
  intro he
  have he := mul_left_cancel₀ hfac he
  have qA : quart .A m w ≠ 0 := fun hq => (hqA hq).elim h1 h2
  have qB : quart .B m w ≠ 0 := fun hq => (hqB hq).elim h1 h2
  have nA : quart .A m n ≠ 0 := fun hq => (hnA hq).elim (fun h' => hpz h'.symm) (fun h' => hpz (by simpa using (congrArg conj h').symm))
  rw [div_eq_div_iff qA qB] at he
  have a1 : (n - m) * (n - conj m) ≠ 0 := by
    intro h'
    apply nA
    simp only [quart]
    rw [h']; ring
  have a2 : (w - m) * (w - conj m) ≠ 0 := by
    intro h'
    apply qA
    simp only [quart]
    rw [h']; ring
  have key : (n - m) * (n - conj m) * ((w - m) * (w - conj m)) * ((w - n) * (1 + m * conj m) *
      ((m + conj m) * (1 - n * w) + (1 - m * conj m) * (w + n))) = 0 := by
    have e1 : (m * conj m) * quart .A m n = (n - m) * (n - conj m) * ((m * n - 1) * (conj m * n - 1)) := by
      simp only [quart]; field_simp
    have e2 : (m * conj m) * quart .A m w = (w - m) * (w - conj m) * ((m * w - 1) * (conj m * w - 1)) := by
      simp only [quart]; field_simp
    have e3 : quart .B m w = (w - m) * (w - conj m) * ((w + m) * (w + conj m)) := by simp only [quart]; ring
    have e4 : quart .B m n = (n - m) * (n - conj m) * ((n + m) * (n + conj m)) := by simp only [quart]; ring
    have he' : (m * conj m) * quart .A m n * quart .B m w = quart .B m n * ((m * conj m) * quart .A m w) := by
      linear_combination (m * conj m) * he
    rw [e1, e2, e3, e4] at he'
    linear_combination he'
  have hP : m * conj m = ((normSq m : ℝ) : ℂ) := Complex.mul_conj m
  have hS : m + conj m = ((2 * m.re : ℝ) : ℂ) := Complex.add_conj m
  have hnc : n = ((n.re : ℝ) : ℂ) := Complex.ext (by simp) (by simp [hreal])
  have hPlt : normSq m < 1 := by rw [normSq_eq_norm_sq]; nlinarith [norm_nonneg m]
  have hP0 : 0 ≤ normSq m := normSq_nonneg m
  have k1 : (1 + m * conj m : ℂ) ≠ 0 := by
    have : (0 : ℝ) < 1 + normSq m := by linarith
    rw [hP]; exact_mod_cast this.ne'
  have k2 : (m + conj m) * (1 - n * w) + (1 - m * conj m) * (w + n) ≠ 0 := by
    intro h'
    rw [hP, hS, hnc] at h'
    have h'' := congrArg Complex.re h'
    simp only [add_re, mul_re, sub_re, ofReal_re, ofReal_im, zero_mul, sub_zero, one_re, Complex.zero_re, mul_im, sub_im, one_im, add_im, add_zero, zero_add] at h''
    have b1 : |n.re| ≤ 1 := (Complex.abs_re_le_norm n).trans hn1
    have b2 : |w.re| ≤ 1 := (Complex.abs_re_le_norm w).trans hw1
    have hnlt : -1 < n.re := by
      rcases (abs_le.mp b1).1.lt_or_eq with h3 | h3
      · exact h3
      · exfalso; apply hsq0; rw [hnc, ← h3]; norm_num
    have b3 := (abs_le.mp b2).1
    have c1 : 0 < 1 - n.re * w.re := by nlinarith
    have c2 : (2 * m.re) * (1 - n.re * w.re) < 0 := by nlinarith
    have c3 : (1 - normSq m) * (w.re + n.re) ≤ 0 := by nlinarith
    nlinarith
  exact mul_ne_zero (mul_ne_zero a1 a2) (mul_ne_zero (mul_ne_zero (sub_ne_zero.mpr hwn) k1) k2) key

/-- Running a builder and evaluating. -/
theorem Builder.value_eq (b : Builder) {t_0 t_in m g : ℝ} (h0 : 0 ≤ t_0) (h : t_0 < t_in) (hr : t_0 ≤ b.compared m g) (hm : m ≠ 0) (hg : g ≠ 0)
    {t : ℂ} (ht : t ≠ t_in) (h1 : t ≠ polePosition m g) (h2 : t ≠ conj (polePosition m g)) :
    b.value t_0 t_in m g t = .ok (Fval (if b.compared m g < t_in then .A else .B) t_0 t_in (polePosition m g) t) := by
  have him : (polePosition m g).im ≠ 0 := by simp [polePosition, hm, hg]
  have hpin : polePosition m g ≠ t_in := fun hh => him (by rw [hh]; simp)
  have hp0 : polePosition m g ≠ t_0 := fun hh => him (by rw [hh]; simp)
  have hpz : polePosition m g ≠ 0 := fun hh => him (by rw [hh]; simp)
  have hb : b.build t_0 t_in m g = buildWith t_0 t_in (b.compared m g) (polePosition m g) := by
    cases b
    · exact (buildComponent_eq t_0 t_in m g).trans (by rw [tMesonPole_eq]; rfl)
    · exact (nucleonBuildComponent_eq t_0 t_in m g).trans (by rw [tMesonPole_eq]; rfl)
  unfold Builder.value
  rw [hb, buildWith_ok h0 h hpin hp0 hr, except_ok_bind, evalAt_eq h0 h ht]
  exact Built.call_ok ⟨h0, h, hp0, hpin, hpz, rfl⟩ ht h1 h2

theorem polePosition_tendsto {m g : ι → ℝ} {M G : ℝ} (hm : Tendsto m l (𝓝 M)) (hg : Tendsto g l (𝓝 G)) :
    Tendsto (fun i => polePosition (m i) (g i)) l (𝓝 (polePosition M G)) := by
  simp only [← tMesonPole_eq, tMesonPole]
  exact ((tendsto_ofReal hm).sub ((tendsto_const_nhds.mul (tendsto_ofReal hg)).div_const 2)).pow 2

/-! ### Lists of resonances -/

/-- Lists of resonances made of continuous functions of the values. -/
inductive ContList : ((String → ℝ) → List Res) → Prop
  | nil : ContList fun _ => []
  | cons {a m d : (String → ℝ) → ℝ} {L : (String → ℝ) → List Res} :
      Continuous a → Continuous m → Continuous d → ContList L → ContList fun v => ⟨a v, m v, d v⟩ :: L v

theorem FsumL_tendsto {L : (String → ℝ) → List Res} (hL : ContList L) {v : ι → String → ℝ} {V : String → ℝ} (hv : Tendsto v l (𝓝 V))
    {t0 tin : ι → ℝ} {t_0 t_in : ℝ} (hn : 0 ≤ t_0) (h : t_0 < t_in) (h0 : Tendsto t0 l (𝓝 t_0)) (hin : Tendsto tin l (𝓝 t_in))
    (hr : ∀ r ∈ L V, r.mass ≠ 0 ∧ r.decay ≠ 0 ∧ r.mass ^ 2 ≠ t_in) {t : ℝ} (ht : t ≠ t_in) :
    Tendsto (fun i => FsumL (t0 i) (tin i) (L (v i)) t) l (𝓝 (FsumL t_0 t_in (L V) t)) := by
  induction hL with
  | nil => simpa [FsumL] using tendsto_const_nhds
  | @cons a m d L ha hm hd hL ih =>
    have ih := ih fun r hr' => hr r (List.mem_cons_of_mem _ hr')
    obtain ⟨r1, r2, r3⟩ := hr ⟨a V, m V, d V⟩ (by simp)
    have ta := (ha.tendsto V).comp hv
    have tm := (hm.tendsto V).comp hv
    have td := (hd.tendsto V).comp hv
    have him : (polePosition (m V) (d V)).im ≠ 0 := by simp [polePosition, r1, r2]
    have htc : (t : ℂ) ≠ t_in := fun hh => ht (by exact_mod_cast hh)
    have key := Fval_tendsto (Res.var t_in ⟨a V, m V, d V⟩) hn h h0 hin (polePosition_tendsto tm td) him htc (zOf_tendsto_real h0 t)
      (fun hh => him (by rw [← hh]; simp)) (fun hh => him (by
        have := congrArg Complex.im hh
        simpa using this.symm))
    have hvar : ∀ᶠ i in l, Res.var (tin i) ⟨a (v i), m (v i), d (v i)⟩ = Res.var t_in ⟨a V, m V, d V⟩ := by
      have tm2 : Tendsto (fun i => m (v i) ^ 2) l (𝓝 (m V ^ 2)) := tm.pow 2
      rcases lt_or_gt_of_ne r3 with hlt | hgt
      · filter_upwards [tm2.eventually_lt hin hlt] with i hi
        simp only [Res.var]
        rw [if_pos hi, if_pos hlt]
      · filter_upwards [hin.eventually_lt tm2 hgt] with i hi
        simp only [Res.var]
        rw [if_neg (not_lt.mpr hi.le), if_neg (not_lt.mpr (le_of_lt hgt))]
    have e : ∀ t_0 t_in (v : String → ℝ), FsumL t_0 t_in (⟨a v, m v, d v⟩ :: L v) t =
        (a v : ℂ) * Fval (Res.var t_in ⟨a v, m v, d v⟩) t_0 t_in (polePosition (m v) (d v)) t + FsumL t_0 t_in (L v) t := by
      intro t_0 t_in v
      simp only [FsumL, List.map_cons, List.sum_cons, Res.pole, tMesonPole_eq]
    simp only [e]
    refine (((tendsto_ofReal ta).mul key).add ih).congr' ?_
    filter_upwards [hvar] with i hi
    rw [hi]
    rfl

end UA
