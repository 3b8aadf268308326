import Verif.Lemmas.BoundaryValues
import Verif.Spec.Analytic

/-! Residues of components and analyticity of the whole models. -/

namespace UA

open Complex ComplexConjugate Filter Topology

/-- The factors of `quart` other than `w - wm`. -/
noncomputable def quartRest (v : Variant) (wm w : ℂ) : ℂ :=
  match v with
  | .A => (w - conj wm) * (w - 1 / wm) * (w - 1 / conj wm)
  | .B => (w - conj wm) * (w + wm) * (w + conj wm)

theorem quart_split (v : Variant) (wm w : ℂ) : quart v wm w = (w - wm) * quartRest v wm w := by
  cases v <;> simp only [quart, quartRest] <;> ring

theorem quartRest_continuous (v : Variant) (wm : ℂ) : Continuous (quartRest v wm) := by
  cases v
  · show Continuous fun w => (w - conj wm) * (w - 1 / wm) * (w - 1 / conj wm)
    fun_prop
  · show Continuous fun w => (w - conj wm) * (w + wm) * (w + conj wm)
    fun_prop

section
variable {t_0 t_in : ℝ} {p : ℂ}

theorem Wval_facts (h : t_0 < t_in) (hp0 : p ≠ t_0) (hpin : p ≠ t_in) :
    Wval t_0 t_in p ≠ 0 ∧ 1 - Wval t_0 t_in p ^ 2 ≠ 0 ∧ 1 + Wval t_0 t_in p ^ 2 ≠ 0 := by
  refine ⟨fun h' => hp0 ((Wval_eq_zero h hpin).mp h'), Wval_sq_ne_one h hpin, fun h' => hpin ?_⟩
  have id := Wval_identity h hpin
  rw [eq_neg_of_add_eq_zero_right h'] at id
  linear_combination id / 4

/-- If two points of the `w` plane with the same `t` are conjugate, `t` is real. -/
theorem real_of_identity {m n : ℂ} (h1 : 1 - n ^ 2 ≠ 0)
    (hm : (p - t_0) * (1 - m ^ 2) ^ 2 = -4 * (t_in - t_0) * m ^ 2)
    (hn : (p - t_0) * (1 - n ^ 2) ^ 2 = -4 * (t_in - t_0) * n ^ 2) (hc : conj m = n) : p.im = 0 := by
  have := congrArg conj hm
  simp only [map_mul, map_sub, map_pow, map_one, conj_ofReal, map_neg, hc, map_ofNat] at this
  rw [← hn] at this
  have := mul_right_cancel₀ (pow_ne_zero 2 h1) this
  have e : conj p = p := by linear_combination this
  exact Complex.conj_eq_iff_im.mp e

theorem quartRest_ne (v : Variant) (h : t_0 < t_in) (hp0 : p ≠ t_0) (hpin : p ≠ t_in) (him : p.im ≠ 0) :
    quartRest v (Wval t_0 t_in p) (Wval t_0 t_in p) ≠ 0 := by
  obtain ⟨m0, m1, m2⟩ := Wval_facts h hp0 hpin
  have id := Wval_identity h hpin
  generalize Wval t_0 t_in p = m at *
  have hc0 : conj m ≠ 0 := conj_ne_zero' m0
  have a1 : m - conj m ≠ 0 := fun h' => him (real_of_identity m1 id id (sub_eq_zero.mp h').symm)
  have a2 : m + conj m ≠ 0 := fun h' => him (real_of_identity (n := -m) (by rwa [neg_sq]) id (by rw [neg_sq]; exact id)
    (eq_neg_of_add_eq_zero_right h'))
  have a3 : m - 1 / conj m ≠ 0 := by
    intro h'
    have e : m * conj m = 1 := by
      rw [sub_eq_zero] at h'
      calc m * conj m = 1 / conj m * conj m := by rw [← h']
        _ = 1 := by field_simp
    have e' : conj m = 1 / m := by rw [eq_div_iff m0, mul_comm]; exact e
    refine him (real_of_identity (n := 1 / m) ?_ id ?_ e')
    · intro h''
      apply m1
      field_simp at h''
      linear_combination -h''
    · have : (1 - (1 / m) ^ 2) = -(1 - m ^ 2) / m ^ 2 := by field_simp; ring
      rw [this]
      field_simp
      linear_combination id
  have a4 : m - 1 / m ≠ 0 := by
    intro h'
    apply m1
    field_simp at h'
    linear_combination -h'
  have a5 : m + m ≠ 0 := by
    intro h'
    apply m0
    linear_combination h' / 2
  cases v
  · exact mul_ne_zero (mul_ne_zero a1 a4) a3
  · exact mul_ne_zero (mul_ne_zero a1 a5) a2

/-- `(t - p) F(t)` as a function of `w(t)`. -/
noncomputable def resFun (v : Variant) (t_0 t_in : ℝ) (p w : ℂ) : ℂ :=
  -4 * (t_in - t_0) * (w + Wval t_0 t_in p) * (1 - w * Wval t_0 t_in p) * (1 + w * Wval t_0 t_in p) / (1 - Wval t_0 t_in p ^ 2) ^ 2 *
    (quart v (Wval t_0 t_in p) (Wval t_0 t_in 0) / (1 - Wval t_0 t_in 0 ^ 2) ^ 2) / quartRest v (Wval t_0 t_in p) w

theorem Fval_resFun (v : Variant) (h : t_0 < t_in) (hpin : p ≠ t_in) {t : ℂ} (ht : t ≠ t_in)
    (hq : quart v (Wval t_0 t_in p) (Wval t_0 t_in t) ≠ 0) :
    (t - p) * Fval v t_0 t_in p t = resFun v t_0 t_in p (Wval t_0 t_in t) := by
  have id1 := Wval_identity h ht
  have id2 := Wval_identity h hpin
  have n1 := Wval_sq_ne_one h hpin
  have n2 := Wval_sq_ne_one h ht
  unfold Fval resFun
  rw [quart_split] at hq
  rw [quart_split v _ (Wval t_0 t_in t)]
  generalize quart v (Wval t_0 t_in p) (Wval t_0 t_in 0) = Q
  generalize quartRest v (Wval t_0 t_in p) (Wval t_0 t_in t) = q at *
  generalize (1 - Wval t_0 t_in 0 ^ 2) ^ 2 = N
  generalize Wval t_0 t_in p = m at *
  generalize Wval t_0 t_in t = w at *
  have hq0 : q ≠ 0 := right_ne_zero_of_mul hq
  have hwm : w - m ≠ 0 := left_ne_zero_of_mul hq
  have key : (t - p) * (1 - w ^ 2) ^ 2 = (w - m) * (-4 * (t_in - t_0) * (w + m) * (1 - w * m) * (1 + w * m) / (1 - m ^ 2) ^ 2) := by
    field_simp
    linear_combination (1 - m ^ 2) ^ 2 * id1 - (1 - w ^ 2) ^ 2 * id2
  calc (t - p) * ((1 - w ^ 2) ^ 2 / N * (Q / ((w - m) * q))) = (t - p) * (1 - w ^ 2) ^ 2 * (Q / N) / ((w - m) * q) := by ring
    _ = (w - m) * (-4 * (t_in - t_0) * (w + m) * (1 - w * m) * (1 + w * m) / (1 - m ^ 2) ^ 2 * (Q / N)) / ((w - m) * q) := by rw [key]; ring
    _ = _ := mul_div_mul_left _ _ hwm

/-- The residue of a component. -/
theorem Fval_residue {v : Variant} {c : UAComponent} (B : Built t_0 t_in p v c) (him : p.im ≠ 0) :
    ∃ R : ℂ, R ≠ 0 ∧ Tendsto (fun t => (t - p) * Fval v t_0 t_in p t) (𝓝[≠] p) (𝓝 R) := by
  have h := B.hlt
  have hoff : ¬ (p.im = 0 ∧ t_0 ≤ p.re) := fun h' => him h'.1
  have hW := (Wval_differentiableAt h hoff).continuousAt
  have hr := quartRest_ne v h B.hp0 B.hpin him
  obtain ⟨m0, m1, m2⟩ := Wval_facts h B.hp0 B.hpin
  refine ⟨resFun v t_0 t_in p (Wval t_0 t_in p), ?_, ?_⟩
  · unfold resFun
    have hd := tin_sub_ne h
    have e1 : Wval t_0 t_in p + Wval t_0 t_in p ≠ 0 := fun h' => m0 (by linear_combination h' / 2)
    have e2 : 1 - Wval t_0 t_in p * Wval t_0 t_in p ≠ 0 := by rwa [← sq]
    have e3 : 1 + Wval t_0 t_in p * Wval t_0 t_in p ≠ 0 := by rwa [← sq]
    exact div_ne_zero (mul_ne_zero (div_ne_zero (mul_ne_zero (mul_ne_zero (mul_ne_zero (mul_ne_zero (by norm_num) hd) e1) e2) e3) (pow_ne_zero 2 m1))
      (div_ne_zero B.quart_wn_ne (pow_ne_zero 2 B.wn_ne))) hr
  · have hg : ContinuousAt (resFun v t_0 t_in p) (Wval t_0 t_in p) := by
      unfold resFun
      refine ContinuousAt.div (by fun_prop) (quartRest_continuous v _).continuousAt hr
    have hlim := (ContinuousAt.comp (f := Wval t_0 t_in) (g := resFun v t_0 t_in p) hg hW).tendsto.mono_left (nhdsWithin_le_nhds (s := {p}ᶜ))
    refine hlim.congr' ?_
    have hopen : ∀ᶠ s in 𝓝[≠] p, ¬ (s.im = 0 ∧ t_0 ≤ s.re) := (nhdsWithin_le_nhds (s := {p}ᶜ)) ((isOpen_offHalfLine t_0).mem_nhds hoff)
    have hne : ∀ᶠ s in 𝓝[≠] p, s ≠ p := self_mem_nhdsWithin
    have hcp : p ≠ conj p := fun h' => him (Complex.conj_eq_iff_im.mp h'.symm)
    have hc : ∀ᶠ s in 𝓝[≠] p, s ≠ conj p := (nhdsWithin_le_nhds (s := {p}ᶜ)) (isOpen_ne.mem_nhds hcp)
    filter_upwards [hopen, hne, hc] with s h1 h2 h3
    have hs := ne_tin_of_offCut h.le h1
    refine (Fval_resFun v h B.hpin hs fun h' => ?_).symm
    rcases (quart_eq_zero h B.hp0 B.hpin hs v).mp h' with h' | h'
    · exact h2 h'
    · exact h3 h'

/-- The residue at the conjugate position. -/
theorem Fval_residue_conj {v : Variant} {c : UAComponent} (B : Built t_0 t_in p v c) (him : p.im ≠ 0) :
    ∃ R : ℂ, R ≠ 0 ∧ Tendsto (fun t => (t - conj p) * Fval v t_0 t_in p t) (𝓝[≠] (conj p)) (𝓝 R) := by
  obtain ⟨R, hR, hl⟩ := Fval_residue B him
  refine ⟨conj R, by simpa using hR, ?_⟩
  have hc : Tendsto (fun t : ℂ => conj t) (𝓝[≠] (conj p)) (𝓝[≠] p) := by
    rw [tendsto_nhdsWithin_iff]
    constructor
    · have := (continuous_conj.tendsto (conj p)).mono_left (nhdsWithin_le_nhds (s := {conj p}ᶜ))
      rwa [conj_conj] at this
    · filter_upwards [self_mem_nhdsWithin] with t ht h'
      exact ht (by rw [Set.mem_singleton_iff] at h' ⊢; rw [← h', conj_conj])
  have h1 := (continuous_conj.tendsto R).comp (hl.comp hc)
  refine h1.congr' ?_
  have hoff : ¬ ((conj p).im = 0 ∧ t_0 ≤ (conj p).re) := fun h' => him (by simpa using h'.1)
  have hopen : ∀ᶠ s in 𝓝[≠] (conj p), ¬ (s.im = 0 ∧ t_0 ≤ s.re) :=
    (nhdsWithin_le_nhds (s := {conj p}ᶜ)) ((isOpen_offHalfLine t_0).mem_nhds hoff)
  filter_upwards [hopen] with s hs
  simp only [Function.comp_apply, map_mul, map_sub]
  rw [Fval_conj B.h0 B.hlt hs, conj_conj, conj_conj]

end

/-! ### From limits of numbers to `HasResidue` -/

theorem hasResidue_of {f : ℂ → Except PyErr ℂ} {g : ℂ → ℂ} {p R : ℂ} (hf : ∀ᶠ t in 𝓝[≠] p, f t = .ok (g t))
    (hg : Tendsto (fun t => (t - p) * g t) (𝓝[≠] p) (𝓝 R)) : HasResidue f p R := by
  intro ε hε
  have h1 := hg.eventually (Metric.ball_mem_nhds R hε)
  have h2 := hf.and h1
  rw [eventually_nhdsWithin_iff] at h2
  obtain ⟨δ, hδ, hall⟩ := Metric.eventually_nhds_iff.mp h2
  refine ⟨δ, hδ, fun t ht hd => ?_⟩
  obtain ⟨a, b⟩ := hall (by rwa [dist_eq_norm]) ht
  exact ⟨g t, a, by rwa [dist_eq_norm] at b⟩

/-- A function continuous at `p` has residue zero there. -/
theorem residue_zero {g : ℂ → ℂ} {p : ℂ} (hg : ContinuousAt g p) : Tendsto (fun t => (t - p) * g t) (𝓝[≠] p) (𝓝 0) := by
  have h1 : Tendsto (fun t : ℂ => (t - p) * g t) (𝓝 p) (𝓝 ((p - p) * g p)) :=
    ((continuous_id.sub continuous_const).tendsto p).mul hg.tendsto
  rw [sub_self, zero_mul] at h1
  exact h1.mono_left nhdsWithin_le_nhds

/-! ### Kaons -/

theorem FsumL_differentiableAt {t_0 t_in : ℝ} (h0 : 0 ≤ t_0) (h : t_0 < t_in) {rs : List Res} {ts : List (ℝ × UAComponent)}
    (hb : buildTerms t_0 t_in rs = .ok ts) {t : ℂ} (ht : ¬ (t.im = 0 ∧ t_0 ≤ t.re)) (hp : ∀ r ∈ rs, t ≠ r.pole ∧ t ≠ conj r.pole) :
    DifferentiableAt ℂ (FsumL t_0 t_in rs) t := by
  induction rs generalizing ts with
  | nil => exact differentiableAt_const _
  | cons r rs ih =>
    obtain ⟨c, cs, h1, h2, rfl⟩ := buildTerms_cons hb
    have B := (buildComponent_built h0 h h1).1
    have hr := hp r (by simp)
    have := ih h2 fun r' hr' => hp r' (by simp [hr'])
    have e : FsumL t_0 t_in (r :: rs) = fun t => (r.a : ℂ) * Fval (r.var t_in) t_0 t_in r.pole t + FsumL t_0 t_in rs t := by
      funext t; simp [FsumL]
    rw [e]
    exact ((differentiableAt_const _).mul (Fval_differentiableAt h B.hp0 B.hpin ht hr.1 hr.2)).add this

theorem FsumL_append (t_0 t_in : ℝ) (l l' : List Res) (t : ℂ) : FsumL t_0 t_in (l ++ l') t = FsumL t_0 t_in l t + FsumL t_0 t_in l' t := by
  simp [FsumL]

theorem FsumL_middle (t_0 t_in : ℝ) (l l' : List Res) (r : Res) (t : ℂ) :
    FsumL t_0 t_in (l ++ r :: l') t = (r.a : ℂ) * Fval (r.var t_in) t_0 t_in r.pole t + FsumL t_0 t_in (l ++ l') t := by
  simp only [FsumL, List.map_append, List.map_cons, List.sum_append, List.sum_cons]; ring

theorem buildTerms_sub {t_0 t_in : ℝ} {rs rs' : List Res} {ts : List (ℝ × UAComponent)} (hb : buildTerms t_0 t_in rs = .ok ts)
    (h : ∀ r ∈ rs', r ∈ rs) : ∃ ts', buildTerms t_0 t_in rs' = .ok ts' :=
  buildTerms_ok fun r hr => buildTerms_mem hb r (h r hr)

/-- Residue of a sum at the position of one of its terms, the other terms having theirs elsewhere. -/
theorem FsumL_residue {t_0 t_in : ℝ} (h0 : 0 ≤ t_0) (h : t_0 < t_in) {l l' : List Res} {r : Res} {ts : List (ℝ × UAComponent)}
    (hb : buildTerms t_0 t_in (l ++ r :: l') = .ok ts) {q : ℂ} (hq : q = r.pole ∨ q = conj r.pole) (him : q.im ≠ 0)
    (hp : ∀ r' ∈ l ++ l', q ≠ r'.pole ∧ q ≠ conj r'.pole) :
    ∃ R : ℂ, (R = 0 ↔ r.a = 0) ∧ Tendsto (fun t => (t - q) * FsumL t_0 t_in (l ++ r :: l') t) (𝓝[≠] q) (𝓝 R) := by
  obtain ⟨c, hc⟩ := buildTerms_mem hb r (by simp)
  have B := (buildComponent_built h0 h hc).1
  obtain ⟨ts', hb'⟩ := buildTerms_sub (rs' := l ++ l') hb fun r' hr' => by
    rcases List.mem_append.mp hr' with h' | h' <;> simp [h']
  have hoff : ¬ (q.im = 0 ∧ t_0 ≤ q.re) := fun h' => him h'.1
  have hrest := residue_zero (FsumL_differentiableAt h0 h hb' hoff hp).continuousAt
  have hpim : r.pole.im ≠ 0 := by rcases hq with rfl | rfl <;> simpa using him
  have hF : ∃ R : ℂ, R ≠ 0 ∧ Tendsto (fun t => (t - q) * Fval (r.var t_in) t_0 t_in r.pole t) (𝓝[≠] q) (𝓝 R) := by
    rcases hq with rfl | rfl
    · exact Fval_residue B hpim
    · exact Fval_residue_conj B hpim
  obtain ⟨R, hR, hl⟩ := hF
  refine ⟨r.a * R, by simp [hR], ?_⟩
  have := (hl.const_mul (r.a : ℂ)).add hrest
  rw [add_zero] at this
  refine this.congr fun t => ?_
  rw [FsumL_middle]; ring

end UA
