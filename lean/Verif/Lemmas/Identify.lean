import Verif.Lemmas.Analytic
import Verif.Lemmas.Content
import Verif.Spec.Identify
import Mathlib.Analysis.Analytic.IsolatedZeros
import Mathlib.Analysis.Complex.CauchyIntegral
import Mathlib.Analysis.Convex.Topology

/-! Helper lemmas: the resonances can be read off the form factor. -/

namespace UA

open Complex ComplexConjugate Filter Topology

/-! ### The identity theorem off a half line and finitely many points -/

theorem exists_center {a b : ℝ} (hab : a < b) (Q : List ℂ) {t : ℂ} (him : t.im ≠ 0) (ht : t ∉ Q) :
    ∃ c : ℝ, a < c ∧ c < b ∧ ∀ q ∈ Q, q ∉ segment ℝ (c : ℂ) t := by
  obtain ⟨c, hc, hn⟩ := (Set.Ioo_infinite hab).exists_notMem_finite
    (List.finite_toSet (Q.map fun q => (q.re - q.im / t.im * t.re) / (1 - q.im / t.im)))
  refine ⟨c, hc.1, hc.2, fun q hq hs => ?_⟩
  obtain ⟨u, s, hu, hs0, hus, rfl⟩ := hs
  have hre : ((u • (c : ℂ) + s • t : ℂ)).re = u * c + s * t.re := by simp
  have him' : ((u • (c : ℂ) + s • t : ℂ)).im = s * t.im := by simp
  have hdiv : s * t.im / t.im = s := by field_simp
  have hu' : u = 1 - s := by linarith
  by_cases h1 : s = 1
  · apply ht
    rw [hu', h1] at hq
    simpa using hq
  · apply hn
    refine List.mem_map.mpr ⟨_, hq, ?_⟩
    rw [hre, him', hdiv, hu']
    have : 1 - s ≠ 0 := fun h => h1 (by linarith)
    field_simp
    ring

section
variable {g : ℂ → ℂ} {c₀ : ℝ} {Q : List ℂ} (hg : ∀ t : ℂ, ¬ (t.im = 0 ∧ c₀ ≤ t.re) → t ∉ Q → DifferentiableAt ℂ g t)
include hg

theorem vanish_upper {a b : ℝ} (hab : a < b) (hb : b ≤ c₀) (hz : ∀ s : ℝ, a < s → s < b → (s : ℂ) ∉ Q → g s = 0) {t : ℂ} (him : t.im ≠ 0)
    (ht : t ∉ Q) : g t = 0 := by
  obtain ⟨c, hac, hcb, hseg⟩ := exists_center hab Q him ht
  have hoff : ∀ z ∈ segment ℝ (c : ℂ) t, ¬ (z.im = 0 ∧ c₀ ≤ z.re) := by
    rintro z ⟨u, s, hu, hs0, hus, rfl⟩ ⟨h1, h2⟩
    have e1 : s = 0 := by
      have : s * t.im = 0 := by simpa using h1
      exact (mul_eq_zero.mp this).resolve_right him
    have e2 : u = 1 := by linarith
    rw [e1, e2] at h2
    have : c₀ ≤ c := by simpa using h2
    linarith
  have han : AnalyticOnNhd ℂ g (segment ℝ (c : ℂ) t) := by
    intro z hzs
    rw [Complex.analyticAt_iff_eventually_differentiableAt]
    have h1 : ∀ᶠ y in 𝓝 z, ¬ (y.im = 0 ∧ c₀ ≤ y.re) := (isOpen_offHalfLine c₀).mem_nhds (hoff z hzs)
    have h2 : ∀ᶠ y in 𝓝 z, y ∉ Q :=
      (List.finite_toSet Q).isClosed.isOpen_compl.mem_nhds fun h => hseg z h hzs
    filter_upwards [h1, h2] with y hy hy'
    exact hg y hy hy'
  have hfreq : ∃ᶠ z in 𝓝[≠] (c : ℂ), g z = 0 := by
    have hmap : Tendsto (fun s : ℝ => (s : ℂ)) (𝓝[≠] c) (𝓝[≠] (c : ℂ)) := by
      rw [tendsto_nhdsWithin_iff]
      refine ⟨(Complex.continuous_ofReal.tendsto c).mono_left nhdsWithin_le_nhds, ?_⟩
      filter_upwards [self_mem_nhdsWithin] with s hs h'
      exact hs (by simpa using h')
    refine hmap.frequently (Eventually.frequently ?_)
    have h1 : ∀ᶠ s in 𝓝[≠] c, a < s ∧ s < b := nhdsWithin_le_nhds (Ioo_mem_nhds hac hcb)
    have h2 := hmap.eventually (eventually_off Q (c : ℂ))
    filter_upwards [h1, h2] with s hs hs'
    exact hz s hs.1 hs.2 hs'
  have := han.eqOn_zero_of_preconnected_of_frequently_eq_zero (convex_segment _ _).isPreconnected (left_mem_segment ℝ _ _) hfreq
  exact this (right_mem_segment ℝ _ _)

theorem vanish_everywhere {a b : ℝ} (hab : a < b) (hb : b ≤ c₀) (hz : ∀ s : ℝ, a < s → s < b → (s : ℂ) ∉ Q → g s = 0) {t : ℂ}
    (hoff : ¬ (t.im = 0 ∧ c₀ ≤ t.re)) (ht : t ∉ Q) : g t = 0 := by
  by_cases him : t.im = 0
  · have hc := (hg t hoff ht).continuousAt
    have hmap : Tendsto (fun n : ℝ => t + n * I) (𝓝[>] 0) (𝓝 t) := by
      have : Continuous fun n : ℝ => t + n * I := by fun_prop
      have := this.tendsto 0
      simp only [ofReal_zero, zero_mul, add_zero] at this
      exact this.mono_left nhdsWithin_le_nhds
    have h2 : ∀ᶠ y in 𝓝 t, y ∉ Q := (List.finite_toSet Q).isClosed.isOpen_compl.mem_nhds ht
    refine tendsto_nhds_unique (hc.tendsto.comp hmap) ((tendsto_const_nhds).congr' ?_)
    filter_upwards [hmap.eventually h2, self_mem_nhdsWithin] with n hn hpos
    refine (vanish_upper hg hab hb hz ?_ hn).symm
    simp only [add_im, mul_im, ofReal_re, I_im, mul_one, ofReal_im, I_re, mul_zero, add_zero, him, zero_add]
    exact (Set.mem_Ioi.mp hpos).ne'
  · exact vanish_upper hg hab hb hz him ht

end

/-! ### Positions -/

theorem pole_match {m d M G : ℝ} (hM : 0 < M) (hG : 0 < G) :
    (polePosition M G = polePosition m d ∨ polePosition M G = conj (polePosition m d)) ↔ |m| = M ∧ |d| = G := by
  have key : (polePosition M G = polePosition m d ∨ polePosition M G = conj (polePosition m d)) ↔
      M ^ 2 - G ^ 2 / 4 = m ^ 2 - d ^ 2 / 4 ∧ (M * G = m * d ∨ M * G = -(m * d)) := by
    simp only [polePosition, Complex.ext_iff, conj_re, conj_im]
    constructor
    · rintro (⟨h1, h2⟩ | ⟨h1, h2⟩)
      · exact ⟨h1, Or.inl (by linarith)⟩
      · exact ⟨h1, Or.inr (by linarith)⟩
    · rintro ⟨h1, h2 | h2⟩
      · exact Or.inl ⟨h1, by linarith⟩
      · exact Or.inr ⟨h1, by linarith⟩
  rw [key]
  constructor
  · rintro ⟨h1, h2⟩
    have hsq : M ^ 2 * G ^ 2 = m ^ 2 * d ^ 2 := by
      rcases h2 with h | h
      · have := congrArg (· ^ 2) h; simp only [mul_pow] at this; exact this
      · have := congrArg (· ^ 2) h; simp only [neg_sq, mul_pow] at this; exact this
    have hsum : M ^ 2 + G ^ 2 / 4 = m ^ 2 + d ^ 2 / 4 := by
      have e : (M ^ 2 + G ^ 2 / 4) ^ 2 = (m ^ 2 + d ^ 2 / 4) ^ 2 := by
        have := congrArg (· ^ 2) h1
        linear_combination this + hsq
      exact (pow_left_inj₀ (by positivity) (by positivity) two_ne_zero).mp e
    have e1 : m ^ 2 = M ^ 2 := by linarith
    have e2 : d ^ 2 = G ^ 2 := by linarith
    exact ⟨by rw [← abs_of_pos hM]; exact (sq_eq_sq_iff_abs_eq_abs _ _).mp e1, by rw [← abs_of_pos hG]; exact (sq_eq_sq_iff_abs_eq_abs _ _).mp e2⟩
  · rintro ⟨h1, h2⟩
    rw [← h1, ← h2, sq_abs, sq_abs, ← abs_mul]
    exact ⟨rfl, abs_choice _⟩

/-- The resonance of that mass and width. -/
def unitRes (M G : ℝ) : Res := ⟨1, M, G⟩

open Classical in
/-- The resonances of another mass or width. -/
noncomputable def otherRes (rs : List Res) (M G : ℝ) : List Res := rs.filter fun r => ¬ (|r.mass| = M ∧ |r.decay| = G)

theorem mem_otherRes {rs : List Res} {M G : ℝ} {r : Res} (h : r ∈ otherRes rs M G) : r ∈ rs ∧ ¬ (|r.mass| = M ∧ |r.decay| = G) := by
  unfold otherRes at h
  rw [List.mem_filter] at h
  exact ⟨h.1, by simpa only [decide_eq_true_eq] using h.2⟩

theorem Fval_matched {t_0 t_in M G : ℝ} (h : t_0 < t_in) {r : Res} (hr : |r.mass| = M ∧ |r.decay| = G) (t : ℂ) :
    Fval (r.var t_in) t_0 t_in r.pole t = Fval ((unitRes M G).var t_in) t_0 t_in (unitRes M G).pole t := by
  rw [Fval_unsigned h]
  have e1 : r.unsigned.pole = (unitRes M G).pole := by unfold Res.unsigned Res.pole unitRes; rw [hr.1, hr.2]
  have e2 : r.unsigned.var t_in = (unitRes M G).var t_in := by unfold Res.unsigned Res.var unitRes; rw [hr.1]
  rw [e1, e2]

theorem FsumL_split {t_0 t_in : ℝ} (h : t_0 < t_in) (rs : List Res) (M G : ℝ) (t : ℂ) :
    FsumL t_0 t_in rs t = (couplingAt rs M G : ℂ) * Fval ((unitRes M G).var t_in) t_0 t_in (unitRes M G).pole t +
      FsumL t_0 t_in (otherRes rs M G) t := by
  classical
  induction rs with
  | nil => simp [FsumL, couplingAt, otherRes]
  | cons r rs ih =>
    have e : FsumL t_0 t_in (r :: rs) t = (r.a : ℂ) * Fval (r.var t_in) t_0 t_in r.pole t + FsumL t_0 t_in rs t := by simp [FsumL]
    have ec : couplingAt (r :: rs) M G = (if |r.mass| = M ∧ |r.decay| = G then r.a else 0) + couplingAt rs M G := by
      simp [couplingAt]
    rw [e, ih, ec]
    by_cases hr : |r.mass| = M ∧ |r.decay| = G
    · have eo : otherRes (r :: rs) M G = otherRes rs M G := by
        unfold otherRes
        rw [List.filter_cons_of_neg (by simpa using hr)]
      rw [eo, if_pos hr, Fval_matched h hr]
      push_cast
      ring
    · have eo : otherRes (r :: rs) M G = r :: otherRes rs M G := by
        unfold otherRes
        rw [List.filter_cons_of_pos (by simpa only [decide_eq_true_eq] using hr)]
      have e' : FsumL t_0 t_in (r :: otherRes rs M G) t = (r.a : ℂ) * Fval (r.var t_in) t_0 t_in r.pole t + FsumL t_0 t_in (otherRes rs M G) t := by
        simp [FsumL]
      rw [eo, if_neg hr, e']
      push_cast
      ring

theorem pole_eq_position (r : Res) : r.pole = polePosition r.mass r.decay := tMesonPole_eq _ _

theorem unmatched_ne {M G : ℝ} (hM : 0 < M) (hG : 0 < G) {r : Res} (hr : ¬ (|r.mass| = M ∧ |r.decay| = G)) :
    polePosition M G ≠ r.pole ∧ polePosition M G ≠ conj r.pole := by
  rw [pole_eq_position]
  exact ⟨fun h => hr ((pole_match hM hG).mp (Or.inl h)), fun h => hr ((pole_match hM hG).mp (Or.inr h))⟩

theorem couplingAt_none {rs : List Res} {M G : ℝ} (h : ∀ r ∈ rs, ¬ (|r.mass| = M ∧ |r.decay| = G)) : couplingAt rs M G = 0 := by
  unfold couplingAt
  rw [List.sum_eq_zero]
  intro x hx
  obtain ⟨r, hr, rfl⟩ := List.mem_map.mp hx
  exact if_neg (h r hr)

/-- All terms can be built. -/
def Buildable (t_0 t_in : ℝ) (rs : List Res) : Prop := ∃ ts, buildTerms t_0 t_in rs = .ok ts

theorem Buildable.sub {t_0 t_in : ℝ} {rs rs' : List Res} (h : Buildable t_0 t_in rs) (hs : ∀ r ∈ rs', r ∈ rs) : Buildable t_0 t_in rs' := by
  obtain ⟨ts, h⟩ := h
  exact buildTerms_sub h hs

/-- Two sums whose difference extends over the position `(M, G)` have the same coupling there. -/
theorem coupling_eq {t_0 t_in M G : ℝ} (h0 : 0 ≤ t_0) (h : t_0 < t_in) (hM : 0 < M) (hG : 0 < G) {rs rs' : List Res}
    (hb : Buildable t_0 t_in rs) (hb' : Buildable t_0 t_in rs') {g : ℂ → ℂ} (hg : ContinuousAt g (polePosition M G))
    (he : ∀ᶠ t in 𝓝[≠] (polePosition M G), FsumL t_0 t_in rs t - FsumL t_0 t_in rs' t = g t) : couplingAt rs M G = couplingAt rs' M G := by
  by_contra hne
  have himq : (polePosition M G).im ≠ 0 := by
    simp only [polePosition, ne_eq, neg_eq_zero]
    positivity
  have hoff : ¬ ((polePosition M G).im = 0 ∧ t_0 ≤ (polePosition M G).re) := fun h' => himq h'.1
  have hup : (unitRes M G).pole = polePosition M G := pole_eq_position _
  -- one of the two lists holds such a resonance
  have hex : ∃ c, buildComponent t_0 t_in M G = .ok c := by
    have key : ∀ {l : List Res}, Buildable t_0 t_in l → (∃ r ∈ l, |r.mass| = M ∧ |r.decay| = G) → ∃ c, buildComponent t_0 t_in M G = .ok c := by
      rintro l ⟨ts, hl⟩ ⟨r, hr, h1, h2⟩
      have := (buildComponent_unsigned h0 h r).mp (buildTerms_mem hl r hr)
      unfold Res.unsigned at this
      rw [h1, h2] at this
      exact this
    by_contra hno
    apply hne
    rw [couplingAt_none fun r hr hm => hno (key hb ⟨r, hr, hm⟩), couplingAt_none fun r hr hm => hno (key hb' ⟨r, hr, hm⟩)]
  obtain ⟨c, hc⟩ := hex
  have B : Built t_0 t_in (unitRes M G).pole ((unitRes M G).var t_in) c := (buildComponent_built h0 h hc).1
  obtain ⟨R, hR, hl⟩ := Fval_residue B (by rw [hup]; exact himq)
  rw [hup] at hl
  have hrest : ∀ {l : List Res}, Buildable t_0 t_in l → ContinuousAt (FsumL t_0 t_in (otherRes l M G)) (polePosition M G) := fun {l} hl => by
    obtain ⟨ts, hts⟩ := hl.sub (rs' := otherRes l M G) fun r hr => (mem_otherRes hr).1
    exact (FsumL_differentiableAt h0 h hts hoff fun r hr => unmatched_ne hM hG (mem_otherRes hr).2).continuousAt
  have l1 := (((hl.const_mul (couplingAt rs M G - couplingAt rs' M G : ℂ)).add (residue_zero (hrest hb))).sub (residue_zero (hrest hb'))).sub
    (residue_zero hg)
  have l2 : Tendsto (fun _ : ℂ => (0 : ℂ)) (𝓝[≠] (polePosition M G)) (𝓝 0) := tendsto_const_nhds
  have := tendsto_nhds_unique (l1.congr' (f₂ := fun _ => (0 : ℂ)) ?_) l2
  · simp only [add_zero, sub_zero] at this
    rcases mul_eq_zero.mp this with h' | h'
    · exact hne (by exact_mod_cast sub_eq_zero.mp h')
    · exact hR h'
  · filter_upwards [he] with t ht
    rw [FsumL_split h rs M G, FsumL_split h rs' M G, hup] at ht
    rw [← ht]
    ring

/-! ### Whole models -/

theorem sums_equal {t_0 t_in M G : ℝ} (h0 : 0 ≤ t_0) (h : t_0 < t_in) (hM : 0 < M) (hG : 0 < G) {rs rs' : List Res}
    (hb : Buildable t_0 t_in rs) (hb' : Buildable t_0 t_in rs') {g : ℂ → ℂ} (hg : ContinuousAt g (polePosition M G)) (L : List ℂ)
    (he : ∀ t : ℂ, t.im ≠ 0 → t ∉ L → FsumL t_0 t_in rs t - FsumL t_0 t_in rs' t = g t) : couplingAt rs M G = couplingAt rs' M G := by
  have himq : (polePosition M G).im ≠ 0 := by
    simp only [polePosition, ne_eq, neg_eq_zero]
    positivity
  refine coupling_eq h0 h hM hG hb hb' hg ?_
  have h2 : ∀ᶠ t in 𝓝[≠] (polePosition M G), t.im ≠ 0 :=
    nhdsWithin_le_nhds ((isOpen_ne_fun continuous_im continuous_const).mem_nhds himq)
  filter_upwards [eventually_off L (polePosition M G), h2] with t h1 h2
  exact he t h2 h1

/-- All positions of the resonances of a model and the thresholds. -/
noncomputable def KaonArgs.special (x : KaonArgs) : List ℂ :=
  [(x.tinS : ℂ), (x.tinV : ℂ)] ++ ((x.resS ++ x.resV).map Res.pole ++ (x.resS ++ x.resV).map fun r => conj r.pole)

theorem special_off {x : KaonArgs} {t : ℂ} (h : t ∉ x.special) : ¬ Singular x.tinS x.tinV x.resS x.resV t ∧
    ∀ r ∈ x.resS ++ x.resV, t ≠ r.pole ∧ t ≠ conj r.pole := by
  constructor
  · rintro (h' | h' | ⟨r, h1, h' | h'⟩) <;> apply h
    · simp [KaonArgs.special, h']
    · simp [KaonArgs.special, h']
    · exact List.mem_append_right _ (List.mem_append_left _ (List.mem_map.mpr ⟨r, h1, h'.symm⟩))
    · exact List.mem_append_right _ (List.mem_append_right _ (List.mem_map.mpr ⟨r, h1, h'.symm⟩))
  · intro r h1
    constructor <;> intro h' <;> apply h
    · exact List.mem_append_right _ (List.mem_append_left _ (List.mem_map.mpr ⟨r, h1, h'.symm⟩))
    · exact List.mem_append_right _ (List.mem_append_right _ (List.mem_map.mpr ⟨r, h1, h'.symm⟩))

/-- The value of the model of that charge, as a function on the whole plane. -/
noncomputable def KaonArgs.plane (x : KaonArgs) (ch : Bool) (t : ℂ) : ℂ :=
  FsumL x.t0S x.tinS x.resS t + (if ch then 1 else -1) * FsumL x.t0V x.tinV x.resV t

theorem KaonArgs.run_plane {x : KaonArgs} (hp : x.Proper) {ch : Bool} (hb : x.Builds ch) {t : ℂ} (hre : 0 ≤ t.re) (ht : t ∉ x.special) :
    x.run ch t = .ok (x.plane ch t) := by
  obtain ⟨k, b, hk⟩ := KaonArgs.get_view hb
  rw [hk, b.call_ok hp.1 hp.2 hre (special_off ht).1]
  rfl

theorem KaonArgs.parts {x : KaonArgs} {ch : Bool} (hb : x.Builds ch) :
    0 ≤ x.t0S ∧ 0 ≤ x.t0V ∧ Buildable x.t0S x.tinS x.resS ∧ Buildable x.t0V x.tinV x.resV := by
  obtain ⟨k, b, hk⟩ := KaonArgs.get_view hb
  exact ⟨b.h0S, b.h0V, ⟨_, b.hS⟩, ⟨_, b.hV⟩⟩

theorem KaonArgs.plane_differentiable {x : KaonArgs} (hp : x.Proper) {ch : Bool} (hb : x.Builds ch) {t : ℂ}
    (hoff : ¬ (t.im = 0 ∧ min x.t0S x.t0V ≤ t.re)) (ht : t ∉ x.special) : DifferentiableAt ℂ (x.plane ch) t := by
  obtain ⟨h0S, h0V, ⟨_, hS⟩, ⟨_, hV⟩⟩ := KaonArgs.parts hb
  have hr := (special_off ht).2
  have d1 := FsumL_differentiableAt h0S hp.1 hS (fun h => hoff ⟨h.1, (min_le_left _ _).trans h.2⟩) fun r hr' => hr r (List.mem_append_left _ hr')
  have d2 := FsumL_differentiableAt h0V hp.2 hV (fun h => hoff ⟨h.1, (min_le_right _ _).trans h.2⟩) fun r hr' => hr r (List.mem_append_right _ hr')
  exact d1.add (d2.const_mul _)

/-- Models whose values agree on an interval of real `t` below the thresholds agree wherever both are analytic. -/
theorem planes_agree {x x' : KaonArgs} (hp : x.Proper) (hp' : x'.Proper) (ht : x.SameThresholds x') {ch : Bool} (hb : x.Builds ch)
    (hb' : x'.Builds ch) {a b : ℝ} (ha : 0 ≤ a) (hab : a < b) (hbS : b ≤ x.t0S) (hbV : b ≤ x.t0V)
    (he : ∀ s : ℝ, a < s → s < b → ∀ u u', x.run ch s = .ok u → x'.run ch s = .ok u' → u = u') {t : ℂ}
    (hoff : ¬ (t.im = 0 ∧ min x.t0S x.t0V ≤ t.re)) (hL : t ∉ x.special ++ x'.special) : x.plane ch t = x'.plane ch t := by
  have hmin : min x'.t0S x'.t0V = min x.t0S x.t0V := by rw [ht.1, ht.2.2.1]
  refine sub_eq_zero.mp (vanish_everywhere (g := fun t => x.plane ch t - x'.plane ch t) (Q := x.special ++ x'.special) ?_ hab (le_min hbS hbV) ?_ hoff hL)
  · intro t h1 h2
    rw [List.mem_append, not_or] at h2
    exact (KaonArgs.plane_differentiable hp hb h1 h2.1).sub (KaonArgs.plane_differentiable hp' hb' (by rwa [hmin]) h2.2)
  · intro s h1 h2 h3
    rw [List.mem_append, not_or] at h3
    have hs : 0 ≤ (s : ℂ).re := by simpa using (ha.trans h1.le)
    exact sub_eq_zero.mpr (he s h1 h2 _ _ (KaonArgs.run_plane hp hb hs h3.1) (KaonArgs.run_plane hp' hb' hs h3.2))

theorem couplings_agree {x x' : KaonArgs} (hp : x.Proper) (ht : x.SameThresholds x') (hb : ∀ ch, x.Builds ch)
    (hb' : ∀ ch, x'.Builds ch) (he : ∀ ch, ∀ t : ℂ, t.im ≠ 0 → t ∉ x.special ++ x'.special → x.plane ch t = x'.plane ch t) {M G : ℝ}
    (hM : 0 < M) (hG : 0 < G) : couplingAt x.resS M G = couplingAt x'.resS M G ∧ couplingAt x.resV M G = couplingAt x'.resV M G := by
  obtain ⟨e1, e2, e3, e4⟩ := ht
  obtain ⟨h0S, h0V, hS, hV⟩ := KaonArgs.parts (hb true)
  obtain ⟨-, -, hS', hV'⟩ := KaonArgs.parts (hb' true)
  rw [← e1, ← e2] at hS'
  rw [← e3, ← e4] at hV'
  have key : ∀ t : ℂ, t.im ≠ 0 → t ∉ x.special ++ x'.special → FsumL x.t0S x.tinS x.resS t - FsumL x.t0S x.tinS x'.resS t = 0 ∧
      FsumL x.t0V x.tinV x.resV t - FsumL x.t0V x.tinV x'.resV t = 0 := fun t h1 h2 => by
    have a := he true t h1 h2
    have b := he false t h1 h2
    unfold KaonArgs.plane at a b
    rw [← e1, ← e2, ← e3, ← e4] at a b
    simp only [if_true, Bool.false_eq_true, if_false] at a b
    exact ⟨by linear_combination (a + b) / 2, by linear_combination (a - b) / 2⟩
  exact ⟨sums_equal h0S hp.1 hM hG hS hS' (g := fun _ => 0) continuousAt_const _ fun t h1 h2 => (key t h1 h2).1,
    sums_equal h0V hp.2 hM hG hV hV' (g := fun _ => 0) continuousAt_const _ fun t h1 h2 => (key t h1 h2).2⟩

theorem zero_off_special {x : KaonArgs} (hp : x.Proper) {ch : Bool} (hb : x.Builds ch) : (0 : ℂ) ∉ x.special := by
  obtain ⟨h0S, h0V, ⟨_, hS⟩, ⟨_, hV⟩⟩ := KaonArgs.parts hb
  have hr : ∀ r ∈ x.resS ++ x.resV, (0 : ℂ) ≠ r.pole ∧ (0 : ℂ) ≠ conj r.pole := fun r hr => by
    rcases List.mem_append.mp hr with hr | hr
    · exact pole_ne_zero h0S hp.1 hS r hr
    · exact pole_ne_zero h0V hp.2 hV r hr
  unfold KaonArgs.special
  simp only [List.cons_append, List.nil_append, List.mem_cons, List.mem_append, List.mem_map, not_or]
  refine ⟨?_, ?_, fun ⟨r, h1, h2⟩ => ?_, fun ⟨r, h1, h2⟩ => ?_⟩
  · exact_mod_cast (lt_of_le_of_lt h0S hp.1).ne
  · exact_mod_cast (lt_of_le_of_lt h0V hp.2).ne
  · exact (hr r (List.mem_append.mpr h1)).1 h2.symm
  · exact (hr r (List.mem_append.mpr h1)).2 h2.symm

/-- The same from absolute values, for the charged kaon. -/
theorem planes_agree_norm {x x' : KaonArgs} (hp : x.Proper) (hp' : x'.Proper) (ht : x.SameThresholds x') (hb : x.Builds true)
    (hb' : x'.Builds true) {a b : ℝ} (ha : 0 ≤ a) (hab : a < b) (hbS : b ≤ x.t0S) (hbV : b ≤ x.t0V)
    (he : ∀ s : ℝ, a < s → s < b → ∀ u u', x.run true s = .ok u → x'.run true s = .ok u' → ‖u‖ = ‖u'‖) {t : ℂ}
    (hoff : ¬ (t.im = 0 ∧ min x.t0S x.t0V ≤ t.re)) (hL : t ∉ x.special ++ x'.special) : x.plane true t = x'.plane true t := by
  have hmin : min x'.t0S x'.t0V = min x.t0S x.t0V := by rw [ht.1, ht.2.2.1]
  have hpos : 0 < min x.t0S x.t0V := lt_min (lt_of_le_of_lt ha (lt_of_lt_of_le hab hbS)) (lt_of_le_of_lt ha (lt_of_lt_of_le hab hbV))
  have hreal : ∀ {y : KaonArgs}, y.Proper → y.Builds true → ∀ s : ℝ, s ≤ y.t0S → s ≤ y.t0V → conj (y.plane true s) = y.plane true s := fun hy hby s h1 h2 => by
    obtain ⟨k1, k2, -, -⟩ := KaonArgs.parts hby
    unfold KaonArgs.plane
    simp only [if_true, one_mul, map_add]
    rw [FsumL_real k1 hy.1 _ h1, FsumL_real k2 hy.2 _ h2]
  have hd : ∀ t : ℂ, ¬ (t.im = 0 ∧ min x.t0S x.t0V ≤ t.re) → t ∉ x.special ++ x'.special →
      DifferentiableAt ℂ (x.plane true) t ∧ DifferentiableAt ℂ (x'.plane true) t := fun t h1 h2 => by
    rw [List.mem_append, not_or] at h2
    exact ⟨KaonArgs.plane_differentiable hp hb h1 h2.1, KaonArgs.plane_differentiable hp' hb' (by rwa [hmin]) h2.2⟩
  have hsq : ∀ t : ℂ, ¬ (t.im = 0 ∧ min x.t0S x.t0V ≤ t.re) → t ∉ x.special ++ x'.special → x.plane true t ^ 2 - x'.plane true t ^ 2 = 0 := by
    intro t h1 h2
    refine vanish_everywhere (g := fun t => x.plane true t ^ 2 - x'.plane true t ^ 2) (Q := x.special ++ x'.special) ?_ hab (le_min hbS hbV) ?_ h1 h2
    · intro t h1 h2
      exact ((hd t h1 h2).1.pow 2).sub ((hd t h1 h2).2.pow 2)
    · intro s h1 h2 h3
      rw [List.mem_append, not_or] at h3
      have hs : 0 ≤ (s : ℂ).re := by simpa using (ha.trans h1.le)
      have hn := he s h1 h2 _ _ (KaonArgs.run_plane hp hb hs h3.1) (KaonArgs.run_plane hp' hb' hs h3.2)
      have r1 := hreal hp hb s (h2.le.trans hbS) (h2.le.trans hbV)
      have r2 := hreal hp' hb' s (by rw [← ht.1]; exact h2.le.trans hbS) (by rw [← ht.2.2.1]; exact h2.le.trans hbV)
      have n1 := Complex.mul_conj (x.plane true s)
      have n2 := Complex.mul_conj (x'.plane true s)
      rw [r1, Complex.normSq_eq_norm_sq] at n1
      rw [r2, Complex.normSq_eq_norm_sq, ← hn, ← n1] at n2
      show x.plane true s ^ 2 - x'.plane true s ^ 2 = 0
      linear_combination -n2
  have h0L : (0 : ℂ) ∉ x.special ++ x'.special := by
    rw [List.mem_append, not_or]
    exact ⟨zero_off_special hp hb, zero_off_special hp' hb'⟩
  have h0off : ¬ ((0 : ℂ).im = 0 ∧ min x.t0S x.t0V ≤ (0 : ℂ).re) := fun h => by
    have := h.2
    rw [Complex.zero_re] at this
    linarith
  have hone : ∀ {y : KaonArgs}, y.Proper → y.Builds true → y.plane true 0 = 1 := fun {y} hy hby => by
    obtain ⟨k1, k2, ⟨_, k3⟩, ⟨_, k4⟩⟩ := KaonArgs.parts hby
    unfold KaonArgs.plane
    rw [FsumL_zero k1 hy.1 k3, FsumL_zero k2 hy.2 k4, y.sumS, y.sumV]
    push_cast
    norm_num
  have hcont : ContinuousAt (fun t => x.plane true t + x'.plane true t) 0 := ((hd 0 h0off h0L).1.add (hd 0 h0off h0L).2).continuousAt
  have hne : ∀ᶠ t in 𝓝 (0 : ℂ), x.plane true t + x'.plane true t ≠ 0 := by
    refine hcont.eventually_ne ?_
    rw [hone hp hb, hone hp' hb']
    norm_num
  obtain ⟨ε, hε, hball⟩ := Metric.eventually_nhds_iff.mp hne
  have hab' : 0 < min ε (min x.t0S x.t0V) := lt_min hε hpos
  refine sub_eq_zero.mp (vanish_everywhere (g := fun t => x.plane true t - x'.plane true t) (Q := x.special ++ x'.special) ?_ hab' (min_le_right _ _) ?_ hoff hL)
  · intro t h1 h2
    exact (hd t h1 h2).1.sub (hd t h1 h2).2
  · intro s h1 h2 h3
    have hs : x.plane true s + x'.plane true s ≠ 0 := hball (by
      rw [dist_zero_right, Complex.norm_real, Real.norm_of_nonneg h1.le]
      exact lt_of_lt_of_le h2 (min_le_left _ _))
    have := hsq s (fun h => by
      have h' := h.2
      rw [Complex.ofReal_re] at h'
      exact absurd (lt_of_lt_of_le h2 (min_le_right _ _)) (not_lt.mpr h')) h3
    have e : (x.plane true s - x'.plane true s) * (x.plane true s + x'.plane true s) = 0 := by linear_combination this
    exact (mul_eq_zero.mp e).resolve_right hs

/-! ### From couplings to resonances -/

theorem couplingAt_unique {l : List Res} (hpos : ∀ r ∈ l, 0 < r.mass ∧ 0 < r.decay) (hn : (l.map fun r => (r.mass, r.decay)).Nodup) {r : Res}
    (hr : r ∈ l) : couplingAt l r.mass r.decay = r.a := by
  classical
  induction l with
  | nil => cases hr
  | cons r' l ih =>
    have ec : couplingAt (r' :: l) r.mass r.decay = (if |r'.mass| = r.mass ∧ |r'.decay| = r.decay then r'.a else 0) + couplingAt l r.mass r.decay := by
      simp [couplingAt]
    have hp := hpos r' (by simp)
    rw [List.map_cons, List.nodup_cons] at hn
    rw [ec, abs_of_pos hp.1, abs_of_pos hp.2]
    rcases List.mem_cons.mp hr with rfl | hr
    · rw [if_pos ⟨rfl, rfl⟩, couplingAt_none, add_zero]
      intro r' hr' hm
      have := hpos r' (by simp [hr'])
      rw [abs_of_pos this.1, abs_of_pos this.2] at hm
      exact hn.1 (List.mem_map.mpr ⟨r', hr', by rw [hm.1, hm.2]⟩)
    · rw [if_neg, zero_add]
      · exact ih (fun r hr => hpos r (by simp [hr])) hn.2 hr
      · intro hm
        exact hn.1 (List.mem_map.mpr ⟨r, hr, by rw [hm.1, hm.2]⟩)

theorem perm_of_couplings {l l' : List Res} (hpos : ∀ r ∈ l, 0 < r.mass ∧ 0 < r.decay) (hpos' : ∀ r ∈ l', 0 < r.mass ∧ 0 < r.decay)
    (hn : (l.map fun r => (r.mass, r.decay)).Nodup) (hn' : (l'.map fun r => (r.mass, r.decay)).Nodup) (ha : ∀ r ∈ l, r.a ≠ 0) (ha' : ∀ r ∈ l', r.a ≠ 0)
    (he : ∀ M G : ℝ, 0 < M → 0 < G → couplingAt l M G = couplingAt l' M G) : l.Perm l' := by
  have half : ∀ {l l' : List Res}, (∀ r ∈ l, 0 < r.mass ∧ 0 < r.decay) → (∀ r ∈ l', 0 < r.mass ∧ 0 < r.decay) →
      (l.map fun r => (r.mass, r.decay)).Nodup → (l'.map fun r => (r.mass, r.decay)).Nodup → (∀ r ∈ l, r.a ≠ 0) →
      (∀ M G : ℝ, 0 < M → 0 < G → couplingAt l M G = couplingAt l' M G) → ∀ r ∈ l, r ∈ l' := by
    intro l l' hpos hpos' hn hn' ha he r hr
    have h1 := couplingAt_unique hpos hn hr
    rw [he _ _ (hpos r hr).1 (hpos r hr).2] at h1
    have hex : ∃ r' ∈ l', |r'.mass| = r.mass ∧ |r'.decay| = r.decay := by
      by_contra hno
      push Not at hno
      rw [couplingAt_none fun r' hr' hm => hno r' hr' hm.1 hm.2] at h1
      exact ha r hr h1.symm
    obtain ⟨r', hr', hm⟩ := hex
    have hp := hpos' r' hr'
    rw [abs_of_pos hp.1, abs_of_pos hp.2] at hm
    have h2 := couplingAt_unique hpos' hn' hr'
    rw [hm.1, hm.2, h1] at h2
    have : r' = r := by
      obtain ⟨a, m, d⟩ := r
      obtain ⟨a', m', d'⟩ := r'
      simp only at hm h2
      rw [hm.1, hm.2, h2]
    rwa [← this]
  refine (List.perm_ext_iff_of_nodup (List.Nodup.of_map _ hn) (List.Nodup.of_map _ hn')).mpr fun r =>
    ⟨half hpos hpos' hn hn' ha he r, half hpos' hpos hn' hn ha' (fun M G h1 h2 => (he M G h1 h2).symm) r⟩

theorem couplingAt_filter (l : List Res) (M G : ℝ) : couplingAt (l.filter fun r => r.a ≠ 0) M G = couplingAt l M G := by
  classical
  induction l with
  | nil => rfl
  | cons r l ih =>
    have ec : couplingAt (r :: l) M G = (if |r.mass| = M ∧ |r.decay| = G then r.a else 0) + couplingAt l M G := by simp [couplingAt]
    by_cases hr : r.a = 0
    · rw [List.filter_cons_of_neg (by simpa using hr), ih, ec, hr]
      simp
    · rw [List.filter_cons_of_pos (by simpa using hr), ec, ← ih]
      simp [couplingAt]

/-- Couplings from one form factor, when the other isospin has nothing at that position. -/
theorem couplings_agree_one {x x' : KaonArgs} (hp : x.Proper) (ht : x.SameThresholds x') {ch : Bool} (hb : x.Builds ch) (hb' : x'.Builds ch)
    (he : ∀ t : ℂ, t.im ≠ 0 → t ∉ x.special ++ x'.special → x.plane ch t = x'.plane ch t) {M G : ℝ} (hM : 0 < M) (hG : 0 < G) :
    ((∀ r ∈ x.resV ++ x'.resV, r.a ≠ 0 → ¬ (|r.mass| = M ∧ |r.decay| = G)) → couplingAt x.resS M G = couplingAt x'.resS M G) ∧
    ((∀ r ∈ x.resS ++ x'.resS, r.a ≠ 0 → ¬ (|r.mass| = M ∧ |r.decay| = G)) → couplingAt x.resV M G = couplingAt x'.resV M G) := by
  obtain ⟨e1, e2, e3, e4⟩ := ht
  obtain ⟨h0S, h0V, hS, hV⟩ := KaonArgs.parts hb
  obtain ⟨-, -, hS', hV'⟩ := KaonArgs.parts hb'
  rw [← e1, ← e2] at hS'
  rw [← e3, ← e4] at hV'
  have himq : (polePosition M G).im ≠ 0 := by
    simp only [polePosition, ne_eq, neg_eq_zero]
    positivity
  have cont : ∀ {t_0 t_in : ℝ} {l : List Res}, 0 ≤ t_0 → t_0 < t_in → Buildable t_0 t_in l →
      (∀ r ∈ l, r.a ≠ 0 → ¬ (|r.mass| = M ∧ |r.decay| = G)) → ContinuousAt (FsumL t_0 t_in l) (polePosition M G) := by
    intro t_0 t_in l h0 h hl hn
    obtain ⟨ts, hts⟩ := hl.sub (rs' := l.filter fun r => r.a ≠ 0) fun r hr => (List.mem_filter.mp hr).1
    have := (FsumL_differentiableAt h0 h hts (t := polePosition M G) (fun h' => himq h'.1) fun r hr => by
      rw [List.mem_filter] at hr
      exact unmatched_ne hM hG (hn r hr.1 (by simpa using hr.2))).continuousAt
    rwa [show FsumL t_0 t_in (l.filter fun r => r.a ≠ 0) = FsumL t_0 t_in l from funext fun t => FsumL_filter _ _ _ _] at this
  have hs : (if ch then 1 else -1 : ℂ) * (if ch then 1 else -1) = 1 := by cases ch <;> simp
  have key := he
  unfold KaonArgs.plane at key
  rw [← e1, ← e2, ← e3, ← e4] at key
  generalize (if ch then 1 else -1 : ℂ) = σ at *
  constructor <;> intro hn
  · refine sums_equal h0S hp.1 hM hG hS hS' (L := x.special ++ x'.special) (g := fun t => σ * (FsumL x.t0V x.tinV x'.resV t - FsumL x.t0V x.tinV x.resV t)) ?_ fun t h1 h2 => ?_
    · exact continuousAt_const.mul ((cont h0V hp.2 hV' fun r hr => hn r (List.mem_append_right _ hr)).sub
        (cont h0V hp.2 hV fun r hr => hn r (List.mem_append_left _ hr)))
    · linear_combination key t h1 h2
  · refine sums_equal h0V hp.2 hM hG hV hV' (L := x.special ++ x'.special) (g := fun t => σ * (FsumL x.t0S x.tinS x'.resS t - FsumL x.t0S x.tinS x.resS t)) ?_ fun t h1 h2 => ?_
    · exact continuousAt_const.mul ((cont h0S hp.1 hS' fun r hr => hn r (List.mem_append_right _ hr)).sub
        (cont h0S hp.1 hS fun r hr => hn r (List.mem_append_left _ hr)))
    · linear_combination σ * key t h1 h2 - (FsumL x.t0V x.tinV x.resV t - FsumL x.t0V x.tinV x'.resV t) * hs

/-! ### From couplings to values -/

theorem couplingAt_other (l : List Res) (M G M' G' : ℝ) : couplingAt (otherRes l M G) M' G' = if M' = M ∧ G' = G then 0 else couplingAt l M' G' := by
  classical
  by_cases hm : M' = M ∧ G' = G
  · rw [if_pos hm, hm.1, hm.2]
    exact couplingAt_none fun r hr => (mem_otherRes hr).2
  · rw [if_neg hm]
    induction l with
    | nil => rfl
    | cons r l ih =>
      have ec : ∀ (r : Res) (l : List Res), couplingAt (r :: l) M' G' = (if |r.mass| = M' ∧ |r.decay| = G' then r.a else 0) + couplingAt l M' G' :=
        fun r l => by simp [couplingAt]
      by_cases hr : |r.mass| = M ∧ |r.decay| = G
      · have eo : otherRes (r :: l) M G = otherRes l M G := by
          unfold otherRes
          rw [List.filter_cons_of_neg (by simpa using hr)]
        rw [eo, ih, ec, if_neg, zero_add]
        rintro ⟨h1, h2⟩
        exact hm ⟨by rw [← h1, hr.1], by rw [← h2, hr.2]⟩
      · have eo : otherRes (r :: l) M G = r :: otherRes l M G := by
          unfold otherRes
          rw [List.filter_cons_of_pos (by simpa only [decide_eq_true_eq] using hr)]
        rw [eo, ec, ec, ih]

theorem otherRes_length (l : List Res) (M G : ℝ) : (otherRes l M G).length ≤ l.length := List.length_filter_le _ _

theorem otherRes_shorter (r : Res) (l : List Res) : (otherRes (r :: l) |r.mass| |r.decay|).length < (r :: l).length := by
  unfold otherRes
  rw [List.filter_cons_of_neg (by simp)]
  exact Nat.lt_succ_of_le (List.length_filter_le _ _)

theorem FsumL_of_couplings {t_0 t_in : ℝ} (h : t_0 < t_in) (t : ℂ) : ∀ (n : ℕ) {l l' : List Res}, l.length + l'.length ≤ n →
    (∀ r ∈ l ++ l', r.mass ≠ 0 ∧ r.decay ≠ 0) → (∀ M G : ℝ, 0 < M → 0 < G → couplingAt l M G = couplingAt l' M G) →
    FsumL t_0 t_in l t = FsumL t_0 t_in l' t := by
  intro n
  induction n with
  | zero =>
    intro l l' hl _ _
    have h1 : l = [] := List.length_eq_zero_iff.mp (by omega)
    have h2 : l' = [] := List.length_eq_zero_iff.mp (by omega)
    rw [h1, h2]
  | succ n ih =>
    intro l l' hl hne he
    have step : ∀ M G : ℝ, 0 < M → 0 < G → (otherRes l M G).length + (otherRes l' M G).length < l.length + l'.length →
        FsumL t_0 t_in l t = FsumL t_0 t_in l' t := by
      intro M G hM hG hlt
      rw [FsumL_split h l M G, FsumL_split h l' M G, he M G hM hG]
      congr 1
      refine ih (by omega) ?_ fun M' G' h1 h2 => ?_
      · intro r hr
        rcases List.mem_append.mp hr with hr | hr
        · exact hne r (List.mem_append_left _ (mem_otherRes hr).1)
        · exact hne r (List.mem_append_right _ (mem_otherRes hr).1)
      · rw [couplingAt_other, couplingAt_other, he M' G' h1 h2]
    cases l with
    | cons r l =>
      have hr := hne r (by simp)
      refine step |r.mass| |r.decay| (abs_pos.mpr hr.1) (abs_pos.mpr hr.2) ?_
      have := otherRes_shorter r l
      have := otherRes_length l' |r.mass| |r.decay|
      omega
    | nil =>
      cases l' with
      | nil => rfl
      | cons r l' =>
        have hr := hne r (by simp)
        refine step |r.mass| |r.decay| (abs_pos.mpr hr.1) (abs_pos.mpr hr.2) ?_
        have := otherRes_shorter r l'
        have := otherRes_length [] |r.mass| |r.decay|
        omega

/-! ### Parameter objects -/

theorem kaon_res_pos {p : ModelParameters ℝ} (h : Reachable p) (hc : IsKaonClass p.cls) (hi : p.InsideMaximal) {x : KaonArgs}
    (hx : KaonWiring p x) : ∀ r ∈ x.resS ++ x.resV, 0 < r.mass ∧ 0 < r.decay := by
  have hw := reachable_wellFormed h
  obtain ⟨v, hv⟩ := hw.exists_values
  have hr : IsResonanceClass p.cls := by
    revert hc; cases p.cls <;> simp [IsKaonClass, IsResonanceClass]
  have hin := inside_values h hr hv hi
  have hval : ∀ {n : String} {y : ℝ}, (n, y) ∈ x.byName → n ∈ p.cls.table.initArgs ∧ y = v n := fun hm => (hw.holds_iff hv).mp (hx.holds.1 _ hm)
  obtain ⟨r1, r2⟩ := x.res_names
  have pos : ∀ {n : String} {m : ℝ}, (n, m) ∈ x.byName → "mass_".toList <+: n.toList → 0 < m := by
    intro n m hm hn
    have := hin.mass n (hval hm).1 hn
    rw [← (hval hm).2] at this
    refine lt_of_le_of_lt ?_ this
    unfold massThreshold
    split_ifs <;> simp [Real.sqrt_nonneg]
  have pos' : ∀ {n : String} {m : ℝ}, (n, m) ∈ x.byName → "decay_rate_".toList <+: n.toList → 0 < m := by
    intro n m hm hn
    have := hin.decay n (hval hm).1 hn
    rwa [← (hval hm).2] at this
  intro r hr
  rcases List.mem_append.mp hr with hr | hr
  · obtain ⟨n, d, h1, h2, h3, -, h5⟩ := r1 r hr
    exact ⟨pos h1 h3, pos' h2 h5⟩
  · obtain ⟨n, d, h1, h2, h3, -, h5⟩ := r2 r hr
    exact ⟨pos h1 h3, pos' h2 h5⟩

/-- What belongs to an object inside the bounds: the arguments its model is built from. -/
theorem kaon_content_args {p : ModelParameters ℝ} (h : Reachable p) (hc : IsKaonClass p.cls) (hi : p.InsideMaximal) :
    ∃ x : KaonArgs, KaonInside p x ∧ (∀ r ∈ x.resS ++ x.resV, 0 < r.mass ∧ 0 < r.decay) ∧ p.content true = x.resS ∧ p.content false = x.resV ∧
      p.entry "t_0_isoscalar" = x.t0S ∧ p.entry "t_in_isoscalar" = x.tinS ∧ p.entry "t_0_isovector" = x.t0V ∧ p.entry "t_in_isovector" = x.tinV := by
  have hw := reachable_wellFormed h
  obtain ⟨v, hv⟩ := hw.exists_values
  obtain ⟨c1, c2⟩ := content_eq hw hv hc
  have ht := thresholds_entry hw hv hc
  obtain ⟨a1, a2, a3, a4⟩ := thresholds_ofValues p.cls v
  have hwire := kaon_wiring_values hw hv hc
  exact ⟨_, kaon_inside_wired h hc hi hwire, kaon_res_pos h hc hi hwire, c1, c2, (ht "t_0_isoscalar" (by decide)).trans a1.symm,
    (ht "t_in_isoscalar" (by decide)).trans a2.symm, (ht "t_0_isovector" (by decide)).trans a3.symm, (ht "t_in_isovector" (by decide)).trans a4.symm⟩

theorem functionFormFactor_one {p : ModelParameters ℝ} {x : KaonArgs} (hx : KaonInside p x) {t : ℝ} (h0 : 0 ≤ t) (h1 : t < x.t0S) (h2 : t < x.t0V)
    (ch : Bool) : ∃ u, x.run ch t = .ok u ∧ functionFormFactor [.kaon t ch] p = .ok [‖u‖] := by
  have hno : ¬ ∃ q ∈ p.toList, "t_in_".toList <+: q.name.toList ∧ t = q.value := by
    rw [← hx.tin]
    rintro (rfl | rfl)
    · exact absurd hx.proper.1 (not_lt.mpr h1.le)
    · exact absurd hx.proper.2 (not_lt.mpr h2.le)
  refine ⟨_, hx.run_eq ch h0 hno, ?_⟩
  have := hx.eval_eq .formFactor (points := [(t, ch)]) (by simpa using h0) (fun hh => absurd rfl hh) (by simpa using hno)
  exact this

theorem exampleB_builds : exampleB.Builds true ∧ exampleB.Proper := by
  have hp : exampleB.Proper := by constructor <;> norm_num [exampleB, KaonArgs.t0S, KaonArgs.tinS, KaonArgs.t0V, KaonArgs.tinV]
  refine ⟨builds_of_pos ?_ ?_ hp ?_ ?_, hp⟩ <;>
    simp [exampleB, KaonArgs.t0S, KaonArgs.tinS, KaonArgs.t0V, KaonArgs.tinV, KaonArgs.resS, KaonArgs.resV,
      KaonUAModelB.Args.resS, KaonUAModelB.Args.resV] <;> norm_num

end UA
