import Verif.Lemmas.AnalyticNucleon
import Verif.Props.Components
import Verif.Props.Kaon
import Verif.Props.Nucleon

/-!
# Property C93: the models are analytic off their cuts, with poles of the first order at the resonance positions
-/

namespace UA

open Complex ComplexConjugate Filter Topology Spec

/-- **C93** one resonance: at its position, and at the conjugate position, the component has a pole of exactly the first order. -/
theorem C93_component (b : Builder) (t_0 t_in mass decay : ℝ) (h0 : 0 ≤ t_0) (h : t_0 < t_in) (c : UAComponent)
    (hb : b.build t_0 t_in mass decay = .ok c) (hm : mass ≠ 0) (hd : decay ≠ 0) :
    ∃ R : ℂ, R ≠ 0 ∧ HasResidue (evalAt t_0 t_in c) (polePosition mass decay) R ∧
      HasResidue (evalAt t_0 t_in c) (conj (polePosition mass decay)) (conj R) := by
  obtain ⟨v, B⟩ := Builder.built h0 h hb
  have him : (polePosition mass decay).im ≠ 0 := by simp [polePosition, hm, hd]
  have hval : ∀ {q : ℂ}, q.im ≠ 0 → ∀ᶠ t in 𝓝[≠] q, evalAt t_0 t_in c t = .ok (Fval v t_0 t_in (polePosition mass decay) t) := by
    intro q hq
    have hopen : ∀ᶠ s in 𝓝[≠] q, s ∉ HalfLine t_0 :=
      (nhdsWithin_le_nhds (s := {q}ᶜ)) ((isOpen_offHalfLine t_0).mem_nhds fun h' => hq h'.1)
    have hoff := eventually_off [polePosition mass decay, conj (polePosition mass decay)] q
    filter_upwards [hopen, hoff] with t h1 h2
    simp only [List.mem_cons, List.not_mem_nil, or_false, not_or] at h2
    have ht := ne_tin_of_offCut h.le h1
    rw [evalAt_eq h0 h ht, B.call_ok ht h2.1 h2.2]
  obtain ⟨R, hR, hl⟩ := Fval_residue B him
  have hres := hasResidue_of (hval him) hl
  refine ⟨R, hR, hres, fun ε hε => ?_⟩
  obtain ⟨δ, hδ, hall⟩ := hres ε hε
  refine ⟨min δ |(polePosition mass decay).im|, lt_min hδ (abs_pos.mpr him), fun t ht hd' => ?_⟩
  have hn : ‖conj t - polePosition mass decay‖ = ‖t - conj (polePosition mass decay)‖ := by
    rw [← norm_conj, map_sub, conj_conj]
  obtain ⟨u, hu, hn'⟩ := hall (conj t) (fun h' => ht (by rw [← h', conj_conj])) (by rw [hn]; exact hd'.trans_le (min_le_left _ _))
  have hoff : conj t ∉ HalfLine t_0 := by
    rintro ⟨h1, -⟩
    have h2 := abs_im_le_norm (conj t - polePosition mass decay)
    rw [sub_im, h1, zero_sub, abs_neg, hn] at h2
    exact absurd (hd'.trans_le (min_le_right _ _)) (not_lt.mpr h2)
  refine ⟨conj u, ?_, ?_⟩
  · have := C16_component_reflection b t_0 t_in mass decay h0 h c hb (conj t) hoff
    rw [conj_conj, hu] at this
    exact this
  · rw [← norm_conj, map_sub, map_mul, map_sub, conj_conj, conj_conj, conj_conj]
    exact hn'

example (b : Builder) : ∃ c R, b.build 1 2 (3/2) (1/10) = .ok c ∧ R ≠ 0 ∧ HasResidue (evalAt 1 2 c) (polePosition (3/2) (1/10)) R := by
  obtain ⟨c, hc⟩ := exampleComponent b
  obtain ⟨R, h1, h2, -⟩ := C93_component b 1 2 (3/2) (1/10) (by norm_num) (by norm_num) c hc (by norm_num) (by norm_num)
  exact ⟨c, R, hc, h1, h2⟩

/-- **C93** a kaon model is an analytic function of `t` at all points it accepts off the two cuts. -/
theorem C93_kaon_analytic (x : KaonArgs) (charged : Bool) (hp : x.Proper) (hb : x.Builds charged) :
    ∃ f : ℂ → ℂ, ∀ t, t ∉ HalfLine x.t0S → t ∉ HalfLine x.t0V →
      (∀ r ∈ x.resS ++ x.resV, t ≠ polePosition r.mass r.decay ∧ t ≠ conj (polePosition r.mass r.decay)) →
      DifferentiableAt ℂ f t ∧ (0 ≤ t.re → x.run charged t = .ok (f t)) := by
  obtain ⟨k, b, hk⟩ := KaonArgs.get_view hb
  have hpp : ∀ r : Res, r.pole = polePosition r.mass r.decay := fun r => tMesonPole_eq _ _
  refine ⟨fun t => FsumL x.t0S x.tinS x.resS t + (if charged then 1 else -1) * FsumL x.t0V x.tinV x.resV t, fun t h1 h2 h3 => ⟨?_, fun hre => ?_⟩⟩
  · simp only [← hpp] at h3
    exact (FsumL_differentiableAt b.h0S hp.1 b.hS h1 fun r hr => h3 r (List.mem_append_left _ hr)).add
      ((differentiableAt_const _).mul (FsumL_differentiableAt b.h0V hp.2 b.hV h2 fun r hr => h3 r (List.mem_append_right _ hr)))
  · rw [hk, b.call_ok hp.1 hp.2 hre]
    rintro (h | h | ⟨r, hr, h⟩)
    · exact ne_tin_of_offCut hp.1.le h1 h
    · exact ne_tin_of_offCut hp.2.le h2 h
    · rw [hpp] at h
      exact h.elim (h3 r hr).1 (h3 r hr).2

example : ∃ f : ℂ → ℂ, DifferentiableAt ℂ f I ∧ exampleFull.run true I = .ok (f I) := by
  obtain ⟨f, hf⟩ := C93_kaon_analytic exampleFull true exampleFull_builds.2 exampleFull_builds.1
  obtain ⟨h1, h2⟩ := hf I (by simp [HalfLine]) (by simp [HalfLine]) (by
    intro r hr
    have : r.mass * r.decay ≠ 1 ∧ r.mass * r.decay ≠ -1 := by
      simp [exampleFull, KaonArgs.resS, KaonArgs.resV, KaonUAModel.Args.resS, KaonUAModel.Args.resV] at hr
      rcases hr with rfl | rfl | rfl | rfl | rfl | rfl | rfl | rfl | rfl | rfl <;> norm_num
    constructor <;> intro h'
    · have := congrArg Complex.im h'
      simp [polePosition] at this
      grind
    · have := congrArg Complex.im h'
      simp [polePosition] at this
      grind)
  exact ⟨f, h1, h2 (by simp)⟩

/-- **C93** a kaon model next to the position (or the conjugate position) `q` of a resonance, when no other resonance sits there: the
values have a residue, which is zero exactly when the coupling of the resonance is. -/
theorem C93_kaon_pole (x : KaonArgs) (charged : Bool) (hp : x.Proper) (hb : x.Builds charged) (l l' : List Res) (r : Res)
    (hl : x.resS ++ x.resV = l ++ r :: l') (q : ℂ) (hq : q = polePosition r.mass r.decay ∨ q = conj (polePosition r.mass r.decay))
    (him : q.im ≠ 0) (hre : 0 < q.re)
    (ho : ∀ r' ∈ l ++ l', q ≠ polePosition r'.mass r'.decay ∧ q ≠ conj (polePosition r'.mass r'.decay)) :
    ∃ R : ℂ, HasResidue (x.run charged) q R ∧ (R = 0 ↔ r.a = 0) := by
  obtain ⟨k, b, hk⟩ := KaonArgs.get_view hb
  have hpp : ∀ r : Res, r.pole = polePosition r.mass r.decay := fun r => tMesonPole_eq _ _
  simp only [← hpp] at hq ho
  have hval : ∀ᶠ t in 𝓝[≠] q, x.run charged t =
      .ok (FsumL x.t0S x.tinS x.resS t + (if charged then 1 else -1) * FsumL x.t0V x.tinV x.resV t) := by
    have h1 := eventually_off ([(x.tinS : ℂ), (x.tinV : ℂ)] ++ ((x.resS ++ x.resV).map Res.pole ++ (x.resS ++ x.resV).map fun r => conj r.pole)) q
    have h2 : ∀ᶠ t in 𝓝[≠] q, 0 < t.re := (nhdsWithin_le_nhds (s := {q}ᶜ)) ((isOpen_lt continuous_const continuous_re).mem_nhds hre)
    filter_upwards [h1, h2] with t hL hre'
    rw [hk, b.call_ok hp.1 hp.2 hre'.le]
    rintro (h | h | ⟨r, h1, h | h⟩) <;> apply hL
    · simp [h]
    · simp [h]
    · exact List.mem_append_right _ (List.mem_append_left _ (List.mem_map.mpr ⟨r, h1, h.symm⟩))
    · exact List.mem_append_right _ (List.mem_append_right _ (List.mem_map.mpr ⟨r, h1, h.symm⟩))
  have hs : (if charged then 1 else -1 : ℂ) ≠ 0 := by cases charged <;> simp
  have hoff : ∀ s : ℝ, ¬ (q.im = 0 ∧ s ≤ q.re) := fun s h => him h.1
  rcases List.append_eq_append_iff.mp hl with ⟨as, h1, h2⟩ | ⟨bs, h1, h2⟩
  · -- the resonance is an isovector one
    have hS := FsumL_differentiableAt b.h0S hp.1 b.hS (hoff _) fun r' hr' => ho r' (by rw [h1]; simp [hr'])
    have hbV := b.hV
    rw [h2] at hbV
    obtain ⟨R, hR, hlim⟩ := FsumL_residue b.h0V hp.2 hbV hq him fun r' hr' => ho r' (by
      rw [h1]; rcases List.mem_append.mp hr' with h | h <;> simp [h])
    rw [← h2] at hlim
    refine ⟨(if charged then 1 else -1) * R, hasResidue_of hval ?_, by rw [mul_eq_zero, or_iff_right hs, hR]⟩
    have := (residue_zero hS.continuousAt).add (hlim.const_mul (if charged then 1 else -1 : ℂ))
    rw [zero_add] at this
    exact this.congr fun t => by ring
  · rcases bs with _ | ⟨r0, bs⟩
    · -- the resonance is the first isovector one
      rw [List.append_nil] at h1
      rw [List.nil_append] at h2
      have hS := FsumL_differentiableAt b.h0S hp.1 b.hS (hoff _) fun r' hr' => ho r' (by rw [← h1]; simp [hr'])
      have hbV := b.hV
      rw [← h2] at hbV
      obtain ⟨R, hR, hlim⟩ := FsumL_residue (l := []) b.h0V hp.2 hbV hq him fun r' hr' => ho r' (by simp at hr'; simp [hr'])
      rw [List.nil_append, h2] at hlim
      refine ⟨(if charged then 1 else -1) * R, hasResidue_of hval ?_, by rw [mul_eq_zero, or_iff_right hs, hR]⟩
      have := (residue_zero hS.continuousAt).add (hlim.const_mul (if charged then 1 else -1 : ℂ))
      rw [zero_add] at this
      exact this.congr fun t => by ring
    · -- the resonance is an isoscalar one
      rw [List.cons_append, List.cons.injEq] at h2
      obtain ⟨rfl, rfl⟩ := h2
      have hV := FsumL_differentiableAt b.h0V hp.2 b.hV (hoff _) fun r' hr' => ho r' (by simp [hr'])
      have hbS := b.hS
      rw [h1] at hbS
      obtain ⟨R, hR, hlim⟩ := FsumL_residue b.h0S hp.1 hbS hq him fun r' hr' => ho r' (by
        rcases List.mem_append.mp hr' with h | h <;> simp [h])
      rw [← h1] at hlim
      refine ⟨R, hasResidue_of hval ?_, hR⟩
      have := hlim.add ((residue_zero hV.continuousAt).const_mul (if charged then 1 else -1 : ℂ))
      rw [mul_zero, add_zero] at this
      exact this.congr fun t => by ring

/-- The last isoscalar resonance of the example, at a position of its own. -/
example : ∃ l l' r, exampleFull.resS ++ exampleFull.resV = l ++ r :: l' ∧ 0 < (polePosition r.mass r.decay).re ∧ (polePosition r.mass r.decay).im ≠ 0 ∧
    r.a ≠ 0 ∧ ∀ r' ∈ l ++ l', polePosition r.mass r.decay ≠ polePosition r'.mass r'.decay ∧
      polePosition r.mass r.decay ≠ conj (polePosition r'.mass r'.decay) := by
  refine ⟨exampleFull.resS.take 5, exampleFull.resV, _, by simp [exampleFull, KaonArgs.resS, KaonUAModel.Args.resS]; rfl, ?_⟩
  simp only [exampleFull, KaonArgs.resS, KaonArgs.resV, KaonUAModel.Args.resS, KaonUAModel.Args.resV, List.take]
  refine ⟨by norm_num [polePosition], by norm_num [polePosition], by norm_num, ?_⟩
  simp only [List.cons_append, List.nil_append, List.mem_cons, List.not_mem_nil, or_false, forall_eq_or_imp, forall_eq, polePosition, Ne, Complex.ext_iff, conj_re, conj_im]
  norm_num

/-- **C93** consequently the values next to such a position are unbounded, if the coupling is not zero. -/
theorem C93_kaon_unbounded (x : KaonArgs) (charged : Bool) (hp : x.Proper) (hb : x.Builds charged) (l l' : List Res) (r : Res)
    (hl : x.resS ++ x.resV = l ++ r :: l') (q : ℂ) (hq : q = polePosition r.mass r.decay ∨ q = conj (polePosition r.mass r.decay))
    (him : q.im ≠ 0) (hre : 0 < q.re)
    (ho : ∀ r' ∈ l ++ l', q ≠ polePosition r'.mass r'.decay ∧ q ≠ conj (polePosition r'.mass r'.decay)) (ha : r.a ≠ 0) (M : ℝ) :
    ∃ δ > 0, ∀ t : ℂ, t ≠ q → ‖t - q‖ < δ → ∃ u, x.run charged t = .ok u ∧ M < ‖u‖ := by
  obtain ⟨R, hR, hR0⟩ := C93_kaon_pole x charged hp hb l l' r hl q hq him hre ho
  have hRpos : 0 < ‖R‖ := norm_pos_iff.mpr fun h => ha (hR0.mp h)
  obtain ⟨δ, hδ, hall⟩ := hR (‖R‖ / 2) (by linarith)
  have hM : 0 < |M| + 1 := by positivity
  refine ⟨min δ (‖R‖ / 2 / (|M| + 1)), lt_min hδ (by positivity), fun t ht hd => ?_⟩
  obtain ⟨u, hu, hn⟩ := hall t ht (hd.trans_le (min_le_left _ _))
  refine ⟨u, hu, ?_⟩
  have h1 : ‖R‖ / 2 < ‖t - q‖ * ‖u‖ := by
    have := norm_sub_norm_le R (R - (t - q) * u)
    rw [sub_sub_cancel, norm_mul, norm_sub_rev] at this
    linarith
  have h2 : ‖t - q‖ * (|M| + 1) < ‖R‖ / 2 := (lt_div_iff₀ hM).mp (hd.trans_le (min_le_right _ _))
  have hpos : 0 < ‖t - q‖ := norm_pos_iff.mpr (sub_ne_zero.mpr ht)
  have h3 : |M| + 1 < ‖u‖ := lt_of_mul_lt_mul_left (h2.trans h1) hpos.le
  linarith [le_abs_self M]

/-- **C93** a nucleon model (either class) that returns a number somewhere is an analytic function of `t` at all points it accepts off
the four cuts. -/
theorem C93_nucleon_analytic (k : NucleonClass) (proton electric : Bool) (x : NucleonArgs) (hx : x.Proper) {t' u' : ℂ}
    (hev : k.run proton electric x t' = .ok u') :
    ∃ f : ℂ → ℂ, ∀ t, t ∉ HalfLine x.t_0_dirac_isoscalar → t ∉ HalfLine x.t_0_dirac_isovector →
      t ∉ HalfLine x.t_0_pauli_isoscalar → t ∉ HalfLine x.t_0_pauli_isovector →
      (∀ r ∈ x.resonances, t ≠ polePosition r.1 r.2 ∧ t ≠ conj (polePosition r.1 r.2)) →
      DifferentiableAt ℂ f t ∧ (0 ≤ t.re → k.run proton electric x t = .ok (f t)) := by
  obtain ⟨m, b, h⟩ := NucleonClass.run_built hx (NucleonClass.builds_of_run hev)
  have hev' := hev
  rw [h] at hev'
  have hns := (b.evalC_iff (evalC_re hev')).mp ⟨_, hev'⟩
  refine ⟨nValAt k.thr proton electric x (k.cDS x) (k.cDV x) (k.cPS x), fun t h1 h2 h3 h4 hr => ?_⟩
  have hpoles : ∀ p ∈ x.poleS.toList ++ x.poleT.toList, t ≠ p ∧ t ≠ conj p := by
    intro p hp
    simp only [NucleonArgs.resonances, List.mem_cons, List.not_mem_nil, or_false, forall_eq_or_imp, forall_eq, ← tMesonPole_eq] at hr
    obtain ⟨r1, r2, r3, r4, r5, r6, r7, r8, r9⟩ := hr
    simp only [NucleonArgs.poleS, NucleonArgs.poleT, Six.toList, Three.toList, List.cons_append, List.nil_append, List.mem_cons, List.not_mem_nil, or_false] at hp
    rcases hp with rfl | rfl | rfl | rfl | rfl | rfl | rfl | rfl | rfl <;> assumption
  refine ⟨b.differentiableAt _ _ _ h1 h2 h3 h4 hpoles, fun hre => ?_⟩
  rw [h, b.evalC_ok hre]
  · rfl
  rintro ((h' | h' | h' | h') | ⟨p, hp, h' | h'⟩ | h' | h')
  · exact ne_tin_of_offCut hx.1.le h1 h'
  · exact ne_tin_of_offCut hx.2.1.le h2 h'
  · exact ne_tin_of_offCut hx.2.2.1.le h3 h'
  · exact ne_tin_of_offCut hx.2.2.2.le h4 h'
  · exact (hpoles p hp).1 h'
  · exact (hpoles p hp).2 h'
  · exact hns (Or.inr (Or.inr (Or.inl h')))
  · exact hns (Or.inr (Or.inr (Or.inr h')))

example (k : NucleonClass) : ∃ y, k.run true true exampleNucleon 0 = .ok y ∧ exampleNucleon.Proper := by
  obtain ⟨y, hy⟩ := exampleNucleon_evaluates k true true
  exact ⟨y, hy, exampleNucleon_proper⟩

/-- **C93** a nucleon model next to a point `q` off the axis: although the contributions multiply up to three resonances, the pole is at
most of the first order, provided no two isoscalar resonances (the first six of the list) and no two isovector ones (the last three) sit
at `q`. -/
theorem C93_nucleon_pole (k : NucleonClass) (proton electric : Bool) (x : NucleonArgs) (hx : x.Proper) {t' u' : ℂ}
    (hev : k.run proton electric x t' = .ok u') (q : ℂ) (him : q.im ≠ 0) (hre : 0 < q.re)
    (hS : (x.resonances.take 6).Pairwise fun r r' => ¬ ((q = polePosition r.1 r.2 ∨ q = conj (polePosition r.1 r.2)) ∧
      (q = polePosition r'.1 r'.2 ∨ q = conj (polePosition r'.1 r'.2))))
    (hT : (x.resonances.drop 6).Pairwise fun r r' => ¬ ((q = polePosition r.1 r.2 ∨ q = conj (polePosition r.1 r.2)) ∧
      (q = polePosition r'.1 r'.2 ∨ q = conj (polePosition r'.1 r'.2)))) :
    ∃ R : ℂ, HasResidue (k.run proton electric x) q R := by
  obtain ⟨m, b, h⟩ := NucleonClass.run_built hx (NucleonClass.builds_of_run hev)
  have hev' := hev
  rw [h] at hev'
  have hns := (b.evalC_iff (evalC_re hev')).mp ⟨_, hev'⟩
  have hS' : x.poleS.toList.Pairwise fun p p' => ¬ (Hits q p ∧ Hits q p') := by
    have e : x.poleS.toList = (x.resonances.take 6).map fun r => polePosition r.1 r.2 := by
      simp [NucleonArgs.poleS, Six.toList, NucleonArgs.resonances, tMesonPole_eq]
    rw [e, List.pairwise_map]
    exact hS
  have hT' : x.poleT.toList.Pairwise fun p p' => ¬ (Hits q p ∧ Hits q p') := by
    have e : x.poleT.toList = (x.resonances.drop 6).map fun r => polePosition r.1 r.2 := by
      simp [NucleonArgs.poleT, Three.toList, NucleonArgs.resonances, tMesonPole_eq]
    rw [e, List.pairwise_map]
    exact hT
  obtain ⟨R, hR⟩ := b.atMost1 (k.cDS x) (k.cDV x) (k.cPS x) him hS' hT'
  refine ⟨R, hasResidue_of ?_ hR⟩
  have h1 := eventually_off ([(x.t_in_dirac_isoscalar : ℂ), (x.t_in_dirac_isovector : ℂ), (x.t_in_pauli_isoscalar : ℂ), (x.t_in_pauli_isovector : ℂ)] ++
      ((x.poleS.toList ++ x.poleT.toList) ++ (x.poleS.toList ++ x.poleT.toList).map conj)) q
  have h2 : ∀ᶠ t in 𝓝[≠] q, 0 < t.re := (nhdsWithin_le_nhds (s := {q}ᶜ)) ((isOpen_lt continuous_const continuous_re).mem_nhds hre)
  filter_upwards [h1, h2] with t hL hre'
  rw [h, b.evalC_ok hre'.le]
  · rfl
  rintro (h' | ⟨p, h1, h' | h'⟩ | h' | h')
  · apply hL
    refine List.mem_append_left _ ?_
    simpa using h'
  · exact hL (List.mem_append_right _ (List.mem_append_left _ (h' ▸ h1)))
  · exact hL (List.mem_append_right _ (List.mem_append_right _ (List.mem_map.mpr ⟨p, h1, h'.symm⟩)))
  · exact hns (Or.inr (Or.inr (Or.inl h')))
  · exact hns (Or.inr (Or.inr (Or.inr h')))

/-- The second `phi` resonance of the example: no other isoscalar one is there. -/
example (k : NucleonClass) : ∃ R : ℂ, HasResidue (k.run true true exampleNucleon) (polePosition 6 1) R := by
  obtain ⟨y, hy⟩ := exampleNucleon_evaluates k true true
  refine C93_nucleon_pole k true true exampleNucleon exampleNucleon_proper hy _ (by norm_num [polePosition]) (by norm_num [polePosition]) ?_ ?_ <;>
  · simp only [exampleNucleon, NucleonArgs.resonances, List.take, List.drop, List.pairwise_cons, List.mem_cons, List.not_mem_nil, or_false, forall_eq_or_imp, forall_eq,
      polePosition, Complex.ext_iff, conj_re, conj_im]
    norm_num

end UA
