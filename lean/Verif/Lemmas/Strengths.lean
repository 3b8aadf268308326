import Verif.Spec.Strengths
import Verif.Lemmas.ValueObject
import Verif.Lemmas.NucleonContent
import Verif.Lemmas.ContinuityNucleon

/-! Objects on a line in the space of couplings and magnetic moments. -/

namespace UA

open Complex

/-- The values on the line. -/
noncomputable def mix (s : ℝ) (v₀ v₁ : String → ℝ) (n : String) : ℝ := if IsStrengthName n then (1 - s) * v₀ n + s * v₁ n else v₀ n

theorem mix_strength {s : ℝ} {v₀ v₁ : String → ℝ} {n : String} (h : IsStrengthName n) : mix s v₀ v₁ n = (1 - s) * v₀ n + s * v₁ n := if_pos h

theorem mix_other {s : ℝ} {v₀ v₁ : String → ℝ} {n : String} (h : ¬ IsStrengthName n) : mix s v₀ v₁ n = v₀ n := if_neg h

/-- A name with another beginning. -/
theorem not_strength {a : Char} {s : List Char} {n : String} (h : (a :: s) <+: n.toList) (h1 : a ≠ 'a') (h2 : a ≠ 'm') : ¬ IsStrengthName n := by
  obtain ⟨r, hr⟩ := h
  rintro (⟨r', hr'⟩ | ⟨r', hr'⟩)
  · rw [← hr] at hr'
    exact h1 (List.cons.inj hr').1.symm
  · rw [← hr] at hr'
    exact h2 (List.cons.inj hr').1.symm

theorem not_strength_mass {n : String} (h : "mass_".toList <+: n.toList) : ¬ IsStrengthName n := by
  obtain ⟨r, hr⟩ := h
  rintro (⟨r', hr'⟩ | ⟨r', hr'⟩)
  · rw [← hr] at hr'
    exact absurd (List.cons.inj hr').1 (by decide)
  · rw [← hr] at hr'
    exact absurd (List.cons.inj (List.cons.inj (List.cons.inj hr').2).2).1 (by decide)

theorem massThreshold_mix (c : ParamClass) (s : ℝ) (v₀ v₁ : String → ℝ) (n : String) : massThreshold c (mix s v₀ v₁) n = massThreshold c v₀ n := by
  unfold massThreshold
  rw [mix_other (n := "t_0_dirac_isoscalar") (by decide), mix_other (n := "t_0_pauli_isoscalar") (by decide),
    mix_other (n := "t_0_dirac_isovector") (by decide), mix_other (n := "t_0_pauli_isovector") (by decide),
    mix_other (n := "t_0_isoscalar") (by decide), mix_other (n := "t_0_isovector") (by decide)]

theorem insideValues_mix {c : ParamClass} {v₀ : String → ℝ} (h : InsideValues c v₀) (s : ℝ) (v₁ : String → ℝ) : InsideValues c (mix s v₀ v₁) where
  t0 n hn hp := by rw [mix_other (not_strength hp (by decide) (by decide))]; exact h.t0 n hn hp
  mass n hn hp := by rw [massThreshold_mix, mix_other (not_strength_mass hp)]; exact h.mass n hn hp
  decay n hn hp := by rw [mix_other (not_strength hp (by decide) (by decide))]; exact h.decay n hn hp
  tin n hn m r h1 h2 := by
    rw [mix_other (not_strength (n := n) ⟨r, h1.symm⟩ (by decide) (by decide)),
      mix_other (not_strength (n := m) ⟨r, h2.symm⟩ (by decide) (by decide))]
    exact h.tin n hn m r h1 h2

/-- The values of an object on the line. -/
theorem values_onLine {s : ℝ} {p₀ p₁ p : ModelParameters ℝ} (hw₀ : p₀.WellFormed) (hw₁ : p₁.WellFormed) (hw : p.WellFormed)
    {v₀ v₁ : String → ℝ} (hv₀ : ∀ q ∈ p₀.data, q.value = v₀ q.name) (hv₁ : ∀ q ∈ p₁.data, q.value = v₁ q.name) (h₁ : p₁.cls = p₀.cls)
    (h : p₀.OnLine p₁ s p) : ∀ q ∈ p.data, q.value = mix s v₀ v₁ q.name := by
  obtain ⟨v, hv⟩ := hw.exists_values
  intro q hq
  have hn : q.name ∈ p.cls.table.initArgs := by rw [← hw.names]; exact List.mem_map_of_mem hq
  have hn₀ : q.name ∈ p₀.cls.table.initArgs := by rw [← h.1.1]; exact hn
  have hn₁ : q.name ∈ p₁.cls.table.initArgs := by rw [h₁]; exact hn₀
  have hm : q.name ∈ p₀.names := by rw [hw₀.names]; exact hn₀
  rw [hv q hq, ← entry_eq hw hv hn]
  by_cases hs : IsStrengthName q.name
  · rw [h.2 _ hm hs, mix_strength hs, entry_eq hw₀ hv₀ hn₀, entry_eq hw₁ hv₁ hn₁]
  · rw [h.1.2 _ hm hs, mix_other hs, entry_eq hw₀ hv₀ hn₀]

theorem onLine_end {p₀ p₁ : ModelParameters ℝ} (h : p₀.SamePositions p₁) : p₀.OnLine p₁ 1 p₁ :=
  ⟨h, fun _ _ _ => by ring⟩

theorem onLine_start {p₀ p₁ : ModelParameters ℝ} : p₀.OnLine p₁ 0 p₀ :=
  ⟨⟨rfl, fun _ _ _ => rfl⟩, fun _ _ _ => by ring⟩

/-! ### Kaons -/

theorem res_mix (c : ParamClass) (s : ℝ) (v₀ v₁ : String → ℝ) :
    (KaonArgs.ofValues c (mix s v₀ v₁)).resS = List.zipWith (fun r r' => ⟨(1 - s) * r.a + s * r'.a, r.mass, r.decay⟩)
        (KaonArgs.ofValues c (mix 0 v₀ v₁)).resS (KaonArgs.ofValues c (mix 1 v₀ v₁)).resS ∧
    (KaonArgs.ofValues c (mix s v₀ v₁)).resV = List.zipWith (fun r r' => ⟨(1 - s) * r.a + s * r'.a, r.mass, r.decay⟩)
        (KaonArgs.ofValues c (mix 0 v₀ v₁)).resV (KaonArgs.ofValues c (mix 1 v₀ v₁)).resV := by
  have hA : ∀ n ∈ ["a_omega", "a_omega_prime", "a_omega_double_prime", "a_phi", "a_phi_prime", "a_rho", "a_rho_prime", "a_rho_double_prime"],
      IsStrengthName n := by decide +kernel
  have hA' : ∀ n ∈ ["a_omega", "a_omega_prime", "a_omega_double_prime", "a_phi", "a_phi_prime", "a_rho", "a_rho_prime", "a_rho_double_prime"],
      ∀ s, mix s v₀ v₁ n = (1 - s) * v₀ n + s * v₁ n := fun n hn s => mix_strength (hA n hn)
  have hM : ∀ n ∈ ["mass_omega", "mass_omega_prime", "mass_omega_double_prime", "mass_phi", "mass_phi_prime", "mass_phi_double_prime", "mass_rho",
      "mass_rho_prime", "mass_rho_double_prime", "mass_rho_triple_prime", "decay_rate_omega", "decay_rate_omega_prime",
      "decay_rate_omega_double_prime", "decay_rate_phi", "decay_rate_phi_prime", "decay_rate_phi_double_prime", "decay_rate_rho",
      "decay_rate_rho_prime", "decay_rate_rho_double_prime", "decay_rate_rho_triple_prime"], ¬ IsStrengthName n := by decide +kernel
  have hM' : ∀ n ∈ ["mass_omega", "mass_omega_prime", "mass_omega_double_prime", "mass_phi", "mass_phi_prime", "mass_phi_double_prime", "mass_rho",
      "mass_rho_prime", "mass_rho_double_prime", "mass_rho_triple_prime", "decay_rate_omega", "decay_rate_omega_prime",
      "decay_rate_omega_double_prime", "decay_rate_phi", "decay_rate_phi_prime", "decay_rate_phi_double_prime", "decay_rate_rho",
      "decay_rate_rho_prime", "decay_rate_rho_double_prime", "decay_rate_rho_triple_prime"], ∀ s, mix s v₀ v₁ n = v₀ n :=
    fun n hn s => mix_other (hM n hn)
  simp only [List.forall_mem_cons, List.not_mem_nil, false_imp_iff, implies_true, and_true] at hA' hM'
  clear hA hM
  cases c <;>
    simp only [KaonArgs.ofValues, KaonArgs.resS, KaonArgs.resV, KaonUAModel.Args.resS, KaonUAModelB.Args.resS, KaonUAModelSimplified.Args.resS,
      KaonUAModel.Args.resV, KaonUAModelB.Args.resV, KaonUAModelSimplified.Args.resV,
      KaonUAModel.Args.ofValues, KaonUAModelB.Args.ofValues, KaonUAModelSimplified.Args.ofValues, hA', hM', List.zipWith_cons_cons,
      List.zipWith_nil_right, List.cons.injEq, Res.mk.injEq, and_true, true_and] <;>
    refine ⟨?_, ?_⟩ <;> (repeat' apply And.intro) <;> ring

theorem res_positions (c : ParamClass) (s : ℝ) (v₀ v₁ : String → ℝ) :
    (KaonArgs.ofValues c (mix s v₀ v₁)).resS.map (fun r => (r.mass, r.decay)) = (KaonArgs.ofValues c v₀).resS.map (fun r => (r.mass, r.decay)) ∧
    (KaonArgs.ofValues c (mix s v₀ v₁)).resV.map (fun r => (r.mass, r.decay)) = (KaonArgs.ofValues c v₀).resV.map (fun r => (r.mass, r.decay)) := by
  have hM : ∀ n ∈ ["mass_omega", "mass_omega_prime", "mass_omega_double_prime", "mass_phi", "mass_phi_prime", "mass_phi_double_prime", "mass_rho",
      "mass_rho_prime", "mass_rho_double_prime", "mass_rho_triple_prime", "decay_rate_omega", "decay_rate_omega_prime",
      "decay_rate_omega_double_prime", "decay_rate_phi", "decay_rate_phi_prime", "decay_rate_phi_double_prime", "decay_rate_rho",
      "decay_rate_rho_prime", "decay_rate_rho_double_prime", "decay_rate_rho_triple_prime"], ¬ IsStrengthName n := by decide +kernel
  have hM' : ∀ n ∈ ["mass_omega", "mass_omega_prime", "mass_omega_double_prime", "mass_phi", "mass_phi_prime", "mass_phi_double_prime", "mass_rho",
      "mass_rho_prime", "mass_rho_double_prime", "mass_rho_triple_prime", "decay_rate_omega", "decay_rate_omega_prime",
      "decay_rate_omega_double_prime", "decay_rate_phi", "decay_rate_phi_prime", "decay_rate_phi_double_prime", "decay_rate_rho",
      "decay_rate_rho_prime", "decay_rate_rho_double_prime", "decay_rate_rho_triple_prime"], mix s v₀ v₁ n = v₀ n :=
    fun n hn => mix_other (hM n hn)
  simp only [List.forall_mem_cons, List.not_mem_nil, false_imp_iff, implies_true, and_true] at hM'
  clear hM
  cases c <;>
    simp only [KaonArgs.ofValues, KaonArgs.resS, KaonArgs.resV, KaonUAModel.Args.resS, KaonUAModelB.Args.resS, KaonUAModelSimplified.Args.resS,
      KaonUAModel.Args.resV, KaonUAModelB.Args.resV, KaonUAModelSimplified.Args.resV,
      KaonUAModel.Args.ofValues, KaonUAModelB.Args.ofValues, KaonUAModelSimplified.Args.ofValues, hM', List.map_cons, List.map_nil, and_self]

theorem mix_zero (v₀ v₁ : String → ℝ) : mix 0 v₀ v₁ = v₀ := by
  funext n
  unfold mix
  split_ifs <;> ring

theorem kaon_formula_mix (c : ParamClass) (s : ℝ) (v₀ v₁ : String → ℝ) (ch : Bool) (t : ℝ) :
    (KaonArgs.ofValues c (mix s v₀ v₁)).formula ch t =
      (1 - s) * (KaonArgs.ofValues c v₀).formula ch t + s * (KaonArgs.ofValues c (mix 1 v₀ v₁)).formula ch t := by
  obtain ⟨r1, r2⟩ := res_mix c s v₀ v₁
  rw [mix_zero] at r1 r2
  have e1 := (res_positions c 1 v₀ v₁).1.symm
  have e2 := (res_positions c 1 v₀ v₁).2.symm
  have thr : ∀ s, (KaonArgs.ofValues c (mix s v₀ v₁)).t0S = (KaonArgs.ofValues c v₀).t0S ∧ (KaonArgs.ofValues c (mix s v₀ v₁)).tinS = (KaonArgs.ofValues c v₀).tinS ∧
      (KaonArgs.ofValues c (mix s v₀ v₁)).t0V = (KaonArgs.ofValues c v₀).t0V ∧ (KaonArgs.ofValues c (mix s v₀ v₁)).tinV = (KaonArgs.ofValues c v₀).tinV := by
    intro s
    obtain ⟨a1, a2, a3, a4⟩ := thresholds_ofValues c (mix s v₀ v₁)
    obtain ⟨b1, b2, b3, b4⟩ := thresholds_ofValues c v₀
    rw [a1, a2, a3, a4, b1, b2, b3, b4]
    exact ⟨mix_other (by decide), mix_other (by decide), mix_other (by decide), mix_other (by decide)⟩
  unfold KaonArgs.formula
  rw [r1, r2, FsumL_affine s t e1, FsumL_affine s t e2, (thr s).1, (thr s).2.1, (thr s).2.2.1, (thr s).2.2.2, (thr 1).1, (thr 1).2.1, (thr 1).2.2.1,
    (thr 1).2.2.2]
  ring

/-- On a line, squares of absolute values are quadratic. -/
theorem norm_sq_mix (s : ℝ) (a b : ℂ) :
    ‖(1 - (s : ℂ)) * a + s * b‖ ^ 2 = (1 - s) * ‖a‖ ^ 2 + s * ‖b‖ ^ 2 - s * (1 - s) * ‖a - b‖ ^ 2 := by
  rw [← Complex.normSq_eq_norm_sq, ← Complex.normSq_eq_norm_sq, ← Complex.normSq_eq_norm_sq, ← Complex.normSq_eq_norm_sq]
  simp only [Complex.normSq_apply, Complex.add_re, Complex.add_im, Complex.mul_re, Complex.mul_im, Complex.sub_re, Complex.sub_im, Complex.ofReal_re,
    Complex.ofReal_im, Complex.one_re, Complex.one_im]
  ring

theorem norm_mix_le {s : ℝ} (h0 : 0 ≤ s) (h1 : s ≤ 1) (a b : ℂ) : ‖(1 - (s : ℂ)) * a + s * b‖ ≤ (1 - s) * ‖a‖ + s * ‖b‖ := by
  refine (norm_add_le _ _).trans (le_of_eq ?_)
  rw [norm_mul, norm_mul, show (1 - (s : ℂ)) = ((1 - s : ℝ) : ℂ) by push_cast; ring, Complex.norm_real, Complex.norm_real,
    Real.norm_of_nonneg h0, Real.norm_of_nonneg (sub_nonneg.mpr h1)]

theorem getD_map_zero {α : Type*} (f : α → ℝ) : ∀ (l : List α) (i : ℕ), (l.map f).getD i 0 = ((l[i]?).map f).getD 0 := by
  intro l i
  rw [List.getD_eq_getElem?_getD, List.getElem?_map]

/-- The kaon objects on a line, evaluated. -/
theorem kaon_line_values {p₀ p₁ : ModelParameters ℝ} (h₀ : Reachable p₀) (hc : IsKaonClass p₀.cls) (hi : p₀.InsideMaximal) (h₁ : Reachable p₁)
    (hs : p₀.SamePositions p₁) (kind : PartialKind) {points : List (ℝ × Bool)} (h0 : ∀ d ∈ points, 0 ≤ d.1) {rs : List ℝ}
    (hr : kind.eval (points.map fun d => .kaon d.1 d.2) p₀ = .ok rs) {v₀ v₁ : String → ℝ} (hv₀ : ∀ q ∈ p₀.data, q.value = v₀ q.name)
    (hv₁ : ∀ q ∈ p₁.data, q.value = v₁ q.name) (s : ℝ) (p : ModelParameters ℝ) (hp : Reachable p) (hl : p₀.OnLine p₁ s p) :
    p.InsideMaximal ∧ kind.eval (points.map fun d => .kaon d.1 d.2) p =
      .ok (points.map fun d => pointValue kind d.1 ((KaonArgs.ofValues p₀.cls (mix s v₀ v₁)).formula d.2 d.1)) := by
  have hw₀ := reachable_wellFormed h₀
  have hw₁ := reachable_wellFormed h₁
  have hres : IsResonanceClass p₀.cls := by revert hc; cases p₀.cls <;> simp [IsKaonClass, IsResonanceClass]
  have hin := inside_values h₀ hres hv₀ hi
  obtain ⟨k1, -⟩ := eval_domain h₀ hc hi kind h0
  have hok := k1.mp ⟨rs, hr⟩
  have hw := reachable_wellFormed hp
  have hcls : p.cls = p₀.cls := hl.1.1
  have hv := values_onLine hw₀ hw₁ hw hv₀ hv₁ hs.1 hl
  have hip : p.InsideMaximal := insideMaximal_of_values hp (by rw [hcls]; exact hres) hv (by rw [hcls]; exact insideValues_mix hin s v₁)
  have hcp : IsKaonClass p.cls := by rw [hcls]; exact hc
  have hx := kaon_inside_wired hp hcp hip (kaon_wiring_values hw hv hcp)
  have hx₀ := kaon_inside_wired h₀ hc hi (kaon_wiring_values hw₀ hv₀ hc)
  have htin : ∀ t : ℝ, (∃ q ∈ p.toList, "t_in_".toList <+: q.name.toList ∧ t = q.value) → ∃ q ∈ p₀.toList, "t_in_".toList <+: q.name.toList ∧ t = q.value := by
    intro t ht
    rw [← hx.tin] at ht
    rw [← hx₀.tin]
    obtain ⟨-, a2, -, a4⟩ := thresholds_ofValues p.cls (mix s v₀ v₁)
    obtain ⟨-, b2, -, b4⟩ := thresholds_ofValues p₀.cls v₀
    rw [a2, a4, mix_other (by decide), mix_other (by decide)] at ht
    rw [b2, b4]
    exact ht
  refine ⟨hip, ?_⟩
  rw [hx.eval_eq kind h0 (fun hk d hd => (hok d hd).1 hk) fun d hd hh => (hok d hd).2 (htin _ hh), hcls]

theorem kaon_line {p₀ p₁ : ModelParameters ℝ} (h₀ : Reachable p₀) (hc : IsKaonClass p₀.cls) (hi : p₀.InsideMaximal) (h₁ : Reachable p₁)
    (hs : p₀.SamePositions p₁) (kind : PartialKind) {points : List (ℝ × Bool)} (h0 : ∀ d ∈ points, 0 ≤ d.1) {rs : List ℝ}
    (hr : kind.eval (points.map fun d => .kaon d.1 d.2) p₀ = .ok rs) : ∃ f₀ f₁ : ℝ × Bool → ℂ, ∀ s p, Reachable p → p₀.OnLine p₁ s p →
      kind.eval (points.map fun d => .kaon d.1 d.2) p = .ok (points.map fun d => pointValue kind d.1 ((1 - (s : ℂ)) * f₀ d + s * f₁ d)) := by
  obtain ⟨v₀, hv₀⟩ := (reachable_wellFormed h₀).exists_values
  obtain ⟨v₁, hv₁⟩ := (reachable_wellFormed h₁).exists_values
  refine ⟨fun d => (KaonArgs.ofValues p₀.cls v₀).formula d.2 d.1, fun d => (KaonArgs.ofValues p₀.cls (mix 1 v₀ v₁)).formula d.2 d.1, fun s p hp hl => ?_⟩
  rw [(kaon_line_values h₀ hc hi h₁ hs kind h0 hr hv₀ hv₁ s p hp hl).2]
  exact congrArg Except.ok (List.map_congr_left fun d _ => congrArg (pointValue kind d.1) (kaon_formula_mix _ s v₀ v₁ d.2 d.1))

/-! ### Nucleons -/

theorem nucleon_positions_mix (s : ℝ) (v₀ v₁ : String → ℝ) : (NucleonArgs.ofValues (mix s v₀ v₁)).positions = (NucleonArgs.ofValues v₀).positions := by
  have hM : ∀ n ∈ ["nucleon_mass", "t_0_dirac_isoscalar", "t_in_dirac_isoscalar", "t_0_dirac_isovector", "t_in_dirac_isovector",
      "t_0_pauli_isoscalar", "t_in_pauli_isoscalar", "t_0_pauli_isovector", "t_in_pauli_isovector", "mass_omega",
      "mass_omega_prime", "mass_omega_double_prime", "mass_phi", "mass_phi_prime", "mass_phi_double_prime",
      "mass_rho", "mass_rho_prime", "mass_rho_double_prime", "decay_rate_omega", "decay_rate_omega_prime",
      "decay_rate_omega_double_prime", "decay_rate_phi", "decay_rate_phi_prime", "decay_rate_phi_double_prime",
      "decay_rate_rho", "decay_rate_rho_prime", "decay_rate_rho_double_prime"],
      ¬ IsStrengthName n := by decide +kernel
  have hM' := fun n hn => mix_other (s := s) (v₀ := v₀) (v₁ := v₁) (hM n hn)
  simp only [List.forall_mem_cons, List.not_mem_nil, false_imp_iff, implies_true, and_true] at hM'
  simp only [NucleonArgs.positions, NucleonArgs.resonances, NucleonArgs.ofValues, hM']

theorem nucleon_strengths_mix (s : ℝ) (v₀ v₁ : String → ℝ) : (NucleonArgs.ofValues (mix s v₀ v₁)).strengths =
    List.zipWith (fun a b => (1 - s) * a + s * b) (NucleonArgs.ofValues v₀).strengths (NucleonArgs.ofValues (mix 1 v₀ v₁)).strengths := by
  have hM : ∀ n ∈ ["magnetic_moment_proton", "magnetic_moment_neutron", "a_dirac_omega", "a_dirac_omega_prime", "a_dirac_phi",
      "a_dirac_phi_prime", "a_dirac_rho", "a_pauli_omega", "a_pauli_phi", "a_pauli_phi_prime"],
      IsStrengthName n := by decide +kernel
  have hM' := fun n hn => fun s => mix_strength (s := s) (v₀ := v₀) (v₁ := v₁) (hM n hn)
  simp only [List.forall_mem_cons, List.not_mem_nil, false_imp_iff, implies_true, and_true] at hM'
  simp only [NucleonArgs.strengths, NucleonArgs.ofValues, hM', List.zipWith_cons_cons, List.zipWith_nil_right, sub_self, zero_mul, zero_add, one_mul]

/-- The cross section is a non-negative combination of the squares of the two form factors. -/
noncomputable def nucleonWeights (m a h t : ℝ) : ℝ × ℝ :=
  (‖h * 4 * Real.pi * a ^ 2 / 3 * Real.sqrt (1 - 4 * m ^ 2 / t)‖ / t, ‖h * 4 * Real.pi * a ^ 2 / 3 * Real.sqrt (1 - 4 * m ^ 2 / t)‖ / t * (4 * m ^ 2 / (2 * t)))

theorem nucleonValue_cs (x : NucleonArgs) (m a h : ℝ) {d : ℝ × Bool × Bool} (hd : 0 < d.1) :
    nucleonValue x (.crossSection m a h) d = (nucleonWeights m a h d.1).1 * ‖x.formula d.2.1 false d.1‖ ^ 2 +
      (nucleonWeights m a h d.1).2 * ‖x.formula d.2.1 true d.1‖ ^ 2 := by
  simp only [nucleonValue, nucleonWeights]
  rw [Complex.norm_real d.1, Real.norm_of_nonneg hd.le]
  have e : ((‖x.formula d.2.1 false d.1‖ : ℝ) : ℂ) ^ 2 + ((4 * m ^ 2 * ‖x.formula d.2.1 true d.1‖ ^ 2 : ℝ) : ℂ) / (2 * (d.1 : ℂ)) =
      ((‖x.formula d.2.1 false d.1‖ ^ 2 + 4 * m ^ 2 * ‖x.formula d.2.1 true d.1‖ ^ 2 / (2 * d.1) : ℝ) : ℂ) := by push_cast; ring
  rw [e, norm_mul, norm_div, Complex.norm_real, Complex.norm_real, Complex.norm_real, Real.norm_of_nonneg hd.le,
    Real.norm_of_nonneg (r := ‖x.formula d.2.1 false d.1‖ ^ 2 + 4 * m ^ 2 * ‖x.formula d.2.1 true d.1‖ ^ 2 / (2 * d.1)) (by positivity)]
  ring

/-- The nucleon objects on a line, evaluated. -/
theorem nucleon_line_values {p₀ p₁ : ModelParameters ℝ} (h₀ : Reachable p₀) (hc : p₀.cls = .nucleon) (hi : p₀.InsideMaximal) (h₁ : Reachable p₁)
    (hs : p₀.SamePositions p₁) (kind : PartialKind) {points : List (ℝ × Bool × Bool)} (h0 : ∀ d ∈ points, 0 ≤ d.1) {rs : List ℝ}
    (hr : kind.eval (points.map fun d => .nucleon d.1 d.2.1 d.2.2) p₀ = .ok rs) {v₀ v₁ : String → ℝ} (hv₀ : ∀ q ∈ p₀.data, q.value = v₀ q.name)
    (hv₁ : ∀ q ∈ p₁.data, q.value = v₁ q.name) :
      (∀ d ∈ points, kind ≠ .formFactor → 0 < d.1) ∧ ∀ s p, Reachable p → p₀.OnLine p₁ s p → p.InsideMaximal ∧
        kind.eval (points.map fun d => .nucleon d.1 d.2.1 d.2.2) p = .ok (points.map (nucleonValue (.ofValues (mix s v₀ v₁)) kind)) ∧
        ∀ d ∈ points, ∀ el, (kind ≠ .formFactor ∨ el = d.2.2) →
          (NucleonArgs.ofValues (mix s v₀ v₁)).formula d.2.1 el d.1 =
            (1 - (s : ℂ)) * (NucleonArgs.ofValues v₀).formula d.2.1 el d.1 + s * (NucleonArgs.ofValues (mix 1 v₀ v₁)).formula d.2.1 el d.1 := by
  have hw₀ := reachable_wellFormed h₀
  have hw₁ := reachable_wellFormed h₁
  have hres : IsResonanceClass p₀.cls := by rw [hc]; trivial
  have hin := inside_values h₀ hres hv₀ hi
  have hm₀ := nucleon_eval_model h₀ hc kind hr
  have hX₀ := nucleon_inside_args h₀ hc hi hm₀ (nucleon_wiring hw₀ hv₀ hc).holds
  have hok₀ := hX₀.eval_allowed kind h0 hr
  -- every object on the line
  have hX : ∀ s p, Reachable p → p₀.OnLine p₁ s p → NucleonInside p (.ofValues (mix s v₀ v₁)) := by
    intro s p hp hl
    have hw := reachable_wellFormed hp
    have hcls : p.cls = p₀.cls := hl.1.1
    have hv := values_onLine hw₀ hw₁ hw hv₀ hv₁ hs.1 hl
    have hip : p.InsideMaximal := insideMaximal_of_values hp (by rw [hcls]; exact hres) hv (by rw [hcls]; exact insideValues_mix hin s v₁)
    have hwir := nucleon_wiring hw hv (hcls.trans hc)
    refine nucleon_inside_args hp (hcls.trans hc) hip ?_ hwir.holds
    obtain ⟨M, hM⟩ := (run_defined (k := .new) (pr := true) (el := true) hX₀.proper (nucleon_positions_mix s v₀ v₁)).1.mpr (hX₀.builds true true)
    have hcheck : (NucleonArgs.ofValues (mix s v₀ v₁)).check = .ok () := by
      unfold NucleonArgs.check
      rw [hM]; rfl
    rw [← hwir.build] at hcheck
    obtain ⟨M', hM', -⟩ := except_bind_eq_ok.mp hcheck
    exact ⟨M', hM'⟩
  have hbad : ∀ s p, Reachable p → p₀.OnLine p₁ s p → ∀ d ∈ points, ∀ el, ¬ NucleonInside.Bad p₀ (.ofValues v₀) el d.1 →
      ¬ NucleonInside.Bad p (.ofValues (mix s v₀ v₁)) el d.1 := by
    intro s p hp hl d hd el hb
    rw [← hX₀.run_ok d.2.1 el (h0 d hd), ← (run_defined hX₀.proper (nucleon_positions_mix s v₀ v₁)).2] at hb
    rwa [← (hX s p hp hl).run_ok d.2.1 el (h0 d hd)]
  have hgood : ∀ d ∈ points, ∀ el, (kind ≠ .formFactor ∨ el = d.2.2) → ¬ NucleonInside.Bad p₀ (.ofValues v₀) el d.1 := by
    intro d hd el hel
    have := hok₀ d hd
    cases kind with
    | formFactor =>
      rcases hel with hel | hel
      · exact absurd rfl hel
      · rw [hel]; exact this
    | crossSection m a h => exact NucleonInside.Bad.mono this.1 el
  refine ⟨fun d hd hk => ?_, fun s p hp hl => ⟨insideMaximal_of_values hp (by rw [hl.1.1]; exact hres)
    (values_onLine hw₀ hw₁ (reachable_wellFormed hp) hv₀ hv₁ hs.1 hl) (by rw [hl.1.1]; exact insideValues_mix hin s v₁), ?_, fun d hd el hel => ?_⟩⟩
  · have := hok₀ d hd
    cases kind with
    | formFactor => exact absurd rfl hk
    | crossSection m a h => exact lt_of_le_of_ne (h0 d hd) (Ne.symm this.2.1)
  · refine (hX s p hp hl).eval_eq kind h0 fun d hd => ?_
    have := hok₀ d hd
    cases kind with
    | formFactor => exact hbad s p hp hl d hd _ this
    | crossSection m a h => exact ⟨hbad s p hp hl d hd _ this.1, this.2⟩
  · have g₀ := hgood d hd el hel
    have r₀ := hX₀.run_eq d.2.1 el (h0 d hd) g₀
    have r := (hX s p hp hl).run_eq d.2.1 el (h0 d hd) (hbad s p hp hl d hd el g₀)
    have r₁ := (hX 1 p₁ h₁ (onLine_end hs)).run_eq d.2.1 el (h0 d hd) (hbad 1 p₁ h₁ (onLine_end hs) d hd el g₀)
    exact run_affine hX₀.proper s (nucleon_positions_mix 1 v₀ v₁) (nucleon_positions_mix s v₀ v₁) (nucleon_strengths_mix s v₀ v₁) r₀ r₁ r

theorem nucleon_line {p₀ p₁ : ModelParameters ℝ} (h₀ : Reachable p₀) (hc : p₀.cls = .nucleon) (hi : p₀.InsideMaximal) (h₁ : Reachable p₁)
    (hs : p₀.SamePositions p₁) (kind : PartialKind) {points : List (ℝ × Bool × Bool)} (h0 : ∀ d ∈ points, 0 ≤ d.1) {rs : List ℝ}
    (hr : kind.eval (points.map fun d => .nucleon d.1 d.2.1 d.2.2) p₀ = .ok rs) : ∃ x₀ x₁ : NucleonArgs,
      (∀ d ∈ points, kind ≠ .formFactor → 0 < d.1) ∧ ∀ s p, Reachable p → p₀.OnLine p₁ s p → ∃ x : NucleonArgs,
        kind.eval (points.map fun d => .nucleon d.1 d.2.1 d.2.2) p = .ok (points.map (nucleonValue x kind)) ∧
        ∀ d ∈ points, ∀ el, (kind ≠ .formFactor ∨ el = d.2.2) →
          x.formula d.2.1 el d.1 = (1 - (s : ℂ)) * x₀.formula d.2.1 el d.1 + s * x₁.formula d.2.1 el d.1 := by
  obtain ⟨v₀, hv₀⟩ := (reachable_wellFormed h₀).exists_values
  obtain ⟨v₁, hv₁⟩ := (reachable_wellFormed h₁).exists_values
  obtain ⟨hpos, hf⟩ := nucleon_line_values h₀ hc hi h₁ hs kind h0 hr hv₀ hv₁
  exact ⟨_, _, hpos, fun s p hp hl => ⟨_, (hf s p hp hl).2.1, (hf s p hp hl).2.2⟩⟩

/-! ### Objects on a line -/

/-- Changing couplings and magnetic moments alone. -/
theorem valueObject_same {c : ParamClass} {v v' : String → ℝ} (h : ∀ n, ¬ IsStrengthName n → v' n = v n) :
    (valueObject c v).SamePositions (valueObject c v') := by
  refine ⟨rfl, fun n hn hs => ?_⟩
  have hm : n ∈ c.table.initArgs := by
    have hw := reachable_wellFormed (valueObject_reachable c v)
    exact hw.names ▸ hn
  rw [valueObject_entry hm, valueObject_entry hm, h n hs]

theorem line_exists {p₀ p₁ : ModelParameters ℝ} (h₀ : Reachable p₀) (h₁ : Reachable p₁) (hs : p₀.SamePositions p₁) (s : ℝ) :
    ∃ p, Reachable p ∧ p₀.OnLine p₁ s p := by
  have hw₀ := reachable_wellFormed h₀
  have hw₁ := reachable_wellFormed h₁
  obtain ⟨v₀, hv₀⟩ := hw₀.exists_values
  obtain ⟨v₁, hv₁⟩ := hw₁.exists_values
  have hm : ∀ n ∈ p₀.names, n ∈ p₀.cls.table.initArgs := fun n hn => hw₀.names ▸ hn
  refine ⟨valueObject p₀.cls (mix s v₀ v₁), valueObject_reachable _ _, ⟨rfl, fun n hn hn' => ?_⟩, fun n hn hn' => ?_⟩
  · rw [valueObject_entry (hm n hn), mix_other hn', entry_eq hw₀ hv₀ (hm n hn)]
  · rw [valueObject_entry (hm n hn), mix_strength hn', entry_eq hw₀ hv₀ (hm n hn), entry_eq hw₁ hv₁ (by rw [hs.1]; exact hm n hn)]

end UA
