import Verif.Lemmas.ContinuityWitness

/-!
# Property C85: do the fitted functions depend continuously on the parameters?

`curve_fit` follows the change of the fitted function under small changes of the parameters. The function is continuous in the
parameters except where a resonance changes its variant, and there it jumps.
-/

namespace UA

open Complex ComplexConjugate Filter Topology

/-- **C85** (the part that holds). Take a kaon object inside the maximal bounds with no resonance exactly at the change of variant,
and objects of its class inside the bounds whose values tend to its values. Then at all real `t ≥ 0` other than its inelastic
thresholds the results of the fitted functions (form factors and cross sections, the latter also needing `t ≠ 0`) tend to its
results. Missing: the objects with a resonance at the change of variant, where the claim is false (`C85_false`). -/
theorem C85_continuous_partial {ι : Type*} {l : Filter ι} {p : ModelParameters ℝ} (h : Reachable p) (hc : IsKaonClass p.cls)
    (hi : p.InsideMaximal) (hoff : p.OffSwitch) {P : ι → ModelParameters ℝ}
    (hP : ∀ i, Reachable (P i) ∧ (P i).cls = p.cls ∧ (P i).InsideMaximal) (ht : ValuesTendTo P l p)
    (kind : PartialKind) {points : List (ℝ × Bool)} (h0 : ∀ d ∈ points, 0 ≤ d.1) (hcs : kind ≠ .formFactor → ∀ d ∈ points, d.1 ≠ 0)
    (hpt : ∀ d ∈ points, ¬ ∃ q ∈ p.toList, "t_in_".toList <+: q.name.toList ∧ d.1 = q.value) :
    ResultsTendTo (fun i => kind.eval (points.map fun d => .kaon d.1 d.2) (P i)) l (kind.eval (points.map fun d => .kaon d.1 d.2) p) :=
  eval_tends h hc hi hoff hP ht kind h0 hcs hpt

/-- A case: masses 2, inelastic thresholds 2, one mass approaching its value. -/
example (m : ℕ → ℝ) (hm : Tendsto m atTop (𝓝 2)) (h1 : ∀ i, 1 < m i) : (jumpObject .kaon 2).OffSwitch ∧ (jumpObject .kaon 2).InsideMaximal ∧
    (∀ i, Reachable (jumpObject .kaon (m i)) ∧ (jumpObject .kaon (m i)).InsideMaximal) ∧
    ValuesTendTo (fun i => jumpObject .kaon (m i)) atTop (jumpObject .kaon 2) := by
  refine ⟨?_, jump_inside (c := .kaon) trivial one_lt_two, fun i => ⟨jump_reachable _ _, jump_inside (c := .kaon) trivial (h1 i)⟩, jump_values_tend _ hm⟩
  intro m hm q hq hn he
  rw [jump_values _ _ m hm, jump_values _ _ q hq, he]
  have h1 : jumpValue 2 m.name = 2 := by
    by_cases hr : m.name = "mass_rho_prime"
    · simp [jumpValue, hr]
    · have hd := prefix_head hn (c := 'm') (by decide)
      have hne : ∀ s : List Char, s.head? = some 't' → ¬ s <+: m.name.toList := fun s hs h' => by
        rw [prefix_head h' hs] at hd
        exact absurd (Option.some.inj hd) (by decide)
      rw [jumpValue_other hr (by rw [hd]; decide)]
      unfold typicalValue
      rw [if_neg (hne _ (by decide)), if_neg (hne _ (by decide)), if_pos hn]
  have h2 : jumpValue 2 (if IsIsoscalarName m.name then "t_in_isoscalar" else "t_in_isovector") = 2 := by
    split_ifs <;> simp [jumpValue, typicalValue]
  rw [h1, h2]
  norm_num

/-- **C85** is false. For every kaon class there is an object strictly inside the bounds, and objects of the class strictly inside the
bounds whose values tend to its values, such that the form factors of these at `t = 1/2` tend to a number other than its form
factor. The objects differ in the mass of the `rho_prime` alone, which reaches the square root of the inelastic threshold from
below. -/
theorem C85_false {c : ParamClass} (hc : IsKaonClass c) : ∃ (p : ModelParameters ℝ) (P : ℕ → ModelParameters ℝ) (y y' : ℝ),
    (Reachable p ∧ p.cls = c ∧ p.InsideMaximal) ∧ (∀ i, Reachable (P i) ∧ (P i).cls = c ∧ (P i).InsideMaximal) ∧
    ValuesTendTo P atTop p ∧ y ≠ y' ∧ functionFormFactor [.kaon (1 / 2 : ℝ) true] p = .ok [y] ∧
    ResultsTendTo (fun i => functionFormFactor [.kaon (1 / 2 : ℝ) true] (P i)) atTop (.ok [y']) ∧
    ¬ ResultsTendTo (fun i => functionFormFactor [.kaon (1 / 2 : ℝ) true] (P i)) atTop (functionFormFactor [.kaon (1 / 2 : ℝ) true] p) := by
  obtain ⟨y, y', hne, hy, hy'⟩ := jump_limit hc
  refine ⟨jumpObject c (Real.sqrt 2), fun i => jumpObject c (jumpMass i), y, y',
    ⟨jump_reachable _ _, rfl, jump_inside hc (by have := sqrt_two_bounds; linarith)⟩,
    fun i => ⟨jump_reachable _ _, rfl, jump_inside hc (jumpMass_bounds i).1⟩, jump_values_tend c jumpMass_tendsto, hne, hy, hy', ?_⟩
  rw [hy]
  rintro ⟨ys, h1, h2⟩
  obtain ⟨zs, h3, h4⟩ := hy'
  injection h1 with h1
  injection h3 with h3
  subst h1 h3
  have hd : 0 < |y - y'| / 2 := by have := abs_pos.mpr (sub_ne_zero.mpr hne); linarith
  obtain ⟨i, ⟨a, ha, ha'⟩, b, hb, hb'⟩ := ((h2 _ hd).and (h4 _ hd)).exists
  rw [ha] at hb
  injection hb with hb
  subst hb
  cases ha' with
  | cons ha1 ha2 =>
    cases hb' with
    | cons hb1 hb2 =>
      rw [abs_sub_comm] at ha1
      have := (abs_sub_le y _ y').trans_lt (add_lt_add ha1 hb1)
      linarith

example : IsKaonClass .kaonB := trivial

/-- **C85** one component, with either builder: away from the change of variant the value depends continuously on all four
parameters (`t` real, mass and width not zero). -/
theorem C85_component {ι : Type*} {l : Filter ι} (b : Builder) {t0 tin m g : ι → ℝ} {t_0 t_in M G : ℝ} (h0 : 0 ≤ t_0) (h : t_0 < t_in)
    (hr : t_0 < b.compared M G) (hM : M ≠ 0) (hG : G ≠ 0) (hoff : b.compared M G ≠ t_in) (hnn : ∀ i, 0 ≤ t0 i)
    (a1 : Tendsto t0 l (𝓝 t_0)) (a2 : Tendsto tin l (𝓝 t_in)) (a3 : Tendsto m l (𝓝 M)) (a4 : Tendsto g l (𝓝 G)) {t : ℝ} (ht : t ≠ t_in) :
    ∃ (f : ι → ℂ) (y : ℂ), b.value t_0 t_in M G t = .ok y ∧ (∀ᶠ i in l, b.value (t0 i) (tin i) (m i) (g i) t = .ok (f i)) ∧
      Tendsto f l (𝓝 y) := by
  have real_ne : ∀ {z : ℂ}, z.im ≠ 0 → (t : ℂ) ≠ z ∧ (t : ℂ) ≠ conj z := fun hz =>
    ⟨fun hh => hz (by rw [← hh]; simp), fun hh => hz (by have := congrArg Complex.im hh; simpa using this.symm)⟩
  have him : ∀ {M G : ℝ}, M ≠ 0 → G ≠ 0 → (polePosition M G).im ≠ 0 := fun hM hG => by simp [polePosition, hM, hG]
  have htc : ∀ {t_in : ℝ}, t ≠ t_in → (t : ℂ) ≠ t_in := fun ht hh => ht (by exact_mod_cast hh)
  obtain ⟨n1, n2⟩ := real_ne (him hM hG)
  refine ⟨fun i => Fval (if b.compared M G < t_in then .A else .B) (t0 i) (tin i) (polePosition (m i) (g i)) t, _,
    b.value_eq h0 h hr.le hM hG (htc ht) n1 n2, ?_,
    Fval_tendsto _ h0 h a1 a2 (polePosition_tendsto a3 a4) (him hM hG) (htc ht) (zOf_tendsto_real a1 t) n1 n2⟩
  have ac : Tendsto (fun i => b.compared (m i) (g i)) l (𝓝 (b.compared M G)) := by
    cases b
    · exact a3.pow 2
    · exact (a3.pow 2).sub ((a4.pow 2).div_const 4)
  have hvar : ∀ᶠ i in l, (b.compared (m i) (g i) < tin i ↔ b.compared M G < t_in) := by
    rcases lt_or_gt_of_ne hoff with hlt | hgt
    · filter_upwards [ac.eventually_lt a2 hlt] with i hi
      exact ⟨fun _ => hlt, fun _ => hi⟩
    · filter_upwards [a2.eventually_lt ac hgt] with i hi
      exact ⟨fun h' => absurd h' (not_lt.mpr hi.le), fun h' => absurd h' (not_lt.mpr (le_of_lt hgt))⟩
  filter_upwards [hvar, a1.eventually_lt a2 h, a1.eventually_lt ac hr, a3.eventually_ne hM, a4.eventually_ne hG, a2.eventually_ne ht.symm]
    with i i1 i2 i3 i4 i5 i6
  obtain ⟨k1, k2⟩ := real_ne (him i4 i5)
  rw [b.value_eq (hnn i) i2 i3.le i4 i5 (htc i6.symm) k1 k2]
  simp only [i1]

example : (1 : ℝ) < Builder.massSquared.compared 2 1 ∧ Builder.massSquared.compared 2 1 ≠ 2 ∧ (1 : ℝ) < Builder.poleRealPart.compared 2 1 ∧
    Builder.poleRealPart.compared 2 1 ≠ 2 := by norm_num [Builder.compared]

/-- **C85** the jump. A component of non-zero width whose mass reaches the change of variant from below tends, at every `t` other
than 0 (where it is 1) and the points where it is not defined, to a value different from the one it takes there. -/
theorem C85_jump (b : Builder) {t_0 t_in M G : ℝ} (h0 : 0 ≤ t_0) (h : t_0 < t_in) (hM : 0 < M) (hG : G ≠ 0) (hsw : b.compared M G = t_in)
    {t : ℂ} (htz : t ≠ 0) (htin : t ≠ t_in) (h1 : t ≠ polePosition M G) (h2 : t ≠ conj (polePosition M G)) :
    ∃ (f : ℝ → ℂ) (L y : ℂ), b.value t_0 t_in M G t = .ok y ∧ (∀ᶠ m in 𝓝[<] M, b.value t_0 t_in m G t = .ok (f m)) ∧
      Tendsto f (𝓝[<] M) (𝓝 L) ∧ L ≠ y := by
  have him : (polePosition M G).im ≠ 0 := by simp [polePosition, hM.ne', hG]
  have hid : Tendsto (fun m : ℝ => m) (𝓝[<] M) (𝓝 M) := tendsto_id.mono_left nhdsWithin_le_nhds
  have hpole : Tendsto (fun m => polePosition m G) (𝓝[<] M) (𝓝 (polePosition M G)) := polePosition_tendsto hid tendsto_const_nhds
  have hv := b.value_eq h0 h (hsw ▸ h.le) hM.ne' hG htin h1 h2
  rw [hsw, if_neg (lt_irrefl _)] at hv
  refine ⟨fun m => Fval .A t_0 t_in (polePosition m G) t, Fval .A t_0 t_in (polePosition M G) t, _, hv, ?_,
    Fval_tendsto .A h0 h tendsto_const_nhds tendsto_const_nhds hpole him htin tendsto_const_nhds h1 h2,
    Fval_variants_ne h0 h him htin htz h1 h2⟩
  have ac : Tendsto (fun m => b.compared m G) (𝓝[<] M) (𝓝 (b.compared M G)) := by
    cases b
    · exact hid.pow 2
    · exact (hid.pow 2).sub tendsto_const_nhds
  have hstrict : ∀ m, 0 < m → m < M → b.compared m G < b.compared M G := by
    intro m m0 mM
    have : m ^ 2 < M ^ 2 := by nlinarith
    cases b <;> simp only [Builder.compared] <;> linarith
  filter_upwards [self_mem_nhdsWithin, hid.eventually_const_lt hM, (tendsto_const_nhds (x := t_0)).eventually_lt ac (by rw [hsw]; exact h),
    hpole.eventually_ne h1.symm, ((Complex.continuous_conj.tendsto _).comp hpole).eventually_ne h2.symm] with m m1 m2 m3 m4 m5
  have hlt := hstrict m m2 m1
  rw [hsw] at hlt
  rw [b.value_eq h0 h m3.le m2.ne' hG htin m4.symm m5.symm, if_pos hlt]

example : Builder.massSquared.compared 2 1 = 4 ∧ Builder.poleRealPart.compared 2 1 = 15 / 4 := by norm_num [Builder.compared]

end UA
