import Verif.Lemmas.FitScriptsRun

/-!
# Helper lemmas: the fitted nucleon functions inside the bounds
-/

namespace UA

open Complex ComplexConjugate Spec

theorem NucleonClass.builds_switch {x : NucleonArgs} {pr el : Bool} (h : NucleonClass.new.Builds pr el x) (pr' el' : Bool) :
    NucleonClass.new.Builds pr' el' x := by
  obtain ⟨m, hm⟩ := h
  unfold NucleonUAModel.init NucleonBase.init at hm
  show ∃ m, NucleonUAModel.init pr' el' x = .ok m
  unfold NucleonUAModel.init NucleonBase.init
  refine bindE hm fun b e hm => ?_
  refine bindE e fun a0 e0 e => ?_
  refine bindE e fun a1 e1 e => ?_
  refine bindE e fun a2 e2 e => ?_
  refine bindE e fun a3 e3 e => ?_
  refine bindE e fun a4 e4 e => ?_
  refine bindE e fun a5 e5 e => ?_
  refine bindE e fun a6 e6 e => ?_
  refine bindE e fun a7 e7 e => ?_
  simp only [e0, e1, e2, e3, e4, e5, e6, e7, except_ok_bind]
  exact ⟨_, rfl⟩

theorem NucleonClass.degenerate_switch {x : NucleonArgs} (hx : x.Proper) {pr el : Bool} (h : NucleonClass.new.Builds pr el x) (pr' el' : Bool) :
    NucleonClass.new.Degenerate pr el x ↔ NucleonClass.new.Degenerate pr' el' x := by
  rw [NucleonClass.degenerate_iff hx h, NucleonClass.degenerate_iff hx (NucleonClass.builds_switch h pr' el')]

/-- Parameters inside the "maximal" bounds from which a nucleon model can be built. -/
structure NucleonInside (p : ModelParameters ℝ) (x : NucleonArgs) : Prop where
  wiring : NucleonWiring p x
  proper : x.Proper
  builds : ∀ pr el, NucleonClass.new.Builds pr el x
  check : x.check = .ok ()
  res : ∀ r ∈ x.resonances, r.1 ≠ 0 ∧ r.2 ≠ 0
  tin : ∀ t : ℝ, (t = x.t_in_dirac_isoscalar ∨ t = x.t_in_dirac_isovector ∨ t = x.t_in_pauli_isoscalar ∨ t = x.t_in_pauli_isovector) ↔
    ∃ q ∈ p.toList, "t_in_".toList <+: q.name.toList ∧ t = q.value

/-- The arguments are determined by the object. -/
theorem nucleonArgs_unique {p : ModelParameters ℝ} (hw : p.WellFormed) {v : String → ℝ} (hv : ∀ q ∈ p.data, q.value = v q.name) {x : NucleonArgs}
    (hx : p.HoldsExactly x.byName) : x = .ofValues v := by
  have key : ∀ n y, (n, y) ∈ x.byName → y = v n := fun n y h => ((hw.holds_iff hv).mp (hx.1 _ h)).2
  cases x
  simp only [NucleonArgs.ofValues, NucleonArgs.mk.injEq]
  and_intros <;> exact key _ _ (by simp [NucleonArgs.byName])

theorem nucleon_tin_names : ∀ n ∈ ParamClass.nucleon.table.initArgs, "t_in_".toList <+: n.toList →
    n = "t_in_dirac_isoscalar" ∨ n = "t_in_dirac_isovector" ∨ n = "t_in_pauli_isoscalar" ∨ n = "t_in_pauli_isovector" := by decide +kernel

theorem nucleon_inside {p : ModelParameters ℝ} (h : Reachable p) (hc : p.cls = .nucleon) (hi : p.InsideMaximal) (hm : ∃ m, getFFModel p = .ok m) :
    ∃ x, NucleonInside p x := by
  have hw := reachable_wellFormed h
  obtain ⟨v, hv⟩ := hw.exists_values
  have hx := nucleon_wiring hw hv hc
  have hin := inside_values h (by rw [hc]; trivial) hv hi
  rw [hc] at hin
  have hcheck : (NucleonArgs.ofValues v).check = .ok () := by
    obtain ⟨m, hm⟩ := hm
    rw [← hx.build, hm]; rfl
  have hb : NucleonClass.new.Builds true true (.ofValues v) := by
    obtain ⟨m, hm, -⟩ := except_bind_eq_ok.mp (show (do let _ ← NucleonUAModel.init true true (.ofValues v); return ()) = Except.ok () from hcheck)
    exact ⟨m, hm⟩
  have mass : ∀ n ∈ ParamClass.nucleon.table.initArgs, "mass_".toList <+: n.toList → v n ≠ 0 := fun n hn hp => by
    refine (lt_of_le_of_lt ?_ (hin.mass n hn hp)).ne'
    unfold massThreshold
    split_ifs <;> simp [Real.sqrt_nonneg]
  have width : ∀ n ∈ ParamClass.nucleon.table.initArgs, "decay_rate_".toList <+: n.toList → v n ≠ 0 := fun n hn hp => (hin.decay n hn hp).ne'
  have tin : ∀ n m s, n ∈ ParamClass.nucleon.table.initArgs → n.toList = "t_in_".toList ++ s → m.toList = "t_0_".toList ++ s → v m < v n :=
    fun n m s hn h1 h2 => hin.tin n hn m s h1 h2
  refine ⟨_, hx, ⟨?_, ?_, ?_, ?_⟩, fun pr el => NucleonClass.builds_switch hb pr el, hcheck, ?_, ?_⟩
  · exact tin "t_in_dirac_isoscalar" "t_0_dirac_isoscalar" "dirac_isoscalar".toList (by decide +kernel) (by decide) (by decide)
  · exact tin "t_in_dirac_isovector" "t_0_dirac_isovector" "dirac_isovector".toList (by decide +kernel) (by decide) (by decide)
  · exact tin "t_in_pauli_isoscalar" "t_0_pauli_isoscalar" "pauli_isoscalar".toList (by decide +kernel) (by decide) (by decide)
  · exact tin "t_in_pauli_isovector" "t_0_pauli_isovector" "pauli_isovector".toList (by decide +kernel) (by decide) (by decide)
  · intro r hr
    simp only [NucleonArgs.resonances, List.mem_cons, List.not_mem_nil, or_false] at hr
    rcases hr with rfl | rfl | rfl | rfl | rfl | rfl | rfl | rfl | rfl <;>
      exact ⟨mass _ (by decide +kernel) (by decide), width _ (by decide +kernel) (by decide)⟩
  · intro t
    have entry : ∀ n ∈ ParamClass.nucleon.table.initArgs, ∃ q ∈ p.toList, q.name = n ∧ q.value = v n := by
      intro n hn
      rw [← hc, ← hw.names] at hn
      obtain ⟨q, hq, rfl⟩ := List.mem_map.mp hn
      exact ⟨q, hq, rfl, hv q hq⟩
    have pick : ∀ n ∈ ParamClass.nucleon.table.initArgs, "t_in_".toList <+: n.toList → t = v n →
        ∃ q ∈ p.toList, "t_in_".toList <+: q.name.toList ∧ t = q.value := by
      rintro n hn hp rfl
      obtain ⟨q, hq, rfl, hqv⟩ := entry n hn
      exact ⟨q, hq, hp, hqv.symm⟩
    constructor
    · rintro (h | h | h | h)
      · exact pick "t_in_dirac_isoscalar" (by decide +kernel) (by decide) h
      · exact pick "t_in_dirac_isovector" (by decide +kernel) (by decide) h
      · exact pick "t_in_pauli_isoscalar" (by decide +kernel) (by decide) h
      · exact pick "t_in_pauli_isovector" (by decide +kernel) (by decide) h
    · rintro ⟨q, hq, hn, rfl⟩
      have hmem : q.name ∈ ParamClass.nucleon.table.initArgs := by rw [← hc, ← hw.names]; exact List.mem_map_of_mem hq
      rcases nucleon_tin_names _ hmem hn with h' | h' | h' | h' <;> rw [hv q hq, h']
      · exact Or.inl rfl
      · exact Or.inr (Or.inl rfl)
      · exact Or.inr (Or.inr (Or.inl rfl))
      · exact Or.inr (Or.inr (Or.inr rfl))

theorem nucleon_inside_args {p : ModelParameters ℝ} (h : Reachable p) (hc : p.cls = .nucleon) (hi : p.InsideMaximal) (hm : ∃ m, getFFModel p = .ok m)
    {x : NucleonArgs} (hx : p.HoldsExactly x.byName) : NucleonInside p x := by
  obtain ⟨y, hy⟩ := nucleon_inside h hc hi hm
  have hw := reachable_wellFormed h
  obtain ⟨v, hv⟩ := hw.exists_values
  rw [nucleonArgs_unique hw hv hx, ← nucleonArgs_unique hw hv hy.wiring.holds]
  exact hy

/-- No pole lies on the real line. -/
theorem NucleonInside.no_pole {p : ModelParameters ℝ} {x : NucleonArgs} (hx : NucleonInside p x) (t : ℝ) :
    ¬ ∃ r ∈ x.resonances, (t : ℂ) = polePosition r.1 r.2 ∨ (t : ℂ) = conj (polePosition r.1 r.2) := by
  rintro ⟨r, hr, h⟩
  obtain ⟨h1, h2⟩ := hx.res r hr
  have him : (polePosition r.1 r.2).im = 0 := by
    rcases h with h | h
    · rw [← h]; simp
    · simpa using (congrArg Complex.im h).symm
  exact mul_ne_zero h1 h2 (neg_eq_zero.mp him)

/-- What keeps a nucleon model from being evaluated at a real point. -/
def NucleonInside.Bad (p : ModelParameters ℝ) (x : NucleonArgs) (electric : Bool) (t : ℝ) : Prop :=
  (∃ q ∈ p.toList, "t_in_".toList <+: q.name.toList ∧ t = q.value) ∨ NucleonClass.new.Degenerate true true x ∨
    (electric = true ∧ x.nucleon_mass = 0)

theorem NucleonInside.singular {p : ModelParameters ℝ} {x : NucleonArgs} (hx : NucleonInside p x) (pr el : Bool) (t : ℝ) :
    NucleonClass.new.Singular pr el x t ↔ NucleonInside.Bad p x el t := by
  unfold NucleonClass.Singular NucleonInside.Bad
  rw [← hx.tin, NucleonClass.degenerate_switch hx.proper (hx.builds pr el) true true, or_iff_right (hx.no_pole t) (a := ∃ r ∈ x.resonances, _)]
  simp only [Complex.ofReal_inj]

theorem NucleonInside.run_ok {p : ModelParameters ℝ} {x : NucleonArgs} (hx : NucleonInside p x) (pr el : Bool) {t : ℝ} (ht : 0 ≤ t) :
    (∃ y, NucleonClass.new.run pr el x t = .ok y) ↔ ¬ NucleonInside.Bad p x el t := by
  rw [(C63_nucleon_domain .new pr el x hx.proper (hx.builds pr el) t).2.2, hx.singular]
  exact and_iff_right (by simpa using ht)

theorem NucleonInside.run_error {p : ModelParameters ℝ} {x : NucleonArgs} (hx : NucleonInside p x) (pr el : Bool) {t : ℝ} (ht : 0 ≤ t) {e : PyErr}
    (he : NucleonClass.new.run pr el x t = .error e) : e = .zeroDivisionError := by
  obtain ⟨-, h2, h3⟩ := C63_nucleon_domain .new pr el x hx.proper (hx.builds pr el) (t : ℂ)
  have h0 : 0 ≤ ((t : ℝ) : ℂ).re := by simpa using ht
  by_cases hs : NucleonClass.new.Singular pr el x t
  · have := h2.mpr ⟨h0, hs⟩
    rw [he] at this
    injection this
  · obtain ⟨y, hy⟩ := h3.mpr ⟨h0, hs⟩
    rw [he] at hy; cases hy

/-- The whole cross section at a real point. -/
theorem NucleonInside.cs {p : ModelParameters ℝ} {x : NucleonArgs} (hx : NucleonInside p x) (pr : Bool) {t : ℝ} (ht : 0 ≤ t) (m α hc2 : ℝ) :
    ((∃ y, (do
        let GE ← NucleonClass.new.run pr true x t
        let GM ← NucleonClass.new.run pr false x t
        (NucleonCS.init m α hc2).formula t ‖GE‖ ‖GM‖) = .ok y) ↔ ¬ NucleonInside.Bad p x true t ∧ t ≠ 0 ∧ 4 * m ^ 2 ≤ t) ∧
    ∀ e, (do
        let GE ← NucleonClass.new.run pr true x t
        let GM ← NucleonClass.new.run pr false x t
        (NucleonCS.init m α hc2).formula t ‖GE‖ ‖GM‖) = .error e →
      e = .zeroDivisionError ∨ (e = .valueError ∧ t ≠ 0 ∧ t < 4 * m ^ 2) := by
  have hbad : ¬ NucleonInside.Bad p x true t → ¬ NucleonInside.Bad p x false t := by
    rintro h (h1 | h1 | h1)
    · exact h (Or.inl h1)
    · exact h (Or.inr (Or.inl h1))
    · exact Bool.false_ne_true h1.1
  have o1 := hx.run_ok pr true ht
  have e1 := fun e => hx.run_error pr true ht (e := e)
  have o2 := hx.run_ok pr false ht
  have e2 := fun e => hx.run_error pr false ht (e := e)
  rcases h1 : NucleonClass.new.run pr true x t with e | GE
  · rw [h1] at o1
    refine ⟨⟨(by rintro ⟨y, hy⟩; cases hy), fun h => ?_⟩, ?_⟩
    · obtain ⟨y, hy⟩ := o1.mpr h.1; cases hy
    · intro e' he'
      injection he' with he'
      exact Or.inl (he' ▸ e1 e h1)
  · have hb := o1.mp ⟨GE, h1⟩
    rcases h2 : NucleonClass.new.run pr false x t with e | GM
    · obtain ⟨y, hy⟩ := o2.mpr (hbad hb)
      rw [h2] at hy; cases hy
    · simp only [except_ok_bind]
      have hn : ‖(t : ℂ)‖ = t := by rw [Complex.norm_real, Real.norm_eq_abs, abs_of_nonneg ht]
      by_cases h0 : t = 0
      · subst h0
        rw [Complex.ofReal_zero, NucleonCS.formula_zero]
        simp
      · have h0' : (t : ℂ) ≠ 0 := by exact_mod_cast h0
        rcases lt_or_ge t (4 * m ^ 2) with h | h
        · rw [NucleonCS.formula_low h0' (by rw [hn]; exact h)]
          simp [h0, h]
        · rw [NucleonCS.formula_ok h0' (by rw [hn]; exact h)]
          simp [h0, h, hb]

end UA
