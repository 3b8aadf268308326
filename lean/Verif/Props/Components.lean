import Verif.Props.Maps
import Verif.Lemmas.ComponentsRun

/-!
# Properties C10 - C17: resonance components

`Builder` ranges over the two texts of `_build_component` in the repository, so every statement is about both.
-/

namespace UA

open Complex ComplexConjugate Filter Topology Spec

/-! ### C10 -/

/-- **C10** is false of the code: with `t_in = t_0 > 0` (accepted by the validation) every resonance with
`mass² > t_0` gives a component that was built without complaint but raises `ZeroDivisionError` at every `w`. -/
theorem C10_degenerate_always_raises (t_0 mass decay : ℝ) (h0 : 0 < t_0) (hm : t_0 < mass ^ 2) :
    ∃ c, buildComponent t_0 t_0 mass decay = .ok c ∧ ∀ w, c.call w = .error .zeroDivisionError := by
  have hp : tMesonPole mass decay ≠ t_0 := by
    intro h
    exact hm.ne' ((tMesonPole_eq_real h0.le).mp h).2
  have h00 : (0 : ℂ) ≠ t_0 := by intro h; exact h0.ne (by exact_mod_cast h)
  refine ⟨mkComp .B (-1) (-1), ?_, ?_⟩
  · rw [buildComponent_eq]
    simp only [buildWith, TtoW_init_ok h0.le (le_refl _), except_ok_bind, degenerate_call hp, degenerate_call h00,
      not_lt.mpr hm.le, if_false]
    exact comp_init_ok (by norm_num)
  · intro w
    simp [UAComponent.call, UAComponent.evalAsymptoticFactor, mkComp, pyDiv_zero]

example : ∃ c, buildComponent 1 1 2 (1/10) = .ok c ∧ ∀ w, c.call w = .error .zeroDivisionError :=
  C10_degenerate_always_raises 1 2 (1/10) (by norm_num) (by norm_num)

/-- **C10** the universally quantified claim fails. -/
theorem C10_false :
    ¬ ∀ t_0 t_in mass decay : ℝ, ∀ c, buildComponent t_0 t_in mass decay = .ok c → ∃ w v, c.call w = .ok v := by
  intro h
  obtain ⟨c, hc, hall⟩ := C10_degenerate_always_raises 1 2 0 (by norm_num) (by norm_num)
  obtain ⟨w, v, hw⟩ := h 1 1 2 0 c hc
  rw [hall w] at hw
  cases hw

/-- **C11** every built component is exactly 1 at `t = 0`. -/
theorem C11_component_normalised (b : Builder) (t_0 t_in mass decay : ℝ) (h0 : 0 ≤ t_0) (h : t_0 < t_in)
    (c : UAComponent) (hb : b.build t_0 t_in mass decay = .ok c) : evalAt t_0 t_in c 0 = .ok 1 := by
  obtain ⟨v, B⟩ := Builder.built h0 h hb
  have hz := zero_ne_tin h0 h
  have hne : (0 : ℂ) ≠ polePosition mass decay := Ne.symm B.hpz
  have hne' : (0 : ℂ) ≠ conj (polePosition mass decay) := by
    intro h'; exact B.hpz (by simpa using h'.symm)
  rw [evalAt_eq h0 h hz, B.call_ok hz hne hne', B.Fval_zero]

example (b : Builder) : ∃ c, b.build 1 2 (3/2) (1/10) = .ok c ∧ evalAt 1 2 c 0 = .ok 1 := by
  obtain ⟨c, hc⟩ := exampleComponent b
  exact ⟨c, hc, C11_component_normalised b 1 2 (3/2) (1/10) (by norm_num) (by norm_num) c hc⟩

/-- **C10** what does hold: for the documented region `t_0 < t_in` a built component can be evaluated. -/
theorem C10_component_usable_partial (b : Builder) (t_0 t_in mass decay : ℝ) (h0 : 0 ≤ t_0) (h : t_0 < t_in)
    (c : UAComponent) (hb : b.build t_0 t_in mass decay = .ok c) : ∃ w v, c.call w = .ok v := by
  have h1 := C11_component_normalised b t_0 t_in mass decay h0 h c hb
  rw [evalAt_eq h0 h (zero_ne_tin h0 h)] at h1
  exact ⟨_, _, h1⟩

example (b : Builder) : ∃ c, b.build 1 2 (3/2) (1/10) = .ok c ∧ ∃ w v, c.call w = .ok v := by
  obtain ⟨c, hc⟩ := exampleComponent b
  exact ⟨c, hc, C10_component_usable_partial b 1 2 (3/2) (1/10) (by norm_num) (by norm_num) c hc⟩

/-! ### C12 -/

/-- **C12** (kaon-style builder) which outcome, exactly when. -/
theorem C12_thresholds (t_0 t_in mass decay : ℝ) (h0 : 0 ≤ t_0) (h : t_0 < t_in) :
    ThresholdSpec t_0 t_in (mass ^ 2) mass decay (buildComponent t_0 t_in mass decay) := by
  rw [buildComponent_eq]; exact buildWith_threshold _ _ _ _ _ h0 h (fun _ => rfl)

/-- **C12** (nucleon builder) the same with `mass² - decay²/4` as the threshold quantity. -/
theorem C12_thresholds_nucleon (t_0 t_in mass decay : ℝ) (h0 : 0 ≤ t_0) (h : t_0 < t_in) :
    ThresholdSpec t_0 t_in (mass ^ 2 - decay ^ 2 / 4) mass decay (nucleonBuildComponent t_0 t_in mass decay) := by
  rw [nucleonBuildComponent_eq, tMesonPole_re]
  exact buildWith_threshold _ _ _ _ _ h0 h (fun h => by rw [h]; ring)

example : ∃ c, buildComponent 1 2 (3/2) (1/10) = .ok c ∧ c.variant = .B :=
  (C12_thresholds 1 2 (3/2) (1/10) (by norm_num) (by norm_num)).2.2.2.mpr ⟨by norm_num, by norm_num⟩
example : ∃ c, nucleonBuildComponent 1 2 (5/4) (1/10) = .ok c ∧ c.variant = .A :=
  (C12_thresholds_nucleon 1 2 (5/4) (1/10) (by norm_num) (by norm_num)).2.2.1.mpr
    ⟨by norm_num, by norm_num, by norm_num⟩

/-! ### C13 -/

/-- **C13** with zero width the component is the VMD pole term `m²/(m² - t)`, for both builders and variants. -/
theorem C13_zero_width_is_vmd (b : Builder) (t_0 t_in mass : ℝ) (h0 : 0 ≤ t_0) (h : t_0 < t_in) (hm : t_0 < mass ^ 2)
    (hm' : mass ^ 2 ≠ t_in) (t : ℂ) (ht : t ≠ t_in) (htm : t ≠ (mass : ℂ) ^ 2) :
    (do let c ← b.build t_0 t_in mass 0; evalAt t_0 t_in c t) = .ok ((mass : ℂ) ^ 2 / ((mass : ℂ) ^ 2 - t)) := by
  have hne : ((mass ^ 2 : ℝ) : ℂ) ≠ t_in := by intro h'; exact hm' (by exact_mod_cast h')
  have hne0 : ((mass ^ 2 : ℝ) : ℂ) ≠ t_0 := by intro h'; exact hm.ne' (by exact_mod_cast h')
  have e : b.build t_0 t_in mass 0 = buildWith t_0 t_in (mass ^ 2) ((mass ^ 2 : ℝ) : ℂ) := by
    cases b
    · show buildComponent t_0 t_in mass 0 = _
      rw [buildComponent_eq, tMesonPole_zero_width]
    · show nucleonBuildComponent t_0 t_in mass 0 = _
      rw [nucleonBuildComponent_eq, tMesonPole_zero_width, ofReal_re]
  rw [e, buildWith_ok h0 h hne hne0 hm.le, except_ok_bind, evalAt_eq h0 h ht]
  have B : Built t_0 t_in ((mass ^ 2 : ℝ) : ℂ) (if mass ^ 2 < t_in then .A else .B)
      (mkComp (if mass ^ 2 < t_in then .A else .B) (Wval t_0 t_in 0) (Wval t_0 t_in ((mass ^ 2 : ℝ) : ℂ))) :=
    ⟨h0, h, hne0, hne, by
      intro h'; have : mass ^ 2 = 0 := by exact_mod_cast h'
      linarith, rfl⟩
  have htm' : t ≠ ((mass ^ 2 : ℝ) : ℂ) := by push_cast; exact htm
  rw [B.call_ok ht htm' (by rw [conj_ofReal]; exact htm'), Fval_zero_width h0 h hm hm' ht htm']
  push_cast; rfl

example : (0 : ℝ) ≤ 1 ∧ (1 : ℝ) < 2 ∧ (1 : ℝ) < 3 ^ 2 ∧ (3 : ℝ) ^ 2 ≠ 2 ∧ (I : ℂ) ≠ (2 : ℝ) ∧ (I : ℂ) ≠ ((3 : ℝ) : ℂ) ^ 2 := by
  refine ⟨by norm_num, by norm_num, by norm_num, by norm_num, ?_, ?_⟩
  · intro h; have := congrArg Complex.im h; simp at this
  · intro h; have := congrArg Complex.im h; simp [pow_two] at this

/-! ### C14 -/

/-- **C14** evaluation raises exactly at the resonance position and its mirror image. -/
theorem C14_poles (b : Builder) (t_0 t_in mass decay : ℝ) (h0 : 0 ≤ t_0) (h : t_0 < t_in)
    (c : UAComponent) (hb : b.build t_0 t_in mass decay = .ok c) (t : ℂ) (ht : t ≠ t_in) :
    (evalAt t_0 t_in c t = .error .zeroDivisionError ↔
      t = polePosition mass decay ∨ t = conj (polePosition mass decay)) ∧
    ((∃ x, evalAt t_0 t_in c t = .ok x) ↔
      t ≠ polePosition mass decay ∧ t ≠ conj (polePosition mass decay)) := by
  obtain ⟨v, B⟩ := Builder.built h0 h hb
  rw [evalAt_eq h0 h ht]
  by_cases hp : t = polePosition mass decay ∨ t = conj (polePosition mass decay)
  · rw [B.call_error ht hp]
    refine ⟨by simp [hp], by simp; tauto⟩
  · have hp' := not_or.mp hp
    rw [B.call_ok ht hp'.1 hp'.2]
    refine ⟨by simp [hp], by simp [hp'.1, hp'.2]⟩

example (b : Builder) : ∃ c, b.build 1 2 (3/2) (1/10) = .ok c ∧
    evalAt 1 2 c (polePosition (3/2) (1/10)) = .error .zeroDivisionError ∧ ∃ x, evalAt 1 2 c 5 = .ok x := by
  obtain ⟨c, hc⟩ := exampleComponent b
  have h := C14_poles b 1 2 (3/2) (1/10) (by norm_num) (by norm_num) c hc
  refine ⟨c, hc, (h _ ?_).1.mpr (Or.inl rfl), (h 5 (by norm_num)).2.mpr ⟨?_, ?_⟩⟩ <;>
  · intro h'
    have := congrArg Complex.im h'
    norm_num [polePosition] at this

/-- **C14** on real data a resonance with non-zero mass and width never raises. -/
theorem C14_real_defined (b : Builder) (t_0 t_in mass decay : ℝ) (h0 : 0 ≤ t_0) (h : t_0 < t_in)
    (c : UAComponent) (hb : b.build t_0 t_in mass decay = .ok c) (hm : mass ≠ 0) (hd : decay ≠ 0)
    (x : ℝ) (hx : x ≠ t_in) : ∃ y, evalAt t_0 t_in c x = .ok y := by
  have hx' : (x : ℂ) ≠ t_in := by intro h'; exact hx (by exact_mod_cast h')
  rw [(C14_poles b t_0 t_in mass decay h0 h c hb x hx').2]
  constructor
  · intro h'
    have := congrArg Complex.im h'
    simp [polePosition, hm, hd] at this
  · intro h'
    have := congrArg Complex.im h'
    simp [polePosition, hm, hd] at this

example (b : Builder) : ∃ c, b.build 1 2 (3/2) (1/10) = .ok c ∧ ∀ x : ℝ, x ≠ 2 → ∃ y, evalAt 1 2 c x = .ok y := by
  obtain ⟨c, hc⟩ := exampleComponent b
  exact ⟨c, hc, C14_real_defined b 1 2 (3/2) (1/10) (by norm_num) (by norm_num) c hc (by norm_num) (by norm_num)⟩

/-! ### C15 -/

/-- **C15** what holds: off the cut and off the two resonance positions the component is holomorphic.
Missing from the stated property: the two positions themselves, see `C15_physical_sheet_poles`. -/
theorem C15_holomorphic_partial (b : Builder) (t_0 t_in mass decay : ℝ) (h0 : 0 ≤ t_0) (h : t_0 < t_in)
    (c : UAComponent) (hb : b.build t_0 t_in mass decay = .ok c) :
    ∃ f : ℂ → ℂ, ∀ t, t ∉ HalfLine t_0 → t ≠ polePosition mass decay → t ≠ conj (polePosition mass decay) →
      evalAt t_0 t_in c t = .ok (f t) ∧ DifferentiableAt ℂ f t := by
  obtain ⟨v, B⟩ := Builder.built h0 h hb
  refine ⟨Fval v t_0 t_in (polePosition mass decay), fun t ht h1 h2 => ⟨?_, ?_⟩⟩
  · rw [evalAt_eq h0 h (ne_tin_of_offCut h.le ht), B.call_ok (ne_tin_of_offCut h.le ht) h1 h2]
  · exact Fval_differentiableAt h B.hp0 B.hpin ht h1 h2

example (b : Builder) : ∃ c, b.build 1 2 (3/2) (1/10) = .ok c ∧ ∃ f : ℂ → ℂ, evalAt 1 2 c I = .ok (f I) ∧ DifferentiableAt ℂ f I := by
  obtain ⟨c, hc⟩ := exampleComponent b
  obtain ⟨f, hf⟩ := C15_holomorphic_partial b 1 2 (3/2) (1/10) (by norm_num) (by norm_num) c hc
  refine ⟨c, hc, f, hf I (by simp [HalfLine]) ?_ ?_⟩ <;>
  · intro h'
    have := congrArg Complex.im h'
    norm_num [polePosition] at this

/-- **C15** is false as stated: for every built resonance with non-zero mass and width, the resonance position is off
the cut (so on the physical sheet of the code's map), the evaluation raises there, and the values next to it are
unbounded. -/
theorem C15_physical_sheet_poles (b : Builder) (t_0 t_in mass decay : ℝ) (h0 : 0 ≤ t_0) (h : t_0 < t_in)
    (c : UAComponent) (hb : b.build t_0 t_in mass decay = .ok c) (hm : mass ≠ 0) (hd : decay ≠ 0) :
    polePosition mass decay ∉ HalfLine t_0 ∧
    evalAt t_0 t_in c (polePosition mass decay) = .error .zeroDivisionError ∧
    ∀ f : ℂ → ℂ, (∀ᶠ t in 𝓝[≠] (polePosition mass decay), evalAt t_0 t_in c t = .ok (f t)) →
      Tendsto (fun t => ‖f t‖) (𝓝[≠] (polePosition mass decay)) atTop := by
  have hoff : polePosition mass decay ∉ HalfLine t_0 := by
    rintro ⟨h1, _⟩
    simp [polePosition, hm, hd] at h1
  have hin := ne_tin_of_offCut h.le hoff
  refine ⟨hoff, (C14_poles b t_0 t_in mass decay h0 h c hb _ hin).1.mpr (Or.inl rfl), ?_⟩
  intro f hf
  obtain ⟨v, B⟩ := Builder.built h0 h hb
  refine (Fval_tendsto_infty B hoff (Or.inl rfl)).congr' ?_
  have hopen : ∀ᶠ s in 𝓝[≠] (polePosition mass decay), s ∉ HalfLine t_0 :=
    (nhdsWithin_le_nhds (s := {polePosition mass decay}ᶜ)) ((isOpen_offHalfLine t_0).mem_nhds hoff)
  have hne : ∀ᶠ s in 𝓝[≠] (polePosition mass decay), s ≠ polePosition mass decay := self_mem_nhdsWithin
  have hconj : ∀ᶠ s in 𝓝[≠] (polePosition mass decay), s ≠ conj (polePosition mass decay) := by
    refine (nhdsWithin_le_nhds (s := {polePosition mass decay}ᶜ)) (isOpen_ne.mem_nhds ?_)
    intro h'
    have h2 := congrArg Complex.im h'
    simp [polePosition] at h2
    have : mass * decay = 0 := by linarith
    rcases mul_eq_zero.mp this with h3 | h3
    · exact hm h3
    · exact hd h3
  filter_upwards [hf, hopen, hne, hconj] with s h1 h2 h3 h4
  have hs := ne_tin_of_offCut h.le h2
  rw [evalAt_eq h0 h hs, B.call_ok hs h3 h4] at h1
  injection h1 with h1
  rw [h1]

example (b : Builder) : ∃ c, b.build 1 2 (3/2) (1/10) = .ok c ∧ evalAt 1 2 c (polePosition (3/2) (1/10)) = .error .zeroDivisionError := by
  obtain ⟨c, hc⟩ := exampleComponent b
  exact ⟨c, hc, (C15_physical_sheet_poles b 1 2 (3/2) (1/10) (by norm_num) (by norm_num) c hc (by norm_num) (by norm_num)).2.1⟩

/-- **C15** the universally quantified claim fails (witness `t_0 = 1, t_in = 2, mass = 3/2, decay = 1/10`). -/
theorem C15_false : ¬ ∀ (t_0 t_in mass decay : ℝ) (c : UAComponent), 0 ≤ t_0 → t_0 < t_in → 0 < decay →
    buildComponent t_0 t_in mass decay = .ok c → ∀ t, t ∉ HalfLine t_0 → ∃ x, evalAt t_0 t_in c t = .ok x := by
  intro hall
  obtain ⟨c, hc, _⟩ := (C12_thresholds 1 2 (3/2) (1/10) (by norm_num) (by norm_num)).2.2.2.mpr
    ⟨by norm_num, by norm_num⟩
  obtain ⟨h1, h2, _⟩ := C15_physical_sheet_poles .massSquared 1 2 (3/2) (1/10) (by norm_num) (by norm_num) c hc
    (by norm_num) (by norm_num)
  obtain ⟨x, hx⟩ := hall 1 2 (3/2) (1/10) c (by norm_num) (by norm_num) (by norm_num) hc _ h1
  rw [h2] at hx
  cases hx

/-! ### C16 -/

/-- **C16** reflection symmetry of every built component (errors included). -/
theorem C16_component_reflection (b : Builder) (t_0 t_in mass decay : ℝ) (h0 : 0 ≤ t_0) (h : t_0 < t_in)
    (c : UAComponent) (hb : b.build t_0 t_in mass decay = .ok c) (t : ℂ) (ht : t ∉ HalfLine t_0) :
    evalAt t_0 t_in c (conj t) = (do let x ← evalAt t_0 t_in c t; return conj x) := by
  obtain ⟨v, B⟩ := Builder.built h0 h hb
  have hin := ne_tin_of_offCut h.le ht
  have hc : conj t ∉ HalfLine t_0 := by intro hc; apply ht; simpa [HalfLine] using hc
  have hin' := ne_tin_of_offCut h.le hc
  rw [evalAt_eq h0 h hin, evalAt_eq h0 h hin']
  by_cases hp : t = polePosition mass decay ∨ t = conj (polePosition mass decay)
  · have hp' : conj t = polePosition mass decay ∨ conj t = conj (polePosition mass decay) := by
      rcases hp with h' | h'
      · right; rw [h']
      · left; rw [h', conj_conj]
    rw [B.call_error hin hp, B.call_error hin' hp']
    rfl
  · have hp1 := not_or.mp hp
    have hp2 : conj t ≠ polePosition mass decay := fun h' => hp1.2 (by rw [← h', conj_conj])
    have hp3 : conj t ≠ conj (polePosition mass decay) := fun h' => hp1.1 (by
      have := congrArg conj h'; simpa using this)
    rw [B.call_ok hin hp1.1 hp1.2, B.call_ok hin' hp2 hp3, Fval_conj h0 h ht]
    rfl

example (b : Builder) : ∃ c, b.build 1 2 (3/2) (1/10) = .ok c ∧
    evalAt 1 2 c (conj (3 + I)) = (do let x ← evalAt 1 2 c (3 + I); return conj x) := by
  obtain ⟨c, hc⟩ := exampleComponent b
  exact ⟨c, hc, C16_component_reflection b 1 2 (3/2) (1/10) (by norm_num) (by norm_num) c hc _ (by simp [HalfLine])⟩

/-- **C16** the component is real on the real axis below `t_0`. -/
theorem C16_component_real (b : Builder) (t_0 t_in mass decay : ℝ) (h0 : 0 ≤ t_0) (h : t_0 < t_in)
    (c : UAComponent) (hb : b.build t_0 t_in mass decay = .ok c) (x : ℝ) (hx : x ≤ t_0) (y : ℂ)
    (hy : evalAt t_0 t_in c x = .ok y) : y.im = 0 := by
  obtain ⟨v, B⟩ := Builder.built h0 h hb
  have hin : (x : ℂ) ≠ t_in := by intro h'; exact (hx.trans_lt h).ne (by exact_mod_cast h')
  rw [evalAt_eq h0 h hin] at hy
  by_cases hp : (x : ℂ) = polePosition mass decay ∨ (x : ℂ) = conj (polePosition mass decay)
  · rw [B.call_error hin hp] at hy; cases hy
  · have hp1 := not_or.mp hp
    rw [B.call_ok hin hp1.1 hp1.2] at hy
    injection hy with hy
    exact Complex.conj_eq_iff_im.mp (by rw [← hy, Fval_real h0 h hx])

example (b : Builder) : ∃ c, b.build 1 2 (3/2) (1/10) = .ok c ∧ ∃ y, evalAt 1 2 c ((1 / 2 : ℝ) : ℂ) = .ok y ∧ y.im = 0 := by
  obtain ⟨c, hc⟩ := exampleComponent b
  obtain ⟨y, hy⟩ := C14_real_defined b 1 2 (3/2) (1/10) (by norm_num) (by norm_num) c hc (by norm_num) (by norm_num) (1 / 2) (by norm_num)
  exact ⟨c, hc, y, hy, C16_component_real b 1 2 (3/2) (1/10) (by norm_num) (by norm_num) c hc (1 / 2) (by norm_num) y hy⟩

/-! ### C17 -/

/-- **C17** every built component is `O(1/t)` in all directions of the complex plane. -/
theorem C17_component_fall_off (b : Builder) (t_0 t_in mass decay : ℝ) (h0 : 0 ≤ t_0) (h : t_0 < t_in)
    (c : UAComponent) (hb : b.build t_0 t_in mass decay = .ok c) :
    ∃ C R : ℝ, 0 < R ∧ ∀ t : ℂ, R ≤ ‖t‖ → ∃ x, evalAt t_0 t_in c t = .ok x ∧ ‖x‖ ≤ C / ‖t‖ := by
  obtain ⟨v, B⟩ := Builder.built h0 h hb
  obtain ⟨C, R, _, hR, hall⟩ := B.fall_off
  refine ⟨C, R, hR, fun t ht => ?_⟩
  obtain ⟨h1, h2, h3, h4⟩ := hall t ht
  exact ⟨_, by rw [evalAt_eq h0 h h1, B.call_ok h1 h2 h3], h4⟩

example (b : Builder) : ∃ c, b.build 1 2 (3/2) (1/10) = .ok c ∧
    ∃ C R : ℝ, 0 < R ∧ ∀ t : ℂ, R ≤ ‖t‖ → ∃ x, evalAt 1 2 c t = .ok x ∧ ‖x‖ ≤ C / ‖t‖ := by
  obtain ⟨c, hc⟩ := exampleComponent b
  exact ⟨c, hc, C17_component_fall_off b 1 2 (3/2) (1/10) (by norm_num) (by norm_num) c hc⟩

end UA
