import Verif.Lemmas.NucleonInside

/-!
# Helper lemmas: the fitted functions at large energies
-/

namespace UA

open Complex ComplexConjugate

/-- A list of evaluations each of which returns something of the wanted kind. -/
theorem mapM_forall₂ {β γ : Type} {f : β → Except PyErr γ} {P : β → γ → Prop} {l : List β} (h : ∀ a ∈ l, ∃ b, f a = .ok b ∧ P a b) :
    ∃ bs, l.mapM f = .ok bs ∧ List.Forall₂ P l bs := by
  induction l with
  | nil => exact ⟨[], rfl, .nil⟩
  | cons a l ih =>
    obtain ⟨b, hb, hP⟩ := h a List.mem_cons_self
    obtain ⟨bs, hbs, hF⟩ := ih fun c hc => h c (List.mem_cons_of_mem _ hc)
    exact ⟨b :: bs, by rw [List.mapM_cons, hb, except_ok_bind, hbs]; rfl, .cons hP hF⟩

/-- A sum of resonance terms falls off like `1/|t|`. -/
theorem FsumL_fall_off {t_0 t_in : ℝ} (h0 : 0 ≤ t_0) (h : t_0 < t_in) {rs : List Res} {ts : List (ℝ × UAComponent)}
    (hb : buildTerms t_0 t_in rs = .ok ts) :
    ∃ C R : ℝ, 0 < C ∧ 0 < R ∧ ∀ t : ℂ, R ≤ ‖t‖ →
      t ≠ t_in ∧ (∀ r ∈ rs, t ≠ r.pole ∧ t ≠ conj r.pole) ∧ ‖FsumL t_0 t_in rs t‖ ≤ C / ‖t‖ := by
  induction rs generalizing ts with
  | nil =>
    refine ⟨1, t_in + 1, one_pos, by linarith, fun t ht => ⟨?_, (fun r hr => by cases hr), ?_⟩⟩
    · rintro rfl
      rw [norm_real, Real.norm_of_nonneg (by linarith)] at ht
      linarith
    · simp only [FsumL, List.map_nil, List.sum_nil, norm_zero]
      positivity
  | cons r rs ih =>
    obtain ⟨c, cs, h1, h2, -⟩ := buildTerms_cons hb
    obtain ⟨C, R, hC, hR, H⟩ := ih h2
    obtain ⟨C', R', hC', hR', H'⟩ := (buildComponent_built h0 h h1).1.fall_off
    refine ⟨|r.a| * C' + C, max R R', by positivity, lt_max_of_lt_left hR, fun t ht => ?_⟩
    obtain ⟨a1, a2, a3⟩ := H t ((le_max_left _ _).trans ht)
    obtain ⟨-, b2, b3, b4⟩ := H' t ((le_max_right _ _).trans ht)
    refine ⟨a1, fun q hq => ?_, ?_⟩
    · rcases List.mem_cons.mp hq with rfl | hq
      · exact ⟨b2, b3⟩
      · exact a2 q hq
    · have e : FsumL t_0 t_in (r :: rs) t = (r.a : ℂ) * Fval (r.var t_in) t_0 t_in r.pole t + FsumL t_0 t_in rs t := by
        simp [FsumL]
      rw [e, add_div, mul_div_assoc]
      refine (norm_add_le _ _).trans (add_le_add ?_ a3)
      rw [norm_mul, norm_real, Real.norm_eq_abs]
      exact mul_le_mul_of_nonneg_left b4 (abs_nonneg _)

/-- A kaon form factor falls off like `1/|t|`. -/
theorem kaon_fall_off (x : KaonArgs) (ch : Bool) (hp : x.Proper) (hb : x.Builds ch) :
    ∃ C R : ℝ, 0 < C ∧ 0 < R ∧ ∀ t : ℂ, R ≤ ‖t‖ → 0 ≤ t.re → ∃ y, x.run ch t = .ok y ∧ ‖y‖ ≤ C / ‖t‖ := by
  obtain ⟨k, b, hk⟩ := KaonArgs.get_view hb
  obtain ⟨C, R, hC, hR, H⟩ := FsumL_fall_off b.h0S hp.1 b.hS
  obtain ⟨C', R', hC', hR', H'⟩ := FsumL_fall_off b.h0V hp.2 b.hV
  refine ⟨C + C', max R R', by positivity, lt_max_of_lt_left hR, fun t ht hre => ?_⟩
  obtain ⟨a1, a2, a3⟩ := H t ((le_max_left _ _).trans ht)
  obtain ⟨b1, b2, b3⟩ := H' t ((le_max_right _ _).trans ht)
  have hs : ¬ Singular x.tinS x.tinV x.resS x.resV t := by
    rintro (h | h | ⟨r, hr, h⟩)
    · exact a1 h
    · exact b1 h
    · rcases List.mem_append.mp hr with hr | hr
      · exact h.elim (a2 r hr).1 (a2 r hr).2
      · exact h.elim (b2 r hr).1 (b2 r hr).2
  refine ⟨_, by rw [hk, b.call_ok hp.1 hp.2 hre hs], (norm_add_le _ _).trans ?_⟩
  rw [add_div]
  refine add_le_add a3 ?_
  rw [norm_mul]
  cases ch <;> simpa using b3

theorem threshold_factor {m t : ℝ} (ht : 0 < t) : 0 ≤ Real.sqrt (1 - 4 * m ^ 2 / t) ∧ Real.sqrt (1 - 4 * m ^ 2 / t) ≤ 1 := by
  refine ⟨Real.sqrt_nonneg _, Real.sqrt_le_one.mpr ?_⟩
  have : 0 ≤ 4 * m ^ 2 / t := by positivity
  linarith

/-- The scalar cross section of a form factor below `C/t`. -/
theorem scalar_bound {m α hc2 C t f : ℝ} (ht : 0 < t) (hf0 : 0 ≤ f) (hf : f ≤ C / t) :
    |hc2 * Real.pi * α ^ 2 / (3 * t) * Real.sqrt (1 - 4 * m ^ 2 / t) ^ 3 * f ^ 2| ≤ (|hc2| * Real.pi * α ^ 2 / 3 * C ^ 2) / t ^ 3 := by
  obtain ⟨s0, s1⟩ := threshold_factor (m := m) ht
  set s := Real.sqrt (1 - 4 * m ^ 2 / t)
  have hs : s ^ 3 ≤ 1 := pow_le_one₀ s0 s1
  have hff : f ^ 2 ≤ (C / t) ^ 2 := pow_le_pow_left₀ hf0 hf 2
  have hpi := Real.pi_pos
  rw [abs_mul, abs_mul, abs_div, abs_mul, abs_mul, abs_of_pos hpi, abs_of_nonneg (by positivity : 0 ≤ α ^ 2),
    abs_of_pos (by positivity : 0 < 3 * t), abs_of_nonneg (by positivity : 0 ≤ s ^ 3), abs_of_nonneg (by positivity : 0 ≤ f ^ 2)]
  calc _ ≤ |hc2| * Real.pi * α ^ 2 / (3 * t) * 1 * (C / t) ^ 2 := by gcongr
    _ = _ := by field_simp

/-- The nucleon cross section of form factors below `C/t²`, above the threshold. -/
theorem nucleon_bound {m α hc2 C t ge gm : ℝ} (ht : 0 < t) (h4 : 4 * m ^ 2 ≤ t) (he0 : 0 ≤ ge) (hm0 : 0 ≤ gm) (he : ge ≤ C / t ^ 2)
    (hm : gm ≤ C / t ^ 2) :
    |hc2 * (4 * Real.pi * α ^ 2 * Real.sqrt (1 - 4 * m ^ 2 / t) / (3 * t)) * (gm ^ 2 + 2 * m ^ 2 / t * ge ^ 2)| ≤
      (|hc2| * (2 * Real.pi * α ^ 2) * C ^ 2) / t ^ 5 := by
  obtain ⟨s0, s1⟩ := threshold_factor (m := m) ht
  set s := Real.sqrt (1 - 4 * m ^ 2 / t)
  have hgg : gm ^ 2 ≤ (C / t ^ 2) ^ 2 := pow_le_pow_left₀ hm0 hm 2
  have hee : ge ^ 2 ≤ (C / t ^ 2) ^ 2 := pow_le_pow_left₀ he0 he 2
  have hpi := Real.pi_pos
  have hr : 2 * m ^ 2 / t ≤ 1 / 2 := by rw [div_le_div_iff₀ ht (by norm_num)]; linarith
  have hr0 : 0 ≤ 2 * m ^ 2 / t := by positivity
  rw [abs_mul, abs_mul, abs_of_nonneg (by positivity : 0 ≤ 4 * Real.pi * α ^ 2 * s / (3 * t)),
    abs_of_nonneg (by positivity : 0 ≤ gm ^ 2 + 2 * m ^ 2 / t * ge ^ 2)]
  calc _ ≤ |hc2| * (4 * Real.pi * α ^ 2 * 1 / (3 * t)) * ((C / t ^ 2) ^ 2 + 1 / 2 * (C / t ^ 2) ^ 2) := by gcongr
    _ = _ := by field_simp; ring

/-- If one electric point can be evaluated, all four form factors fall off like `1/|t|²`. -/
theorem nucleon_fall_off {x : NucleonArgs} (hx : x.Proper) {proton : Bool} {s z : ℂ} (hz : NucleonClass.new.run proton true x s = .ok z) :
    ∃ C R : ℝ, 0 < C ∧ 0 < R ∧ ∀ (pr el : Bool) (t : ℂ), R ≤ ‖t‖ → 0 ≤ t.re → ∃ y, NucleonClass.new.run pr el x t = .ok y ∧ ‖y‖ ≤ C / ‖t‖ ^ 2 := by
  have hb := NucleonClass.builds_of_run hz
  obtain ⟨hre, hns⟩ := (C63_nucleon_domain .new proton true x hx hb s).2.2.mp ⟨z, hz⟩
  have one : ∀ pr el, ∃ C R : ℝ, 0 < C ∧ 0 < R ∧ ∀ t : ℂ, R ≤ ‖t‖ → 0 ≤ t.re → ∃ y, NucleonClass.new.run pr el x t = .ok y ∧ ‖y‖ ≤ C / ‖t‖ ^ 2 := by
    intro pr el
    have hb' := NucleonClass.builds_switch hb pr el
    obtain ⟨y, hy⟩ := (C63_nucleon_domain .new pr el x hx hb' s).2.2.mpr ⟨hre, by
      rintro (h | h | h | h)
      · exact hns (Or.inl h)
      · exact hns (Or.inr (Or.inl h))
      · exact hns (Or.inr (Or.inr (Or.inl ((NucleonClass.degenerate_switch hx hb pr el).mpr h))))
      · exact hns (Or.inr (Or.inr (Or.inr ⟨rfl, h.2⟩)))⟩
    exact C25_form_factor_fall_off .new pr el x hx s y hy
  obtain ⟨C1, R1, c1, r1, H1⟩ := one true true
  obtain ⟨C2, R2, c2, r2, H2⟩ := one true false
  obtain ⟨C3, R3, c3, r3, H3⟩ := one false true
  obtain ⟨C4, R4, c4, r4, H4⟩ := one false false
  refine ⟨C1 + C2 + C3 + C4, R1 + R2 + R3 + R4, by positivity, by positivity, fun pr el t ht hre => ?_⟩
  rcases pr with _ | _ <;> rcases el with _ | _
  · obtain ⟨y, hy, hyb⟩ := H4 t (by linarith) hre
    exact ⟨y, hy, hyb.trans (by gcongr; linarith)⟩
  · obtain ⟨y, hy, hyb⟩ := H3 t (by linarith) hre
    exact ⟨y, hy, hyb.trans (by gcongr; linarith)⟩
  · obtain ⟨y, hy, hyb⟩ := H2 t (by linarith) hre
    exact ⟨y, hy, hyb.trans (by gcongr; linarith)⟩
  · obtain ⟨y, hy, hyb⟩ := H1 t (by linarith) hre
    exact ⟨y, hy, hyb.trans (by gcongr; linarith)⟩

/-- The same for an object inside the bounds. -/
theorem nucleon_object_fall_off {p : ModelParameters ℝ} (h : Reachable p) (hc : p.cls = .nucleon) (hi : p.InsideMaximal) {s : ℝ} {proton : Bool}
    {z : List ℝ} (hz : functionFormFactor [.nucleon s proton true] p = .ok z) :
    ∃ x, NucleonInside p x ∧ ∃ C R : ℝ, 0 < C ∧ 0 < R ∧ ∀ (pr el : Bool) (t : ℝ), R ≤ t →
      ∃ y, NucleonClass.new.run pr el x t = .ok y ∧ ‖y‖ ≤ C / t ^ 2 := by
  have hm : ∃ m, getFFModel p = .ok m := by
    unfold functionFormFactor at hz
    obtain ⟨m, hm, -⟩ := except_bind_eq_ok.mp hz
    exact ⟨m, hm⟩
  obtain ⟨x, hx⟩ := nucleon_inside h hc hi hm
  rw [hx.wiring.ff, hx.check, except_ok_bind, mapM_singleton'] at hz
  obtain ⟨y, hy, -⟩ := except_bind_eq_ok.mp hz
  obtain ⟨F, hF, -⟩ := except_bind_eq_ok.mp (show (do let F ← NucleonClass.new.run proton true x s; return ‖F‖) = Except.ok y from hy)
  obtain ⟨C, R, hC, hR, H⟩ := nucleon_fall_off hx.proper hF
  refine ⟨x, hx, C, R, hC, hR, fun pr el t ht => ?_⟩
  have hn : ‖(t : ℂ)‖ = t := by rw [norm_real, Real.norm_of_nonneg (hR.le.trans ht)]
  have := H pr el t (by rw [hn]; exact ht) (by simpa using hR.le.trans ht)
  rwa [hn] at this

end UA
