import Verif.Model.PlotSingle
import Verif.Props.Scripts
import Verif.Props.Pipelines
import Verif.Props.Decomposition

/-!
# Property C92: the script that shows the cross section of one resonance
-/

namespace UA

open Complex

/-- **C92** without data: `ValueError`. -/
theorem C92_empty {σ : Type} (m α hc2 : ℝ) (s : σ) : plotSingleComponent m α hc2 [] [] [] [] [] [] s = (.error .valueError, s) := by
  unfold plotSingleComponent
  rw [C58_empty.1]
  exact PyM.bind_error rfl

/-- **C92** the component of the script: the resonance of mass 0.78266 and width 0.00868 between the thresholds of the script can be built,
in its variant for poles below the inelastic threshold; it can be evaluated at every real `t ≥ 0` but the inelastic threshold, and
vanishes nowhere. -/
theorem C92_component : ∃ (model : SingleComponentModel) (F : ℝ → ℂ),
    SingleComponentModel.init 0.17531904388276887 1.0555688365879876 1 0.78266 0.00868 = .ok model ∧ model.component.variant = .A ∧
    model.call 0 = .ok 1 ∧ model.call (1.0555688365879876 : ℝ) = .error .zeroDivisionError ∧
    ∀ t : ℝ, 0 ≤ t → t ≠ 1.0555688365879876 → model.call t = .ok (F t) ∧ F t ≠ 0 := by
  obtain ⟨c, h, hv⟩ := (C12_thresholds 0.17531904388276887 1.0555688365879876 0.78266 0.00868 (by norm_num) (by norm_num)).2.2.1.mpr
    ⟨by norm_num, by norm_num, by norm_num⟩
  have h1 := TtoW_init_ok (t_0 := 0.17531904388276887) (t_in := 1.0555688365879876) (by norm_num) (by norm_num)
  obtain ⟨model, hm, rfl⟩ : ∃ model, SingleComponentModel.init 0.17531904388276887 1.0555688365879876 1 0.78266 0.00868 = .ok model ∧
      model.component = c := ⟨_, by unfold SingleComponentModel.init; rw [h1, except_ok_bind, h, except_ok_bind]; rfl, rfl⟩
  have hcall : ∀ t : ℝ, 0 ≤ t → model.call t = evalAt 0.17531904388276887 1.0555688365879876 model.component t := by
    intro t ht
    rw [(C27_single_domain _ _ 1 _ _ (by norm_num) model hm t).2 (by simpa using ht)]
    rcases evalAt 0.17531904388276887 1.0555688365879876 model.component t with e | y
    · rfl
    · show Except.ok (((1 : ℝ) : ℂ) * y) = _
      rw [ofReal_one, one_mul]
  have hval : ∀ t : ℝ, ∃ y, 0 ≤ t → t ≠ 1.0555688365879876 → model.call t = .ok y := by
    intro t
    by_cases ht : 0 ≤ t ∧ t ≠ 1.0555688365879876
    · obtain ⟨y, hy⟩ := C14_real_defined .massSquared _ _ _ _ (by norm_num) (by norm_num) _ h (by norm_num) (by norm_num) t ht.2
      exact ⟨y, fun _ _ => by rw [hcall t ht.1, hy]⟩
    · exact ⟨0, fun h1 h2 => absurd ⟨h1, h2⟩ ht⟩
  choose F hF using hval
  refine ⟨model, F, hm, hv, ?_, ?_, fun t h0 ht => ⟨hF t h0 ht, ?_⟩⟩
  · have := C27_single_normalised _ _ 1 _ _ (by norm_num) model hm
    simpa using this
  · rw [hcall _ (by norm_num)]
    exact evalAt_tin (by norm_num) (by norm_num) _
  · exact C68_component_never_zero .massSquared _ _ _ _ (by norm_num) (by norm_num) _ h _ _ ((hcall t h0).symm.trans (hF t h0 ht))

/-- **C92** the figure: two panels with the charged and the neutral points, each in order of `t`; the curve is in both the textbook cross
section of a scalar pair with the form factor `F` of that one resonance, real, and positive above the production threshold. -/
theorem C92_figure {σ : Type} (m α hc2 : ℝ) (hα : α ≠ 0) (hh : 0 < hc2) {charged neutral : List (ℝ × ℝ × ℝ)} (hne : charged ≠ [] ∨ neutral ≠ [])
    (hdata : ∀ d ∈ charged ++ neutral, 0 < d.1 ∧ 4 * m ^ 2 ≤ d.1 ∧ d.1 ≠ 1.0555688365879876)
    {model : SingleComponentModel} (hm : SingleComponentModel.init 0.17531904388276887 1.0555688365879876 1 0.78266 0.00868 = .ok model) (s : σ) :
    ∃ (F : ℝ → ℂ) (upper lower : List (ℝ × ℝ × ℝ)),
      (∀ d ∈ charged ++ neutral, model.call d.1 = .ok (F d.1)) ∧
      upper.Perm charged ∧ upper.Pairwise (fun a b => a.1 ≤ b.1) ∧ lower.Perm neutral ∧ lower.Pairwise (fun a b => a.1 ≤ b.1) ∧
      plotSingleComponent m α hc2 (charged.map (·.1)) (charged.map (·.2.1)) (charged.map (·.2.2)) (neutral.map (·.1)) (neutral.map (·.2.1))
          (neutral.map (·.2.2)) s =
        (.ok [⟨"phi: Charged", ⟨upper.map (fun d => (d.1 : ℂ)), upper.map (·.2.1), upper.map (·.2.2), upper.map fun d => scalarSigma m α hc2 d.1 ‖F d.1‖⟩⟩,
          ⟨"phi: Neutral", ⟨lower.map (fun d => (d.1 : ℂ)), lower.map (·.2.1), lower.map (·.2.2), lower.map fun d => scalarSigma m α hc2 d.1 ‖F d.1‖⟩⟩], s) ∧
      ∀ d ∈ charged ++ neutral, 0 ≤ scalarSigma m α hc2 d.1 ‖F d.1‖ ∧ (scalarSigma m α hc2 d.1 ‖F d.1‖ = 0 ↔ d.1 = 4 * m ^ 2) := by
  obtain ⟨model', F, hm', -, -, -, hF⟩ := C92_component
  obtain rfl : model' = model := by rw [hm] at hm'; injection hm' with hm'; exact hm'.symm
  obtain ⟨out, h1, h2, h3, -⟩ := C58_kaon charged neutral hne
  have hmem : ∀ q ∈ out, ∃ d ∈ charged ++ neutral, d.1 = q.1.1 := by
    intro q hq
    rcases List.mem_append.mp (h2.mem_iff.mp hq) with h | h
    · obtain ⟨d, hd, rfl⟩ := List.mem_map.mp h
      exact ⟨d, List.mem_append_left _ hd, rfl⟩
    · obtain ⟨d, hd, rfl⟩ := List.mem_map.mp h
      exact ⟨d, List.mem_append_right _ hd, rfl⟩
  have hout : ∀ x ∈ out.map (fun q => (q.1.1, q.1.2)), 0 < x.1 ∧ 4 * m ^ 2 ≤ x.1 ∧ model'.call x.1 = .ok (F x.1) := by
    intro x hx
    obtain ⟨q, hq, rfl⟩ := List.mem_map.mp hx
    obtain ⟨d, hd, e⟩ := hmem q hq
    obtain ⟨d1, d2, d3⟩ := hdata d hd
    rw [e] at d1 d2 d3
    exact ⟨d1, d2, (hF _ d1.le d3).1⟩
  obtain ⟨ys, g1, g2⟩ := C73_value m α hc2 1 0.78266 0.00868 0.17531904388276887 1.0555688365879876 hh hα model' hm' _ F hout
  have hys : ys = out.map fun q => scalarSigma m α hc2 q.1.1 ‖F q.1.1‖ := by
    rw [List.forall₂_map_left_iff] at g2
    clear g1 hout hmem h3 h2 h1
    induction g2 with
    | nil => rfl
    | cons h _ ih => rw [List.map_cons, ← ih, h.1]
  rw [List.map_map] at g1
  have hf : (fun ts => (PyM.lift (do
      let ys ← singleComponentCrossSection m α hc2 1 0.78266 0.00868 0.17531904388276887 1.0555688365879876 ts
      return ys.map Complex.re) : PyM σ (List ℝ))) ((out.map fun q => (((q.1.1 : ℂ), q.1.2), q.2.1, q.2.2,
        scalarSigma m α hc2 q.1.1 ‖F q.1.1‖)).map fun x => .kaon x.1.1 x.1.2) s = (.ok ys, s) := by
    rw [List.map_map]
    show (singleComponentCrossSection m α hc2 1 0.78266 0.00868 0.17531904388276887 1.0555688365879876
      (out.map fun q => .kaon q.1.1 q.1.2) >>= fun ys => pure (ys.map Complex.re), s) = _
    have g1' : singleComponentCrossSection m α hc2 1 0.78266 0.00868 0.17531904388276887 1.0555688365879876
      (out.map fun q => .kaon q.1.1 q.1.2) = .ok (ys.map fun y : ℝ => (y : ℂ)) := g1
    rw [g1', except_ok_bind, List.map_map]
    show (Except.ok (ys.map (Complex.re ∘ fun y : ℝ => (y : ℂ))), s) = _
    rw [show (Complex.re ∘ fun y : ℝ => (y : ℂ)) = id from funext fun y => ofReal_re y, List.map_id]
  have hfig := C74_cross_sections (out.map fun q => (((q.1.1 : ℂ), q.1.2), q.2.1, q.2.2, scalarSigma m α hc2 q.1.1 ‖F q.1.1‖)) (out.map (·.2.1)) (out.map (·.2.2)) ys
    (fun ts => PyM.lift (do
      let ys ← singleComponentCrossSection m α hc2 1 0.78266 0.00868 0.17531904388276887 1.0555688365879876 ts
      return ys.map Complex.re)) s s "phi" hf
    (by rw [List.map_map]; exact List.prefix_refl _) (by rw [List.map_map]; exact List.prefix_refl _)
    (by rw [List.map_map, hys]; exact List.prefix_refl _)
  refine ⟨F, (out.filter fun q => q.1.2).map fun q => (q.1.1, q.2), (out.filter fun q => !q.1.2).map fun q => (q.1.1, q.2), ?_, ?_, ?_, ?_, ?_, ?_, ?_⟩
  · intro d hd
    obtain ⟨d1, -, d3⟩ := hdata d hd
    exact (hF _ d1.le d3).1
  · have := ((h2.filter fun q => q.1.2).map fun q => (q.1.1, q.2))
    rw [List.filter_append, List.filter_map, List.filter_map, List.map_append, List.map_map, List.map_map] at this
    simpa [Function.comp_def] using this
  · rw [List.pairwise_map]
    exact h3.filter _
  · have := ((h2.filter fun q => !q.1.2).map fun q => (q.1.1, q.2))
    rw [List.filter_append, List.filter_map, List.filter_map, List.map_append, List.map_map, List.map_map] at this
    simpa [Function.comp_def] using this
  · rw [List.pairwise_map]
    exact h3.filter _
  · unfold plotSingleComponent
    rw [h1]
    rw [List.map_map] at hfig
    refine (PyM.bind_ok (PyM.lift_run _ _)).trans (hfig.trans ?_)
    simp only [columnsOf, List.filter_map, List.map_map]
    rfl
  · intro d hd
    obtain ⟨d1, d2, d3⟩ := hdata d hd
    obtain ⟨f1, f2⟩ := hF _ d1.le d3
    obtain ⟨-, b, c⟩ := C30_sign m α hc2 hh hα _ d.1 (F d.1) _ f1 d1 d2 (C30_scalar_cross_section m α hc2 _ d.1 (F d.1) f1 d1 d2)
    rw [or_iff_left f2] at c
    exact ⟨by simpa using b, by rw [← c]; norm_cast⟩

/-- A charged point below and a neutral point above the inelastic threshold, for a particle of mass 0.49. -/
example : ∃ upper lower : List (ℝ × ℝ × ℝ), upper.Perm [(1, 2, 1)] ∧ lower.Perm [(4, 3, 1)] := by
  obtain ⟨model, -, hm, -⟩ := C92_component
  obtain ⟨-, upper, lower, -, h1, -, h2, -⟩ := C92_figure (σ := Unit) 0.49 1 1 one_ne_zero one_pos (charged := [(1, 2, 1)]) (neutral := [(4, 3, 1)])
    (by simp) (by
      intro d hd
      simp only [List.cons_append, List.nil_append, List.mem_cons, List.not_mem_nil, or_false] at hd
      rcases hd with rfl | rfl <;> norm_num) hm ()
  exact ⟨upper, lower, h1, h2⟩

/-- **C92** a point at the inelastic threshold and points at no negative `t`: `ZeroDivisionError`. -/
theorem C92_threshold {σ : Type} (m α hc2 : ℝ) {charged neutral : List (ℝ × ℝ × ℝ)} (hdata : ∀ d ∈ charged ++ neutral, 0 ≤ d.1)
    (hbad : ∃ d ∈ charged ++ neutral, d.1 = 1.0555688365879876) (s : σ) :
    plotSingleComponent m α hc2 (charged.map (·.1)) (charged.map (·.2.1)) (charged.map (·.2.2)) (neutral.map (·.1)) (neutral.map (·.2.1))
      (neutral.map (·.2.2)) s = (.error .zeroDivisionError, s) := by
  obtain ⟨model, F, hm, -, -, hin, hF⟩ := C92_component
  have hne : charged ≠ [] ∨ neutral ≠ [] := by
    obtain ⟨d, hd, -⟩ := hbad
    rcases List.mem_append.mp hd with h | h
    · exact Or.inl (List.ne_nil_of_mem h)
    · exact Or.inr (List.ne_nil_of_mem h)
  obtain ⟨out, h1, h2, -, -⟩ := C58_kaon charged neutral hne
  have hmem : ∀ q ∈ out, ∃ d ∈ charged ++ neutral, d.1 = q.1.1 := by
    intro q hq
    rcases List.mem_append.mp (h2.mem_iff.mp hq) with h | h
    · obtain ⟨d, hd, rfl⟩ := List.mem_map.mp h
      exact ⟨d, List.mem_append_left _ hd, rfl⟩
    · obtain ⟨d, hd, rfl⟩ := List.mem_map.mp h
      exact ⟨d, List.mem_append_right _ hd, rfl⟩
  have hq : ∃ q ∈ out, q.1.1 = 1.0555688365879876 := by
    obtain ⟨d, hd, e⟩ := hbad
    rcases List.mem_append.mp hd with h | h
    · exact ⟨((d.1, true), d.2), h2.mem_iff.mpr (List.mem_append_left _ (List.mem_map_of_mem h)), e⟩
    · exact ⟨((d.1, false), d.2), h2.mem_iff.mpr (List.mem_append_right _ (List.mem_map_of_mem h)), e⟩
  have hcs : singleComponentCrossSection m α hc2 1 0.78266 0.00868 0.17531904388276887 1.0555688365879876
      (out.map fun q => .kaon q.1.1 q.1.2) = .error .zeroDivisionError := by
    have e1 := fun cs ff => singleComponentLoop_kaon cs ff (out.map fun q => ((q.1.1 : ℂ), q.1.2))
    simp only [List.map_map, Function.comp_def] at e1
    unfold singleComponentCrossSection
    rw [hm, except_ok_bind, e1]
    have hpt : ∀ q ∈ out, (q.1.1 = 1.0555688365879876 → (ScalarCS.init m α hc2).call model.call (q.1.1 : ℝ) = .error .zeroDivisionError) ∧
        ∀ e, (ScalarCS.init m α hc2).call model.call (q.1.1 : ℝ) = .error e → e = .zeroDivisionError := by
      intro q hq
      obtain ⟨d, hd, e⟩ := hmem q hq
      have h0 := hdata d hd
      rw [e] at h0
      by_cases ht : q.1.1 = 1.0555688365879876
      · have := (C30_errors m α hc2 model.call (q.1.1 : ℝ)).1 _ (by rw [ht]; exact hin)
        exact ⟨fun _ => this, fun e he => by rw [this] at he; injection he with he; exact he.symm⟩
      · refine ⟨fun h => absurd h ht, fun e he => ?_⟩
        obtain ⟨k1, k2⟩ := (C30_errors m α hc2 model.call (q.1.1 : ℝ)).2 _ (hF _ h0 ht).1
        rw [k2 (k1.mp ⟨e, he⟩)] at he
        injection he with he
        exact he.symm
    rcases hr : (out.map fun q => (q.1.1 : ℂ)).mapM ((ScalarCS.init m α hc2).call model.call) with e | r
    · obtain ⟨a, ha, he⟩ := mapM_eq_error hr
      obtain ⟨q, hq, rfl⟩ := List.mem_map.mp ha
      rw [hr, (hpt q hq).2 e he]
    · obtain ⟨q, hq, ht⟩ := hq
      obtain ⟨b, hb⟩ := mapM_exists_ok.mp ⟨r, hr⟩ _ (List.mem_map_of_mem (f := fun q : (ℝ × Bool) × ℝ × ℝ => (q.1.1 : ℂ)) hq)
      rw [(hpt q hq).1 ht] at hb
      cases hb
  unfold plotSingleComponent
  rw [h1]
  refine (PyM.bind_ok (PyM.lift_run _ _)).trans ?_
  unfold plotCSNeutralPlusCharged
  refine PyM.bind_error ?_
  show (singleComponentCrossSection m α hc2 1 0.78266 0.00868 0.17531904388276887 1.0555688365879876
      (out.map fun q => .kaon q.1.1 q.1.2) >>= fun ys => pure (ys.map Complex.re), s) = _
  rw [hcs]
  rfl

example (m α hc2 : ℝ) : plotSingleComponent m α hc2 [1.0555688365879876] [1] [1] [] [] [] () = (.error .zeroDivisionError, ()) :=
  C92_threshold m α hc2 (charged := [(1.0555688365879876, 1, 1)]) (neutral := []) (by
    intro d hd
    obtain rfl := List.mem_singleton.mp hd
    norm_num) ⟨_, List.mem_singleton_self _, rfl⟩ ()

end UA
