import Verif.Spec.Components
import Verif.Lemmas.MapsRun
import Verif.Lemmas.ComponentsAnalytic

/-!
Outcomes of building components and calling them.
-/

namespace UA

open Complex ComplexConjugate Filter Topology Spec

theorem tMesonPole_eq (m g : ℝ) : tMesonPole m g = polePosition m g :=
  Complex.ext (tMesonPole_re m g) (tMesonPole_im m g)

theorem Builder.built {b : Builder} {t_0 t_in m g : ℝ} (h0 : 0 ≤ t_0) (h : t_0 < t_in) {c : UAComponent}
    (hb : b.build t_0 t_in m g = .ok c) : ∃ v, Built t_0 t_in (polePosition m g) v c := by
  rw [← tMesonPole_eq]
  cases b
  · exact ⟨_, (buildComponent_built h0 h hb).1⟩
  · exact ⟨_, (nucleonBuildComponent_built h0 h hb).1⟩

theorem evalAt_eq {t_0 t_in : ℝ} (h0 : 0 ≤ t_0) (h : t_0 < t_in) {c : UAComponent} {t : ℂ} (ht : t ≠ t_in) :
    evalAt t_0 t_in c t = c.call (Wval t_0 t_in t) := by
  simp [evalAt, runTtoW_ok h0 h ht]

theorem degenerate_call {t_0 : ℝ} {t : ℂ} (ht : t ≠ t_0) : (mkTtoW t_0 t_0).call t = .ok (-1) := by
  have hz : squareRoot (t - t_0) ≠ 0 := by rw [Ne, squareRoot_eq_zero, sub_eq_zero]; exact ht
  have hz' : -squareRoot (t - t_0) ≠ 0 := neg_ne_zero.mpr hz
  have h1 : (I : ℂ) + 1 ≠ 0 := by intro h; have := congrArg Complex.im h; simp at this
  have e1 : squareRoot (t - t_0) / -squareRoot (t - t_0) = -1 := by rw [div_neg, div_self hz]
  simp only [MapFromTtoW.call, mkTtoW, sub_self, Real.sqrt_zero, ofReal_zero, add_zero]
  rw [pyDiv_ok hz', except_ok_bind, e1, squareRoot_neg_one, pyDiv_ok h1]
  congr 1
  rw [div_eq_iff h1]
  linear_combination I_sq

theorem buildWith_threshold (t_0 t_in r m g : ℝ) (h0 : 0 ≤ t_0) (h : t_0 < t_in)
    (hr0 : g = 0 → r = m ^ 2) :
    ThresholdSpec t_0 t_in r m g (buildWith t_0 t_in r (tMesonPole m g)) := by
  have hin : 0 ≤ t_in := h0.trans h.le
  by_cases hpin : tMesonPole m g = t_in
  · have hg := (tMesonPole_eq_real hin).mp hpin
    have hr := hr0 hg.1
    rw [hpin, buildWith_tin h0 h]
    refine ⟨?_, ?_, ?_, ?_⟩
    · simp [hr, hg.2, h.le]
    · simp [hg]
    · simp only [reduceCtorEq, false_and, exists_false, false_iff]
      rintro ⟨_, h2, _⟩; rw [hr, hg.2] at h2; exact lt_irrefl _ h2
    · simp [hg]
  · have hpin' : ¬ (g = 0 ∧ m ^ 2 = t_in) := fun h' => hpin ((tMesonPole_eq_real hin).mpr h')
    by_cases hp0 : tMesonPole m g = t_0
    · have hg := (tMesonPole_eq_real h0).mp hp0
      have hr := hr0 hg.1
      have e1 : ¬ r < t_0 := by rw [hr, hg.2]; exact lt_irrefl _
      have e2 : r < t_in := by rw [hr, hg.2]; exact h
      rw [buildWith_eq h0 h hpin, if_neg e1, if_pos e2, (Wval_eq_zero h hpin).mpr hp0, comp_init_A_zero]
      refine ⟨?_, ?_, ?_, ?_⟩
      · simp [e1]
      · simp [hg]
      · simp [hg]
      · simp [not_le.mpr e2]
    · have hp0' : ¬ (g = 0 ∧ m ^ 2 = t_0) := fun h' => hp0 ((tMesonPole_eq_real h0).mpr h')
      have hno : ¬ (g = 0 ∧ (m ^ 2 = t_0 ∨ m ^ 2 = t_in)) := by tauto
      by_cases hr : r < t_0
      · rw [buildWith_eq h0 h hpin, if_pos hr]
        refine ⟨by simp [hr], by simp [hno], ?_, ?_⟩
        · simp [not_le.mpr hr]
        · simp [not_le.mpr (hr.trans h)]
      · have hr' := not_lt.mp hr
        rw [buildWith_ok h0 h hpin hp0 hr']
        by_cases hr2 : r < t_in
        · rw [if_pos hr2]
          refine ⟨by simp [hr'], by simp [hno], ?_, ?_⟩
          · simp [hr', hr2, hp0', mkComp]
          · simp [not_le.mpr hr2, mkComp]
        · rw [if_neg hr2]
          refine ⟨by simp [hr'], by simp [hno], ?_, ?_⟩
          · simp [hr2, mkComp]
          · simp only [Except.ok.injEq, exists_eq_left', mkComp, true_iff]
            exact ⟨not_lt.mp hr2, hpin'⟩

/-- A resonance of the examples: both builders accept it. -/
theorem exampleComponent (b : Builder) : ∃ c, b.build 1 2 (3/2) (1/10) = .ok c := by
  cases b
  · obtain ⟨c, h, -⟩ := (buildWith_threshold 1 2 _ (3/2) (1/10) (by norm_num) (by norm_num) (fun _ => rfl)).2.2.2.mpr ⟨by norm_num, by norm_num⟩
    exact ⟨c, by show buildComponent _ _ _ _ = _; rw [buildComponent_eq]; exact h⟩
  · obtain ⟨c, h, -⟩ := (buildWith_threshold 1 2 (tMesonPole (3/2) (1/10)).re (3/2) (1/10) (by norm_num) (by norm_num) (fun h => by rw [tMesonPole_re, h]; ring)).2.2.2.mpr
      ⟨by rw [tMesonPole_re]; norm_num, by norm_num⟩
    exact ⟨c, by show nucleonBuildComponent _ _ _ _ = _; rw [nucleonBuildComponent_eq]; exact h⟩

end UA
