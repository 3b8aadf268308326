import Verif.Spec.OtherModels
import Verif.Lemmas.ComponentsRun

/-! Helper lemmas about the VMD model. -/

namespace UA

open Complex

theorem VMDModel.foldl_add (l : List VectorMeson) (m : VMDModel) :
    (l.foldl (fun vmd v => vmd.addVectorMeson v.coefficient v.mass) m).vector_mesons = m.vector_mesons ++ l := by
  induction l generalizing m with
  | nil => simp
  | cons v l ih => rw [List.foldl_cons, ih]; simp [VMDModel.addVectorMeson]

theorem VMDModel.create_mesons (l : List VectorMeson) : (VMDModel.create l).vector_mesons = l := by
  simp [VMDModel.create, VMDModel.foldl_add]

/-- One pole term. -/
noncomputable def vmdTerm (t : ℂ) (v : VectorMeson) : ℂ :=
  (v.coefficient : ℂ) * (v.mass : ℂ) ^ 2 / ((v.mass : ℂ) ^ 2 - t)

theorem evaluateMeson_ok {t : ℂ} {v : VectorMeson} (h : t ≠ (v.mass : ℂ) ^ 2) :
    evaluateMesonContribution t v.coefficient v.mass = .ok (vmdTerm t v) := by
  simp only [evaluateMesonContribution]
  rw [pyDiv_ok (sub_ne_zero.mpr (Ne.symm h))]
  rfl

theorem evaluateMeson_error {t : ℂ} {v : VectorMeson} (h : t = (v.mass : ℂ) ^ 2) :
    evaluateMesonContribution t v.coefficient v.mass = .error .zeroDivisionError := by
  simp only [evaluateMesonContribution, h, sub_self, pyDiv_zero]

theorem vmd_foldlM_ok {t : ℂ} (l : List VectorMeson) (acc : ℂ) (h : ∀ v ∈ l, t ≠ (v.mass : ℂ) ^ 2) :
    l.foldlM (fun result v => do
      let x ← evaluateMesonContribution t v.coefficient v.mass
      return result + x) acc = (.ok (acc + (l.map (vmdTerm t)).sum) : Except PyErr ℂ) := by
  induction l generalizing acc with
  | nil => simp
  | cons v l ih =>
    simp only [List.foldlM_cons, evaluateMeson_ok (h v (by simp)), except_ok_bind, except_pure]
    have := ih (acc + vmdTerm t v) (fun v hv => h v (by simp [hv]))
    simp only [except_pure] at this
    rw [this]
    simp [add_assoc]

theorem vmd_foldlM_error {t : ℂ} (l : List VectorMeson) (acc : ℂ) (h : ∃ v ∈ l, t = (v.mass : ℂ) ^ 2) :
    l.foldlM (fun result v => do
      let x ← evaluateMesonContribution t v.coefficient v.mass
      return result + x) acc = (.error .zeroDivisionError : Except PyErr ℂ) := by
  induction l generalizing acc with
  | nil => simp at h
  | cons v l ih =>
    rw [List.foldlM_cons]
    by_cases hv : t = (v.mass : ℂ) ^ 2
    · rw [evaluateMeson_error hv]; rfl
    · rw [evaluateMeson_ok hv, except_ok_bind, except_pure, except_ok_bind]
      apply ih
      obtain ⟨v', hm, h'⟩ := h
      rcases List.mem_cons.mp hm with rfl | hm
      · exact absurd h' hv
      · exact ⟨v', hm, h'⟩

theorem vmd_call_ok {t : ℂ} {l : List VectorMeson} (hne : l ≠ []) (h : ∀ v ∈ l, t ≠ (v.mass : ℂ) ^ 2) :
    (VMDModel.create l).call t = .ok ((l.map (vmdTerm t)).sum) := by
  have h1 : l.isEmpty = false := by simpa using hne
  simp only [VMDModel.call, VMDModel.create_mesons, h1, Bool.false_eq_true, if_false]
  have := vmd_foldlM_ok l 0 h
  rw [zero_add] at this
  exact this

theorem vmd_call_error {t : ℂ} {l : List VectorMeson} (h : ∃ v ∈ l, t = (v.mass : ℂ) ^ 2) :
    (VMDModel.create l).call t = .error .zeroDivisionError := by
  have h1 : l.isEmpty = false := by
    rcases l with _ | ⟨v, l⟩
    · simp at h
    · rfl
  simp only [VMDModel.call, VMDModel.create_mesons, h1, Bool.false_eq_true, if_false]
  exact vmd_foldlM_error l 0 h

theorem vmd_call_empty (t : ℂ) : (VMDModel.create []).call t = .error .exception := by
  simp [VMDModel.call, VMDModel.create_mesons, throw, throwThe, MonadExceptOf.throw]

theorem single_init_ok {t_0 t_in a mass decay : ℝ} {m : SingleComponentModel}
    (h : SingleComponentModel.init t_0 t_in a mass decay = .ok m) :
    0 ≤ t_0 ∧ t_0 ≤ t_in ∧ m.t_to_W = mkTtoW t_0 t_in ∧ m.coupling_constant = a ∧
      buildComponent t_0 t_in mass decay = .ok m.component := by
  unfold SingleComponentModel.init at h
  rw [except_bind_eq_ok] at h
  obtain ⟨w, hw, h⟩ := h
  rw [except_bind_eq_ok] at h
  obtain ⟨c, hc, h⟩ := h
  rw [except_pure] at h
  injection h with h
  obtain ⟨h1, h2, h3⟩ := TtoW_init_eq_ok hw
  subst h
  exact ⟨h1, h2, h3, rfl, hc⟩

/-- The model of the examples. -/
theorem exampleSingle : ∃ m, SingleComponentModel.init 1 2 7 (3/2) (1/10) = .ok m := by
  obtain ⟨c, h⟩ := exampleComponent .massSquared
  have h' : buildComponent 1 2 (3/2) (1/10) = .ok c := h
  have h1 := TtoW_init_ok (t_0 := 1) (t_in := 2) (by norm_num) (by norm_num)
  exact ⟨_, by unfold SingleComponentModel.init; rw [h1, except_ok_bind, h', except_ok_bind]; rfl⟩

end UA
