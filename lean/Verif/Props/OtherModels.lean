import Verif.Props.Components
import Verif.Lemmas.OtherModels
import Mathlib.Algebra.BigOperators.Group.List.Basic

/-!
# Properties C27 - C29: single-component, VMD and background models
-/

namespace UA

open Complex ComplexConjugate Spec

/-- **C27** the value at zero is the coupling. -/
theorem C27_single_normalised (t_0 t_in a mass decay : ℝ) (h : t_0 < t_in) (m : SingleComponentModel)
    (hm : SingleComponentModel.init t_0 t_in a mass decay = .ok m) : m.call 0 = .ok (a : ℂ) := by
  obtain ⟨h0, _, h2, h3, h4⟩ := single_init_ok hm
  have h5 := C11_component_normalised .massSquared t_0 t_in mass decay h0 h m.component h4
  rw [evalAt_eq h0 h (zero_ne_tin h0 h)] at h5
  simp [SingleComponentModel.call, h2, TtoW_call_ok h (zero_ne_tin h0 h), h5, h3]

example : ∃ m, SingleComponentModel.init 1 2 7 (3/2) (1/10) = .ok m ∧ m.call 0 = .ok ((7 : ℝ) : ℂ) := by
  obtain ⟨m, hm⟩ := exampleSingle
  exact ⟨m, hm, C27_single_normalised 1 2 7 (3/2) (1/10) (by norm_num) m hm⟩

/-- **C27** `ValueError` exactly for negative real part; otherwise the value is coupling times component. -/
theorem C27_single_domain (t_0 t_in a mass decay : ℝ) (h : t_0 < t_in) (m : SingleComponentModel)
    (hm : SingleComponentModel.init t_0 t_in a mass decay = .ok m) (t : ℂ) :
    (m.call t = .error .valueError ↔ t.re < 0) ∧
    (0 ≤ t.re → m.call t = (do let x ← evalAt t_0 t_in m.component t; return (a : ℂ) * x)) := by
  obtain ⟨h0, hle, h2, h3, h4⟩ := single_init_ok hm
  have hval : 0 ≤ t.re → m.call t = (do let x ← evalAt t_0 t_in m.component t; return (a : ℂ) * x) := by
    intro hre
    simp only [SingleComponentModel.call, not_lt.mpr hre, if_false, h2, h3, evalAt, runTtoW, TtoW_init_ok h0 hle,
      except_ok_bind]
    rcases (mkTtoW t_0 t_in).call t with e | w <;> rfl
  refine ⟨⟨fun he => ?_, fun hneg => ?_⟩, hval⟩
  · by_contra hre
    push Not at hre
    rw [hval hre] at he
    by_cases ht : t = t_in
    · rw [evalAt, ht, runTtoW_tin h0 hle] at he; cases he
    · have hp := C14_poles .massSquared t_0 t_in mass decay h0 h m.component h4 t ht
      by_cases hpole : t = polePosition mass decay ∨ t = conj (polePosition mass decay)
      · rw [hp.1.mpr hpole] at he; cases he
      · obtain ⟨x, hx⟩ := hp.2.mpr (not_or.mp hpole)
        rw [hx] at he; cases he
  · simp [SingleComponentModel.call, hneg, throw, throwThe, MonadExceptOf.throw]

example : ∃ m, SingleComponentModel.init 1 2 7 (3/2) (1/10) = .ok m ∧ m.call (-1) = .error .valueError := by
  obtain ⟨m, hm⟩ := exampleSingle
  exact ⟨m, hm, (C27_single_domain 1 2 7 (3/2) (1/10) (by norm_num) m hm (-1)).1.mpr (by simp)⟩

/-- **C28** the VMD model is the sum of its pole terms, with the exact exceptional cases. -/
theorem C28_vmd_sum (l : List VectorMeson) (t : ℂ) :
    (l = [] → (VMDModel.create l).call t = .error .exception) ∧
    (l ≠ [] → (∀ v ∈ l, t ≠ (v.mass : ℂ) ^ 2) → (VMDModel.create l).call t =
      .ok ((l.map (fun v => (v.coefficient : ℂ) * ((v.mass : ℂ) ^ 2 / ((v.mass : ℂ) ^ 2 - t)))).sum)) ∧
    ((VMDModel.create l).call t = .error .zeroDivisionError ↔ ∃ v ∈ l, t = (v.mass : ℂ) ^ 2) := by
  refine ⟨?_, ?_, ?_⟩
  · rintro rfl; exact vmd_call_empty t
  · intro hne h
    rw [vmd_call_ok hne h]
    congr 2
    apply List.map_congr_left
    intro v _
    rw [vmdTerm, mul_div_assoc]
  · constructor
    · intro h
      by_contra hc
      push Not at hc
      rcases l with _ | ⟨v, l⟩
      · rw [vmd_call_empty] at h; cases h
      · rw [vmd_call_ok (by simp) hc] at h; cases h
    · exact vmd_call_error

example : (VMDModel.create [⟨1, 1⟩, ⟨2, 3⟩]).call 0 = .ok 3 := by
  rw [(C28_vmd_sum _ _).2.1 (by simp) (by intro v hv; simp at hv; rcases hv with rfl | rfl <;> norm_num)]
  norm_num
example : (VMDModel.create [⟨1, 1⟩, ⟨2, 3⟩]).call 9 = .error .zeroDivisionError :=
  (C28_vmd_sum _ _).2.2.mpr ⟨⟨2, 3⟩, by simp, by norm_num⟩

/-- **C28** reordering the mesons changes nothing, errors included. -/
theorem C28_vmd_perm (l l' : List VectorMeson) (h : l.Perm l') (t : ℂ) :
    (VMDModel.create l).call t = (VMDModel.create l').call t := by
  by_cases hp : ∃ v ∈ l, t = (v.mass : ℂ) ^ 2
  · rw [vmd_call_error hp, vmd_call_error]
    obtain ⟨v, hv, h'⟩ := hp
    exact ⟨v, h.mem_iff.mp hv, h'⟩
  · push Not at hp
    rcases l with _ | ⟨v, l⟩
    · rw [List.nil_perm.mp h]
    · have hne : l' ≠ [] := by
        rintro rfl; exact absurd h.symm (by simp)
      rw [vmd_call_ok (by simp) hp, vmd_call_ok hne (fun v hv => hp v (h.mem_iff.mpr hv)), (h.map _).sum_eq]

example (t : ℂ) : (VMDModel.create [⟨1, 1⟩, ⟨2, 3⟩]).call t = (VMDModel.create [⟨2, 3⟩, ⟨1, 1⟩]).call t :=
  C28_vmd_perm _ _ (List.Perm.swap _ _ _) t

/-- **C28** additivity under concatenation. -/
theorem C28_vmd_append (l l' : List VectorMeson) (hl : l ≠ []) (hl' : l' ≠ []) (t x y : ℂ)
    (hx : (VMDModel.create l).call t = .ok x) (hy : (VMDModel.create l').call t = .ok y) :
    (VMDModel.create (l ++ l')).call t = .ok (x + y) := by
  have h1 : ∀ v ∈ l, t ≠ (v.mass : ℂ) ^ 2 := by
    intro v hv h'
    rw [vmd_call_error ⟨v, hv, h'⟩] at hx; cases hx
  have h2 : ∀ v ∈ l', t ≠ (v.mass : ℂ) ^ 2 := by
    intro v hv h'
    rw [vmd_call_error ⟨v, hv, h'⟩] at hy; cases hy
  rw [vmd_call_ok hl h1] at hx
  rw [vmd_call_ok hl' h2] at hy
  injection hx with hx
  injection hy with hy
  rw [vmd_call_ok (by simp [hl]) (fun v hv => (List.mem_append.mp hv).elim (h1 v) (h2 v))]
  simp [hx, hy]

example : ∃ x y, (VMDModel.create [⟨1, 1⟩]).call 0 = .ok x ∧ (VMDModel.create [⟨2, 3⟩]).call 0 = .ok y :=
  ⟨_, _, (C28_vmd_sum _ _).2.1 (by simp) (by simp), (C28_vmd_sum _ _).2.1 (by simp) (by norm_num)⟩

/-- **C29** the ETGMR model: value, normalisation and exact exceptional set. -/
theorem C29_etgmr (a m_a m_d : ℝ) (s : ℂ) :
    (m_a ≠ 0 → m_d ≠ 0 → (ETGMRModel.init a m_a m_d).call 0 = .ok (a : ℂ)) ∧
    ((ETGMRModel.init a m_a m_d).call s = .error .zeroDivisionError ↔
      m_a = 0 ∨ m_d = 0 ∨ s = -(m_a : ℂ) ^ 2 ∨ s = (m_d : ℂ) ^ 2) ∧
    (m_a ≠ 0 → m_d ≠ 0 → s ≠ -(m_a : ℂ) ^ 2 → s ≠ (m_d : ℂ) ^ 2 →
      (ETGMRModel.init a m_a m_d).call s =
        .ok (a * ((m_a : ℂ) ^ 2 / (m_a ^ 2 + s)) * ((m_d : ℂ) ^ 2 / (m_d ^ 2 - s)) ^ 2)) := by
  have key : m_a ≠ 0 → m_d ≠ 0 → s ≠ -(m_a : ℂ) ^ 2 → s ≠ (m_d : ℂ) ^ 2 →
      (ETGMRModel.init a m_a m_d).call s =
        .ok (a * ((m_a : ℂ) ^ 2 / (m_a ^ 2 + s)) * ((m_d : ℂ) ^ 2 / (m_d ^ 2 - s)) ^ 2) := by
    intro ha hd h1 h2
    have ha' : ((m_a ^ 2 : ℝ) : ℂ) ≠ 0 := by exact_mod_cast pow_ne_zero 2 ha
    have hd' : ((m_d ^ 2 : ℝ) : ℂ) ≠ 0 := by exact_mod_cast pow_ne_zero 2 hd
    have e1 : (m_a : ℂ) ^ 2 + s ≠ 0 := fun h => h1 (by linear_combination h)
    have e2 : (m_d : ℂ) ^ 2 - s ≠ 0 := fun h => h2 (by linear_combination -h)
    have f1 : 1 + s / ((m_a ^ 2 : ℝ) : ℂ) = (m_a ^ 2 + s) / ((m_a ^ 2 : ℝ) : ℂ) := by field_simp; push_cast; ring
    have f2 : 1 - s / ((m_d ^ 2 : ℝ) : ℂ) = (m_d ^ 2 - s) / ((m_d ^ 2 : ℝ) : ℂ) := by field_simp; push_cast; ring
    have g1 : 1 + s / ((m_a ^ 2 : ℝ) : ℂ) ≠ 0 := by rw [f1]; exact div_ne_zero e1 ha'
    have g2 : 1 - s / ((m_d ^ 2 : ℝ) : ℂ) ≠ 0 := by rw [f2]; exact div_ne_zero e2 hd'
    simp only [ETGMRModel.call, ETGMRModel.init]
    rw [pyDiv_ok ha', except_ok_bind, pyDiv_ok hd', except_ok_bind, pyDiv_ok (mul_ne_zero g1 (pow_ne_zero 2 g2)), f1, f2]
    congr 1
    push_cast at ha' hd' ⊢
    field_simp
  refine ⟨fun ha hd => ?_, ?_, key⟩
  · have ha' : ((m_a ^ 2 : ℝ) : ℂ) ≠ 0 := by exact_mod_cast pow_ne_zero 2 ha
    have hd' : ((m_d ^ 2 : ℝ) : ℂ) ≠ 0 := by exact_mod_cast pow_ne_zero 2 hd
    simp only [ETGMRModel.call, ETGMRModel.init]
    rw [pyDiv_ok ha', except_ok_bind, pyDiv_ok hd', except_ok_bind, pyDiv_ok (by simp)]
    simp
  · constructor
    · intro h
      by_contra hc
      push Not at hc
      rw [key hc.1 hc.2.1 hc.2.2.1 hc.2.2.2] at h
      cases h
    · intro h
      simp only [ETGMRModel.call, ETGMRModel.init]
      by_cases ha : m_a = 0
      · rw [ha]; simp [pyDiv_zero]
      have ha' : ((m_a ^ 2 : ℝ) : ℂ) ≠ 0 := by exact_mod_cast pow_ne_zero 2 ha
      rw [pyDiv_ok ha', except_ok_bind]
      by_cases hd : m_d = 0
      · rw [hd]; simp [pyDiv_zero]
      have hd' : ((m_d ^ 2 : ℝ) : ℂ) ≠ 0 := by exact_mod_cast pow_ne_zero 2 hd
      rw [pyDiv_ok hd', except_ok_bind]
      have hz : (1 + s / ((m_a ^ 2 : ℝ) : ℂ)) * (1 - s / ((m_d ^ 2 : ℝ) : ℂ)) ^ 2 = 0 := by
        rcases h with h | h | h | h
        · exact absurd h ha
        · exact absurd h hd
        · rw [h]; push_cast at ha' ⊢; simp only [neg_div, div_self ha']; ring
        · rw [h]; push_cast at hd' ⊢; simp only [div_self hd']; ring
      rw [hz, pyDiv_zero]

example : (ETGMRModel.init 5 1 2).call 0 = .ok ((5 : ℝ) : ℂ) ∧ (ETGMRModel.init 5 1 2).call 4 = .error .zeroDivisionError :=
  ⟨(C29_etgmr 5 1 2 0).1 (by norm_num) (by norm_num), (C29_etgmr 5 1 2 4).2.1.mpr (by norm_num)⟩

/-- **C29** the two-poles model. -/
theorem C29_two_poles (a m_1 m_2 : ℝ) (s : ℂ) :
    (m_1 ≠ 0 → m_2 ≠ 0 → (TwoPolesModel.init a m_1 m_2).call 0 = .ok (a : ℂ)) ∧
    ((TwoPolesModel.init a m_1 m_2).call s = .error .zeroDivisionError ↔
      m_1 = 0 ∨ m_2 = 0 ∨ s = (m_1 : ℂ) ^ 2 ∨ s = (m_2 : ℂ) ^ 2) ∧
    (m_1 ≠ 0 → m_2 ≠ 0 → s ≠ (m_1 : ℂ) ^ 2 → s ≠ (m_2 : ℂ) ^ 2 →
      (TwoPolesModel.init a m_1 m_2).call s =
        .ok (a * ((m_1 : ℂ) ^ 2 / (m_1 ^ 2 - s)) * ((m_2 : ℂ) ^ 2 / (m_2 ^ 2 - s)))) := by
  have key : m_1 ≠ 0 → m_2 ≠ 0 → s ≠ (m_1 : ℂ) ^ 2 → s ≠ (m_2 : ℂ) ^ 2 →
      (TwoPolesModel.init a m_1 m_2).call s =
        .ok (a * ((m_1 : ℂ) ^ 2 / (m_1 ^ 2 - s)) * ((m_2 : ℂ) ^ 2 / (m_2 ^ 2 - s))) := by
    intro ha hd h1 h2
    have ha' : ((m_1 ^ 2 : ℝ) : ℂ) ≠ 0 := by exact_mod_cast pow_ne_zero 2 ha
    have hd' : ((m_2 ^ 2 : ℝ) : ℂ) ≠ 0 := by exact_mod_cast pow_ne_zero 2 hd
    have e1 : (m_1 : ℂ) ^ 2 - s ≠ 0 := fun h => h1 (by linear_combination -h)
    have e2 : (m_2 : ℂ) ^ 2 - s ≠ 0 := fun h => h2 (by linear_combination -h)
    have f1 : 1 - s / ((m_1 ^ 2 : ℝ) : ℂ) = (m_1 ^ 2 - s) / ((m_1 ^ 2 : ℝ) : ℂ) := by field_simp; push_cast; ring
    have f2 : 1 - s / ((m_2 ^ 2 : ℝ) : ℂ) = (m_2 ^ 2 - s) / ((m_2 ^ 2 : ℝ) : ℂ) := by field_simp; push_cast; ring
    have g1 : 1 - s / ((m_1 ^ 2 : ℝ) : ℂ) ≠ 0 := by rw [f1]; exact div_ne_zero e1 ha'
    have g2 : 1 - s / ((m_2 ^ 2 : ℝ) : ℂ) ≠ 0 := by rw [f2]; exact div_ne_zero e2 hd'
    simp only [TwoPolesModel.call, TwoPolesModel.init]
    rw [pyDiv_ok ha', except_ok_bind, pyDiv_ok hd', except_ok_bind, pyDiv_ok (mul_ne_zero g1 g2), f1, f2]
    congr 1
    push_cast at ha' hd' ⊢
    field_simp
  refine ⟨fun ha hd => ?_, ?_, key⟩
  · have ha' : ((m_1 ^ 2 : ℝ) : ℂ) ≠ 0 := by exact_mod_cast pow_ne_zero 2 ha
    have hd' : ((m_2 ^ 2 : ℝ) : ℂ) ≠ 0 := by exact_mod_cast pow_ne_zero 2 hd
    simp only [TwoPolesModel.call, TwoPolesModel.init]
    rw [pyDiv_ok ha', except_ok_bind, pyDiv_ok hd', except_ok_bind, pyDiv_ok (by simp)]
    simp
  · constructor
    · intro h
      by_contra hc
      push Not at hc
      rw [key hc.1 hc.2.1 hc.2.2.1 hc.2.2.2] at h
      cases h
    · intro h
      simp only [TwoPolesModel.call, TwoPolesModel.init]
      by_cases ha : m_1 = 0
      · rw [ha]; simp [pyDiv_zero]
      have ha' : ((m_1 ^ 2 : ℝ) : ℂ) ≠ 0 := by exact_mod_cast pow_ne_zero 2 ha
      rw [pyDiv_ok ha', except_ok_bind]
      by_cases hd : m_2 = 0
      · rw [hd]; simp [pyDiv_zero]
      have hd' : ((m_2 ^ 2 : ℝ) : ℂ) ≠ 0 := by exact_mod_cast pow_ne_zero 2 hd
      rw [pyDiv_ok hd', except_ok_bind]
      have hz : (1 - s / ((m_1 ^ 2 : ℝ) : ℂ)) * (1 - s / ((m_2 ^ 2 : ℝ) : ℂ)) = 0 := by
        rcases h with h | h | h | h
        · exact absurd h ha
        · exact absurd h hd
        · rw [h]; push_cast at ha' ⊢; simp only [div_self ha']; ring
        · rw [h]; push_cast at hd' ⊢; simp only [div_self hd']; ring
      rw [hz, pyDiv_zero]

example : (TwoPolesModel.init 5 1 2).call 0 = .ok ((5 : ℝ) : ℂ) ∧ (TwoPolesModel.init 5 1 2).call 1 = .error .zeroDivisionError :=
  ⟨(C29_two_poles 5 1 2 0).1 (by norm_num) (by norm_num), (C29_two_poles 5 1 2 1).2.1.mpr (by norm_num)⟩

/-- **C29** damped oscillations stay inside their envelope, and touch it wherever the phase is a multiple of `π`. -/
theorem C29_damped (a b c d x : ℝ) :
    |(⟨a, b, c, d⟩ : DampedOscillations).call x| ≤ |a| * Real.exp (-(b * x)) ∧
    (∀ n : ℤ, c * x + d = n * Real.pi →
      |(⟨a, b, c, d⟩ : DampedOscillations).call x| = |a| * Real.exp (-(b * x))) ∧
    (c * x + d = 0 → (⟨a, b, c, d⟩ : DampedOscillations).call x = a * Real.exp (-(b * x))) := by
  have e : -1 * b * x = -(b * x) := by ring
  simp only [DampedOscillations.call, e]
  refine ⟨?_, ?_, ?_⟩
  · rw [abs_mul, abs_mul, Real.abs_exp]
    exact mul_le_of_le_one_right (by positivity) (Real.abs_cos_le_one _)
  · intro n hn
    rw [abs_mul, abs_mul, Real.abs_exp, hn, Real.abs_cos_int_mul_pi, mul_one]
  · intro h; rw [h]; simp

example : (⟨3, 2, 1, -1⟩ : DampedOscillations).call 1 = 3 * Real.exp (-(2 * 1)) := (C29_damped 3 2 1 (-1) 1).2.2 (by norm_num)

end UA
