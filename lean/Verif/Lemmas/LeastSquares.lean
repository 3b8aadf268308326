import Mathlib.Topology.Algebra.Module.FiniteDimension
import Mathlib.Analysis.Normed.Module.FiniteDimension
import Mathlib.Analysis.Complex.Basic
import Mathlib.LinearAlgebra.Complex.FiniteDimensional
import Mathlib.LinearAlgebra.AffineSpace.AffineSubspace.Basic

/-! Least squares over an affine family of amplitudes. -/

namespace UA

/-- The amplitudes of a family closed under lines form a closed set. -/
theorem range_closed {Q : Type*} {E : Type*} [NormedAddCommGroup E] [NormedSpace ℝ E] [FiniteDimensional ℝ E] (A : Q → E)
    (hA : ∀ q q' (s : ℝ), ∃ r, A r = (1 - s) • A q + s • A q') : IsClosed (Set.range A) := by
  let S : AffineSubspace ℝ E := {
    carrier := Set.range A
    smul_vsub_vadd_mem' := by
      rintro c _ _ _ ⟨q₁, rfl⟩ ⟨q₂, rfl⟩ ⟨q₃, rfl⟩
      obtain ⟨r₁, h₁⟩ := hA q₂ q₁ (2 * c)
      obtain ⟨r₂, h₂⟩ := hA q₂ q₃ 2
      obtain ⟨r, h⟩ := hA r₁ r₂ (1 / 2)
      refine ⟨r, ?_⟩
      rw [h, h₁, h₂, vsub_eq_sub, vadd_eq_add]
      module }
  exact S.closed_of_finiteDimensional

theorem exists_best {Q : Type*} [Nonempty Q] {N : ℕ} (A : Q → Fin N → ℂ × ℂ)
    (hA : ∀ q q' (s : ℝ), ∃ r, A r = (1 - s) • A q + s • A q') (h : Fin N → ℂ × ℂ → ℝ) (hc : ∀ i, Continuous (h i))
    (hb : ∀ i z, ‖z‖ ≤ 1 + h i z) (y e : Fin N → ℝ) (he : ∀ i, 0 < e i) :
    ∃ q, ∀ q', ∑ i, ((y i - h i (A q i)) / e i) ^ 2 ≤ ∑ i, ((y i - h i (A q' i)) / e i) ^ 2 := by
  obtain ⟨q₀⟩ := ‹Nonempty Q›
  let f : (Fin N → ℂ × ℂ) → ℝ := fun z => ∑ i, ((y i - h i (z i)) / e i) ^ 2
  have hf : Continuous f := continuous_finsetSum _ fun i _ =>
    ((continuous_const.sub ((hc i).comp (continuous_apply i))).div_const _).pow 2
  have hf0 : ∀ z, 0 ≤ f z := fun z => Finset.sum_nonneg fun i _ => sq_nonneg _
  let R : ℝ := max ‖A q₀‖ (1 + ∑ i, (|y i| + e i * (1 + f (A q₀))))
  have hpos : ∀ i, 0 ≤ |y i| + e i * (1 + f (A q₀)) := fun i => by
    have := he i; have := hf0 (A q₀); positivity
  have hR : 0 ≤ R := (norm_nonneg _).trans (le_max_left _ _)
  have hball : A q₀ ∈ Metric.closedBall 0 R := mem_closedBall_zero_iff.mpr (le_max_left _ _)
  have hK : IsCompact (Set.range A ∩ Metric.closedBall 0 R) := (isCompact_closedBall _ _).inter_left (range_closed A hA)
  obtain ⟨x, ⟨⟨q, rfl⟩, -⟩, hm⟩ := hK.exists_isMinOn ⟨A q₀, ⟨q₀, rfl⟩, hball⟩ hf.continuousOn
  have h0 : f (A q) ≤ f (A q₀) := hm ⟨⟨q₀, rfl⟩, hball⟩
  refine ⟨q, fun q' => ?_⟩
  show f (A q) ≤ f (A q')
  by_cases hq : ‖A q'‖ ≤ R
  · exact hm ⟨⟨q', rfl⟩, by simpa using hq⟩
  · refine h0.trans ?_
    have : ∃ i, R < ‖A q' i‖ := by
      by_contra hn
      push Not at hn
      exact hq ((pi_norm_le_iff_of_nonneg hR).mpr hn)
    obtain ⟨i, hi⟩ := this
    have h1 : 1 + (|y i| + e i * (1 + f (A q₀))) ≤ R :=
      (add_le_add_right (Finset.single_le_sum (f := fun i => |y i| + e i * (1 + f (A q₀))) (fun j _ => hpos j) (Finset.mem_univ i)) 1).trans
        (le_max_right _ _)
    have h2 := hb i (A q' i)
    have h3 : e i * (1 + f (A q₀)) ≤ h i (A q' i) - y i := by linarith [le_abs_self (y i)]
    have h4 : 1 + f (A q₀) ≤ (h i (A q' i) - y i) / e i := by
      rw [le_div_iff₀ (he i)]; linarith
    have h5 : f (A q₀) ≤ ((y i - h i (A q' i)) / e i) ^ 2 := by
      have : ((y i - h i (A q' i)) / e i) ^ 2 = ((h i (A q' i) - y i) / e i) ^ 2 := by ring
      rw [this]
      nlinarith [hf0 (A q₀)]
    exact h5.trans (Finset.single_le_sum (f := fun i => ((y i - h i (A q' i)) / e i) ^ 2) (fun j _ => sq_nonneg _) (Finset.mem_univ i))

end UA
