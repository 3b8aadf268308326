import Verif.Lemmas.World
import Verif.Lemmas.Tasks

/-!
# Helper lemmas: data preparation
-/

namespace UA

open Complex

/-- A stable sort by a key. -/
theorem mergeSort_key {α κ : Type} [LinearOrder κ] [DecidableLE κ] [DecidableEq κ] (key : α → κ) (l : List α) :
    (l.mergeSort fun a b => decide (key a ≤ key b)).Perm l ∧
    (l.mergeSort fun a b => decide (key a ≤ key b)).Pairwise (fun a b => key a ≤ key b) ∧
    ∀ t, (l.mergeSort fun a b => decide (key a ≤ key b)).filter (fun a => decide (key a = t)) = l.filter fun a => decide (key a = t) := by
  have ht : ∀ a b c : α, decide (key a ≤ key b) = true → decide (key b ≤ key c) = true → decide (key a ≤ key c) = true := by
    intro a b c h1 h2
    simp only [decide_eq_true_eq] at *
    exact h1.trans h2
  have htot : ∀ a b : α, (decide (key a ≤ key b) || decide (key b ≤ key a)) = true := by
    intro a b
    simp only [Bool.or_eq_true, decide_eq_true_eq]
    exact le_total _ _
  have hperm := List.mergeSort_perm l fun a b => decide (key a ≤ key b)
  refine ⟨hperm, ?_, fun t => ?_⟩
  · have := List.pairwise_mergeSort (le := fun a b => decide (key a ≤ key b)) ht htot l
    simpa using this
  · have hs : List.Sublist (l.filter fun a => decide (key a = t)) (l.mergeSort fun a b => decide (key a ≤ key b)) := by
      refine List.sublist_mergeSort ht htot ?_ List.filter_sublist
      refine List.pairwise_of_forall_mem_list fun a ha b hb => ?_
      simp only [List.mem_filter, decide_eq_true_eq] at *
      exact (ha.2.trans hb.2.symm).le
    have hs' := hs.filter fun a => decide (key a = t)
    rw [List.filter_filter] at hs'
    simp only [Bool.and_self] at hs'
    exact (hs'.eq_of_length (hperm.filter _).length_eq.symm).symm

/-- Sorting points made from tagged values. -/
theorem sortByT_map {β : Type} (point : β → Datapoint) (key : β → ℝ) (hk : ∀ b y e, sortKey (point b, y, e) = key b) (l : List (β × ℝ × ℝ)) :
    sortByT (l.map fun q => (point q.1, q.2.1, q.2.2)) =
      (l.mergeSort fun a b => decide (key a.1 ≤ key b.1)).map fun q => (point q.1, q.2.1, q.2.2) := by
  unfold sortByT
  refine (List.map_mergeSort fun a _ b _ => ?_).symm
  rw [hk, hk]

theorem unzip3_map {β : Type} (point : β → Datapoint) (l : List (β × ℝ × ℝ)) (h : l ≠ []) :
    unzip3 (l.map fun q => (point q.1, q.2.1, q.2.2)) = .ok (l.map (fun q => point q.1), l.map (·.2.1), l.map (·.2.2)) := by
  unfold unzip3
  have : (l.map fun q => (point q.1, q.2.1, q.2.2)).isEmpty = false := by
    rw [List.isEmpty_eq_false_iff]; simpa using h
  rw [this, List.map_map, List.map_map, List.map_map]
  rfl

/-- The end of `_prepare_data`. -/
theorem prepare_tagged {β : Type} (point : β → Datapoint) (key : β → ℝ) (hk : ∀ b y e, sortKey (point b, y, e) = key b) (l : List (β × ℝ × ℝ)) :
    (l = [] → unzip3 (sortByT (zip3 (l.map fun q => point q.1) (l.map (·.2.1)) (l.map (·.2.2)))) = .error .valueError) ∧
    (l ≠ [] → ∃ out : List (β × ℝ × ℝ),
      unzip3 (sortByT (zip3 (l.map fun q => point q.1) (l.map (·.2.1)) (l.map (·.2.2)))) =
        .ok (out.map (fun q => point q.1), out.map (·.2.1), out.map (·.2.2)) ∧
      out.Perm l ∧ out.Pairwise (fun a b => key a.1 ≤ key b.1) ∧
      ∀ t, out.filter (fun a => decide (key a.1 = t)) = l.filter fun a => decide (key a.1 = t)) := by
  constructor
  · rintro rfl
    have : sortByT (zip3 ([] : List Datapoint) ([] : List ℝ) ([] : List ℝ)) = [] := by
      unfold sortByT zip3; simp
    simp only [List.map_nil]
    rw [this]; rfl
  · intro hl
    have hz : zip3 (l.map fun q => point q.1) (l.map (·.2.1)) (l.map (·.2.2)) = l.map fun q => (point q.1, q.2.1, q.2.2) := zip3_map _ _ _ _
    obtain ⟨h1, h2, h3⟩ := mergeSort_key (fun q : β × ℝ × ℝ => key q.1) l
    refine ⟨l.mergeSort fun a b => decide (key a.1 ≤ key b.1), ?_, h1, h2, h3⟩
    rw [hz, sortByT_map point key hk, unzip3_map point]
    intro he
    exact hl (List.Perm.nil_eq (he ▸ h1)).symm

end UA
