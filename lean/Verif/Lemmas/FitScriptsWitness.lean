import Verif.Lemmas.FitScriptsRun
import Verif.Lemmas.RunsWitness

/-!
# Concrete data for the examples of C79
-/

namespace UA

/-- If every draw is 1/2, a perturbation changes nothing. -/
theorem perturb_half {p : ModelParameters ℝ} (h : Reachable p) {handpicked : Bool} {dict : BoundsDict} (hd : p.bounds handpicked = .ok dict)
    (s : ℝ) (sr : Option ℝ) : ∃ p', perturbModelParameters p s sr handpicked (fun _ => 1 / 2) = (.ok (), p') ∧
      ∀ q' ∈ p'.toList, ∃ q ∈ p.toList, q'.name = q.name ∧ q'.value = q.value := by
  obtain ⟨B, -, heq⟩ := perturb_eq (reachable_wellFormed h) hd s sr (fun _ => 1 / 2)
  refine ⟨_, heq, fun q' hq' => ?_⟩
  obtain ⟨q, hq, he⟩ := forall₂_mem_right (perturbedData_forall₂ B (perturbationSize s (sr.getD s)) (fun _ => 1 / 2) p.data 0) q' hq'
  refine ⟨q, hq, ?_⟩
  rcases he with ⟨-, rfl⟩ | ⟨-, k, rfl⟩
  · exact ⟨rfl, rfl⟩
  · refine ⟨rfl, ?_⟩
    dsimp only
    unfold perturbedValue
    rw [if_neg (by norm_num), if_neg (by norm_num)]

/-- Fifty charged and ten neutral points from `t = 10` on, values 1 and errors 0.1. -/
noncomputable def fiftyCharged : List (ℝ × ℝ × ℝ) := (List.range 50).map fun k : ℕ => ((k : ℝ) + 10, 1, 0.1)

noncomputable def tenNeutral : List (ℝ × ℝ × ℝ) := (List.range 10).map fun k : ℕ => ((k : ℝ) + 10.5, 1, 0.1)

theorem sixty_from_ten : ∀ d ∈ fiftyCharged ++ tenNeutral, 10 ≤ d.1 ∧ d.2.2 ≠ 0 := by
  intro d hd
  rcases List.mem_append.mp hd with h | h
  · obtain ⟨k, -, rfl⟩ := List.mem_map.mp h
    have : (0 : ℝ) ≤ k := Nat.cast_nonneg k
    exact ⟨by dsimp only; linarith, by norm_num⟩
  · obtain ⟨k, -, rfl⟩ := List.mem_map.mp h
    have : (0 : ℝ) ≤ k := Nat.cast_nonneg k
    exact ⟨by dsimp only; linarith, by norm_num⟩

theorem literals_small {script : FitScript} (hs : script ∈ kaonIterativeScripts) :
    (∀ e ∈ script.literals, "t_in_".toList <+: e.1.toList → e.2 < 10) ∧ script.literals.length + 2 < 60 := by
  revert script; decide +kernel

/-- The unperturbed start avoids the points. -/
theorem half_start {script : FitScript} (hs : script ∈ kaonIterativeScripts) {pion_mass : ℝ} (hp : 0 ≤ pion_mass ∧ pion_mass ≤ 0.24) :
    ∃ p₀ p, script.makeInitialParameters [("t_0_isoscalar", (3 * pion_mass) ^ 2), ("t_0_isovector", (2 * pion_mass) ^ 2)] = .ok p₀ ∧
      perturbModelParameters p₀ script.perturbation_size (some script.perturbation_size_resonances) script.use_handpicked_bounds (fun _ => 1 / 2) =
        (.ok (), p) ∧ p.Avoids {t | ∃ d ∈ fiftyCharged ++ tenNeutral, t = d.1} := by
  obtain ⟨p₀, h1, h2, h3, -⟩ := script_make (kaonIterative_mem hs) (scriptConstants_kaon hs hp)
  obtain ⟨-, -, ⟨-, ⟨dict, hd, -⟩, -⟩, -⟩ := (goodObject_iff (fitScripts_resonance (kaonIterative_mem hs))).mp h2
  obtain ⟨p, h4, h5⟩ := perturb_half h2.1 hd script.perturbation_size (some script.perturbation_size_resonances)
  refine ⟨p₀, p, h1, h4, ?_⟩
  rintro q' hq' ht ⟨d, hdm, he⟩
  obtain ⟨q, hq, e1, e2⟩ := h5 q' hq'
  have hn : q.name ∈ p₀.names := List.mem_map_of_mem hq
  obtain ⟨e, hem, hen⟩ := List.mem_map.mp (h3.2 q.name hn)
  have hval : q.value = e.2 := by
    obtain ⟨flag, hf⟩ := h3.1 e hem
    obtain ⟨hm, -⟩ := (getItem_eq_ok (reachable_wellFormed h2.1).nodup).mp hf
    have := List.inj_on_of_nodup_map (reachable_wellFormed h2.1).nodup hq hm hen.symm
    rw [this]
  have hlt : e.2 < 10 := by
    rw [e1, ← hen] at ht
    rcases List.mem_append.mp hem with h | h
    · simp only [List.mem_cons, List.not_mem_nil, or_false] at h
      rcases h with rfl | rfl <;> (dsimp only; nlinarith [hp.1, hp.2])
    · obtain ⟨l, hl, rfl⟩ := List.mem_map.mp h
      have h10 : l.2 < 10 := (literals_small hs).1 l hl ht
      show (l.2 : ℝ) < 10
      exact_mod_cast h10
  have := (sixty_from_ten d hdm).1
  rw [← he, e2, hval] at this
  linarith

end UA
