import Verif.Lemmas.PipelinesData
import Verif.Lemmas.PipelinesFreeze
import Verif.Lemmas.PipelinesSample
import Verif.Props.Utils

/-!
# Properties C57 to C60: pipelines
-/

namespace UA

open Complex

/-! ### C58 -/

/-- **C58** (kaon) `charged` and `neutral` are the points `(t, y, error)` given as three lists each. There is a list of points with their
flag whose components are the prepared lists; it is a permutation of the input with the right flags, sorted by `t`, and points with
the same `t` are in input order, the charged ones first. -/
theorem C58_kaon (charged neutral : List (ℝ × ℝ × ℝ)) (h : charged ≠ [] ∨ neutral ≠ []) :
    ∃ out : List ((ℝ × Bool) × ℝ × ℝ),
      prepareKaonData (charged.map (·.1)) (charged.map (·.2.1)) (charged.map (·.2.2)) (neutral.map (·.1)) (neutral.map (·.2.1)) (neutral.map (·.2.2)) =
        .ok (out.map (fun q => .kaon q.1.1 q.1.2), out.map (·.2.1), out.map (·.2.2)) ∧
      out.Perm (charged.map (fun q => ((q.1, true), q.2)) ++ neutral.map (fun q => ((q.1, false), q.2))) ∧
      out.Pairwise (fun a b => a.1.1 ≤ b.1.1) ∧
      ∀ t, out.filter (fun q => decide (q.1.1 = t)) =
        (charged.filter (fun q => decide (q.1 = t))).map (fun q => ((q.1, true), q.2)) ++
          (neutral.filter (fun q => decide (q.1 = t))).map (fun q => ((q.1, false), q.2)) := by
  obtain ⟨-, hne⟩ := prepare_tagged (fun b : ℝ × Bool => .kaon b.1 b.2) (fun b => b.1) (fun _ _ _ => rfl)
    (charged.map (fun q => ((q.1, true), q.2)) ++ neutral.map (fun q => ((q.1, false), q.2)))
  obtain ⟨out, h1, h2, h3, h4⟩ := hne (by
    simp only [ne_eq, List.append_eq_nil_iff, List.map_eq_nil_iff, not_and_or]
    exact h)
  refine ⟨out, ?_, h2, h3, fun t => ?_⟩
  · rw [← h1]
    unfold prepareKaonData
    simp only [List.map_append, List.map_map]
    rfl
  · rw [h4, List.filter_append, List.filter_map, List.filter_map]
    rfl

/-- **C58** (nucleon) the same with the four kinds of points. -/
theorem C58_nucleon (pe pm ne nm : List (ℝ × ℝ × ℝ)) (h : pe ≠ [] ∨ pm ≠ [] ∨ ne ≠ [] ∨ nm ≠ []) :
    ∃ out : List ((ℝ × Bool × Bool) × ℝ × ℝ),
      prepareNucleonData (pe.map (·.1)) (pe.map (·.2.1)) (pe.map (·.2.2)) (pm.map (·.1)) (pm.map (·.2.1)) (pm.map (·.2.2))
          (ne.map (·.1)) (ne.map (·.2.1)) (ne.map (·.2.2)) (nm.map (·.1)) (nm.map (·.2.1)) (nm.map (·.2.2)) =
        .ok (out.map (fun q => .nucleon q.1.1 q.1.2.1 q.1.2.2), out.map (·.2.1), out.map (·.2.2)) ∧
      out.Perm (pe.map (fun q => ((q.1, true, true), q.2)) ++ pm.map (fun q => ((q.1, true, false), q.2)) ++
        ne.map (fun q => ((q.1, false, true), q.2)) ++ nm.map (fun q => ((q.1, false, false), q.2))) ∧
      out.Pairwise (fun a b => a.1.1 ≤ b.1.1) ∧
      ∀ t, out.filter (fun q => decide (q.1.1 = t)) =
        (pe.filter (fun q => decide (q.1 = t))).map (fun q => ((q.1, true, true), q.2)) ++
          (pm.filter (fun q => decide (q.1 = t))).map (fun q => ((q.1, true, false), q.2)) ++
          (ne.filter (fun q => decide (q.1 = t))).map (fun q => ((q.1, false, true), q.2)) ++
          (nm.filter (fun q => decide (q.1 = t))).map (fun q => ((q.1, false, false), q.2)) := by
  obtain ⟨-, hne⟩ := prepare_tagged (fun b : ℝ × Bool × Bool => .nucleon b.1 b.2.1 b.2.2) (fun b => b.1) (fun _ _ _ => rfl)
    (pe.map (fun q => ((q.1, true, true), q.2)) ++ pm.map (fun q => ((q.1, true, false), q.2)) ++
        ne.map (fun q => ((q.1, false, true), q.2)) ++ nm.map (fun q => ((q.1, false, false), q.2)))
  obtain ⟨out, h1, h2, h3, h4⟩ := hne (by
    simp only [ne_eq, List.append_eq_nil_iff, List.map_eq_nil_iff, not_and_or, or_assoc]
    exact h)
  refine ⟨out, ?_, h2, h3, fun t => ?_⟩
  · rw [← h1]
    unfold prepareNucleonData
    simp only [List.map_append, List.map_map]
    rfl
  · rw [h4]
    simp only [List.filter_append, List.filter_map]
    rfl

example : ∃ out : List ((ℝ × Bool × Bool) × ℝ × ℝ), out.length = 2 := by
  obtain ⟨out, -, h, -⟩ := C58_nucleon [(2, 20, 5)] [] [] [(1, 10, 6)] (Or.inl (by simp))
  exact ⟨out, by rw [h.length_eq]; rfl⟩

/-- **C58** without any point the preparation raises `ValueError`. -/
theorem C58_empty : prepareKaonData [] [] [] [] [] [] = .error .valueError ∧
    prepareNucleonData [] [] [] [] [] [] [] [] [] [] [] [] = .error .valueError :=
  ⟨(prepare_tagged (fun b : ℝ × Bool => .kaon b.1 b.2) (fun b => b.1) (fun _ _ _ => rfl) []).1 rfl,
    (prepare_tagged (fun b : ℝ × Bool × Bool => .nucleon b.1 b.2.1 b.2.2) (fun b => b.1) (fun _ _ _ => rfl) []).1 rfl⟩

/-- Two charged points and a neutral one with the `t` of the first: sorted, and the charged point comes before the neutral one. -/
example : ∃ out : List ((ℝ × Bool) × ℝ × ℝ),
    prepareKaonData [2, 1] [20, 10] [5, 6] [2] [30] [7] = .ok (out.map (fun q => .kaon q.1.1 q.1.2), out.map (·.2.1), out.map (·.2.2)) ∧
    out.length = 3 ∧ out.filter (fun q => decide (q.1.1 = 2)) = [((2, true), 20, 5), ((2, false), 30, 7)] := by
  obtain ⟨out, h1, h2, -, h4⟩ := C58_kaon [(2, 20, 5), (1, 10, 6)] [(2, 30, 7)] (Or.inl (by simp))
  exact ⟨out, h1, h2.length_eq, by rw [h4]; simp⟩

/-! ### C59 -/

/-- **C59** what is free afterwards: `k` names (in the nucleon cross section pipeline: at most as many as there are), each once, none
of an always fixed parameter, none of a mass or width when resonances are to be fixed; all others are fixed, all values are kept. -/
theorem C59_chosen {env : Env} (hs : env.Samples) (kind : PipelineKind) {ref : ℕ} {k : ℤ} {fix : Bool} {w : World} {p : ModelParameters ℝ}
    (h : w.heap[ref]? = some p) (hp : Reachable p) {chosen : List String} {w' : World}
    (hrun : randomlyFreezeParameters env kind.capped ref k fix w = (.ok chosen, w')) :
    ∃ p', w'.heap[ref]? = some p' ∧ p'.freeNames.Perm chosen ∧ chosen.Nodup ∧
      (chosen.length : ℤ) = (if kind = .nucleonCS then min ((p.freezable fix).length : ℤ) k else k) ∧
      (∀ x ∈ chosen, x ∈ p.names ∧ ¬ DeclaredFixed p.cls x ∧ (fix = true → ¬ IsResonanceName x)) ∧
      p'.toList = p.toList.map (fun q => ⟨q.name, q.value, decide (q.name ∉ chosen)⟩) := by
  have hl := heap_set_append h
  have hc : fix = true → IsResonanceClass p.cls := by
    intro hf
    subst hf
    by_contra hno
    have hrel := randomlyFreeze_noResonances env kind.capped k h hno
    rw [hrel] at hrun
    cases hrun
  obtain ⟨hbad, hgood⟩ := randomlyFreeze_run hs kind.capped k h hp hc
  by_cases hn : (if kind.capped then min ((p.freezable fix).length : ℤ) k else k) < 0 ∨
      ((p.freezable fix).length : ℤ) < (if kind.capped then min ((p.freezable fix).length : ℤ) k else k)
  · obtain ⟨p₁, -, -, -, he⟩ := hbad hn
    rw [hrun] at he
    cases he
  · push Not at hn
    obtain ⟨chosen', p', -, -, h3, h4, h5, h6, h7⟩ := hgood hn.1 hn.2
    rw [hrun] at h7
    injection h7 with h7 h8
    injection h7 with h7
    subst h7 h8
    have hx : ∀ x ∈ chosen, x ∈ p.names ∧ ¬ DeclaredFixed p.cls x ∧ (fix = true → ¬ IsResonanceName x) := by
      intro x hx
      have := List.mem_filter.mp (h5 x hx)
      have h' := decide_eq_true_eq.mp this.2
      exact ⟨this.1, h'.1, fun hf hr => h'.2 ⟨hf, hr⟩⟩
    refine ⟨p', by simp [hl], ?_, h3, ?_, hx, h6⟩
    · have hfree : p'.freeNames = p.names.filter fun n => decide (n ∈ chosen) := by
        show (p'.toList.filter (!·.is_fixed)).map (·.name) = (p.toList.map (·.name)).filter _
        rw [h6, List.filter_map, List.map_map, List.filter_map]
        refine congrArg _ (List.filter_congr fun q _ => ?_)
        simp
      rw [hfree]
      refine (List.perm_ext_iff_of_nodup ((reachable_wellFormed hp).nodup.filter _) h3).mpr fun x => ?_
      simp only [List.mem_filter, decide_eq_true_eq]
      exact ⟨fun h => h.2, fun h => ⟨(hx x h).1, h⟩⟩
    · rw [h4]
      cases kind <;> rfl

/-- **C59** the outcome: `ValueError` exactly when `k` is negative or exceeds the number of available names (the nucleon cross section
pipeline: exactly when `k` is negative); otherwise names are chosen. -/
theorem C59_outcome {env : Env} (hs : env.Samples) (kind : PipelineKind) {ref : ℕ} (k : ℤ) {fix : Bool} {w : World} {p : ModelParameters ℝ}
    (h : w.heap[ref]? = some p) (hp : Reachable p) (hc : fix = true → IsResonanceClass p.cls) :
    ((randomlyFreezeParameters env kind.capped ref k fix w).1 = .error .valueError ↔
      k < 0 ∨ (kind ≠ .nucleonCS ∧ ((p.freezable fix).length : ℤ) < k)) ∧
    (¬ (k < 0 ∨ (kind ≠ .nucleonCS ∧ ((p.freezable fix).length : ℤ) < k)) →
      ∃ chosen, (randomlyFreezeParameters env kind.capped ref k fix w).1 = .ok chosen) := by
  obtain ⟨hbad, hgood⟩ := randomlyFreeze_run hs kind.capped k h hp hc
  have hiff : ((if kind.capped then min ((p.freezable fix).length : ℤ) k else k) < 0 ∨
      ((p.freezable fix).length : ℤ) < (if kind.capped then min ((p.freezable fix).length : ℤ) k else k)) ↔
      k < 0 ∨ (kind ≠ .nucleonCS ∧ ((p.freezable fix).length : ℤ) < k) := by
    cases kind <;> simp [PipelineKind.capped]
  rw [← hiff]
  by_cases hn : (if kind.capped then min ((p.freezable fix).length : ℤ) k else k) < 0 ∨
      ((p.freezable fix).length : ℤ) < (if kind.capped then min ((p.freezable fix).length : ℤ) k else k)
  · obtain ⟨p₁, -, -, -, he⟩ := hbad hn
    exact ⟨⟨fun _ => hn, fun _ => by rw [he]⟩, fun h => absurd hn h⟩
  · have hn' := hn
    push Not at hn'
    obtain ⟨chosen, p', -, -, -, -, -, -, h7⟩ := hgood hn'.1 hn'.2
    refine ⟨⟨fun h => ?_, fun h => absurd h hn⟩, fun _ => ⟨chosen, by rw [h7]⟩⟩
    rw [h7] at h
    cases h

/-- **C59** the classes without resonances cannot be asked to fix them: `AttributeError`. -/
theorem C59_no_resonances (env : Env) (capped : Bool) {ref : ℕ} (k : ℤ) {w : World} {p : ModelParameters ℝ}
    (h : w.heap[ref]? = some p) (hc : ¬ IsResonanceClass p.cls) :
    (randomlyFreezeParameters env capped ref k true w).1 = .error .attributeError := by
  rw [randomlyFreeze_noResonances env capped k h hc]

example (env : Env) : (randomlyFreezeParameters env true 0 1 true (startWorld [poles 1])).1 = .error .attributeError :=
  C59_no_resonances env true 1 (w := startWorld [poles 1]) rfl (fun h => h)

/-- **C59** names and values are kept whatever the outcome, and no other object is touched. -/
theorem C59_values {env : Env} (hs : env.Samples) (capped : Bool) {ref : ℕ} (k : ℤ) (fix : Bool) {w : World} {p : ModelParameters ℝ}
    (h : w.heap[ref]? = some p) (hp : Reachable p) :
    ∃ p', (randomlyFreezeParameters env capped ref k fix w).2.heap = w.heap.set ref p' ∧ p'.names = p.names ∧ p'.getAllValues = p.getAllValues := by
  have hkeep : ∀ (p' : ModelParameters ℝ) (flag : Parameter ℝ → Bool), p'.toList = p.toList.map (fun q => ⟨q.name, q.value, flag q⟩) →
      p'.names = p.names ∧ p'.getAllValues = p.getAllValues := by
    intro p' flag he
    constructor
    · show p'.toList.map (·.name) = p.toList.map (·.name)
      rw [he, List.map_map]; rfl
    · show p'.toList.map (·.value) = p.toList.map (·.value)
      rw [he, List.map_map]; rfl
  by_cases hc : fix = true → IsResonanceClass p.cls
  · obtain ⟨hbad, hgood⟩ := randomlyFreeze_run hs capped k h hp hc
    by_cases hn : (if capped then min ((p.freezable fix).length : ℤ) k else k) < 0 ∨
        ((p.freezable fix).length : ℤ) < (if capped then min ((p.freezable fix).length : ℤ) k else k)
    · obtain ⟨p₁, -, -, h3, he⟩ := hbad hn
      exact ⟨p₁, by rw [he], hkeep _ _ h3⟩
    · push Not at hn
      obtain ⟨chosen, p', -, -, -, -, -, h6, h7⟩ := hgood hn.1 hn.2
      exact ⟨p', by rw [h7], hkeep _ _ h6⟩
  · push Not at hc
    obtain ⟨rfl, hc⟩ := hc
    exact ⟨p.releaseAllParameters, by rw [randomlyFreeze_noResonances env capped k h hc], hkeep _ _ (C42_all hp).2⟩

/-- A kaon object has 30 names to choose from, 10 when resonances are to be fixed. -/
example : ((typical .kaon 1).freezable false).length = 30 ∧ ((typical .kaon 1).freezable true).length = 10 := by
  rw [freezable_table (typical_reachable .kaon 1), freezable_table (typical_reachable .kaon 1)]
  constructor <;> decide +kernel
example : ∃ chosen, (randomlyFreezeParameters (constEnv (fun _ => .ok ([], [])) fun _ => "") PipelineKind.kaonCS.capped 0 5 true (startWorld [typical .kaon 1])).1 = .ok chosen :=
  (C59_outcome (constEnv_samples _ _) .kaonCS 5 rfl (typical_reachable .kaon 1) (fun _ => trivial)).2 (by
    rw [freezable_table (typical_reachable .kaon 1)]
    decide +kernel)

end UA
