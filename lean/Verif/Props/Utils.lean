import Verif.Lemmas.UtilsInside
import Verif.Lemmas.UtilsEval
import Verif.Lemmas.UtilsPartial
import Verif.Lemmas.UtilsPerturb

/-!
# Properties C26 and C48 - C54: `common/utils.py`
-/

namespace UA

open Complex

/-! ### C26 -/

/-- **C26** (kaon) values strictly inside the maximal bounds: the model is built, nothing is raised. -/
theorem C26_kaon {p : ModelParameters ℝ} (h : Reachable p) (hc : IsKaonClass p.cls) (hi : p.InsideMaximal) :
    ∃ m, getFFModel p = .ok m := by
  have hw := reachable_wellFormed h
  obtain ⟨v, hv⟩ := hw.exists_values
  have hr : IsResonanceClass p.cls := by
    revert hc; cases p.cls <;> simp [IsKaonClass, IsResonanceClass]
  obtain ⟨x, hx⟩ := kaon_wiring hw hv hc
  have hb := kaon_inside_builds hw hv (inside_values h hr hv hi) hc hx true
  have hbuild := hx.build
  have hck : x.check = .ok () := by
    cases x with
    | full x => obtain ⟨m, hm⟩ := hb; show (do let _ ← KaonUAModel.init true x; return ()) = _; rw [hm]; rfl
    | b x => obtain ⟨m, hm⟩ := hb; show (do let _ ← KaonUAModelB.init true x; return ()) = _; rw [hm]; rfl
    | simplified x => obtain ⟨m, hm⟩ := hb; show (do let _ ← KaonUAModelSimplified.init true x; return ()) = _; rw [hm]; rfl
  rw [hck] at hbuild
  rcases hg : getFFModel p with e | m
  · rw [hg] at hbuild; cases hbuild
  · exact ⟨m, rfl⟩

example : ∃ m, getFFModel (typical .kaon 1) = .ok m :=
  C26_kaon (typical_reachable _ _) trivial (typical_insideMaximal .kaon trivial one_pos)

/-- **C26** (nucleon, what holds) values strictly inside the maximal bounds: the model is built if for each resonance the real part
of the pole, mass² - width²/4, is not below the thresholds of its channel; otherwise `ValueError` is raised.
Missing from the stated property: that the bounds alone suffice, which is false (`C26_false`). -/
theorem C26_nucleon_partial {p : ModelParameters ℝ} (h : Reachable p) (hc : p.cls = .nucleon) (hi : p.InsideMaximal) {x : String → ℝ}
    (hx : ∀ q ∈ p.toList, q.value = x q.name) :
    ((∀ s m d, p.Holds ("mass_" ++ s) m → p.Holds ("decay_rate_" ++ s) d → massThreshold p.cls x ("mass_" ++ s) ^ 2 ≤ m ^ 2 - d ^ 2 / 4) →
      ∃ m, getFFModel p = .ok m) ∧
    ((∃ s m d, p.Holds ("mass_" ++ s) m ∧ p.Holds ("decay_rate_" ++ s) d ∧ m ^ 2 - d ^ 2 / 4 < massThreshold p.cls x ("mass_" ++ s) ^ 2) →
      getFFModel p = .error .valueError) := by
  have hw := reachable_wellFormed h
  have ho := nucleon_inside_outcome hw hc hx (inside_values h (by rw [hc]; trivial) hx hi)
  constructor
  · intro hall
    obtain ⟨a, ha⟩ := ho.1 hall
    rcases hg : getFFModel p with e | m
    · rw [hg] at ha; cases ha
    · exact ⟨m, rfl⟩
  · rintro ⟨s, m, d, h1, h2, h3⟩
    have ha := ho.2 fun hall => absurd (hall s m d h1 h2) (not_le.mpr h3)
    rcases hg : getFFModel p with e | m
    · rw [hg] at ha
      have : (Except.error e : Except PyErr Unit) = .error .valueError := ha
      injection this with this
      rw [this]
    · rw [hg] at ha; cases ha

example : ∃ m, getFFModel (typical .kaonFixedSelected 1) = .ok m :=
  C26_kaon (typical_reachable _ _) trivial (typical_insideMaximal .kaonFixedSelected trivial one_pos)

/-- **C26** fails for the nucleon: masses 2, widths 4, `t_0 = 1`, `t_in = 2`. -/
theorem C26_false : ¬ ∀ p : ModelParameters ℝ, Reachable p → IsResonanceClass p.cls → p.InsideMaximal → getFFModel p ≠ .error .valueError := by
  intro hall
  have hr := typical_reachable .nucleon 4
  have hw := reachable_wellFormed hr
  have hi := typical_insideMaximal .nucleon trivial (by norm_num : (0 : ℝ) < 4)
  refine hall _ hr trivial hi ((C26_nucleon_partial hr rfl hi (typical_values _ _)).2
    ⟨"omega", 2, 4, (hw.holds_iff (typical_values _ _)).mpr ⟨by decide +kernel, ?_⟩,
      (hw.holds_iff (typical_values _ _)).mpr ⟨by decide +kernel, ?_⟩, ?_⟩)
  · unfold typicalValue; rw [if_neg (by decide), if_neg (by decide), if_pos (by decide)]
  · unfold typicalValue; rw [if_neg (by decide), if_neg (by decide), if_neg (by decide), if_pos (by decide)]
  · unfold massThreshold typicalValue
    rw [if_pos (show (typical .nucleon 4).cls = .nucleon from rfl), if_pos (by decide), if_pos (by decide), if_pos (by decide)]
    norm_num

example : ∃ m, getFFModel (typical .nucleon 1) = .ok m := by
  have hr := typical_reachable .nucleon 1
  have hw := reachable_wellFormed hr
  refine (C26_nucleon_partial hr rfl (typical_insideMaximal .nucleon trivial one_pos) (typical_values _ _)).1 fun s m d hm hd => ?_
  obtain ⟨-, rfl⟩ := (hw.holds_iff (typical_values _ _)).mp hm
  obtain ⟨-, rfl⟩ := (hw.holds_iff (typical_values _ _)).mp hd
  have h0 : ∀ n : String, "t_0_".toList <+: n.toList → typicalValue 1 n = 1 := fun n hn => by unfold typicalValue; rw [if_pos hn]
  have ht : massThreshold (typical .nucleon 1).cls (typicalValue 1) ("mass_" ++ s) = 1 := by
    unfold massThreshold
    rw [if_pos (show (typical .nucleon 1).cls = .nucleon from rfl), h0 _ (by decide), h0 _ (by decide), h0 _ (by decide), h0 _ (by decide)]
    simp
  have hm : typicalValue 1 ("mass_" ++ s) = 2 := by
    have hp : "mass_".toList <+: ("mass_" ++ s).toList := ⟨s.toList, by rw [String.toList_append]⟩
    unfold typicalValue
    rw [if_neg, if_neg, if_pos hp]
    · exact fun h => absurd ((prefix_head h (c := 't') (by decide)).symm.trans (prefix_head hp (c := 'm') (by decide))) (by decide)
    · exact fun h => absurd ((prefix_head h (c := 't') (by decide)).symm.trans (prefix_head hp (c := 'm') (by decide))) (by decide)
  have hd : typicalValue 1 ("decay_rate_" ++ s) = 1 := by
    have hp : "decay_rate_".toList <+: ("decay_rate_" ++ s).toList := ⟨s.toList, by rw [String.toList_append]⟩
    unfold typicalValue
    rw [if_neg, if_neg, if_neg, if_pos hp]
    · exact fun h => absurd ((prefix_head h (c := 'm') (by decide)).symm.trans (prefix_head hp (c := 'd') (by decide))) (by decide)
    · exact fun h => absurd ((prefix_head h (c := 't') (by decide)).symm.trans (prefix_head hp (c := 'd') (by decide))) (by decide)
    · exact fun h => absurd ((prefix_head h (c := 't') (by decide)).symm.trans (prefix_head hp (c := 'd') (by decide))) (by decide)
  rw [ht, hm, hd]; norm_num

/-! ### C48 -/

/-- **C48** sizes in [0, 1], draws of `random.random()` in [0, 1): values within their bounds are mapped to values within their
bounds, the bounds themselves stay what they were, fixed parameters, names and flags are untouched. -/
theorem C48_within {p : ModelParameters ℝ} (h : Reachable p) {handpicked : Bool} {dict : BoundsDict} (hd : p.bounds handpicked = .ok dict)
    {s : ℝ} {sr : Option ℝ} (hs : 0 ≤ s ∧ s ≤ 1) (hsr : ∀ r ∈ sr, 0 ≤ r ∧ r ≤ 1) {random : ℕ → ℝ} (hr : ∀ k, 0 ≤ random k ∧ random k < 1)
    (hin : ∀ q ∈ p.toList, q.is_fixed = false → ∀ b, dict.lookup q.name = some b → Within b.1 q.value b.2) :
    ∃ p', perturbModelParameters p s sr handpicked random = (.ok (), p') ∧ Reachable p' ∧ p'.cls = p.cls ∧
      List.Forall₂ (fun q q' => q'.name = q.name ∧ q'.is_fixed = q.is_fixed ∧ (q.is_fixed = true → q'.value = q.value)) p.toList p'.toList ∧
      p'.bounds handpicked = .ok dict ∧
      ∀ q ∈ p'.toList, q.is_fixed = false → ∃ b, dict.lookup q.name = some b ∧ Within b.1 q.value b.2 := by
  have hw := reachable_wellFormed h
  obtain ⟨B, hB, heq⟩ := perturb_eq hw hd s sr random
  have hf := perturbedData_forall₂ B (perturbationSize s (sr.getD s)) random p.data 0
  have hreach := perturb_reachable h s sr handpicked random
  rw [heq] at hreach
  have hsize : ∀ n, 0 ≤ perturbationSize s (sr.getD s) n ∧ perturbationSize s (sr.getD s) n ≤ 1 := by
    intro n
    have : 0 ≤ sr.getD s ∧ sr.getD s ≤ 1 := by
      cases sr with
      | none => exact hs
      | some r => exact hsr r rfl
    unfold perturbationSize
    split_ifs
    · exact this
    · exact hs
  refine ⟨_, heq, hreach, rfl, ?_, ?_, ?_⟩
  · refine hf.imp fun q q' hq => ?_
    rcases hq with ⟨h1, rfl⟩ | ⟨h1, k, rfl⟩
    · exact ⟨rfl, rfl, fun _ => rfl⟩
    · exact ⟨rfl, h1.symm, fun h2 => by rw [h1] at h2; cases h2⟩
  · refine bounds_same hw (reachable_wellFormed hreach) rfl hd (hf.imp fun q q' hq hfix => ?_)
    rcases hq with ⟨-, rfl⟩ | ⟨h1, -⟩
    · rfl
    · rw [h1] at hfix; cases hfix
  · intro q' hq' hfree
    obtain ⟨q, hq, ⟨h1, rfl⟩ | ⟨h1, k, rfl⟩⟩ := forall₂_mem_right hf q' hq'
    · rw [h1] at hfree; cases hfree
    · have hb := hB _ hq h1
      exact ⟨_, hb, perturbedValue_within (hin _ hq h1 _ hb) (by linarith [(hr k).1]) (by linarith [(hr k).2]) (hsize _).1 (hsize _).2⟩

example (c : ParamClass) (hc : IsResonanceClass c) : ∃ dict p', perturbModelParameters (typical c 1) 1 (some (1 / 2)) false (fun _ => 3 / 4) = (.ok (), p') ∧
    p'.bounds false = .ok dict ∧ ∀ q ∈ p'.toList, q.is_fixed = false → ∃ b, dict.lookup q.name = some b ∧ Within b.1 q.value b.2 := by
  obtain ⟨dict, hd, hin⟩ := typical_insideMaximal c hc one_pos
  obtain ⟨p', h1, -, -, -, h2, h3⟩ := C48_within (typical_reachable c 1) hd (s := 1) (sr := some (1 / 2)) (by norm_num)
    (by intro r hr; cases hr; norm_num) (random := fun _ => 3 / 4) (by norm_num)
    (fun q hq _ b hb => ⟨((hin q hq).1 b hb).1.le, ((hin q hq).1 b hb).2.le⟩)
  exact ⟨dict, p', h1, h2, h3⟩

/-- **C48** whatever the sizes and the draws, and also when an exception is raised: names, flags and fixed values stay. -/
theorem C48_only_free {p : ModelParameters ℝ} (h : Reachable p) (handpicked : Bool) (s : ℝ) (sr : Option ℝ) (random : ℕ → ℝ) :
    Reachable (perturbModelParameters p s sr handpicked random).2 ∧ (perturbModelParameters p s sr handpicked random).2.cls = p.cls ∧
    List.Forall₂ (fun q q' => q'.name = q.name ∧ q'.is_fixed = q.is_fixed ∧ (q.is_fixed = true → q'.value = q.value)) p.toList
      (perturbModelParameters p s sr handpicked random).2.toList ∧
    ((perturbModelParameters p s sr handpicked random).1 = .ok () ↔ ∃ dict, p.bounds handpicked = .ok dict) := by
  refine ⟨perturb_reachable h s sr handpicked random, ?_⟩
  rcases hb : p.bounds handpicked with e | dict
  · have : perturbModelParameters p s sr handpicked random = (.error e, p) := by
      have hb' : (if handpicked = true then p.boundsHandpicked else p.boundsMaximal) = .error e := hb
      unfold perturbModelParameters
      simp only [hb']
    rw [this]
    refine ⟨rfl, ?_, ?_⟩
    · exact List.forall₂_same.mpr fun q _ => ⟨rfl, rfl, fun _ => rfl⟩
    · constructor
      · intro h; cases h
      · rintro ⟨d, hd⟩; cases hd
  · obtain ⟨B, hB, heq⟩ := perturb_eq (reachable_wellFormed h) hb s sr random
    rw [heq]
    refine ⟨rfl, ?_, fun _ => ⟨dict, rfl⟩, fun _ => rfl⟩
    refine (perturbedData_forall₂ B (perturbationSize s (sr.getD s)) random p.data 0).imp fun q q' hq => ?_
    rcases hq with ⟨h1, rfl⟩ | ⟨h1, k, rfl⟩
    · exact ⟨rfl, rfl, fun _ => rfl⟩
    · exact ⟨rfl, h1.symm, fun h2 => by rw [h1] at h2; cases h2⟩

/-- Concrete objects meet the hypotheses: values strictly inside the bounds are within them. -/
example (c : ParamClass) (hc : IsResonanceClass c) : ∃ dict, (typical c 1).bounds false = .ok dict ∧
    ∀ q ∈ (typical c 1).toList, q.is_fixed = false → ∀ b, dict.lookup q.name = some b → Within b.1 q.value b.2 := by
  obtain ⟨dict, hd, hin⟩ := typical_insideMaximal c hc one_pos
  exact ⟨dict, hd, fun q hq _ b hb => ⟨((hin q hq).1 b hb).1.le, ((hin q hq).1 b hb).2.le⟩⟩

/-! ### C49 -/

/-- **C49** (what holds) a free parameter with infinite bounds: a positive draw makes its magnitude grow by at most the size and its
sign positive, a negative draw makes the magnitude grow by at most the size and its sign negative. So the change is at most
`s |old|` when the draw has the sign of the value (or is zero), and otherwise the value jumps to the other sign. `u` is the draw,
made of one of the numbers `random.random()` gives.
Missing from the stated property: the second case, where it is false (`C49_false`). -/
theorem C49_unbounded_partial {p p' : ModelParameters ℝ} (h : Reachable p) {handpicked : Bool} {dict : BoundsDict} (hd : p.bounds handpicked = .ok dict)
    {s : ℝ} {sr : Option ℝ} (hs : 0 ≤ s) (hsr : ∀ r ∈ sr, 0 ≤ r) {random : ℕ → ℝ} (hr : ∀ k, 0 ≤ random k ∧ random k < 1)
    (hp' : perturbModelParameters p s sr handpicked random = (.ok (), p')) :
    List.Forall₂ (fun q q' => q.is_fixed = false → dict.lookup q.name = some (⊥, ⊤) →
      ∀ size, size = (if pyIn "mass" q.name ∨ pyIn "decay_rate" q.name then sr.getD s else s) →
        |q'.value| ≤ (1 + size) * |q.value| ∧
        ∃ (k : ℕ) (u : ℝ), u = 2 * random k - 1 ∧ -1 ≤ u ∧ u < 1 ∧
          (0 ≤ u * q.value → |q'.value - q.value| ≤ size * |q.value|) ∧
          (u * q.value < 0 → q'.value * q.value < 0 ∧ |q'.value - q.value| = (2 + size * |u|) * |q.value|)) p.toList p'.toList := by
  obtain ⟨B, hB, heq⟩ := perturb_eq (reachable_wellFormed h) hd s sr random
  rw [heq] at hp'
  injection hp' with _ hp'
  subst hp'
  have hf := perturbedData_forall₂ B (perturbationSize s (sr.getD s)) random p.data 0
  refine forall₂_imp_mem hf fun q hq q' hqq hfree hl size hsize => ?_
  rcases hqq with ⟨hfix, -⟩ | ⟨-, k, rfl⟩
  · rw [hfree] at hfix; cases hfix
  · have hb : B q.name = (⊥, ⊤) := by
      have := hB _ hq hfree
      rw [hl] at this
      exact (Option.some.inj this).symm
    have hsz : perturbationSize s (sr.getD s) q.name = size := hsize.symm
    have h0 : 0 ≤ size := by
      have : 0 ≤ sr.getD s := by
        cases sr with
        | none => exact hs
        | some r => exact hsr r rfl
      rw [hsize]
      split_ifs
      · exact this
      · exact hs
    dsimp only
    rw [hb, hsz]
    have hu := hr k
    have hu1 : -1 ≤ 2 * (random k - 0.5) := by linarith
    have hu2 : 2 * (random k - 0.5) < 1 := by linarith
    exact ⟨perturbedValue_abs h0 hu1 hu2.le, k, _, by ring, hu1, hu2, perturbedValue_near h0 hu1 hu2.le, perturbedValue_flip h0⟩

/-- **C49** is false: a coupling 1 of a kaon object is unbounded; with size 1/10 and the draw -1 it becomes -11/10. -/
theorem C49_false : ¬ ∀ (p p' : ModelParameters ℝ) (handpicked : Bool) (dict : BoundsDict) (s : ℝ) (random : ℕ → ℝ), Reachable p →
    p.bounds handpicked = .ok dict → 0 ≤ s → s ≤ 1 → (∀ k, 0 ≤ random k ∧ random k < 1) →
    perturbModelParameters p s none handpicked random = (.ok (), p') →
    List.Forall₂ (fun q q' => q.is_fixed = false → dict.lookup q.name = some (⊥, ⊤) → |q'.value - q.value| ≤ s * |q.value|) p.toList p'.toList := by
  intro hall
  have hr := uniform_reachable .kaon (1 : ℝ)
  obtain ⟨dict, hd, hval⟩ := C44_maximal_values hr trivial (x := fun _ => 1) (fun q hq => by
    obtain ⟨n, -, rfl⟩ := List.mem_map.mp hq; rfl) (fun q hq _ => by
    obtain ⟨n, -, rfl⟩ := List.mem_map.mp hq; exact zero_le_one)
  obtain ⟨B, hB, heq⟩ := perturb_eq (reachable_wellFormed hr) hd (1 / 10) none (fun _ => 0)
  have hF := hall _ _ false dict (1 / 10) (fun _ => 0) hr hd (by norm_num) (by norm_num) (by norm_num) heq
  have hf := perturbedData_forall₂ B (perturbationSize (1 / 10) ((none : Option ℝ).getD (1 / 10))) (fun _ => 0) (uniform .kaon (1 : ℝ)).data 0
  have hmem : (⟨"a_omega", 1, false⟩ : Parameter ℝ) ∈ (uniform .kaon (1 : ℝ)).data :=
    List.mem_of_getElem? (i := 4) rfl
  have hb := hB _ hmem rfl
  have hbot : B "a_omega" = (⊥, ⊤) := by
    obtain ⟨l₁, l₂, hl', -⟩ := List.lookup_eq_some_iff.mp hb
    obtain ⟨hu, h1⟩ := hval ("a_omega", B "a_omega") (by rw [hl']; simp)
    simp only at hu h1
    rcases h1 with ⟨h1, -⟩ | ⟨h1, -⟩ | ⟨-, h1⟩ | ⟨m, -, t, h1, -⟩
    · exact absurd h1 (by decide)
    · exact absurd h1 (by decide)
    · exact Prod.ext h1 hu
    · have : "t_in_".toList <+: "a_omega".toList := ⟨t, h1.symm⟩
      exact absurd this (by decide)
  obtain ⟨q', hR, hS⟩ := forall₂_common hf hF _ hmem
  have hS := hS rfl (hb.trans (by rw [hbot]))
  rcases hR with ⟨h1, -⟩ | ⟨-, k, rfl⟩
  · cases h1
  · dsimp only at hS
    have hsz : perturbationSize (1 / 10) ((none : Option ℝ).getD (1 / 10)) "a_omega" = 1 / 10 := by
      unfold perturbationSize; split_ifs <;> rfl
    rw [hbot, hsz] at hS
    have := (perturbedValue_flip (x := 1) (u := 2 * ((0 : ℝ) - 0.5)) (s := 1 / 10) (by norm_num) (by norm_num)).2
    rw [this] at hS
    norm_num at hS

/-- The hypotheses of `C49_unbounded_partial` hold for the same object, with draws 0. -/
example : ∃ dict p', (uniform .kaon (1 : ℝ)).bounds false = .ok dict ∧
    perturbModelParameters (uniform .kaon (1 : ℝ)) (1 / 10) none false (fun _ => 0) = (.ok (), p') := by
  obtain ⟨dict, hd, -⟩ := C44_maximal_values (uniform_reachable .kaon (1 : ℝ)) trivial (x := fun _ => 1) (fun q hq => by
    obtain ⟨n, -, rfl⟩ := List.mem_map.mp hq; rfl) (fun q hq _ => by
    obtain ⟨n, -, rfl⟩ := List.mem_map.mp hq; exact zero_le_one)
  obtain ⟨B, -, heq⟩ := perturb_eq (reachable_wellFormed (uniform_reachable .kaon (1 : ℝ))) hd (1 / 10) none (fun _ => 0)
  exact ⟨dict, _, hd, heq⟩

/-! ### C50 -/

/-- **C50** (kaon classes) there is an argument record `x` of the model the class is meant for, holding exactly the object's values
under their names, such that the form factor function builds that model and returns the moduli of its values, in the charged or
neutral variant according to each point; the cross section function does the same with the cross section of that form factor. -/
theorem C50_kaon {p : ModelParameters ℝ} (h : Reachable p) (hc : IsKaonClass p.cls) :
    ∃ x : KaonArgs, x.For p.cls ∧ p.HoldsExactly x.byName ∧ ∀ points : List (ℂ × Bool),
      functionFormFactor (points.map fun d => .kaon d.1 d.2) p =
        (do x.check; points.mapM fun d => do let F ← x.run d.2 d.1; return ‖F‖) ∧
      ∀ mass alpha hc2, functionCrossSection (points.map fun d => .kaon d.1 d.2) mass alpha hc2 p =
        (do x.check; points.mapM fun d => do let σ ← (ScalarCS.init mass alpha hc2).call (x.run d.2) d.1; return ‖σ‖) := by
  have hw := reachable_wellFormed h
  obtain ⟨v, hv⟩ := hw.exists_values
  obtain ⟨x, hx⟩ := kaon_wiring hw hv hc
  refine ⟨x, hx.cls, hx.holds, fun points => ⟨?_, fun mass alpha hc2 => ?_⟩⟩
  · rw [hx.ff, mapM_map]; rfl
  · rw [hx.cs, mapM_map]; rfl

example : ∃ x : KaonArgs, x.For .kaonSimplified ∧ (typical .kaonSimplified 1).HoldsExactly x.byName := by
  obtain ⟨x, h1, h2, -⟩ := C50_kaon (typical_reachable .kaonSimplified 1) trivial
  exact ⟨x, h1, h2⟩

/-- **C50** (nucleon) likewise: proton or neutron, electric or magnetic according to each point. -/
theorem C50_nucleon {p : ModelParameters ℝ} (h : Reachable p) (hc : p.cls = .nucleon) :
    ∃ x : NucleonArgs, p.HoldsExactly x.byName ∧ ∀ points : List (ℂ × Bool × Bool),
      functionFormFactor (points.map fun d => .nucleon d.1 d.2.1 d.2.2) p =
        (do x.check; points.mapM fun d => do let F ← NucleonClass.new.run d.2.1 d.2.2 x d.1; return ‖F‖) ∧
      ∀ mass alpha hc2, functionCrossSection (points.map fun d => .nucleon d.1 d.2.1 d.2.2) mass alpha hc2 p =
        (do x.check; points.mapM fun d => do
          let GE ← NucleonClass.new.run d.2.1 true x d.1
          let GM ← NucleonClass.new.run d.2.1 false x d.1
          let σ ← (NucleonCS.init mass alpha hc2).formula d.1 ‖GE‖ ‖GM‖
          return ‖σ‖) := by
  have hw := reachable_wellFormed h
  obtain ⟨v, hv⟩ := hw.exists_values
  have hx := nucleon_wiring hw hv hc
  refine ⟨_, hx.holds, fun points => ⟨?_, fun mass alpha hc2 => ?_⟩⟩
  · rw [hx.ff, mapM_map]; rfl
  · rw [hx.cs, mapM_map]
    congr 1
    funext _
    congr 1
    funext d
    simp only [nucleonPoint, readDatapointNucleon, except_ok_bind]
    rcases NucleonClass.new.run d.2.1 true (NucleonArgs.ofValues v) d.1 with e | GE
    · rfl
    · rcases NucleonClass.new.run d.2.1 false (NucleonArgs.ofValues v) d.1 with e | GM <;> rfl

example : ∃ x : NucleonArgs, (typical .nucleon 1).HoldsExactly x.byName := by
  obtain ⟨x, h, -⟩ := C50_nucleon (typical_reachable .nucleon 1) rfl
  exact ⟨x, h⟩

/-- **C50** (background models) the values under the names `a`, `m_a`, `m_d` reach the effective model, those under `a`, `m_1`, `m_2`
the two-pole model; the flags of the points do not matter. -/
theorem C50_background {p : ModelParameters ℝ} (h : Reachable p) (points : List (ℂ × Bool × Bool)) :
    (p.cls = .etgmr → ∃ a m_a m_d, p.HoldsExactly [("a", a), ("m_a", m_a), ("m_d", m_d)] ∧
      functionFormFactor (points.map fun d => .nucleon d.1 d.2.1 d.2.2) p =
        points.mapM fun d => do let F ← (ETGMRModel.init a m_a m_d).call d.1; return ‖F‖) ∧
    (p.cls = .twoPoles → ∃ a m_1 m_2, p.HoldsExactly [("a", a), ("m_1", m_1), ("m_2", m_2)] ∧
      functionFormFactor (points.map fun d => .nucleon d.1 d.2.1 d.2.2) p =
        points.mapM fun d => do let F ← (TwoPolesModel.init a m_1 m_2).call d.1; return ‖F‖) := by
  have hw := reachable_wellFormed h
  obtain ⟨v, hv⟩ := hw.exists_values
  constructor
  · intro hc
    obtain ⟨h1, h2, -⟩ := etgmr_wiring hw hv hc
    exact ⟨_, _, _, h1, by rw [h2, mapM_map]; rfl⟩
  · intro hc
    obtain ⟨h1, h2, -⟩ := twoPoles_wiring hw hv hc
    exact ⟨_, _, _, h1, by rw [h2, mapM_map]; rfl⟩

example : ∃ a m_a m_d, (typical .etgmr 1).HoldsExactly [("a", a), ("m_a", m_a), ("m_d", m_d)] := by
  obtain ⟨a, m_a, m_d, h, -⟩ := (C50_background (typical_reachable .etgmr 1) []).1 rfl
  exact ⟨a, m_a, m_d, h⟩

/-- **C50** parameters of a class without a model are refused. -/
theorem C50_unsupported {p : ModelParameters ℝ} (hc : p.cls = .oscillations) (ts : List Datapoint) :
    functionFormFactor ts p = .error .typeError ∧ ∀ mass alpha hc2, functionCrossSection ts mass alpha hc2 p = .error .typeError :=
  oscillations_wiring hc ts

example : functionFormFactor [.nucleon 1 true true] (uniform .oscillations (1 : ℝ)) = .error .typeError :=
  (C50_unsupported rfl _).1

/-- A list with three points is evaluated for a concrete object: the model is built, and the charged form factor at 0 is 1. -/
example : functionFormFactor [.kaon 0 true, .kaon 0 false, .kaon 0 true] (typical .kaonB 1) = .ok [1, 0, 1] := by
  have hr := typical_reachable .kaonB 1
  have hw := reachable_wellFormed hr
  have hv := typical_values .kaonB 1
  obtain ⟨x, hx⟩ := kaon_wiring hw hv trivial
  have hin := typical_inside .kaonB one_pos
  have hb : ∀ ch, x.Builds ch := fun ch => kaon_inside_builds hw hv hin trivial hx ch
  have hval : ∀ {n : String} {y : ℝ}, (n, y) ∈ x.byName → n ∈ ParamClass.kaonB.table.initArgs ∧ y = typicalValue 1 n :=
    fun hm => (hw.holds_iff hv).mp (hx.holds.1 _ hm)
  obtain ⟨a1, a2, a3, a4⟩ := x.threshold_names
  have hp : x.Proper := by
    refine ⟨?_, ?_⟩
    · rw [(hval a1).2, (hval a2).2]; exact hin.tin _ (hval a2).1 _ "isoscalar".toList (by decide) (by decide)
    · rw [(hval a3).2, (hval a4).2]; exact hin.tin _ (hval a4).1 _ "isovector".toList (by decide) (by decide)
  have hn := C18_kaon_normalisation x hp
  have hck : x.check = .ok () := by
    cases x with
    | full x => obtain ⟨m, hm⟩ := hb true; show (do let _ ← KaonUAModel.init true x; return ()) = _; rw [hm]; rfl
    | b x => obtain ⟨m, hm⟩ := hb true; show (do let _ ← KaonUAModelB.init true x; return ()) = _; rw [hm]; rfl
    | simplified x => obtain ⟨m, hm⟩ := hb true; show (do let _ ← KaonUAModelSimplified.init true x; return ()) = _; rw [hm]; rfl
  have e1 : kaonPoint x.run (.kaon 0 true) = .ok 1 := by
    show (do let F ← x.run true 0; return ‖F‖) = _
    rw [hn.1 (hb true), except_ok_bind, norm_one]; rfl
  have e2 : kaonPoint x.run (.kaon 0 false) = .ok 0 := by
    show (do let F ← x.run false 0; return ‖F‖) = _
    rw [hn.2 (hb false), except_ok_bind, norm_zero]; rfl
  rw [hx.ff, hck, except_ok_bind]
  simp only [List.mapM_cons, e1, e2, except_ok_bind, List.mapM_nil]
  rfl

/-! ### C51 -/

/-- **C51** both functions (`kind` says which): evaluating a list in two parts gives the same results, and the same exception. So
no point sees the ones before it. -/
theorem C51_append {p : ModelParameters ℝ} (h : Reachable p) (kind : PartialKind) (ts us : List Datapoint) :
    kind.eval (ts ++ us) p = (do let r ← kind.eval ts p; let s ← kind.eval us p; return r ++ s) := by
  obtain ⟨pre, g, hg⟩ := eval_pointwise (reachable_wellFormed h) kind
  have e := hg.eq
  rw [e, e, e, mapM_append']
  rcases pre with _ | _ <;> rfl

/-- **C51** the results are those of the points taken one by one, in order, as many as the points, and none is negative. -/
theorem C51_pointwise {p : ModelParameters ℝ} (h : Reachable p) (kind : PartialKind) {ts : List Datapoint} {rs : List ℝ} :
    (kind.eval ts p = .ok rs ↔ kind.eval [] p = .ok [] ∧ List.Forall₂ (fun d r => kind.eval [d] p = .ok [r]) ts rs) ∧
    (kind.eval ts p = .ok rs → rs.length = ts.length ∧ ∀ r ∈ rs, 0 ≤ r) := by
  obtain ⟨pre, g, hg⟩ := eval_pointwise (reachable_wellFormed h) kind
  have e := hg.eq
  simp only [e, mapM_singleton']
  rcases pre with er | _
  · exact ⟨⟨(fun h => by cases h), (fun h => by cases h.1)⟩, (fun h => by cases h)⟩
  · simp only [except_ok_bind]
    have hm : ∀ {ts : List Datapoint} {rs : List ℝ}, ts.mapM g = .ok rs ↔ List.Forall₂ (fun d r => g d = .ok r) ts rs := by
      intro ts
      induction ts with
      | nil =>
        intro rs
        constructor
        · intro h; injection h with h; subst h; exact .nil
        · intro h; cases h; rfl
      | cons d ts ih =>
        intro rs
        rw [List.mapM_cons]
        constructor
        · intro h
          obtain ⟨r, h1, h⟩ := except_bind_eq_ok.mp h
          obtain ⟨rs', h2, h⟩ := except_bind_eq_ok.mp h
          injection h with h
          subst h
          exact .cons h1 (ih.mp h2)
        · intro h
          cases h with
          | cons h1 h2 => rw [h1, except_ok_bind, ih.mpr h2]; rfl
    have hs : ∀ d r, ((do let r ← g d; return [r]) = .ok [r] ↔ g d = .ok r) := by
      intro d r
      rcases g d with er | y
      · exact ⟨(fun h => by cases h), (fun h => by cases h)⟩
      · constructor
        · intro h; injection h with h; injection h with h; rw [h]
        · intro h; injection h with h; rw [h]; rfl
    refine ⟨?_, fun h => ?_⟩
    · rw [hm]
      simp only [hs]
      exact ⟨fun h => ⟨rfl, h⟩, fun h => h.2⟩
    · have hf := hm.mp h
      refine ⟨hf.length_eq.symm, fun r hr => ?_⟩
      obtain ⟨d, -, hd⟩ := forall₂_mem_right hf r hr
      exact hg.nonneg d r hd

/-- **C51** if evaluation fails, the exception is that of the first point that fails on its own (or none can be evaluated, not even
the empty list). -/
theorem C51_first_failure {p : ModelParameters ℝ} (h : Reachable p) (kind : PartialKind) {ts : List Datapoint} {e : PyErr}
    (he : kind.eval ts p = .error e) : kind.eval [] p = .error e ∨
      ∃ before d after, ts = before ++ d :: after ∧ (∃ rs, kind.eval before p = .ok rs) ∧ kind.eval [d] p = .error e := by
  induction ts with
  | nil => exact Or.inl he
  | cons d ts ih =>
    rw [show d :: ts = [d] ++ ts from rfl, C51_append h] at he
    rcases hd : kind.eval [d] p with e' | r
    · rw [hd] at he
      injection he with he
      subst he
      rcases h0 : kind.eval [] p with e0 | r0
      · left
        have := C51_append h kind [] [d]
        rw [h0, List.nil_append, hd] at this
        injection this with this
        rw [this]
      · exact Or.inr ⟨[], d, ts, rfl, ⟨r0, h0⟩, hd⟩
    · rw [hd, except_ok_bind] at he
      rcases ht : kind.eval ts p with e' | s
      · rw [ht] at he
        injection he with he
        subst he
        rcases ih ht with h0 | ⟨before, d', after, rfl, ⟨rs, hrs⟩, hd'⟩
        · exact Or.inl h0
        · refine Or.inr ⟨d :: before, d', after, rfl, ⟨r ++ rs, ?_⟩, hd'⟩
          rw [show d :: before = [d] ++ before from rfl, C51_append h, hd, hrs]
          rfl
      · rw [ht] at he; cases he

example : ∃ d, (PartialKind.crossSection 1 1 1).eval [d] (typical .twoPoles 1) = .error .attributeError := by
  obtain ⟨-, -, h⟩ := twoPoles_wiring (reachable_wellFormed (typical_reachable .twoPoles 1)) (typical_values _ _) rfl
  rcases C51_first_failure (typical_reachable .twoPoles 1) (.crossSection 1 1 1) (ts := [.nucleon 1 true true, .nucleon 2 true true]) (h _ _ _ _) with h0 | ⟨-, d, -, -, -, hd⟩
  · exact absurd ((h [] 1 1 1).symm.trans h0) (by rintro ⟨⟩)
  · exact ⟨d, hd⟩

/-- The results above are about non-trivial evaluations: see the three-point list evaluated after C50; a failing one is below. -/
example : (PartialKind.crossSection 1 1 1).eval [.nucleon 1 true true] (typical .etgmr 1) = .error .attributeError := by
  obtain ⟨-, -, h⟩ := etgmr_wiring (reachable_wellFormed (typical_reachable .etgmr 1)) (typical_values _ _) rfl
  exact h _ _ _ _

/-! ### C52 -/

/-- **C52** replacing data points by the rows of numbers made of them changes nothing. -/
theorem C52_rows {p : ModelParameters ℝ} (h : Reachable p) (kind : PartialKind) (ts : List Datapoint) :
    kind.eval (ts.map Datapoint.toRow) p = kind.eval ts p := by
  obtain ⟨pre, g, hg⟩ := eval_pointwise (reachable_wellFormed h) kind
  have e := hg.eq
  rw [e, e, mapM_map]
  simp only [hg.row]

/-- **C52** and each point is read with its own `t` and flags, as a named tuple and as a row. -/
theorem C52_read (t : ℂ) (a b : Bool) :
    readDatapointKaon (.kaon t a) = .ok (t, a) ∧ readDatapointKaon (.row [t, if a then 1 else 0]) = .ok (t, a) ∧
    readDatapointNucleon (.nucleon t a b) = .ok (t, a, b) ∧
    readDatapointNucleon (.row [t, if a then 1 else 0, if b then 1 else 0]) = .ok (t, a, b) :=
  ⟨rfl, readDatapointKaon_toRow (.kaon t a), rfl, readDatapointNucleon_toRow (.nucleon t a b)⟩

/-- **C52** in a row of any numbers a flag is set exactly if the number is not zero; further numbers are ignored, and a row that is too
short raises `IndexError`. -/
theorem C52_any_row (t y z : ℂ) (rest xs : List ℂ) :
    (∃ b, readDatapointKaon (.row (t :: y :: rest)) = .ok (t, b) ∧ (b = true ↔ y ≠ 0)) ∧
    (∃ b c, readDatapointNucleon (.row (t :: y :: z :: rest)) = .ok (t, b, c) ∧ (b = true ↔ y ≠ 0) ∧ (c = true ↔ z ≠ 0)) ∧
    (xs.length < 2 → readDatapointKaon (.row xs) = .error .indexError) ∧ (xs.length < 3 → readDatapointNucleon (.row xs) = .error .indexError) := by
  refine ⟨⟨_, rfl, decide_eq_true_iff⟩, ⟨_, _, rfl, decide_eq_true_iff, decide_eq_true_iff⟩, fun h => ?_, fun h => ?_⟩
  · rcases xs with _ | ⟨x, _ | ⟨y, l⟩⟩
    · rfl
    · rfl
    · simp only [List.length_cons] at h; omega
  · rcases xs with _ | ⟨x, _ | ⟨y, _ | ⟨z, l⟩⟩⟩
    · rfl
    · rfl
    · rfl
    · simp only [List.length_cons] at h; omega

/-- A weight of two sets the flag. -/
example : readDatapointKaon (.row [5, 2]) = .ok (5, true) ∧ ([5, 2] : List ℂ).length < 3 := by
  obtain ⟨⟨b, h, hb⟩, -⟩ := C52_any_row 5 2 0 [] []
  exact ⟨h.trans (by rw [hb.mpr two_ne_zero]), by decide⟩

example : functionFormFactor [.row [0, 1], .row [0, 0], .row [0, 1]] (typical .kaonB 1) =
    functionFormFactor [.kaon 0 true, .kaon 0 false, .kaon 0 true] (typical .kaonB 1) := by
  have := C52_rows (typical_reachable .kaonB 1) .formFactor [.kaon 0 true, .kaon 0 false, .kaon 0 true]
  simpa [Datapoint.toRow, PartialKind.eval] using this

/-! ### C53 -/

/-- **C53** is false everywhere: for parameters of a background model and any non-empty list of nucleon points the cross section
function raises `AttributeError`. -/
theorem C53_always_fails {p : ModelParameters ℝ} (h : Reachable p) (hc : p.cls = .etgmr ∨ p.cls = .twoPoles)
    {points : List (ℂ × Bool × Bool)} (hne : points ≠ []) (mass alpha hc2 : ℝ) :
    functionCrossSection (points.map fun d => .nucleon d.1 d.2.1 d.2.2) mass alpha hc2 p = .error .attributeError := by
  have hw := reachable_wellFormed h
  obtain ⟨v, hv⟩ := hw.exists_values
  have : functionCrossSection (points.map fun d => .nucleon d.1 d.2.1 d.2.2) mass alpha hc2 p =
      noFormFactorLoop (points.map fun d => .nucleon d.1 d.2.1 d.2.2) := by
    rcases hc with hc | hc
    · exact (etgmr_wiring hw hv hc).2.2 _ _ _ _
    · exact (twoPoles_wiring hw hv hc).2.2 _ _ _ _
  rw [this]
  cases points with
  | nil => exact (hne rfl).elim
  | cons d ds => rfl

example : functionCrossSection [.nucleon 1 true true, .nucleon 2 false true] 1 1 1 (typical .twoPoles 1) = .error .attributeError :=
  C53_always_fails (typical_reachable .twoPoles 1) (Or.inr rfl) (points := [(1, true, true), (2, false, true)]) (by simp) 1 1 1

/-- **C53** the negation of the stated property. -/
theorem C53_false : ¬ ∀ (p : ModelParameters ℝ) (points : List (ℂ × Bool × Bool)) (mass alpha hc2 : ℝ), Reachable p →
    (p.cls = .etgmr ∨ p.cls = .twoPoles) → points ≠ [] →
    ∃ rs, functionCrossSection (points.map fun d => .nucleon d.1 d.2.1 d.2.2) mass alpha hc2 p = .ok rs := by
  intro hall
  obtain ⟨rs, hrs⟩ := hall (typical .etgmr 1) [(1, true, true)] 1 1 1 (typical_reachable _ _) (Or.inl rfl) (by simp)
  rw [C53_always_fails (typical_reachable .etgmr 1) (Or.inl rfl) (by simp)] at hrs
  cases hrs

/-- **C53** (what holds) only the empty list works. Missing: every non-empty one. -/
theorem C53_empty_partial {p : ModelParameters ℝ} (h : Reachable p) (hc : p.cls = .etgmr ∨ p.cls = .twoPoles) (mass alpha hc2 : ℝ) :
    functionCrossSection [] mass alpha hc2 p = .ok [] := by
  have hw := reachable_wellFormed h
  obtain ⟨v, hv⟩ := hw.exists_values
  rcases hc with hc | hc
  · exact (etgmr_wiring hw hv hc).2.2 _ _ _ _
  · exact (twoPoles_wiring hw hv hc).2.2 _ _ _ _

example : Reachable (typical .twoPoles 1) ∧ (typical .twoPoles 1).cls = .twoPoles := ⟨typical_reachable _ _, rfl⟩

/-! ### C54 -/

/-- **C54** a function made from an object `p` the program holds: whatever the program does afterwards (changing `p`, making and
calling functions, this one included, successfully or not), the function returns what evaluation of `p` as it was with the free
values replaced by the arguments returns. -/
theorem C54_result (before : List ProgramStep) {ref : ℕ} {p : ModelParameters ℝ} (href : ref ∈ (Program.start.runs before).refs)
    (hp : (Program.start.runs before).heap[ref]? = some p) (kind : PartialKind) (after : List ProgramStep) :
    ∃ f, (((ProgramStep.make kind ref).run (Program.start.runs before)).runs after).functions[(Program.start.runs before).functions.length]? = some f ∧
      ∀ ts args, (f.call (((ProgramStep.make kind ref).run (Program.start.runs before)).runs after).heap ts args).1 = partialSpec kind p ts args := by
  have hi := Program.start_inv.runs before
  have hpr := hi.objects p (List.mem_of_getElem? hp)
  have hmake : (ProgramStep.make kind ref).run (Program.start.runs before) =
      { Program.start.runs before with
        heap := (Program.start.runs before).heap ++ [p],
        functions := (Program.start.runs before).functions ++ [⟨kind, (Program.start.runs before).heap.length⟩] } := by
    simp only [ProgramStep.run]
    rw [if_pos href, makePartial_eq hp hpr]
  have hk : ((ProgramStep.make kind ref).run (Program.start.runs before)).Keeps (Program.start.runs before).functions.length kind p := by
    rw [hmake]
    exact ⟨⟨kind, (Program.start.runs before).heap.length⟩, p, by simp, rfl, by simp, p.data, rfl, .refl _⟩
  obtain ⟨f, q, hf, hkind, hq, ho⟩ := hk.runs (hi.step _) after
  refine ⟨f, hf, fun ts args => ?_⟩
  rw [PartialF.call_eq hq, hkind]
  exact ho.partialSpec kind ts args

/-- **C54** calling functions changes no object the program holds. -/
theorem C54_caller_untouched (steps : List ProgramStep) (k : ℕ) (ts : List Datapoint) (args : List ℝ) :
    ∀ ref ∈ (Program.start.runs steps).refs,
      ((ProgramStep.call k ts args).run (Program.start.runs steps)).heap[ref]? = (Program.start.runs steps).heap[ref]? := by
  intro ref hr
  have hi := Program.start_inv.runs steps
  simp only [ProgramStep.run]
  rcases hk : (Program.start.runs steps).functions[k]? with _ | f
  · rfl
  · have hcap := hi.captured f (List.mem_of_getElem? hk)
    obtain ⟨q, hq⟩ : ∃ q, (Program.start.runs steps).heap[f.parameters]? = some q := ⟨_, List.getElem?_eq_getElem hcap.1⟩
    show (f.call _ ts args).2[ref]? = _
    rw [PartialF.call_eq hq]
    exact List.getElem?_set_ne (fun he : f.parameters = ref => hcap.2 (he ▸ hr))

/-- A program that makes an object and a function, changes the object, and calls the function with a wrong number of arguments. -/
example : ∃ ref, ref ∈ (Program.start.runs [.new .etgmr [("a", 1), ("m_a", 2), ("m_d", 3)]]).refs ∧
    ∃ p, (Program.start.runs [.new .etgmr [("a", 1), ("m_a", 2), ("m_d", 3)]]).heap[ref]? = some p ∧
      ∃ f, (((ProgramStep.make .formFactor ref).run (Program.start.runs [.new .etgmr [("a", 1), ("m_a", 2), ("m_d", 3)]])).runs
        [.mutate ref .fixAll, .call 0 [] [1]]).functions[0]? = some f := by
  refine ⟨0, ?_, ⟨.etgmr, [], [⟨"a", 1, false⟩, ⟨"m_a", 2, false⟩, ⟨"m_d", 3, false⟩]⟩, ?_, ?_⟩
  · exact List.mem_singleton.mpr rfl
  · rfl
  · obtain ⟨f, hf, -⟩ := C54_result [.new .etgmr [("a", 1), ("m_a", 2), ("m_d", 3)]] (ref := 0) (List.mem_singleton.mpr rfl)
      (p := ⟨.etgmr, [], [⟨"a", 1, false⟩, ⟨"m_a", 2, false⟩, ⟨"m_d", 3, false⟩]⟩) rfl .formFactor
      [.mutate 0 .fixAll, .call 0 [] [1]]
    exact ⟨f, hf⟩

end UA
