import Verif.Spec.SingleFit
import Verif.Lemmas.RunsNucleonScript

/-!
# Helper lemmas: the scripts that do one fit
-/

namespace UA

/-- The script seen as one with keyword arguments. -/
def singleFitScript (c : ParamClass) (start : List (String × ℚ)) : FitScript where
  cls := c
  literals := start
  perturbation_size := 0
  perturbation_size_resonances := 0
  use_handpicked_bounds := false
  kind := .kaonCS
  nr_free_params := []
  nr_iterations := []
  nr_initial_rounds_with_fixed_resonances := 0

/-- An object made from ordered values is as good as one made by the constructor. -/
theorem singleFit_make {c : ParamClass} (hc : IsResonanceClass c) {start : List (String × ℚ)} {values : List ℚ}
    (hf : (singleFitScript c start).Fits (constantNames c)) (hn : start.map (·.1) = c.table.orderedNames) (hv : start.map (·.2) = values)
    (hnd : (constantNames c ++ start.map (·.1)).Nodup) {consts : List (String × ℝ)} (hk : ScriptConstants c consts) :
    ∃ p, c.fromOrderedValues (values.map fun q : ℚ => (q : ℝ)) consts = .ok p ∧ GoodObject c false ∅ p ∧
      p.HoldsExactly (consts ++ start.map fun q => (q.1, (q.2 : ℝ))) ∧
      ∀ q ∈ p.toList, q.is_fixed = decide (DeclaredFixed c q.name) := by
  have hf' := hf
  rw [← hk.1] at hf'
  obtain ⟨x, -, h2, h3⟩ := hf'.make hc hk.2
  have hfst : ∀ l : List (String × ℚ), (l.map fun q => (q.1, (q.2 : ℝ))).map Prod.fst = l.map (·.1) := fun l => by
    rw [List.map_map]; rfl
  have hall : ∀ e ∈ consts ++ start.map (fun q => (q.1, (q.2 : ℝ))), e.1 ∈ c.table.initArgs ∧ e.2 = x e.1 := by
    intro e he
    have hmem : e.1 ∈ c.table.initArgs := by
      refine hf.known _ ?_
      show e.1 ∈ constantNames c ++ start.map (·.1)
      rw [← hk.1, ← hfst, ← List.map_append]
      exact List.mem_map_of_mem he
    refine ⟨hmem, ?_⟩
    have hl := h2 _ hmem
    rw [show (singleFitScript c start).literals = start from rfl, lookup_of_mem he (by rw [List.map_append, hfst, hk.1]; exact hnd)] at hl
    injection hl
  have hvals : (values.map fun q : ℚ => (q : ℝ)) = c.table.orderedNames.map x := by
    rw [← hv, ← hn, List.map_map, List.map_map]
    refine List.map_congr_left fun e he => ?_
    exact (hall (e.1, (e.2 : ℝ)) (List.mem_append_right _ (List.mem_map.mpr ⟨e, he, rfl⟩))).2
  have hmake := fromOrderedValues_eq hc (kw := consts) (v := x) (by rw [hk.1]) (fun q hq => (hall q (List.mem_append_left _ hq)).2)
  rw [← hvals] at hmake
  have hr : Reachable (⟨c, c.table.alwaysFixed, c.table.initArgs.map fun n => ⟨n, x n, decide (n ∈ c.table.alwaysFixed)⟩⟩ : ModelParameters ℝ) :=
    .fromOrderedValues hmake
  have hw := reachable_wellFormed hr
  have hx : ∀ q ∈ (⟨c, c.table.alwaysFixed, c.table.initArgs.map fun n => ⟨n, x n, decide (n ∈ c.table.alwaysFixed)⟩⟩ : ModelParameters ℝ).data,
      q.value = x q.name := by
    intro q hq
    obtain ⟨n, -, rfl⟩ := List.mem_map.mp hq
    rfl
  refine ⟨_, hmake, ?_, ⟨fun e he => (hw.holds_iff hx).mpr (hall e he), fun n hnm => ?_⟩, fun q hq => ?_⟩
  · refine GoodObject.flags (p := ⟨c, c.table.alwaysFixed, freshData c x⟩) (f := fun q => decide (q.name ∈ c.table.alwaysFixed)) h3 hr rfl ?_
    show c.table.initArgs.map _ = (freshData c x).map _
    rw [← freshData_names c x, List.map_map]
    refine List.map_congr_left fun q hq => ?_
    obtain ⟨e, -, rfl⟩ := List.mem_map.mp hq
    rfl
  · rw [hw.names] at hnm
    exact List.mem_map_of_mem (f := Prod.fst) (lookup_mem (h2 n hnm))
  · obtain ⟨n, hnm, rfl⟩ := List.mem_map.mp hq
    exact decide_eq_decide.mpr (declaredFixed_iff _ _ hnm).symm

theorem kaonSingleFit_fits : (singleFitScript .kaon kaonSingleFitStart).Fits (constantNames .kaon) := by
  constructor <;> decide +kernel

theorem kaonSingleFit_lists : kaonSingleFitStart.map (·.1) = ParamClass.kaon.table.orderedNames ∧
    kaonSingleFitStart.map (·.2) = kaonSingleFitValues ∧ (constantNames .kaon ++ kaonSingleFitStart.map (·.1)).Nodup ∧
    ParamClass.kaon.table.initArgs.length = 32 := by decide +kernel

theorem nucleonSingleFit_fits : (singleFitScript .nucleon nucleonSingleFitStart).Fits (constantNames .nucleon) := by
  constructor <;> decide +kernel

theorem nucleonSingleFit_lists : nucleonSingleFitStart.map (·.1) = ParamClass.nucleon.table.orderedNames ∧
    nucleonSingleFitStart.map (·.2) = nucleonSingleFitValues ∧ (constantNames .nucleon ++ nucleonSingleFitStart.map (·.1)).Nodup := by decide +kernel

/-- Setting a parameter to the value it has. -/
theorem setValue_same {p : ModelParameters ℝ} (hr : Reachable p) {n : String} {v : ℝ} (h : p.Holds n v) : p.setValue n v = (.ok (), p) := by
  have hw := reachable_wellFormed hr
  obtain ⟨x, hx⟩ := hw.exists_values
  obtain ⟨hn, rfl⟩ := (hw.holds_iff hx).mp h
  rw [← hw.names] at hn
  rw [setValue_eq _ hn hw.nodup]
  congr 1
  unfold ModelParameters.mapName
  have : (p.data.map fun q => if q.name = n then (⟨q.name, x n, q.is_fixed⟩ : Parameter ℝ) else q) = p.data := by
    conv_rhs => rw [← List.map_id p.data]
    refine List.map_congr_left fun q hq => ?_
    split_ifs with hqn
    · rw [← hqn, ← hx q hq]; rfl
    · rfl
  cases p
  simp only at this ⊢
  rw [this]

theorem singleFit_constants {pion_mass : ℝ} (hp : 0 ≤ pion_mass ∧ pion_mass ≤ 0.24) :
    ScriptConstants .kaon [("t_0_isoscalar", (3 * pion_mass) ^ 2), ("t_0_isovector", (2 * pion_mass) ^ 2)] :=
  scriptConstants_kaon (script := fitFFIterative) (by simp [kaonIterativeScripts]) hp

theorem singleFit_constants_nucleon {pion_mass : ℝ} (hp : 0 ≤ pion_mass ∧ pion_mass ≤ 0.24) (mp μp μn : ℝ) :
    ScriptConstants .nucleon (nucleonScriptConstants pion_mass mp μp μn) := by
  refine ⟨rfl, fun q hq ht => ?_⟩
  have h9 : 0 ≤ (3 * pion_mass) ^ 2 ∧ (3 * pion_mass) ^ 2 ≤ 0.54 := ⟨by positivity, by nlinarith [hp.1, hp.2]⟩
  have h4 : 0 ≤ (2 * pion_mass) ^ 2 ∧ (2 * pion_mass) ^ 2 ≤ 0.54 := ⟨by positivity, by nlinarith [hp.1, hp.2]⟩
  simp only [nucleonScriptConstants, List.mem_cons, List.not_mem_nil, or_false] at hq
  rcases hq with rfl | rfl | rfl | rfl | rfl | rfl | rfl
  · exact absurd ht (by show ¬ "t_0_".toList <+: "nucleon_mass".toList; decide)
  · exact absurd ht (by show ¬ "t_0_".toList <+: "magnetic_moment_proton".toList; decide)
  · exact absurd ht (by show ¬ "t_0_".toList <+: "magnetic_moment_neutron".toList; decide)
  · exact h9
  · exact h4
  · exact h9
  · exact h4

/-- Same names and values: the same things are held. -/
theorem holdsExactly_flags {p p' : ModelParameters ℝ} (hr : Reachable p) (hr' : Reachable p') (hc : p'.cls = p.cls) {f : Parameter ℝ → Bool}
    (hl : p'.toList = p.toList.map fun q => ⟨q.name, q.value, f q⟩) {l : List (String × ℝ)} (h : p.HoldsExactly l) : p'.HoldsExactly l := by
  have hw := reachable_wellFormed hr
  have hw' := reachable_wellFormed hr'
  obtain ⟨x, hx⟩ := hw.exists_values
  have hx' : ∀ q ∈ p'.data, q.value = x q.name := by
    intro q hq
    have hq' : q ∈ p'.toList := hq
    rw [hl] at hq'
    obtain ⟨r, hr, rfl⟩ := List.mem_map.mp hq'
    exact hx r hr
  refine ⟨fun e he => (hw'.holds_iff hx').mpr (by rw [hc]; exact (hw.holds_iff hx).mp (h.1 e he)), fun n hn => h.2 n ?_⟩
  rw [hw'.names, hc, ← hw.names] at hn
  exact hn

/-- Which parameters of the kaon script end up free. -/
theorem kaonSingleFit_flags : ∀ n ∈ ParamClass.kaon.table.initArgs,
    ((decide (DeclaredFixed .kaon n) || decide (IsResonanceName n)) && !decide (n ∈ kaonSingleFitReleased)) = decide (n ∉ kaonSingleFitFitted) := by
  decide +kernel

theorem kaonSingleFit_released : ∀ n ∈ kaonSingleFitReleased, n ∈ ParamClass.kaon.table.initArgs ∧ ¬ DeclaredFixed .kaon n := by decide +kernel

theorem nucleonSingleFit_flags : ∀ n ∈ ParamClass.nucleon.table.initArgs,
    (decide (DeclaredFixed .nucleon n) || decide (IsResonanceName n)) = decide (n ∉ nucleonSingleFitFitted) := by decide +kernel

/-- The kaon object before the fit. -/
theorem kaonSingleFit_start {pion_mass : ℝ} (hp : 0 ≤ pion_mass ∧ pion_mass ≤ 0.24) :
    ∃ p₀ p, makeKaonSingleFitParameters pion_mass = .ok p₀ ∧
      (∀ w : World, ∀ l, w.heap = l ++ [p₀] → prepareKaonSingleFit l.length w = (.ok (), { w with heap := l ++ [p] })) ∧
      GoodObject .kaon false ∅ p ∧
      p.HoldsExactly ([("t_0_isoscalar", (3 * pion_mass) ^ 2), ("t_0_isovector", (2 * pion_mass) ^ 2)] ++ kaonSingleFitStart.map fun q => (q.1, (q.2 : ℝ))) ∧
      ∀ q ∈ p.toList, q.is_fixed = decide (q.name ∉ kaonSingleFitFitted) := by
  obtain ⟨l1, l2, l3, -⟩ := kaonSingleFit_lists
  obtain ⟨p₀, h1, h2, h3, h4⟩ := singleFit_make (c := .kaon) trivial kaonSingleFit_fits l1 l2 l3 (singleFit_constants hp)
  have hr₀ := h2.1
  have hc₀ : p₀.cls = .kaon := h2.2.1
  have hset : p₀.setValue "decay_rate_phi_prime" ((0.150 : ℚ) : ℝ) = (.ok (), p₀) := by
    refine setValue_same hr₀ (h3.1 ("decay_rate_phi_prime", ((0.150 : ℚ) : ℝ)) (List.mem_append_right _ (List.mem_map.mpr
      ⟨("decay_rate_phi_prime", 0.150), ?_, rfl⟩)))
    decide +kernel
  obtain ⟨p₂, k1, k2, k3⟩ := C47_fix_resonances hr₀ (by rw [hc₀]; trivial)
  have hr₂ : Reachable p₂ := by
    have := Reachable.step .fixResonances (Reachable.step .releaseAll hr₀)
    exact (congrArg (fun x : Mutation ℝ => Reachable x.2) k1).mp this
  have hnames : p₂.names = ParamClass.kaon.table.initArgs := by rw [(reachable_wellFormed hr₂).names, k2, hc₀]
  obtain ⟨p, m1, m2, m3⟩ := C42_release hr₂ (ns := kaonSingleFitReleased) (fun n hn => by rw [hnames]; exact (kaonSingleFit_released n hn).1)
    (fun n hn => by rw [k2, hc₀]; exact (kaonSingleFit_released n hn).2)
  have hr : Reachable p := by
    have := Reachable.step (.releaseParameters kaonSingleFitReleased) hr₂
    exact (congrArg (fun x : Mutation ℝ => Reachable x.2) m1).mp this
  have hl : p.toList = p₀.toList.map fun q => ⟨q.name, q.value, (decide (DeclaredFixed .kaon q.name ∨ IsResonanceName q.name)) &&
      !decide (q.name ∈ kaonSingleFitReleased)⟩ := by
    rw [m3, k3, List.map_map, hc₀]; rfl
  refine ⟨p₀, p, h1, fun w l hw => ?_, h2.flags hr (m2.trans k2) hl, holdsExactly_flags hr₀ hr (m2.trans k2) hl h3, fun q hq => ?_⟩
  · unfold prepareKaonSingleFit
    have step : ∀ {a b : ModelParameters ℝ} {f : ModelParameters ℝ → Mutation ℝ}, f a = (.ok (), b) →
        mutateParams l.length f { w with heap := l ++ [a] } = (.ok (), { w with heap := l ++ [b] }) := by
      intro a b f hf
      rw [mutateParams_run (p := a) (by simp), hf]
      simp
    have hw' : w = { w with heap := l ++ [p₀] } := by rw [← hw]
    rw [hw', PyM.bind_ok (step hset), PyM.bind_ok (step (f := fun p => (.ok (), p.releaseAllParameters)) rfl), PyM.bind_ok (step k1)]
    exact step m1
  · rw [hl] at hq
    obtain ⟨r, hr', rfl⟩ := List.mem_map.mp hq
    dsimp only
    have hn : r.name ∈ ParamClass.kaon.table.initArgs := by
      rw [← hc₀, ← (reachable_wellFormed hr₀).names]; exact List.mem_map_of_mem hr'
    rw [← kaonSingleFit_flags _ hn, Bool.decide_or]

/-- The nucleon object before the fit. -/
theorem nucleonSingleFit_start {pion_mass : ℝ} (hp : 0 ≤ pion_mass ∧ pion_mass ≤ 0.24) (mp μp μn : ℝ) :
    ∃ p₀ p, makeNucleonSingleFitParameters pion_mass mp μp μn = .ok p₀ ∧ p₀.fixResonances = (.ok (), p) ∧
      GoodObject .nucleon false ∅ p ∧
      p.HoldsExactly (nucleonScriptConstants pion_mass mp μp μn ++ nucleonSingleFitStart.map fun q => (q.1, (q.2 : ℝ))) ∧
      ∀ q ∈ p.toList, q.is_fixed = decide (q.name ∉ nucleonSingleFitFitted) := by
  obtain ⟨l1, l2, l3⟩ := nucleonSingleFit_lists
  obtain ⟨p₀, h1, h2, h3, h4⟩ := singleFit_make (c := .nucleon) trivial nucleonSingleFit_fits l1 l2 l3 (singleFit_constants_nucleon hp mp μp μn)
  have hr₀ := h2.1
  have hc₀ : p₀.cls = .nucleon := h2.2.1
  obtain ⟨p, k1, k2, k3⟩ := C47_fix_resonances_any hr₀ (by rw [hc₀]; trivial)
  have hr : Reachable p := by
    have := Reachable.step .fixResonances hr₀
    exact (congrArg (fun x : Mutation ℝ => Reachable x.2) k1).mp this
  refine ⟨p₀, p, h1, k1, h2.flags hr k2 k3, holdsExactly_flags hr₀ hr k2 k3 h3, fun q hq => ?_⟩
  rw [k3] at hq
  obtain ⟨r, hr', rfl⟩ := List.mem_map.mp hq
  dsimp only
  have hn : r.name ∈ ParamClass.nucleon.table.initArgs := by
    rw [← hc₀, ← (reachable_wellFormed hr₀).names]; exact List.mem_map_of_mem hr'
  rw [← nucleonSingleFit_flags _ hn, h4 r hr']

/-- Setting the free values keeps what the other parameters hold. -/
theorem kept_of_update {fitted : List String} {p p' : ModelParameters ℝ} (hr : Reachable p) (hr' : Reachable p')
    (hfl : ∀ q ∈ p.toList, q.is_fixed = decide (q.name ∉ fitted)) {opt : List ℝ} (hu : p.updateFreeValues opt = (.ok (), p'))
    {n : String} {v : ℝ} (hn : n ∉ fitted) (h : p.Holds n v) : p'.Holds n v := by
  obtain ⟨flag, hf⟩ := h
  have hm := (getItem_eq_ok (reachable_wellFormed hr).nodup).mp hf
  have hlen : opt.length = p.getFreeValues.length := by
    rw [updateFreeValues_eq] at hu
    by_contra hne
    rw [if_neg (fun h => hne h.symm)] at hu
    injection hu with hu
    cases hu
  obtain ⟨p₂, hu₂, -, -, -, -, -, hF⟩ := C40_update p opt hlen
  rw [hu] at hu₂
  injection hu₂ with _ hp₂
  subst hp₂
  have ht : flag = true := (hfl _ hm.1).trans (decide_eq_true hn)
  subst ht
  obtain ⟨q', hq', h1, h2, h3⟩ := forall₂_mem_right hF.flip _ hm.1
  refine ⟨true, (getItem_eq_ok (reachable_wellFormed hr').nodup).mpr ⟨?_, rfl⟩⟩
  rw [← h3 rfl]; exact hq'

/-- The result of setting the free values: the fixed parameters are as before. -/
theorem prints_of {c : ParamClass} {start : List (String × ℚ)} (hn : start.map (·.1) = c.table.orderedNames) {fitted : List String}
    {p p' : ModelParameters ℝ} (hr : Reachable p) (hr' : Reachable p') (hc' : p'.cls = c) {consts : List (String × ℝ)}
    (hh : p.HoldsExactly (consts ++ start.map fun q => (q.1, (q.2 : ℝ)))) (hfl : ∀ q ∈ p.toList, q.is_fixed = decide (q.name ∉ fitted))
    (hu : p' = p ∨ ∃ opt, p.updateFreeValues opt = (.ok (), p')) :
    ∃ values, p'.getOrderedValues = .ok values ∧ Prints start fitted p' values ∧
      (∀ e ∈ consts, e.1 ∉ fitted → p'.Holds e.1 e.2) := by
  have hw' := reachable_wellFormed hr'
  obtain ⟨x, hx⟩ := hw'.exists_values
  have keep : ∀ e ∈ consts ++ start.map (fun q => (q.1, (q.2 : ℝ))), e.1 ∉ fitted → p'.Holds e.1 e.2 := by
    intro e he hnf
    have hpe := hh.1 e he
    rcases hu with rfl | ⟨opt, hu⟩
    · exact hpe
    · exact kept_of_update hr hr' hfl hu hnf hpe
  refine ⟨_, hw'.orderedValues hx, ?_, fun e he => keep e (List.mem_append_left _ he)⟩
  unfold Prints
  rw [hc', ← hn, List.map_map, List.forall₂_map_right_iff, List.forall₂_same]
  intro e he
  have hmem : e.1 ∈ p'.cls.table.initArgs := by
    have hpe := hh.1 (e.1, (e.2 : ℝ)) (List.mem_append_right _ (List.mem_map.mpr ⟨e, he, rfl⟩))
    have hw := reachable_wellFormed hr
    obtain ⟨y, hy⟩ := hw.exists_values
    have := ((hw.holds_iff hy).mp hpe).1
    rcases hu with rfl | ⟨opt, hu⟩
    · exact this
    · have hcls : p'.cls = p.cls := by
        rw [updateFreeValues_eq] at hu
        split_ifs at hu
        · injection hu with _ hu
          rw [← hu]
        · injection hu with hu
          cases hu
      rw [hcls]; exact this
  refine ⟨(hw'.holds_iff hx).mpr ⟨hmem, rfl⟩, fun hnf => ?_⟩
  exact ((hw'.holds_iff hx).mp (keep (e.1, (e.2 : ℝ)) (List.mem_append_right _ (List.mem_map.mpr ⟨e, he, rfl⟩)) hnf)).2.symm

/-- The set-up of the tasks that take the flags as they are. -/
theorem fixAccording_setUp {self : Task} (hcls : self.cls = .kaonCSFixAccording ∨ self.cls = .nucleonCSFixAccording) {w : World}
    {p : ModelParameters ℝ} (hp : w.heap[self.parameters]? = some p) (hr : Reachable p) :
    self.setUp w = (.ok { self with partial_f := some (.ofPartial ⟨self.cls.fitted self.constants, w.heap.length⟩) },
      { w with heap := w.heap.set self.parameters p ++ [p] }) := by
  obtain ⟨p₁, hr₁, hc₁, hl₁, hset⟩ := setUp_run (self := self) (by rcases hcls with h | h <;> rw [h] <;> decide) hp hr
  have hid : p₁.toList = p.toList := by
    rw [hl₁]
    conv_rhs => rw [← List.map_id p.toList]
    refine List.map_congr_left fun q _ => ?_
    rcases hcls with h | h <;> rw [h] <;> rfl
  have : p₁ = p := by
    have h1 := (reachable_wellFormed hr₁).always
    have h2 := (reachable_wellFormed hr).always
    rw [hc₁, ← h2] at h1
    cases p₁; cases p
    simp only at h1 hc₁
    subst h1 hc₁
    congr 1
  rw [this, if_neg (by rcases hcls with h | h <;> rw [h] <;> decide)] at hset
  exact hset

/-- A nucleon model can be built if one could before, the masses, widths and thresholds being the same. -/
theorem accepted_kept {h : Bool} {S : Set ℝ} {p p' : ModelParameters ℝ} (hg : GoodObject .nucleon h S p) (hg' : GoodObject .nucleon h S p')
    (hacc : ∃ m, getFFModel p = .ok m)
    (hkeep : ∀ n v, IsResonanceName n ∨ "t_0_".toList <+: n.toList → p.Holds n v → p'.Holds n v) : ∃ m, getFFModel p' = .ok m := by
  obtain ⟨hr, hc, hin, -⟩ := (goodObject_iff (c := .nucleon) trivial).mp hg
  obtain ⟨hr', hc', hin', -⟩ := (goodObject_iff (c := .nucleon) trivial).mp hg'
  have hw := reachable_wellFormed hr
  have hw' := reachable_wellFormed hr'
  obtain ⟨x, hx⟩ := hw.exists_values
  obtain ⟨y, hy⟩ := hw'.exists_values
  have same : ∀ n ∈ ParamClass.nucleon.table.initArgs, IsResonanceName n ∨ "t_0_".toList <+: n.toList → x n = y n := by
    intro n hn hN
    exact ((hw'.holds_iff hy).mp (hkeep n (x n) hN ((hw.holds_iff hx).mpr ⟨by rw [hc]; exact hn, rfl⟩))).2
  refine (C26_nucleon_partial hr' hc' hin'.1 hy).1 fun s m d hm hd => ?_
  obtain ⟨hm1, rfl⟩ := (hw'.holds_iff hy).mp hm
  obtain ⟨hd1, rfl⟩ := (hw'.holds_iff hy).mp hd
  rw [hc'] at hm1 hd1 ⊢
  have pm : "mass_".toList <+: ("mass_" ++ s).toList := ⟨_, (String.toList_append ..).symm⟩
  have pd : "decay_rate_".toList <+: ("decay_rate_" ++ s).toList := ⟨_, (String.toList_append ..).symm⟩
  rw [← same _ hm1 (Or.inl (Or.inl pm)), ← same _ hd1 (Or.inl (Or.inr pd)),
    ← massThreshold_congr (c := .nucleon) trivial (fun n hn ht => same n hn (Or.inr ht))]
  by_contra hlt
  obtain ⟨m, hm⟩ := hacc
  have := (C26_nucleon_partial hr hc hin.1 hx).2 ⟨s, _, _, (hw.holds_iff hx).mpr ⟨by rw [hc]; exact hm1, rfl⟩,
    (hw.holds_iff hx).mpr ⟨by rw [hc]; exact hd1, rfl⟩, by rw [hc]; exact not_le.mp hlt⟩
  rw [hm] at this
  cases this

theorem nucleonSingleFit_pairs : ∀ e ∈ nucleonSingleFitStart, ∀ e' ∈ nucleonSingleFitStart, "mass_".toList <+: e.1.toList →
    e'.1.toList = "decay_rate_".toList ++ e.1.toList.drop 5 → 0.5476 ≤ e.2 ^ 2 - e'.2 ^ 2 / 4 := by decide +kernel

theorem nucleonConstants_names : ∀ n ∈ constantNames .nucleon, ¬ IsResonanceName n := by decide +kernel

/-- The literals of the nucleon script are accepted by the model. -/
theorem nucleonSingleFit_accepted {pion_mass : ℝ} (hp : 0 ≤ pion_mass ∧ pion_mass ≤ 0.24) {mp μp μn : ℝ} {p : ModelParameters ℝ}
    (hg : GoodObject .nucleon false ∅ p)
    (hh : p.HoldsExactly (nucleonScriptConstants pion_mass mp μp μn ++ nucleonSingleFitStart.map fun q => (q.1, (q.2 : ℝ)))) :
    ∃ m, getFFModel p = .ok m := by
  obtain ⟨hr, hc, hin, -⟩ := (goodObject_iff (c := .nucleon) trivial).mp hg
  have hw := reachable_wellFormed hr
  obtain ⟨x, hx⟩ := hw.exists_values
  refine (C26_nucleon_partial hr hc hin.1 hx).1 fun s m d hm hd => ?_
  have hk := singleFit_constants_nucleon hp mp μp μn
  have lit : ∀ {n v}, IsResonanceName n → p.Holds n v → ∃ q, (n, q) ∈ nucleonSingleFitStart ∧ v = (q : ℝ) := by
    intro n v hN hv
    obtain ⟨hn, rfl⟩ := (hw.holds_iff hx).mp hv
    rw [← hw.names] at hn
    obtain ⟨e, he, rfl⟩ := List.mem_map.mp (hh.2 n hn)
    have hval := ((hw.holds_iff hx).mp (hh.1 e he)).2
    rcases List.mem_append.mp he with h | h
    · exact absurd hN (nucleonConstants_names _ (by rw [← hk.1]; exact List.mem_map_of_mem h))
    · obtain ⟨q, hq, rfl⟩ := List.mem_map.mp h
      exact ⟨q.2, hq, hval.symm⟩
  have tm : ("mass_" ++ s).toList = "mass_".toList ++ s.toList := by rw [String.toList_append]
  have td : ("decay_rate_" ++ s).toList = "decay_rate_".toList ++ s.toList := by rw [String.toList_append]
  obtain ⟨a, ha, rfl⟩ := lit (Or.inl ⟨_, tm.symm⟩) hm
  obtain ⟨b, hb, rfl⟩ := lit (Or.inr ⟨_, td.symm⟩) hd
  have hab := nucleonSingleFit_pairs _ ha _ hb ⟨_, tm.symm⟩ (by rw [td, tm]; rfl)
  have hab' : ((0.5476 : ℚ) : ℝ) ≤ (a : ℝ) ^ 2 - (b : ℝ) ^ 2 / 4 := by exact_mod_cast hab
  have h76 : ((0.5476 : ℚ) : ℝ) = 0.5476 := by norm_num
  rw [h76] at hab'
  have t0 : ∀ n ∈ ParamClass.nucleon.table.initArgs, "t_0_".toList <+: n.toList → x n ≤ 0.54 := by
    intro n hn ht
    have hn' := hn
    rw [← hc, ← hw.names] at hn'
    obtain ⟨e, he, rfl⟩ := List.mem_map.mp (hh.2 n hn')
    have hval := ((hw.holds_iff hx).mp (hh.1 e he)).2
    rw [← hval]
    rcases List.mem_append.mp he with h | h
    · exact (hk.2 e h ht).2
    · obtain ⟨q, hq, rfl⟩ := List.mem_map.mp h
      exact absurd ht (nucleonSingleFit_fits.noT0 q hq)
  have hthr := massThreshold_small (c := .nucleon) trivial t0 ("mass_" ++ s)
  have hthr0 : 0 ≤ massThreshold .nucleon x ("mass_" ++ s) := by
    unfold massThreshold
    rw [if_pos rfl]
    split_ifs <;> exact le_max_of_le_left (Real.sqrt_nonneg _)
  rw [hc]
  nlinarith

end UA
