import Verif.Spec.Pipelines
import Verif.Lemmas.World
import Verif.Lemmas.Tasks
import Verif.Props.Parameters

/-!
# Helper lemmas: `_randomly_freeze_parameters`
-/

namespace UA

/-- The object before the choice. -/
theorem beforeChoice {p : ModelParameters ℝ} (hp : Reachable p) (fix : Bool) (hc : fix = true → IsResonanceClass p.cls) :
    ∃ p₁, (if fix then p.releaseAllParameters.fixResonances else (.ok (), p.releaseAllParameters)) = (.ok (), p₁) ∧ Reachable p₁ ∧
      p₁.cls = p.cls ∧ p₁.toList = p.toList.map (fun q => ⟨q.name, q.value,
        decide (DeclaredFixed p.cls q.name ∨ (fix = true ∧ IsResonanceName q.name))⟩) := by
  cases fix with
  | false =>
    refine ⟨p.releaseAllParameters, by simp, .step .releaseAll hp, rfl, ?_⟩
    rw [(C42_all hp).2]
    simp
  | true =>
    obtain ⟨p', h1, h2, h3⟩ := C47_fix_resonances hp (hc rfl)
    have hr : Reachable p.releaseAllParameters.fixResonances.2 := .step .fixResonances (.step .releaseAll hp)
    rw [h1] at hr
    refine ⟨p', by simpa using h1, hr, h2, ?_⟩
    rw [h3]
    simp

theorem freezable_eq {p p₁ : ModelParameters ℝ} {fix : Bool} (h : p₁.toList = p.toList.map (fun q => ⟨q.name, q.value,
        decide (DeclaredFixed p.cls q.name ∨ (fix = true ∧ IsResonanceName q.name))⟩)) :
    (p₁.toList.filter (!·.is_fixed)).map (·.name) = p.freezable fix := by
  unfold ModelParameters.freezable
  rw [h, List.filter_map, List.map_map]
  show _ = (p.toList.map (·.name)).filter _
  rw [List.filter_map]
  refine congrArg _ (List.filter_congr fun q _ => ?_)
  simp only [Function.comp]
  rw [← decide_not]
  exact decide_eq_decide.mpr not_or

/-- The method, up to the choice. -/
theorem randomlyFreeze_start {env : Env} {capped : Bool} {ref : ℕ} {k : ℤ} {fix : Bool} {w : World} {p p₁ : ModelParameters ℝ}
    (h : w.heap[ref]? = some p)
    (h1 : (if fix then p.releaseAllParameters.fixResonances else (.ok (), p.releaseAllParameters)) = (.ok (), p₁)) :
    randomlyFreezeParameters env capped ref k fix w = (do
      let names := (p₁.toList.filter (!·.is_fixed)).map (·.name)
      let chosen_names ← env.randomSample names (if capped then min (names.length : ℤ) k else k)
      mutateParams ref fun p => (.ok (), p.fixAllParameters)
      mutateParams ref fun p => p.releaseParameters chosen_names
      return chosen_names : PyM World (List String)) { w with heap := w.heap.set ref p₁ } := by
  have hl := heap_set_append h
  unfold randomlyFreezeParameters
  refine (PyM.bind_ok (mutateParams_run h _)).trans ?_
  have hs : ∀ q : ModelParameters ℝ, ({ w with heap := w.heap.set ref q } : World).heap[ref]? = some q := by
    intro q; simp [hl]
  cases fix with
  | false =>
    have : p.releaseAllParameters = p₁ := by
      have := congrArg Prod.snd h1
      exact this
    rw [this]
    exact PyM.bind_ok (readParams_run (hs p₁))
  | true =>
    have h1 : p.releaseAllParameters.fixResonances = (.ok (), p₁) := h1
    have hm := mutateParams_run (hs p.releaseAllParameters) fun p => p.fixResonances
    rw [h1] at hm
    dsimp only at hm
    rw [List.set_set] at hm
    refine (PyM.bind_ok hm).trans ?_
    exact PyM.bind_ok (readParams_run (hs p₁))

/-- The method after the choice. -/
theorem randomlyFreeze_end {ref : ℕ} {w : World} {p p₁ : ModelParameters ℝ} (hp : Reachable p) {fix : Bool} (hr : Reachable p₁)
    (hcls : p₁.cls = p.cls) (hlist : p₁.toList = p.toList.map (fun q => ⟨q.name, q.value,
        decide (DeclaredFixed p.cls q.name ∨ (fix = true ∧ IsResonanceName q.name))⟩))
    (h : w.heap[ref]? = some p₁) {chosen : List String} (hch : ∀ n ∈ chosen, n ∈ p.freezable fix) :
    ∃ p', Reachable p' ∧ p'.cls = p.cls ∧ p'.toList = p.toList.map (fun q => ⟨q.name, q.value, decide (q.name ∉ chosen)⟩) ∧
      (do
        mutateParams ref fun p => (.ok (), p.fixAllParameters)
        mutateParams ref fun p => p.releaseParameters chosen
        return chosen : PyM World (List String)) w = (.ok chosen, { w with heap := w.heap.set ref p' }) := by
  have hl := heap_set_append h
  have hf : Reachable p₁.fixAllParameters := .step .fixAll hr
  have hnames : p₁.names = p.names := by
    show p₁.toList.map (·.name) = p.toList.map (·.name)
    rw [hlist, List.map_map]; rfl
  have hfn : p₁.fixAllParameters.names = p.names := by
    rw [← hnames]
    show p₁.fixAllParameters.toList.map (·.name) = p₁.toList.map (·.name)
    rw [(C42_all hr).1, List.map_map]; rfl
  have hmem : ∀ n ∈ chosen, n ∈ p.names ∧ ¬ DeclaredFixed p.cls n := by
    intro n hn
    have := List.mem_filter.mp (hch n hn)
    exact ⟨this.1, (decide_eq_true_eq.mp this.2).1⟩
  obtain ⟨p', h1, h2, h3⟩ := C42_release hf (ns := chosen) (fun n hn => by rw [hfn]; exact (hmem n hn).1)
    (fun n hn => by rw [show p₁.fixAllParameters.cls = p.cls from hcls]; exact (hmem n hn).2)
  have hr' : Reachable (p₁.fixAllParameters.releaseParameters chosen).2 := .step (.releaseParameters chosen) hf
  rw [h1] at hr'
  refine ⟨p', hr', h2.trans hcls, ?_, ?_⟩
  · rw [h3, (C42_all hr).1, hlist, List.map_map, List.map_map]
    refine List.map_congr_left fun q _ => ?_
    simp
  · refine (PyM.bind_ok (mutateParams_run h _)).trans ?_
    have hs : ({ w with heap := w.heap.set ref p₁.fixAllParameters } : World).heap[ref]? = some p₁.fixAllParameters := by simp [hl]
    have hm := mutateParams_run hs fun p => p.releaseParameters chosen
    rw [h1] at hm
    dsimp only at hm
    rw [List.set_set] at hm
    exact PyM.bind_ok hm

/-- The whole method, for a class that can fix its resonances (or need not). -/
theorem randomlyFreeze_run {env : Env} (hs : env.Samples) (capped : Bool) {ref : ℕ} (k : ℤ) {fix : Bool} {w : World} {p : ModelParameters ℝ}
    (h : w.heap[ref]? = some p) (hp : Reachable p) (hc : fix = true → IsResonanceClass p.cls) :
    let n := if capped then min ((p.freezable fix).length : ℤ) k else k
    (n < 0 ∨ ((p.freezable fix).length : ℤ) < n → ∃ p₁, Reachable p₁ ∧ p₁.cls = p.cls ∧ p₁.toList = p.toList.map (fun q => ⟨q.name, q.value,
        decide (DeclaredFixed p.cls q.name ∨ (fix = true ∧ IsResonanceName q.name))⟩) ∧
      randomlyFreezeParameters env capped ref k fix w = (.error .valueError, { w with heap := w.heap.set ref p₁ })) ∧
    (0 ≤ n → n ≤ (p.freezable fix).length → ∃ chosen p', Reachable p' ∧ p'.cls = p.cls ∧ chosen.Nodup ∧ (chosen.length : ℤ) = n ∧
      (∀ x ∈ chosen, x ∈ p.freezable fix) ∧ p'.toList = p.toList.map (fun q => ⟨q.name, q.value, decide (q.name ∉ chosen)⟩) ∧
      randomlyFreezeParameters env capped ref k fix w = (.ok chosen, { w with heap := w.heap.set ref p', samples := w.samples + 1 })) := by
  intro n
  obtain ⟨p₁, h1, h2, h3, h4⟩ := beforeChoice hp fix hc
  have hl := heap_set_append h
  have hnames := freezable_eq h4
  have hstart := randomlyFreeze_start (env := env) (capped := capped) (k := k) h h1
  dsimp only at hstart
  rw [hnames] at hstart
  constructor
  · intro hbad
    refine ⟨p₁, h2, h3, h4, hstart.trans ?_⟩
    refine PyM.bind_error ?_
    unfold Env.randomSample
    rw [if_pos hbad]
  · intro hn0 hn1
    have hnd : (p.freezable fix).Nodup := ((reachable_wellFormed hp).nodup).filter _
    obtain ⟨s, hsub, hlen, hperm⟩ := hs w.samples (p.freezable fix) n.toNat (by omega)
    have hch : ∀ x ∈ env.sample w.samples (p.freezable fix) n.toNat, x ∈ p.freezable fix := fun x hx => hsub.subset (hperm.mem_iff.mp hx)
    obtain ⟨p', g1, g2, g3, g4⟩ := randomlyFreeze_end (ref := ref) (w := { w with heap := w.heap.set ref p₁, samples := w.samples + 1 }) hp h2 h3 h4
      (by simp [hl]) hch
    refine ⟨_, p', g1, g2, hperm.nodup_iff.mpr (hnd.sublist hsub), ?_, hch, g3, hstart.trans ?_⟩
    · rw [hperm.length_eq, hlen]; omega
    · have hrs : env.randomSample (p.freezable fix) n { w with heap := w.heap.set ref p₁ } =
          (.ok (env.sample w.samples (p.freezable fix) n.toNat), { w with heap := w.heap.set ref p₁, samples := w.samples + 1 }) := by
        unfold Env.randomSample
        rw [if_neg (by omega)]
      refine (PyM.bind_ok hrs).trans ?_
      rw [g4]
      dsimp only
      rw [List.set_set]

/-- For a class that cannot. -/
theorem randomlyFreeze_noResonances (env : Env) (capped : Bool) {ref : ℕ} (k : ℤ) {w : World} {p : ModelParameters ℝ}
    (h : w.heap[ref]? = some p) (hc : ¬ IsResonanceClass p.cls) :
    randomlyFreezeParameters env capped ref k true w = (.error .attributeError, { w with heap := w.heap.set ref p.releaseAllParameters }) := by
  have hl := heap_set_append h
  have hm := mutateParams_run (w := { w with heap := w.heap.set ref p.releaseAllParameters }) (ref := ref) (p := p.releaseAllParameters) (by simp [hl])
    fun p => p.fixResonances
  unfold ModelParameters.fixResonances at hm
  rw [show p.releaseAllParameters.cls = p.cls from rfl, fixResonances_none _ hc] at hm
  dsimp only at hm
  rw [List.set_set] at hm
  unfold randomlyFreezeParameters
  refine (PyM.bind_ok (mutateParams_run h _)).trans ?_
  refine PyM.bind_error (Eq.trans ?_ hm)
  rfl

theorem freezable_table {p : ModelParameters ℝ} (hp : Reachable p) (fix : Bool) : p.freezable fix =
    p.cls.table.initArgs.filter fun n => decide (¬ DeclaredFixed p.cls n ∧ ¬ (fix = true ∧ IsResonanceName n)) := by
  unfold ModelParameters.freezable
  rw [show p.names = p.cls.table.initArgs from (reachable_wellFormed hp).names]

end UA
