import Verif.Lemmas.UtilsArgs
import Verif.Props.Nucleon
import Verif.Props.CrossSections

/-!
# Helper lemmas: evaluation of data lists
-/

namespace UA

open Complex

/-- One point of a kaon loop. -/
noncomputable def kaonPoint (G : Bool → ℂ → Except PyErr ℂ) (d : Datapoint) : Except PyErr ℝ := do
  let (t, c) ← readDatapointKaon d
  let F ← G c t
  return ‖F‖

/-- One point of a nucleon loop. -/
noncomputable def nucleonPoint (G : Bool → Bool → ℂ → Except PyErr ℂ) (d : Datapoint) : Except PyErr ℝ := do
  let (t, p, e) ← readDatapointNucleon d
  let F ← G p e t
  return ‖F‖

theorem kaonLoop_eq {σ : Type} {set : Bool → σ → σ} {call : σ → ℂ → Except PyErr ℂ} (hset : ∀ b b' m, set b (set b' m) = set b m)
    (ts : List Datapoint) (m : σ) : kaonLoop set call ts m = ts.mapM (kaonPoint fun c t => call (set c m) t) := by
  have key : ∀ (ts : List Datapoint) (m m' : σ), (∀ b, set b m' = set b m) →
      kaonLoop set call ts m' = ts.mapM (kaonPoint fun c t => call (set c m) t) := by
    intro ts
    induction ts with
    | nil => intros; rfl
    | cons d ts ih =>
      intro m m' h
      rw [List.mapM_cons]
      unfold kaonLoop kaonPoint
      rcases readDatapointKaon d with e | ⟨t, c⟩
      · rfl
      · simp only [except_ok_bind, h c]
        rcases call (set c m) t with e | F
        · rfl
        · simp only [except_ok_bind]
          rw [ih m (set c m) fun b => hset b c m]
          rfl
  exact key ts m m fun _ => rfl

theorem nucleonLoop_eq {σ : Type} {set : Bool → Bool → σ → σ} {call : σ → ℂ → Except PyErr ℂ × σ} {Inv : σ → Prop}
    {G : Bool → Bool → ℂ → Except PyErr ℂ}
    (h : ∀ p e t m, Inv m → (call (set p e m) t).1 = G p e t ∧ Inv (call (set p e m) t).2)
    (ts : List Datapoint) {m : σ} (hm : Inv m) : nucleonLoop set call ts m = ts.mapM (nucleonPoint G) := by
  induction ts generalizing m with
  | nil => rfl
  | cons d ts ih =>
    rw [List.mapM_cons]
    unfold nucleonLoop nucleonPoint
    rcases readDatapointNucleon d with e | ⟨t, p, el⟩
    · rfl
    · simp only [except_ok_bind]
      obtain ⟨h1, h2⟩ := h p el t m hm
      rw [← h1]
      rcases hc : call (set p el m) t with ⟨r, m'⟩
      rw [hc] at h2
      rcases r with e | F
      · rfl
      · simp only [except_ok_bind]
        rw [ih h2]
        rfl

/-! ### The invariant of nucleon objects during a loop -/

/-- The object has been obtained from a freshly built one by calls and switch settings. -/
def NucleonFrom (x : NucleonArgs) (m : NucleonUAModel) : Prop :=
  ∃ m₀ proton electric, NucleonUAModel.init proton electric x = .ok m₀ ∧ ∃ hist, m = List.foldl NucleonOp.apply m₀ hist

theorem NucleonFrom.fresh {x : NucleonArgs} {m : NucleonUAModel} {proton electric : Bool} (h : NucleonUAModel.init proton electric x = .ok m) :
    NucleonFrom x m := ⟨m, proton, electric, h, [], rfl⟩

theorem NucleonFrom.apply {x : NucleonArgs} {m : NucleonUAModel} (h : NucleonFrom x m) (op : NucleonOp) : NucleonFrom x (op.apply m) := by
  obtain ⟨m₀, p, e, hi, hist, rfl⟩ := h
  exact ⟨m₀, p, e, hi, hist ++ [op], by simp [List.foldl_append]⟩

theorem NucleonFrom.call {x : NucleonArgs} {m : NucleonUAModel} (h : NucleonFrom x m) (t : ℂ) :
    (m.call t).1 = NucleonClass.new.run m.proton m.electric x t := by
  obtain ⟨m₀, p, e, hi, hist, rfl⟩ := h
  exact C24_cache_invisible x p e m₀ hi hist t

theorem NucleonFrom.cs {x : NucleonArgs} {m : NucleonUAModel} (h : NucleonFrom x m) (cs : NucleonCS) (t : ℂ) :
    (cs.call nucleonFF m t).1 = (do
      let GE ← NucleonClass.new.run m.proton true x t
      let GM ← NucleonClass.new.run m.proton false x t
      cs.formula t ‖GE‖ ‖GM‖) := by
  obtain ⟨m₀, p, e, hi, hist, rfl⟩ := h
  exact C31_value cs x p e m₀ hi hist t

theorem NucleonFrom.cs_after {x : NucleonArgs} {m : NucleonUAModel} (h : NucleonFrom x m) (cs : NucleonCS) (t : ℂ) :
    NucleonFrom x (cs.call nucleonFF m t).2 := by
  have h1 := (h.apply (.setElectric true)).apply (.call t)
  have h2 := (h1.apply (.setElectric false)).apply (.call t)
  simp only [NucleonOp.apply] at h1 h2
  unfold NucleonCS.call
  simp only [nucleonFF]
  rcases hr : ({ m with electric := true } : NucleonUAModel).call t with ⟨r, s⟩
  rw [hr] at h1 h2
  rcases r with e | GE
  · exact h1
  · simp only at h2 ⊢
    rcases hr' : ({ s with electric := false } : NucleonUAModel).call t with ⟨r', s'⟩
    rw [hr'] at h2
    rcases r' with e | GM
    · exact h2
    · exact h2

/-! ### Building the model -/

theorem initKw_kaon {p : ModelParameters ℝ} (h : p.WellFormed) {v : String → ℝ} (hv : ∀ q ∈ p.data, q.value = v q.name)
    (hc : p.cls = .kaon ∨ p.cls = .kaonFixedRhoOmega ∨ p.cls = .kaonFixedSelected) :
    KaonUAModel.initKw true p.asKwargs = KaonUAModel.init true (.ofValues v) := by
  have h1 : ∀ n ∈ KaonUAModel.argNames, n ∈ p.cls.table.initArgs := by
    rcases hc with hc | hc | hc <;> rw [hc] <;> decide +kernel
  have h2 : ∀ n ∈ p.cls.table.initArgs, n ∈ KaonUAModel.argNames := by
    rcases hc with hc | hc | hc <;> rw [hc] <;> decide +kernel
  unfold KaonUAModel.initKw
  rw [bind_asKwargs h hv h1 h2, except_ok_bind, KaonUAModel.Args.ofEnv_eq, except_ok_bind]

theorem initKw_kaonB {p : ModelParameters ℝ} (h : p.WellFormed) {v : String → ℝ} (hv : ∀ q ∈ p.data, q.value = v q.name)
    (hc : p.cls = .kaonB) : KaonUAModelB.initKw true p.asKwargs = KaonUAModelB.init true (.ofValues v) := by
  have h1 : ∀ n ∈ KaonUAModelB.argNames, n ∈ p.cls.table.initArgs := by rw [hc]; decide +kernel
  have h2 : ∀ n ∈ p.cls.table.initArgs, n ∈ KaonUAModelB.argNames := by rw [hc]; decide +kernel
  unfold KaonUAModelB.initKw
  rw [bind_asKwargs h hv h1 h2, except_ok_bind, KaonUAModelB.Args.ofEnv_eq, except_ok_bind]

theorem initKw_kaonSimplified {p : ModelParameters ℝ} (h : p.WellFormed) {v : String → ℝ} (hv : ∀ q ∈ p.data, q.value = v q.name)
    (hc : p.cls = .kaonSimplified) :
    KaonUAModelSimplified.initKw true p.asKwargs = KaonUAModelSimplified.init true (.ofValues v) := by
  have h1 : ∀ n ∈ KaonUAModelSimplified.argNames, n ∈ p.cls.table.initArgs := by rw [hc]; decide +kernel
  have h2 : ∀ n ∈ p.cls.table.initArgs, n ∈ KaonUAModelSimplified.argNames := by rw [hc]; decide +kernel
  unfold KaonUAModelSimplified.initKw
  rw [bind_asKwargs h hv h1 h2, except_ok_bind, KaonUAModelSimplified.Args.ofEnv_eq, except_ok_bind]

theorem initKw_nucleon {p : ModelParameters ℝ} (h : p.WellFormed) {v : String → ℝ} (hv : ∀ q ∈ p.data, q.value = v q.name)
    (hc : p.cls = .nucleon) : NucleonUAModel.initKw true true p.asKwargs = NucleonUAModel.init true true (.ofValues v) := by
  have h1 : ∀ n ∈ NucleonUAModel.argNames, n ∈ p.cls.table.initArgs := by rw [hc]; decide +kernel
  have h2 : ∀ n ∈ p.cls.table.initArgs, n ∈ NucleonUAModel.argNames := by rw [hc]; decide +kernel
  unfold NucleonUAModel.initKw
  rw [bind_asKwargs h hv h1 h2, except_ok_bind, NucleonArgs.ofEnv_eq, except_ok_bind]

theorem holdsExactly_of_map {p : ModelParameters ℝ} (h : p.WellFormed) {v : String → ℝ} (hv : ∀ q ∈ p.data, q.value = v q.name)
    {args : List String} (h1 : ∀ n ∈ args, n ∈ p.cls.table.initArgs) (h2 : ∀ n ∈ p.cls.table.initArgs, n ∈ args) :
    p.HoldsExactly (args.map fun n => (n, v n)) := by
  refine ⟨fun e he => ?_, fun n hn => ?_⟩
  · obtain ⟨n, hn, rfl⟩ := List.mem_map.mp he
    exact (h.holds_iff hv).mpr ⟨h1 n hn, rfl⟩
  · rw [List.map_map]
    refine List.mem_map.mpr ⟨n, h2 n (by rw [← h.names]; exact hn), rfl⟩

/-- Everything the two functions do with kaon parameters. -/
structure KaonWiring (p : ModelParameters ℝ) (x : KaonArgs) : Prop where
  cls : x.For p.cls
  holds : p.HoldsExactly x.byName
  build : (do let _ ← getFFModel p; return ()) = x.check
  ff : ∀ ts, functionFormFactor ts p = (do x.check; ts.mapM (kaonPoint x.run))
  cs : ∀ ts m a h, functionCrossSection ts m a h p = (do x.check; ts.mapM (kaonPoint fun c t => (ScalarCS.init m a h).call (x.run c) t))

/-- The arguments a kaon class passes to its model, the values being given by name. -/
def KaonArgs.ofValues (c : ParamClass) (v : String → ℝ) : KaonArgs :=
  match c with
  | .kaonB => .b (.ofValues v)
  | .kaonSimplified => .simplified (.ofValues v)
  | _ => .full (.ofValues v)

theorem kaon_wiring_values {p : ModelParameters ℝ} (h : p.WellFormed) {v : String → ℝ} (hv : ∀ q ∈ p.data, q.value = v q.name)
    (hc : IsKaonClass p.cls) : KaonWiring p (.ofValues p.cls v) := by
  have full : (p.cls = .kaon ∨ p.cls = .kaonFixedRhoOmega ∨ p.cls = .kaonFixedSelected) →
      KaonWiring p (.full (.ofValues v)) := by
    intro hc
    have hg : getFFModel p = (do let m ← KaonUAModel.init true (.ofValues v); return .kaon m) := by
      rw [← initKw_kaon h hv hc]
      unfold getFFModel
      rcases hc with hc | hc | hc <;> rw [hc]
    have hex : p.HoldsExactly (KaonArgs.full (.ofValues v)).byName := by
      refine holdsExactly_of_map h hv (args := KaonUAModel.argNames) ?_ ?_ <;> rcases hc with hc | hc | hc <;> rw [hc] <;> decide +kernel
    rcases hm : KaonUAModel.init true (.ofValues v) with e | m
    · have he : (KaonArgs.full (.ofValues v)).check = .error e := by
        show (do let _ ← KaonUAModel.init true (.ofValues v); return ()) = _
        rw [hm]; rfl
      refine ⟨hc, hex, ?_, fun ts => ?_, fun ts _ _ _ => ?_⟩
      · rw [hg, he, hm]; rfl
      · unfold functionFormFactor; rw [hg, he, hm]; rfl
      · unfold functionCrossSection; rw [hg, he, hm]; rfl
    · have he : (KaonArgs.full (.ofValues v)).check = .ok () := by
        show (do let _ ← KaonUAModel.init true (.ofValues v); return ()) = _
        rw [hm]; rfl
      have hr : ∀ c, (KaonArgs.full (.ofValues v)).run c = fun t => KaonUAModel.call { m with charged_variant := c } t := by
        intro c
        funext t
        show (do let m ← KaonUAModel.init c (.ofValues v); m.call t) = _
        rw [KaonUAModel.init_switch hm c]; rfl
      refine ⟨hc, hex, ?_, fun ts => ?_, fun ts _ _ _ => ?_⟩
      · rw [hg, he, hm]; rfl
      · unfold functionFormFactor; rw [hg, he, hm]
        simp only [except_ok_bind, except_pure]
        rw [funext hr]
        rw [kaonLoop_eq (by intros; rfl)]
      · unfold functionCrossSection; rw [hg, he, hm]
        simp only [except_ok_bind, except_pure]
        rw [funext hr]
        rw [kaonLoop_eq (by intros; rfl)]
  cases hcls : p.cls with
  | kaon => exact full (by simp [hcls])
  | kaonFixedRhoOmega => exact full (by simp [hcls])
  | kaonFixedSelected => exact full (by simp [hcls])
  | kaonB =>
    show KaonWiring p (.b (.ofValues v))
    have hg : getFFModel p = (do let m ← KaonUAModelB.init true (.ofValues v); return .kaonB m) := by
      rw [← initKw_kaonB h hv hcls]; unfold getFFModel; rw [hcls]
    have hex : p.HoldsExactly (KaonArgs.b (.ofValues v)).byName := by
      refine holdsExactly_of_map h hv (args := KaonUAModelB.argNames) ?_ ?_ <;> rw [hcls] <;> decide +kernel
    rcases hm : KaonUAModelB.init true (.ofValues v) with e | m
    · have he : (KaonArgs.b (.ofValues v)).check = .error e := by
        show (do let _ ← KaonUAModelB.init true (.ofValues v); return ()) = _
        rw [hm]; rfl
      refine ⟨hcls, hex, ?_, fun ts => ?_, fun ts _ _ _ => ?_⟩
      · rw [hg, he, hm]; rfl
      · unfold functionFormFactor; rw [hg, he, hm]; rfl
      · unfold functionCrossSection; rw [hg, he, hm]; rfl
    · have he : (KaonArgs.b (.ofValues v)).check = .ok () := by
        show (do let _ ← KaonUAModelB.init true (.ofValues v); return ()) = _
        rw [hm]; rfl
      have hr : ∀ c, (KaonArgs.b (.ofValues v)).run c = fun t => KaonUAModelB.call { m with charged_variant := c } t := by
        intro c
        funext t
        show (do let m ← KaonUAModelB.init c (.ofValues v); m.call t) = _
        rw [KaonUAModelB.init_switch hm c]; rfl
      refine ⟨hcls, hex, ?_, fun ts => ?_, fun ts _ _ _ => ?_⟩
      · rw [hg, he, hm]; rfl
      · unfold functionFormFactor; rw [hg, he, hm]
        simp only [except_ok_bind, except_pure]
        rw [funext hr]
        rw [kaonLoop_eq (by intros; rfl)]
      · unfold functionCrossSection; rw [hg, he, hm]
        simp only [except_ok_bind, except_pure]
        rw [funext hr]
        rw [kaonLoop_eq (by intros; rfl)]
  | kaonSimplified =>
    show KaonWiring p (.simplified (.ofValues v))
    have hg : getFFModel p = (do let m ← KaonUAModelSimplified.init true (.ofValues v); return .kaonSimplified m) := by
      rw [← initKw_kaonSimplified h hv hcls]; unfold getFFModel; rw [hcls]
    have hex : p.HoldsExactly (KaonArgs.simplified (.ofValues v)).byName := by
      refine holdsExactly_of_map h hv (args := KaonUAModelSimplified.argNames) ?_ ?_ <;> rw [hcls] <;> decide +kernel
    rcases hm : KaonUAModelSimplified.init true (.ofValues v) with e | m
    · have he : (KaonArgs.simplified (.ofValues v)).check = .error e := by
        show (do let _ ← KaonUAModelSimplified.init true (.ofValues v); return ()) = _
        rw [hm]; rfl
      refine ⟨hcls, hex, ?_, fun ts => ?_, fun ts _ _ _ => ?_⟩
      · rw [hg, he, hm]; rfl
      · unfold functionFormFactor; rw [hg, he, hm]; rfl
      · unfold functionCrossSection; rw [hg, he, hm]; rfl
    · have he : (KaonArgs.simplified (.ofValues v)).check = .ok () := by
        show (do let _ ← KaonUAModelSimplified.init true (.ofValues v); return ()) = _
        rw [hm]; rfl
      have hr : ∀ c, (KaonArgs.simplified (.ofValues v)).run c = fun t => KaonUAModelSimplified.call { m with charged_variant := c } t := by
        intro c
        funext t
        show (do let m ← KaonUAModelSimplified.init c (.ofValues v); m.call t) = _
        rw [KaonUAModelSimplified.init_switch hm c]; rfl
      refine ⟨hcls, hex, ?_, fun ts => ?_, fun ts _ _ _ => ?_⟩
      · rw [hg, he, hm]; rfl
      · unfold functionFormFactor; rw [hg, he, hm]
        simp only [except_ok_bind, except_pure]
        rw [funext hr]
        rw [kaonLoop_eq (by intros; rfl)]
      · unfold functionCrossSection; rw [hg, he, hm]
        simp only [except_ok_bind, except_pure]
        rw [funext hr]
        rw [kaonLoop_eq (by intros; rfl)]
  | _ => rw [hcls] at hc; exact hc.elim

theorem kaon_wiring {p : ModelParameters ℝ} (h : p.WellFormed) {v : String → ℝ} (hv : ∀ q ∈ p.data, q.value = v q.name)
    (hc : IsKaonClass p.cls) : ∃ x, KaonWiring p x := ⟨_, kaon_wiring_values h hv hc⟩

/-- Everything the two functions do with nucleon parameters. -/
structure NucleonWiring (p : ModelParameters ℝ) (x : NucleonArgs) : Prop where
  holds : p.HoldsExactly x.byName
  build : (do let _ ← getFFModel p; return ()) = x.check
  ff : ∀ ts, functionFormFactor ts p = (do x.check; ts.mapM (nucleonPoint fun pr el t => NucleonClass.new.run pr el x t))
  cs : ∀ ts m a h, functionCrossSection ts m a h p = (do x.check; ts.mapM (nucleonPoint fun pr _ t => do
    let GE ← NucleonClass.new.run pr true x t
    let GM ← NucleonClass.new.run pr false x t
    (NucleonCS.init m a h).formula t ‖GE‖ ‖GM‖))

theorem nucleon_wiring {p : ModelParameters ℝ} (h : p.WellFormed) {v : String → ℝ} (hv : ∀ q ∈ p.data, q.value = v q.name)
    (hc : p.cls = .nucleon) : NucleonWiring p (.ofValues v) := by
  have hg : getFFModel p = (do let m ← NucleonUAModel.init true true (.ofValues v); return .nucleon m) := by
    rw [← initKw_nucleon h hv hc]; unfold getFFModel; rw [hc]
  have hex : p.HoldsExactly (NucleonArgs.ofValues v).byName := by
    refine holdsExactly_of_map h hv (args := NucleonUAModel.argNames) ?_ ?_ <;> rw [hc] <;> decide +kernel
  rcases hm : NucleonUAModel.init true true (.ofValues v) with e | m
  · have he : (NucleonArgs.ofValues v).check = .error e := by
      show (do let _ ← NucleonUAModel.init true true (.ofValues v); return ()) = _
      rw [hm]; rfl
    refine ⟨hex, ?_, fun ts => ?_, fun ts _ _ _ => ?_⟩
    · rw [hg, he, hm]; rfl
    · unfold functionFormFactor; rw [hg, he, hm]; rfl
    · unfold functionCrossSection; rw [hg, he, hm]; rfl
  · have he : (NucleonArgs.ofValues v).check = .ok () := by
      show (do let _ ← NucleonUAModel.init true true (.ofValues v); return ()) = _
      rw [hm]; rfl
    refine ⟨hex, ?_, fun ts => ?_, fun ts _ _ _ => ?_⟩
    · rw [hg, he, hm]; rfl
    · unfold functionFormFactor; rw [hg, he, hm]
      simp only [except_ok_bind, except_pure]
      refine nucleonLoop_eq (Inv := NucleonFrom (.ofValues v)) (fun pr el t m hm => ?_) ts (.fresh hm)
      have h1 := (hm.apply (.setProton pr)).apply (.setElectric el)
      exact ⟨h1.call t, h1.apply (.call t)⟩
    · unfold functionCrossSection; rw [hg, he, hm]
      simp only [except_ok_bind, except_pure]
      refine nucleonLoop_eq (Inv := NucleonFrom (.ofValues v)) (fun pr el t m hm => ?_) ts (.fresh hm)
      have h1 := hm.apply (.setProton pr)
      exact ⟨h1.cs _ t, h1.cs_after _ t⟩

/-- Everything the two functions do with the parameters of a background model. -/
theorem etgmr_wiring {p : ModelParameters ℝ} (h : p.WellFormed) {v : String → ℝ} (hv : ∀ q ∈ p.data, q.value = v q.name)
    (hc : p.cls = .etgmr) : p.HoldsExactly [("a", v "a"), ("m_a", v "m_a"), ("m_d", v "m_d")] ∧
      (∀ ts, functionFormFactor ts p = ts.mapM (nucleonPoint fun _ _ t => (ETGMRModel.init (v "a") (v "m_a") (v "m_d")).call t)) ∧
      ∀ ts m a h, functionCrossSection ts m a h p = noFormFactorLoop ts := by
  have hn : p.cls.table.initArgs = ["a", "m_a", "m_d"] := by rw [hc]; rfl
  obtain ⟨f1, e1, -⟩ := h.getItem hv (n := "a") (by simp [hn])
  obtain ⟨f2, e2, -⟩ := h.getItem hv (n := "m_a") (by simp [hn])
  obtain ⟨f3, e3, -⟩ := h.getItem hv (n := "m_d") (by simp [hn])
  have hg : getFFModel p = .ok (.etgmr (ETGMRModel.init (v "a") (v "m_a") (v "m_d"))) := by
    unfold getFFModel; rw [hc]; simp only [e1, e2, e3, except_ok_bind]; rfl
  refine ⟨holdsExactly_of_map h hv (args := ["a", "m_a", "m_d"]) (by simp [hn]) (by simp [hn]), fun ts => ?_, fun ts _ _ _ => ?_⟩
  · unfold functionFormFactor; rw [hg]
    simp only [except_ok_bind]
    exact nucleonLoop_eq (Inv := fun m => m = ETGMRModel.init (v "a") (v "m_a") (v "m_d")) (fun pr el t m hm => by rw [hm]; exact ⟨rfl, rfl⟩) ts rfl
  · unfold functionCrossSection; rw [hg]; rfl

theorem twoPoles_wiring {p : ModelParameters ℝ} (h : p.WellFormed) {v : String → ℝ} (hv : ∀ q ∈ p.data, q.value = v q.name)
    (hc : p.cls = .twoPoles) : p.HoldsExactly [("a", v "a"), ("m_1", v "m_1"), ("m_2", v "m_2")] ∧
      (∀ ts, functionFormFactor ts p = ts.mapM (nucleonPoint fun _ _ t => (TwoPolesModel.init (v "a") (v "m_1") (v "m_2")).call t)) ∧
      ∀ ts m a h, functionCrossSection ts m a h p = noFormFactorLoop ts := by
  have hn : p.cls.table.initArgs = ["a", "m_1", "m_2"] := by rw [hc]; rfl
  obtain ⟨f1, e1, -⟩ := h.getItem hv (n := "a") (by simp [hn])
  obtain ⟨f2, e2, -⟩ := h.getItem hv (n := "m_1") (by simp [hn])
  obtain ⟨f3, e3, -⟩ := h.getItem hv (n := "m_2") (by simp [hn])
  have hg : getFFModel p = .ok (.twoPoles (TwoPolesModel.init (v "a") (v "m_1") (v "m_2"))) := by
    unfold getFFModel; rw [hc]; simp only [e1, e2, e3, except_ok_bind]; rfl
  refine ⟨holdsExactly_of_map h hv (args := ["a", "m_1", "m_2"]) (by simp [hn]) (by simp [hn]), fun ts => ?_, fun ts _ _ _ => ?_⟩
  · unfold functionFormFactor; rw [hg]
    simp only [except_ok_bind]
    exact nucleonLoop_eq (Inv := fun m => m = TwoPolesModel.init (v "a") (v "m_1") (v "m_2")) (fun pr el t m hm => by rw [hm]; exact ⟨rfl, rfl⟩) ts rfl
  · unfold functionCrossSection; rw [hg]; rfl

theorem oscillations_wiring {p : ModelParameters ℝ} (hc : p.cls = .oscillations) (ts : List Datapoint) :
    functionFormFactor ts p = .error .typeError ∧ ∀ m a h, functionCrossSection ts m a h p = .error .typeError := by
  have hg : getFFModel p = .error .typeError := by unfold getFFModel; rw [hc]
  refine ⟨?_, fun _ _ _ => ?_⟩
  · unfold functionFormFactor; rw [hg]; rfl
  · unfold functionCrossSection; rw [hg]; rfl

end UA
