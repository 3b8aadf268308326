import Verif.Lemmas.FitScripts
import Verif.Lemmas.RunsPipeline
import Verif.Spec.FitScripts
import Verif.Props.Pipelines
import Verif.Props.Utils

/-!
# Helper lemmas: the fit scripts as a whole
-/

namespace UA

theorem fitScripts_resonance {script : FitScript} (h : script ∈ fitScripts) : IsResonanceClass script.cls := by
  simp only [fitScripts, kaonIterativeScripts, List.cons_append, List.nil_append, List.mem_cons, List.not_mem_nil, or_false] at h
  rcases h with rfl | rfl | rfl | rfl | rfl <;> trivial

theorem fitScripts_fits {script : FitScript} (h : script ∈ fitScripts) : script.Fits (constantNames script.cls) := by
  simp only [fitScripts, kaonIterativeScripts, List.cons_append, List.nil_append, List.mem_cons, List.not_mem_nil, or_false] at h
  rcases h with rfl | rfl | rfl | rfl | rfl
  · exact fitFFIterative_fits
  · exact fitCSIterativeFixed_fits
  · exact fitCSIterativeSimplified_fits
  · exact fitCSPipelineSimplified_fits
  · exact fitNucleonCSIterative_fits

theorem fitScripts_sizes {script : FitScript} (h : script ∈ fitScripts) : (0 ≤ (script.perturbation_size : ℝ) ∧ (script.perturbation_size : ℝ) ≤ 1) ∧
    0 ≤ (script.perturbation_size_resonances : ℝ) ∧ (script.perturbation_size_resonances : ℝ) ≤ 1 := by
  have : (0 ≤ script.perturbation_size ∧ script.perturbation_size ≤ 1) ∧ 0 ≤ script.perturbation_size_resonances ∧ script.perturbation_size_resonances ≤ 1 := by
    revert script; decide +kernel
  exact ⟨⟨by exact_mod_cast this.1.1, by exact_mod_cast this.1.2⟩, by exact_mod_cast this.2.1, by exact_mod_cast this.2.2⟩

theorem fitScripts_flags {script : FitScript} (h : script ∈ fitScripts) :
    ∀ e ∈ script.cls.table.entries, e.2.2 = true ↔ DeclaredFixed script.cls e.1 := by
  revert script; decide +kernel

theorem fitScripts_nodup {script : FitScript} (h : script ∈ fitScripts) : (constantNames script.cls ++ script.literals.map (·.1)).Nodup := by
  revert script; decide +kernel

/-- The schedules: every round asks for at least one and at most as many parameters as there are to choose from. -/
theorem schedule_ok {script : FitScript} (h : script ∈ kaonIterativeScripts) :
    ∀ (i : ℕ) (k : ℤ), (freeParamsNumbers script.nr_free_params script.nr_iterations)[i]? = some k → 1 ≤ k ∧
      k ≤ ((script.cls.table.initArgs.filter fun m => decide (¬ DeclaredFixed script.cls m ∧
        ¬ (decide ((i : ℤ) < script.nr_initial_rounds_with_fixed_resonances) = true ∧ IsResonanceName m))).length : ℤ) := by
  have hcount : ∀ script ∈ kaonIterativeScripts, ∀ i < (freeParamsNumbers script.nr_free_params script.nr_iterations).length,
      ∀ k ∈ (freeParamsNumbers script.nr_free_params script.nr_iterations)[i]?, 1 ≤ k ∧
      k ≤ ((script.cls.table.initArgs.filter fun m => decide (¬ DeclaredFixed script.cls m ∧
        ¬ (decide ((i : ℤ) < script.nr_initial_rounds_with_fixed_resonances) = true ∧ IsResonanceName m))).length : ℤ) := by
    decide +kernel
  intro i k hk
  exact hcount script h i (List.getElem?_eq_some_iff.mp hk).1 k hk

/-! ### Acceptance by the nucleon model -/

/-- A mass bound and a width bound that keep the squared pole position to the right. -/
def pairOk : LowerExpr → UpperExpr → Bool
  | .const l, .const u => decide (0 ≤ l ∧ (0.5476 : ℚ) ≤ l ^ 2 - u ^ 2 / 4)
  | _, _ => false

/-- Inside the handpicked nucleon bounds the real part of the squared pole position stays above 0.5476. -/
theorem nucleon_pairs : ∀ e ∈ ParamClass.nucleon.table.handpicked, ∀ e' ∈ ParamClass.nucleon.table.handpicked,
    "mass_".toList <+: e.1.toList → e'.1.toList = "decay_rate_".toList ++ e.1.toList.drop 5 →
    ∃ l u : ℚ, e.2.1 = .const l ∧ e'.2.2 = .const u ∧ 0 ≤ l ∧ 0.5476 ≤ l ^ 2 - u ^ 2 / 4 := by
  have h : ∀ e ∈ ParamClass.nucleon.table.handpicked, ∀ e' ∈ ParamClass.nucleon.table.handpicked,
      "mass_".toList <+: e.1.toList → e'.1.toList = "decay_rate_".toList ++ e.1.toList.drop 5 →
      pairOk e.2.1 e'.2.2 = true := by
    decide +kernel
  intro e he e' he' h1 h2
  have := h e he e' he' h1 h2
  revert this
  unfold pairOk
  rcases e.2.1 with l | l | l | l <;> rcases e'.2.2 with u | u <;> intro this
  all_goals first | exact ⟨_, _, rfl, rfl, by simpa using this⟩ | cases this

theorem nucleon_mass_free : ∀ n ∈ ParamClass.nucleon.table.initArgs, "mass_".toList <+: n.toList ∨ "decay_rate_".toList <+: n.toList →
    n ∉ ParamClass.nucleon.table.alwaysFixed := by decide +kernel

/-- Objects of the nucleon class inside the handpicked bounds are accepted by the model. -/
theorem GoodObject.nucleon {S : Set ℝ} {p : ModelParameters ℝ} (hg : GoodObject .nucleon true S p) : ∃ m, getFFModel p = .ok m := by
  have hi := ((goodObject_iff (c := .nucleon) trivial).mp hg).2.2.1.1
  obtain ⟨hr, hc, x, hx, hg⟩ := hg
  have hw := reachable_wellFormed hr
  refine (C26_nucleon_partial hr hc hi hx).1 fun s m d hm hd => ?_
  obtain ⟨hm1, rfl⟩ := (hw.holds_iff hx).mp hm
  obtain ⟨hd1, rfl⟩ := (hw.holds_iff hx).mp hd
  rw [hc] at hm1 hd1 ⊢
  have tm : ("mass_" ++ s).toList = "mass_".toList ++ s.toList := by rw [String.toList_append]
  have td : ("decay_rate_" ++ s).toList = "decay_rate_".toList ++ s.toList := by rw [String.toList_append]
  have pm : "mass_".toList <+: ("mass_" ++ s).toList := ⟨_, tm.symm⟩
  have pd : "decay_rate_".toList <+: ("decay_rate_" ++ s).toList := ⟨_, td.symm⟩
  have hpos := hg.inside.decay _ hd1 pd
  obtain ⟨b, hb, -⟩ := boundsV_lookup (c := .nucleon) (v := x) (hp := true) hm1 (nucleon_mass_free _ hm1 (Or.inl pm))
  obtain ⟨b', hb', -⟩ := boundsV_lookup (c := .nucleon) (v := x) (hp := true) hd1 (nucleon_mass_free _ hd1 (Or.inr pd))
  have h1 := (hg.bounds _ hm1 (nucleon_mass_free _ hm1 (Or.inl pm)) b hb).1
  have h2 := (hg.bounds _ hd1 (nucleon_mass_free _ hd1 (Or.inr pd)) b' hb').2
  obtain ⟨e, he, heq⟩ := List.mem_map.mp (lookup_mem hb)
  obtain ⟨e', he', heq'⟩ := List.mem_map.mp (lookup_mem hb')
  injection heq with e1 e2
  injection heq' with e1' e2'
  obtain ⟨l, u, hl, hu, h0, hlu⟩ := nucleon_pairs e he e' he' (by rw [e1]; exact pm) (by rw [e1, e1', td, tm]; rfl)
  rw [← e2, hl] at h1
  rw [← e2', hu] at h2
  have h1 : (l : ℝ) < x ("mass_" ++ s) := WithBot.coe_lt_coe.mp h1
  have h2 : x ("decay_rate_" ++ s) < (u : ℝ) := WithTop.coe_lt_coe.mp h2
  have hlu' : ((0.5476 : ℚ) : ℝ) ≤ (l : ℝ) ^ 2 - (u : ℝ) ^ 2 / 4 := by exact_mod_cast hlu
  have h0' : (0 : ℝ) ≤ l := by exact_mod_cast h0
  have hthr := massThreshold_small (c := .nucleon) trivial (hg.small rfl) ("mass_" ++ s)
  have hthr0 : 0 ≤ massThreshold .nucleon x ("mass_" ++ s) := by
    unfold massThreshold
    rw [if_pos rfl]
    split_ifs <;> exact le_max_of_le_left (Real.sqrt_nonneg _)
  have : ((0.5476 : ℚ) : ℝ) = 0.5476 := by norm_num
  rw [this] at hlu'
  nlinarith

theorem GoodObject.accepted {script : FitScript} (hs : script ∈ fitScripts) {S : Set ℝ} {p : ModelParameters ℝ}
    (hg : GoodObject script.cls script.use_handpicked_bounds S p) : ∃ m, getFFModel p = .ok m := by
  simp only [fitScripts, kaonIterativeScripts, List.cons_append, List.nil_append, List.mem_cons, List.not_mem_nil, or_false] at hs
  have kaon : ∀ {c : ParamClass} {h : Bool}, IsKaonClass c → GoodObject c h S p → ∃ m, getFFModel p = .ok m := fun hc hg => by
    obtain ⟨h1, h2, h3, -⟩ := (goodObject_iff hc.resonance).mp hg
    exact C26_kaon h1 (by rw [h2]; exact hc) h3.1
  rcases hs with rfl | rfl | rfl | rfl | rfl
  · exact kaon (c := fitFFIterative.cls) (h := fitFFIterative.use_handpicked_bounds) trivial hg
  · exact kaon (c := fitCSIterativeFixed.cls) (h := fitCSIterativeFixed.use_handpicked_bounds) trivial hg
  · exact kaon (c := fitCSIterativeSimplified.cls) (h := fitCSIterativeSimplified.use_handpicked_bounds) trivial hg
  · exact kaon (c := fitCSPipelineSimplified.cls) (h := fitCSPipelineSimplified.use_handpicked_bounds) trivial hg
  · exact hg.nucleon

/-- The object a script builds. -/
theorem script_make {script : FitScript} (hs : script ∈ fitScripts) {constants : List (String × ℝ)} (hk : ScriptConstants script.cls constants) :
    ∃ p, script.makeInitialParameters constants = .ok p ∧ GoodObject script.cls script.use_handpicked_bounds ∅ p ∧
      p.HoldsExactly (constants ++ script.literals.map fun q => (q.1, (q.2 : ℝ))) ∧
      ∀ q ∈ p.toList, q.is_fixed = true ↔ DeclaredFixed script.cls q.name := by
  have hf := fitScripts_fits hs
  rw [← hk.1] at hf
  obtain ⟨x, h1, h2, h3⟩ := hf.make (fitScripts_resonance hs) hk.2
  refine ⟨_, h1, h3, ⟨?_, ?_⟩, ?_⟩
  · intro e he
    have hw := reachable_wellFormed h3.1
    have hx : ∀ q ∈ freshData script.cls x, q.value = x q.name := by
      intro q hq
      obtain ⟨e, -, rfl⟩ := List.mem_map.mp hq
      rfl
    have hmem : e.1 ∈ script.cls.table.initArgs := by
      refine hf.known _ ?_
      rcases List.mem_append.mp he with h | h
      · exact List.mem_append_left _ (List.mem_map_of_mem h)
      · obtain ⟨q, hq, rfl⟩ := List.mem_map.mp h
        exact List.mem_append_right _ (List.mem_map_of_mem (f := Prod.fst) hq)
    refine (hw.holds_iff hx).mpr ⟨hmem, ?_⟩
    have hl := h2 _ hmem
    have hn : ((constants ++ script.literals.map fun q => (q.1, (q.2 : ℝ))).map Prod.fst).Nodup := by
      rw [List.map_append, hk.1, List.map_map]; exact fitScripts_nodup hs
    rw [lookup_of_mem he hn] at hl
    injection hl
  · intro n hn
    have hn : n ∈ script.cls.table.initArgs := by
      rw [← freshData_names script.cls x]; exact hn
    exact List.mem_map_of_mem (f := Prod.fst) (lookup_mem (h2 n hn))
  · intro q hq
    obtain ⟨e, he, rfl⟩ := List.mem_map.mp hq
    exact fitScripts_flags hs e he

/-- The object a script perturbs; `names` are fixed before. -/
theorem script_perturb {script : FitScript} (hs : script ∈ fitScripts) {p : ModelParameters ℝ}
    (hg : GoodObject script.cls script.use_handpicked_bounds ∅ p) {random : ℕ → ℝ} (hr : ∀ k, 0 < random k ∧ random k < 1) :
    ∃ p', perturbModelParameters p script.perturbation_size (some script.perturbation_size_resonances) script.use_handpicked_bounds random =
      (.ok (), p') ∧ GoodObject script.cls script.use_handpicked_bounds ∅ p' ∧ p'.flags = p.flags ∧ p'.names = p.names :=
  hg.perturb (fitScripts_resonance hs) (fitScripts_sizes hs).1 (fitScripts_sizes hs).2 hr

/-- What a fixed parameter holds is kept by a perturbation. -/
theorem fixed_holds {p p' : ModelParameters ℝ} (hr' : Reachable p')
    (h : List.Forall₂ (fun q q' => q'.name = q.name ∧ q'.is_fixed = q.is_fixed ∧ (q.is_fixed = true → q'.value = q.value)) p.toList p'.toList)
    {n : String} {v : ℝ} (hm : (⟨n, v, true⟩ : Parameter ℝ) ∈ p.toList) : p'.Holds n v := by
  obtain ⟨⟨n', v', f'⟩, hq', h1, h2, h3⟩ := forall₂_mem_right h.flip _ hm
  dsimp only at h1 h2 h3
  refine ⟨true, (getItem_eq_ok (reachable_wellFormed hr').nodup).mpr ⟨?_, rfl⟩⟩
  rw [← h1, ← h2, ← h3 rfl]; exact hq'

/-- Fixing parameters of the object a script has built, then perturbing it. -/
theorem script_start {script : FitScript} (hs : script ∈ fitScripts) {constants : List (String × ℝ)} (hk : ScriptConstants script.cls constants)
    {fix : ModelParameters ℝ → Mutation ℝ} {N : String → Prop} [DecidablePred N]
    (hfix : ∀ p, Reachable p → p.cls = script.cls → ∃ p', fix p = (.ok (), p') ∧ Reachable p' ∧ p'.cls = p.cls ∧
      p'.toList = p.toList.map fun q => ⟨q.name, q.value, q.is_fixed || decide (N q.name)⟩)
    {random : ℕ → ℝ} (hr : ∀ k, 0 < random k ∧ random k < 1) (w : World) :
    ∃ p, (do
        let p ← PyM.lift (script.makeInitialParameters constants)
        let initial_parameters ← newParams p
        mutateParams initial_parameters fix
        mutateParams initial_parameters fun p => perturbModelParameters p script.perturbation_size (some script.perturbation_size_resonances)
          script.use_handpicked_bounds random
        return initial_parameters : PyM World ℕ) w = (.ok w.heap.length, { w with heap := w.heap ++ [p] }) ∧
      GoodObject script.cls script.use_handpicked_bounds ∅ p ∧
      (∀ q ∈ p.toList, q.is_fixed = true ↔ DeclaredFixed script.cls q.name ∨ N q.name) ∧
      ∀ e ∈ constants ++ script.literals.map (fun q => (q.1, (q.2 : ℝ))), DeclaredFixed script.cls e.1 ∨ N e.1 → p.Holds e.1 e.2 := by
  obtain ⟨p₀, h1, h2, h3, h4⟩ := script_make hs hk
  obtain ⟨p₁, k1, k2, k3, k4⟩ := hfix p₀ h2.1 h2.2.1
  have hg₁ := h2.flags k2 k3 k4
  obtain ⟨p, l1, l2, -, -⟩ := script_perturb hs hg₁ hr
  have hF := (C48_only_free k2 script.use_handpicked_bounds script.perturbation_size (some script.perturbation_size_resonances) random).2.2.1
  rw [l1] at hF
  dsimp only at hF
  have hflag₁ : ∀ q ∈ p₁.toList, q.is_fixed = true ↔ DeclaredFixed script.cls q.name ∨ N q.name := by
    intro q hq
    rw [k4] at hq
    obtain ⟨r, hr, rfl⟩ := List.mem_map.mp hq
    dsimp only
    rw [Bool.or_eq_true, decide_eq_true_iff, h4 r hr]
  refine ⟨p, ?_, l2, ?_, ?_⟩
  · rw [h1, PyM.bind_ok (PyM.lift_run _ _), PyM.bind_ok (newParams_run p₀ w)]
    have e1 : mutateParams w.heap.length fix { w with heap := w.heap ++ [p₀] } = (.ok (), { w with heap := w.heap ++ [p₁] }) := by
      rw [mutateParams_run (p := p₀) (by simp), k1]
      dsimp only
      congr 2
      simp
    have e2 : mutateParams w.heap.length (fun p => perturbModelParameters p script.perturbation_size (some script.perturbation_size_resonances)
        script.use_handpicked_bounds random) { w with heap := w.heap ++ [p₁] } = (.ok (), { w with heap := w.heap ++ [p] }) := by
      rw [mutateParams_run (p := p₁) (by simp), l1]
      dsimp only
      congr 2
      simp
    rw [PyM.bind_ok e1, PyM.bind_ok e2]
    rfl
  · intro q hq
    obtain ⟨r, hr, a1, a2, -⟩ := forall₂_mem_right hF q hq
    rw [a2, a1]; exact hflag₁ r hr
  · intro e he hN
    obtain ⟨flag, hf⟩ := h3.1 e he
    obtain ⟨hm, -⟩ := (getItem_eq_ok (reachable_wellFormed h2.1).nodup).mp hf
    have hm₁ : (⟨e.1, e.2, flag || decide (N e.1)⟩ : Parameter ℝ) ∈ p₁.toList := by
      rw [k4]; exact List.mem_map.mpr ⟨_, hm, rfl⟩
    have ht : (flag || decide (N e.1)) = true := (hflag₁ _ hm₁).mpr hN
    rw [ht] at hm₁
    exact fixed_holds l2.1 hF hm₁

theorem GoodObject.avoid {c : ParamClass} (hc : IsResonanceClass c) {h : Bool} {S : Set ℝ} {p : ModelParameters ℝ} (hg : GoodObject c h ∅ p)
    (ha : p.Avoids S) : GoodObject c h S p := by
  obtain ⟨h1, h2, h3, -⟩ := (goodObject_iff hc).mp hg
  exact (goodObject_iff hc).mpr ⟨h1, h2, h3, ha⟩

theorem kaonIterative_mem {script : FitScript} (h : script ∈ kaonIterativeScripts) : script ∈ fitScripts := List.mem_append_left _ h

theorem kaonIterative_facts {script : FitScript} (h : script ∈ kaonIterativeScripts) :
    (script.kind = .kaonCS ∨ script.kind = .kaonFF) ∧ script.cls.table.initArgs.length = script.literals.length + 2 ∧
    constantNames script.cls = ["t_0_isoscalar", "t_0_isovector"] := by
  revert script; decide +kernel

theorem kaonIterative_kaon {script : FitScript} (h : script ∈ kaonIterativeScripts) : IsKaonClass script.cls := by
  simp only [kaonIterativeScripts, List.mem_cons, List.not_mem_nil, or_false] at h
  rcases h with rfl | rfl | rfl <;> trivial

theorem scriptConstants_kaon {script : FitScript} (h : script ∈ kaonIterativeScripts) {pion_mass : ℝ} (hp : 0 ≤ pion_mass ∧ pion_mass ≤ 0.24) :
    ScriptConstants script.cls [("t_0_isoscalar", (3 * pion_mass) ^ 2), ("t_0_isovector", (2 * pion_mass) ^ 2)] := by
  refine ⟨(kaonIterative_facts h).2.2.symm, fun q hq _ => ?_⟩
  simp only [List.mem_cons, List.not_mem_nil, or_false] at hq
  rcases hq with rfl | rfl
  · constructor
    · positivity
    · dsimp only; nlinarith [hp.1, hp.2]
  · constructor
    · positivity
    · dsimp only; nlinarith [hp.1, hp.2]

/-- The pipeline `f` of the iterative kaon scripts creates. -/
noncomputable def FitScript.pipeline (script : FitScript) (ref : ℕ) (out : List ((ℝ × Bool) × ℝ × ℝ)) (path_to_reports name : String)
    (constants : Constants) : Pipeline where
  kind := script.kind
  name := name
  parameters := ref
  tasks := []
  ts := out.map fun q => .kaon q.1.1 q.1.2
  ys := out.map (·.2.1)
  errors := out.map (·.2.2)
  reports_dir := pathJoin path_to_reports name
  plot := false
  use_handpicked_bounds := script.use_handpicked_bounds
  constants := constants
  report := "Report " ++ name ++ ":\n"
  best_fit := ⟨none, none, none, none, none, none⟩

theorem PyM.Sat.weaken {σ α : Type} {x : PyM σ α} {s : σ} {Q : α → σ → Prop} {E E' : PyErr → Prop} (h : x.Sat s Q E) (he : ∀ e, E e → E' e) :
    x.Sat s Q E' := by
  unfold PyM.Sat at h ⊢
  revert h
  rcases x s with ⟨e | a, s'⟩
  · exact he e
  · exact id

/-- A whole call of `f` of the iterative kaon scripts. -/
theorem f_sat {script : FitScript} (hs : script ∈ kaonIterativeScripts) {env : Env} {random : ℕ → ℝ} {pion_mass : ℝ} {S : Set ℝ}
    {p₀ p : ModelParameters ℝ} (h0 : script.makeInitialParameters [("t_0_isoscalar", (3 * pion_mass) ^ 2), ("t_0_isovector", (2 * pion_mass) ^ 2)] = .ok p₀)
    (h1 : perturbModelParameters p₀ script.perturbation_size (some script.perturbation_size_resonances) script.use_handpicked_bounds random = (.ok (), p))
    (hg : GoodObject script.cls script.use_handpicked_bounds S p) (constants : Constants) {charged neutral : List (ℝ × ℝ × ℝ)} (hch : charged ≠ [])
    (hpos : ∀ d ∈ charged ++ neutral, 0 < d.1 ∧ d.2.2 ≠ 0) (hlen : script.literals.length + 2 < (charged ++ neutral).length)
    {path_to_reports name : String} {w : World} (hdir : w.fs.exists (pathJoin path_to_reports name) = false)
    (hmk : env.mkdirFails (pathJoin path_to_reports name) = false)
    (hfit : env.FitsInside S) (hplot : ∀ k, env.plot k = .ok ()) (hsamp : env.Samples) :
    (script.f env random pion_mass constants (charged.map (·.1)) (charged.map (·.2.1)) (charged.map (·.2.2)) (neutral.map (·.1)) (neutral.map (·.2.1))
      (neutral.map (·.2.2)) path_to_reports name).Sat w (fun _ w' => ∃ p', w'.heap[w.heap.length]? = some p' ∧
        GoodObject script.cls script.use_handpicked_bounds S p')
      (fun e => e = .zeroDivisionError ∧ ∃ d ∈ charged ++ neutral, d.1 ∉ S) := by
  obtain ⟨hkind, hcount, -⟩ := kaonIterative_facts hs
  have hkaon := kaonIterative_kaon hs
  obtain ⟨out, hout, hperm, -⟩ := C58_kaon charged neutral (Or.inl hch)
  have hmem : ∀ q ∈ out, ∃ d ∈ charged ++ neutral, q.1.1 = d.1 ∧ q.2 = d.2 := by
    intro q hq
    rcases List.mem_append.mp (hperm.mem_iff.mp hq) with h | h
    · obtain ⟨d, hd, rfl⟩ := List.mem_map.mp h
      exact ⟨d, List.mem_append_left _ hd, rfl, rfl⟩
    · obtain ⟨d, hd, rfl⟩ := List.mem_map.mp h
      exact ⟨d, List.mem_append_right _ hd, rfl, rfl⟩
  have hol : out.length = (charged ++ neutral).length := by
    rw [hperm.length_eq]; simp
  unfold FitScript.f
  dsimp only
  rw [h0, hout]
  refine .step rfl (.step (newParams_run p₀ w) ?_)
  have hm : mutateParams w.heap.length (fun p => perturbModelParameters p script.perturbation_size (some script.perturbation_size_resonances)
      script.use_handpicked_bounds random) { w with heap := w.heap ++ [p₀] } = (.ok (), { w with heap := w.heap ++ [p] }) := by
    rw [mutateParams_run (p := p₀) (by simp), h1]
    dsimp only
    congr 2
    simp
  refine .step hm (.step rfl ?_)
  dsimp only
  have hset : setUpReportsDirectory env (pathJoin path_to_reports name) { w with heap := w.heap ++ [p] } =
      (.ok (), { w with heap := w.heap ++ [p], fs := { w.fs with dirs := fun q => q == pathJoin path_to_reports name || w.fs.dirs q } }) := by
    unfold setUpReportsDirectory
    rw [PyM.bind_ok (PyM.get_run _ _)]
    dsimp only
    rw [hdir, if_neg (by decide)]
    exact if_neg (by rw [hmk]; decide)
  refine .step (PyM.bind_ok (f := fun _ => pure (script.pipeline w.heap.length out path_to_reports name constants)) hset) ?_
  have hrun := runIterative_sat (c := script.cls) (G := (GoodObject script.cls · S)) (n := p.names.length) (kaon_tasksGood (points := out.map fun q => q.1) hkaon hfit hplot) hsamp
    ⟨freeParamsNumbers script.nr_free_params script.nr_iterations, script.nr_initial_rounds_with_fixed_resonances⟩
    (script.pipeline w.heap.length out path_to_reports name constants)
    { w with heap := w.heap ++ [p], fs := { w.fs with dirs := fun q => q == pathJoin path_to_reports name || w.fs.dirs q } }
    ⟨hkind, by rw [List.map_map]; rfl, by simp [FitScript.pipeline], by simp [FitScript.pipeline], ?_, ?_, ?_, ?_⟩
    ⟨p, by simp [FitScript.pipeline], hg, rfl⟩ kaon_fullFit (fun j k hj => schedule_ok hs j k hj)
  · refine (hrun.weaken ?_).bind ?_
    · rintro e ⟨he, d, hd, hS⟩
      obtain ⟨q, hq, rfl⟩ := List.mem_map.mp hd
      obtain ⟨d, hd, h2, -⟩ := hmem q hq
      exact ⟨he, d, hd, by rw [← h2]; exact hS⟩
    · rintro self' w' ⟨hsame, p', hp', hg', -⟩
      exact .of_run rfl ⟨p', by rw [hsame.parameters] at hp'; exact hp', by rw [hsame.bounds] at hg'; exact hg'⟩
  · intro e he
    obtain ⟨q, hq, rfl⟩ := List.mem_map.mp he
    obtain ⟨d, hd, -, h2⟩ := hmem q hq
    rw [h2]; exact (hpos d hd).2
  · intro d hd
    obtain ⟨q, hq, rfl⟩ := List.mem_map.mp hd
    obtain ⟨d, hd, h2, -⟩ := hmem q hq
    rw [h2]; exact (hpos d hd).1
  · obtain ⟨d, hd⟩ := List.exists_mem_of_ne_nil _ hch
    exact ⟨(d.1, true), List.mem_map.mpr ⟨((d.1, true), d.2), hperm.mem_iff.mpr (List.mem_append_left _ (List.mem_map.mpr ⟨d, hd, rfl⟩)), rfl⟩, rfl⟩
  · rw [(reachable_wellFormed hg.1).names, hg.2.1, hcount, List.length_map, hol]; exact hlen

end UA
