import Verif.Lemmas.NucleonDegenerate
import Verif.Lemmas.RunsNucleonScript
import Verif.Lemmas.RunsWitness

/-!
# Properties C82 and C83: the fitted nucleon functions inside the bounds, and whole runs of the nucleon pipelines
-/

namespace UA

open Complex

/-! ### C82 -/

/-- **C82** (what holds) form factors at real points from 0 on, for values strictly inside the bounds from which the model can be built: all
points can be evaluated exactly if none is an inelastic threshold, no two mass terms coincide, and the nucleon mass is not 0 if there is an
electric point. The only exception is `ZeroDivisionError`.
Missing from the stated property: that mass terms inside the bounds do not coincide, which is false (`C82_false`). -/
theorem C82_form_factors_partial {p : ModelParameters ℝ} (h : Reachable p) (hc : p.cls = .nucleon) (hi : p.InsideMaximal)
    (hm : ∃ m, getFFModel p = .ok m) {x : NucleonArgs} (hx : p.HoldsExactly x.byName) {points : List (ℝ × Bool × Bool)} (h0 : ∀ d ∈ points, 0 ≤ d.1) :
      ((∃ rs, functionFormFactor (points.map fun d => .nucleon d.1 d.2.1 d.2.2) p = .ok rs) ↔
        ∀ d ∈ points, (¬ ∃ q ∈ p.toList, "t_in_".toList <+: q.name.toList ∧ d.1 = q.value) ∧ ¬ NucleonClass.new.Degenerate true true x ∧
          (d.2.2 = true → x.nucleon_mass ≠ 0)) ∧
      ∀ e, functionFormFactor (points.map fun d => .nucleon d.1 d.2.1 d.2.2) p = .error e → e = .zeroDivisionError := by
  have hx := nucleon_inside_args h hc hi hm hx
  rw [hx.wiring.ff, hx.check, except_ok_bind, mapM_map]
  have hpt : ∀ d : ℝ × Bool × Bool, nucleonPoint (fun pr el t => NucleonClass.new.run pr el x t) (.nucleon d.1 d.2.1 d.2.2) =
    (do let F ← NucleonClass.new.run d.2.1 d.2.2 x d.1; return ‖F‖) := fun _ => rfl
  constructor
  · rw [mapM_exists_ok]
    refine forall₂_congr fun d hd => ?_
    have hok := hx.run_ok d.2.1 d.2.2 (h0 d hd)
    unfold NucleonInside.Bad at hok
    rw [not_or, not_or, not_and] at hok
    rw [← hok, hpt]
    constructor
    · rintro ⟨b, hb⟩
      obtain ⟨F, hF, -⟩ := except_bind_eq_ok.mp hb
      exact ⟨F, hF⟩
    · rintro ⟨F, hF⟩
      exact ⟨‖F‖, by rw [hF]; rfl⟩
  · intro e he
    obtain ⟨d, hd, he⟩ := mapM_eq_error he
    rw [hpt] at he
    rcases hr : NucleonClass.new.run d.2.1 d.2.2 x d.1 with e' | F
    · rw [hr] at he
      injection he with he
      rw [← he]
      exact hx.run_error d.2.1 d.2.2 (h0 d hd) hr
    · rw [hr] at he; cases he

/-- **C82** (what holds) cross sections likewise. They need both form factors; the origin is a further division by zero, and points between
0 and the threshold `4 m²` raise `ValueError`. -/
theorem C82_cross_sections_partial {p : ModelParameters ℝ} (h : Reachable p) (hc : p.cls = .nucleon) (hi : p.InsideMaximal)
    (hm : ∃ m, getFFModel p = .ok m) {x : NucleonArgs} (hx : p.HoldsExactly x.byName) {points : List (ℝ × Bool × Bool)} (h0 : ∀ d ∈ points, 0 ≤ d.1)
    (m α hc2 : ℝ) :
      ((∃ rs, functionCrossSection (points.map fun d => .nucleon d.1 d.2.1 d.2.2) m α hc2 p = .ok rs) ↔
        ∀ d ∈ points, (¬ ∃ q ∈ p.toList, "t_in_".toList <+: q.name.toList ∧ d.1 = q.value) ∧ ¬ NucleonClass.new.Degenerate true true x ∧
          x.nucleon_mass ≠ 0 ∧ d.1 ≠ 0 ∧ 4 * m ^ 2 ≤ d.1) ∧
      ∀ e, functionCrossSection (points.map fun d => .nucleon d.1 d.2.1 d.2.2) m α hc2 p = .error e →
        e = .zeroDivisionError ∨ (e = .valueError ∧ ∃ d ∈ points, d.1 ≠ 0 ∧ d.1 < 4 * m ^ 2) := by
  have hx := nucleon_inside_args h hc hi hm hx
  rw [hx.wiring.cs, hx.check, except_ok_bind, mapM_map]
  have hpt : ∀ d : ℝ × Bool × Bool, nucleonPoint (fun pr _ t => do
        let GE ← NucleonClass.new.run pr true x t
        let GM ← NucleonClass.new.run pr false x t
        (NucleonCS.init m α hc2).formula t ‖GE‖ ‖GM‖) (.nucleon d.1 d.2.1 d.2.2) =
    (do let σ ← (do
          let GE ← NucleonClass.new.run d.2.1 true x d.1
          let GM ← NucleonClass.new.run d.2.1 false x d.1
          (NucleonCS.init m α hc2).formula d.1 ‖GE‖ ‖GM‖); return ‖σ‖) := fun _ => rfl
  constructor
  · rw [mapM_exists_ok]
    refine forall₂_congr fun d hd => ?_
    have hok := (hx.cs d.2.1 (h0 d hd) m α hc2).1
    unfold NucleonInside.Bad at hok
    rw [not_or, not_or, not_and] at hok
    simp only [true_imp_iff] at hok
    rw [show (∀ a b c d e : Prop, (a ∧ b ∧ c ∧ d ∧ e) ↔ ((a ∧ b ∧ c) ∧ d ∧ e)) from fun _ _ _ _ _ => by tauto]
    rw [hpt]
    refine Iff.trans ?_ hok
    constructor
    · rintro ⟨b, hb⟩
      obtain ⟨σ, hσ, -⟩ := except_bind_eq_ok.mp hb
      exact ⟨σ, hσ⟩
    · rintro ⟨σ, hσ⟩
      exact ⟨‖σ‖, by rw [hσ]; rfl⟩
  · intro e he
    obtain ⟨d, hd, he⟩ := mapM_eq_error he
    rw [hpt] at he
    have hcs := (hx.cs d.2.1 (h0 d hd) m α hc2).2
    rcases hrun : (do
        let GE ← NucleonClass.new.run d.2.1 true x d.1
        let GM ← NucleonClass.new.run d.2.1 false x d.1
        (NucleonCS.init m α hc2).formula d.1 ‖GE‖ ‖GM‖) with e' | σ
    · rw [hrun] at he
      injection he with he
      rw [← he]
      rcases hcs e' hrun with h | ⟨h, h'⟩
      · exact Or.inl h
      · exact Or.inr ⟨h, d, hd, h'⟩
    · rw [hrun] at he; cases he

/-- **C82** is false: there are values strictly inside the handpicked bounds with which no point at all can be evaluated. -/
theorem C82_false : ∃ p, Reachable p ∧ p.cls = .nucleon ∧ p.InsideFor true ∧ (∃ m, getFFModel p = .ok m) ∧
    ∀ points : List (ℝ × Bool × Bool), points ≠ [] → (∀ d ∈ points, 0 ≤ d.1) →
      functionFormFactor (points.map fun d => .nucleon d.1 d.2.1 d.2.2) p = .error .zeroDivisionError := by
  obtain ⟨p, hg, x, hx, hdeg⟩ := degenerate_object
  obtain ⟨hr, hcls, hin, -⟩ := (goodObject_iff (c := .nucleon) trivial).mp hg
  refine ⟨p, hr, hcls, hin, hg.nucleon, fun points hne h0 => ?_⟩
  have hpts := C82_form_factors_partial hr hcls hin.1 hg.nucleon hx.wiring.holds h0
  obtain ⟨d, hd⟩ := List.exists_mem_of_ne_nil _ hne
  rcases hf : functionFormFactor (points.map fun d => .nucleon d.1 d.2.1 d.2.2) p with e | rs
  · exact hf.trans (congrArg _ (hpts.2 e hf))
  · exact absurd hdeg ((hpts.1.mp ⟨rs, hf⟩) d hd).2.1

/-- Where the conditions are met: with all inelastic thresholds at 10 the points 0 and 4 can be evaluated for both nucleons; the point
10 cannot. -/
example : ∃ p, Reachable p ∧ p.cls = .nucleon ∧ p.InsideFor true ∧
    (∃ rs, functionFormFactor [.nucleon (0 : ℝ) true true, .nucleon (4 : ℝ) true false, .nucleon (4 : ℝ) false true] p = .ok rs) ∧
    (∃ rs, functionCrossSection [.nucleon (4 : ℝ) true true] 0.938 1 1 p = .ok rs) ∧
    functionFormFactor [.nucleon (10 : ℝ) true true] p = .error .zeroDivisionError := by
  obtain ⟨p, hg, htin, x, hx, hmass, hdeg⟩ := separate_object
  obtain ⟨hr, hcls, hin, -⟩ := (goodObject_iff (c := .nucleon) trivial).mp hg
  have hoff : ∀ t : ℝ, t ≠ 10 → ¬ ∃ q ∈ p.toList, "t_in_".toList <+: q.name.toList ∧ t = q.value := by
    rintro t ht ⟨q, hq, hn, rfl⟩
    exact ht (htin q hq hn)
  have hm0 : x.nucleon_mass ≠ 0 := by rw [hmass]; norm_num
  refine ⟨p, hr, hcls, hin, ?_, ?_, ?_⟩
  · refine (C82_form_factors_partial hr hcls hin.1 hg.nucleon hx.wiring.holds (points := [(0, true, true), (4, true, false), (4, false, true)]) ?_).1.mpr ?_
    · intro d hd; fin_cases hd <;> norm_num
    · intro d hd
      fin_cases hd <;> exact ⟨hoff _ (by norm_num), hdeg, fun _ => hm0⟩
  · refine (C82_cross_sections_partial hr hcls hin.1 hg.nucleon hx.wiring.holds (points := [(4, true, true)]) ?_ 0.938 1 1).1.mpr ?_
    · intro d hd; fin_cases hd; norm_num
    · intro d hd
      fin_cases hd
      exact ⟨hoff _ (by norm_num), hdeg, hm0, by norm_num, by norm_num⟩
  · have hpts := C82_form_factors_partial hr hcls hin.1 hg.nucleon hx.wiring.holds (points := [(10, true, true)]) (by intro d hd; fin_cases hd; norm_num)
    have hbad : ∃ q ∈ p.toList, "t_in_".toList <+: q.name.toList ∧ (10 : ℝ) = q.value := by
      have hw := reachable_wellFormed hr
      have hmem : "t_in_dirac_isoscalar" ∈ p.names := by rw [hw.names, hcls]; decide +kernel
      obtain ⟨q, hq, hn⟩ := List.mem_map.mp hmem
      exact ⟨q, hq, by rw [hn]; decide, (htin q hq (by rw [hn]; decide)).symm⟩
    rcases hf : functionFormFactor [.nucleon ((10 : ℝ) : ℂ) true true] p with e | rs
    · exact congrArg _ (hpts.2 e hf)
    · exact absurd hbad ((hpts.1.mp ⟨rs, hf⟩) _ List.mem_cons_self).1

/-! ### C83 -/

/-- **C83** `Pipeline.run` of a nucleon pipeline with its own task classes (handpicked bounds), the starting values being strictly inside the
bounds and the fitting library never leaving them: if the run raises at all, it is a `ZeroDivisionError`; if it completes, the object's
values are again strictly inside the bounds. -/
theorem C83_run {self : Pipeline} {env : Env} {w : World} {p : ModelParameters ℝ} {points : List (ℝ × Bool × Bool)}
    (hp : w.heap[self.parameters]? = some p) (hr : Reachable p) (hc : p.cls = .nucleon) (hin : p.InsideFor true)
    (hfree : ∃ q ∈ p.toList, q.is_fixed = false) (hd : self.NucleonData p points) (ht : ∀ t ∈ self.tasks, t ∈ self.kind.nucleonTasks)
    (hfit : env.FitsInside ∅) (hplot : ∀ k, env.plot k = .ok ()) :
    (∀ e w', self.run env w = (.error e, w') → e = .zeroDivisionError) ∧
    (∀ self' w', self.run env w = (.ok self', w') → ∃ p', w'.heap[self.parameters]? = some p' ∧ self'.parameters = self.parameters ∧ Reachable p' ∧
      p'.cls = .nucleon ∧ p'.InsideFor true) := by
  have hg := (goodObject_iff (c := .nucleon) (S := ∅) trivial).mpr ⟨hr, hc, hin, fun _ _ _ => id⟩
  have := run_sat (nucleon_tasksGood hfit hplot) self w ht hd.run ⟨p, hp, by rw [hd.bounds]; exact hg, hfree, rfl⟩
  unfold PyM.Sat at this
  constructor
  · intro e w' h
    rw [h] at this; exact this
  · intro self' w' h
    rw [h] at this
    obtain ⟨hs, p', hp', hg', -⟩ := this
    obtain ⟨k1, k2, k3, -⟩ := (goodObject_iff (c := .nucleon) trivial).mp hg'
    exact ⟨p', by rw [← hs.parameters]; exact hp', hs.parameters, k1, k2, by rw [← hd.bounds, ← hs.bounds]; exact k3⟩

/-- **C83** the iterative pipeline for form factors, for rounds with at least one parameter and not more than there are. -/
theorem C83_ff_iterative {self : Pipeline} {env : Env} {its : Iterations} {w : World} {p : ModelParameters ℝ} {points : List (ℝ × Bool × Bool)}
    (hp : w.heap[self.parameters]? = some p) (hr : Reachable p) (hc : p.cls = .nucleon) (hin : p.InsideFor true)
    (hd : self.NucleonData p points) (hkind : self.kind = .nucleonFF)
    (hnum : ∀ (i : ℕ) (k : ℤ), its.free_params_numbers[i]? = some k → 1 ≤ k ∧
      k ≤ (p.freezable (decide ((i : ℤ) < its.nr_initial_rounds_with_fixed_resonances))).length)
    (hs : env.Samples) (hfit : env.FitsInside ∅) (hplot : ∀ k, env.plot k = .ok ()) :
    (∀ e w', self.runIterative env its w = (.error e, w') → e = .zeroDivisionError) ∧
    (∀ self' w', self.runIterative env its w = (.ok self', w') → ∃ p', w'.heap[self.parameters]? = some p' ∧ self'.parameters = self.parameters ∧
      Reachable p' ∧ p'.cls = .nucleon ∧ p'.InsideFor true) := by
  have hg := (goodObject_iff (c := .nucleon) (S := ∅) trivial).mpr ⟨hr, hc, hin, fun _ _ _ => id⟩
  have := runIterative_sat (nucleonFF_tasksGood hfit hplot) hs its self w ⟨hd.run, hkind⟩ ⟨p, hp, by rw [hd.bounds]; exact hg, rfl⟩ nucleonFF_fullFit
    (fun j k hj => by
      have := hnum j k hj
      rw [freezable_count hr, hc] at this
      exact this)
  unfold PyM.Sat at this
  constructor
  · intro e w' h
    rw [h] at this; exact this
  · intro self' w' h
    rw [h] at this
    obtain ⟨hs, p', hp', hg', -⟩ := this
    obtain ⟨k1, k2, k3, -⟩ := (goodObject_iff (c := .nucleon) trivial).mp hg'
    exact ⟨p', by rw [← hs.parameters]; exact hp', hs.parameters, k1, k2, by rw [← hd.bounds, ← hs.bounds]; exact k3⟩

/-- **C83** the iterative pipeline for cross sections, all rounds, the full fit and the final fit of the residual oscillations. Any number of
parameters may be asked for from 1 on: it is cut to what there is. -/
theorem C83_cs_iterative {self : Pipeline} {env : Env} {its : Iterations} {w : World} {p : ModelParameters ℝ} {points : List (ℝ × Bool × Bool)}
    (hp : w.heap[self.parameters]? = some p) (hr : Reachable p) (hc : p.cls = .nucleon) (hin : p.InsideFor true)
    (hd : self.NucleonData p points) (hkind : self.kind = .nucleonCS) (hres : self.ResidualData points)
    (hnum : ∀ k ∈ its.free_params_numbers, 1 ≤ k) (hs : env.Samples) (hfit : env.FitsInside ∅) (hplot : ∀ k, env.plot k = .ok ()) :
    (∀ e w', self.runNucleonCSIterative env its w = (.error e, w') → e = .zeroDivisionError) ∧
    (∀ self' w', self.runNucleonCSIterative env its w = (.ok self', w') → ∃ p', w'.heap[self.parameters]? = some p' ∧
      self'.parameters = self.parameters ∧ Reachable p' ∧ p'.cls = .nucleon ∧ p'.InsideFor true) := by
  have hg := (goodObject_iff (c := .nucleon) (S := ∅) trivial).mpr ⟨hr, hc, hin, fun _ _ _ => id⟩
  have := runNucleonCSIterative_sat hfit hplot hs its self w hd.run hkind hres ⟨p, hp, by rw [hd.bounds]; exact hg, rfl⟩ hnum
  unfold PyM.Sat at this
  constructor
  · intro e w' h
    rw [h] at this; exact this
  · intro self' w' h
    rw [h] at this
    obtain ⟨hs, p', hp', hg', -⟩ := this
    obtain ⟨k1, k2, k3, -⟩ := (goodObject_iff (c := .nucleon) trivial).mp hg'
    exact ⟨p', by rw [← hs.parameters]; exact hp', hs.parameters, k1, k2, by rw [← hd.bounds, ← hs.bounds]; exact k3⟩

/-- **C83** a whole call of `f` in the nucleon script, the perturbed start, 175 rounds, the full fit and the residual fit: if it raises at all,
it is a `ZeroDivisionError`; if it completes, the object it created is again inside the bounds. The data need not lie off the inelastic
thresholds, but above the threshold `4 m²`, with positive cross sections. -/
theorem C83_script {env : Env} {random : ℕ → ℝ} (hr : ∀ k, 0 < random k ∧ random k < 1) {pion_mass : ℝ} (hp : 0 ≤ pion_mass ∧ pion_mass ≤ 0.24)
    {proton_mass alpha hc_squared : ℝ} (hm : 0 < proton_mass) (ha : alpha ≠ 0) (proton_magnetic_moment neutron_magnetic_moment : ℝ)
    {data : List (ℝ × ℝ × ℝ)} (hdata : ∀ d ∈ data, 4 * proton_mass ^ 2 < d.1 ∧ 0 < d.2.1 ∧ d.2.2 ≠ 0)
    (hsmall : ∃ d ∈ data, d.1 / (2 * proton_mass) - proton_mass < Real.sqrt (25 + proton_mass ^ 2)) (hlen : 37 < data.length)
    {path_to_reports name : String} {w : World} (hdir : w.fs.exists (pathJoin path_to_reports name) = false)
    (hmk : env.mkdirFails (pathJoin path_to_reports name) = false) (hfit : env.FitsInside ∅) (hplot : ∀ k, env.plot k = .ok ()) (hsamp : env.Samples) :
    let call := fitNucleonF env random pion_mass proton_mass proton_magnetic_moment neutron_magnetic_moment alpha hc_squared (data.map (·.1))
      (data.map (·.2.1)) (data.map (·.2.2)) path_to_reports name w
    (∀ e w', call = (.error e, w') → e = .zeroDivisionError) ∧
    (∀ best w', call = (.ok best, w') → ∃ p', w'.heap[w.heap.length]? = some p' ∧ Reachable p' ∧ p'.cls = .nucleon ∧ p'.InsideFor true) := by
  have := fitNucleonF_sat (hc_squared := hc_squared) hr hp hm ha proton_magnetic_moment neutron_magnetic_moment hdata hsmall hlen hdir hmk hfit hplot hsamp
  unfold PyM.Sat at this
  dsimp only
  constructor
  · intro e w' h
    rw [h] at this; exact this
  · intro best w' h
    rw [h] at this
    obtain ⟨p', hp', hg'⟩ := this
    obtain ⟨k1, k2, k3, -⟩ := (goodObject_iff (c := .nucleon) trivial).mp hg'
    exact ⟨p', hp', k1, k2, k3⟩

/-! ### Runs meeting the hypotheses -/

/-- The hypotheses are met by forty points above the threshold, the object of the C82 example and a library that returns its starting
values: for the three tasks in turn, and for iterative runs of both kinds. -/
example : ∃ p, Reachable p ∧ p.cls = .nucleon ∧ p.InsideFor true ∧
    (∀ e w', (fortyPipeline .nucleonCS [.nucleonCSFull, .nucleonCSFixedCouplings, .nucleonCSFixAccording]).run (idleEnv ∅) (startWorld [p]) =
      (.error e, w') → e = .zeroDivisionError) ∧
    (∀ e w', (fortyPipeline .nucleonFF []).runIterative (idleEnv ∅) ⟨[2, 5, 3], 1⟩ (startWorld [p]) = (.error e, w') → e = .zeroDivisionError) ∧
    (∀ e w', (fortyPipeline .nucleonCS []).runNucleonCSIterative (idleEnv ∅) ⟨[2, 50, 3], 1⟩ (startWorld [p]) = (.error e, w') →
      e = .zeroDivisionError) := by
  obtain ⟨p₀, hg₀, -⟩ := separate_object
  have hfree : p₀.releaseAllParameters.HasFree :=
    hasFree_release_of hg₀.1 (n := "t_in_dirac_isoscalar") (by rw [hg₀.2.1]; exact nucleon_tin_free.1) (by rw [hg₀.2.1]; exact nucleon_tin_free.2)
  have hg : GoodObject .nucleon true ∅ p₀.releaseAllParameters :=
    hg₀.flags (releaseAll_spec hg₀.1).1 (releaseAll_spec hg₀.1).2.1 (releaseAll_spec hg₀.1).2.2
  generalize p₀.releaseAllParameters = p at hfree hg
  obtain ⟨hr, hcls, hin, -⟩ := (goodObject_iff (c := .nucleon) trivial).mp hg
  refine ⟨p, hr, hcls, hin, ?_, ?_, ?_⟩
  · exact (C83_run (p := p) rfl hr hcls hin hfree (fortyPipeline_data (Or.inl rfl) _ hr hcls).1 (by decide) (idleEnv_fits _) fun _ => rfl).1
  · refine (C83_ff_iterative (p := p) rfl hr hcls hin (fortyPipeline_data (Or.inr rfl) _ hr hcls).1 rfl ?_ (idleEnv_samples _) (idleEnv_fits _) fun _ => rfl).1
    intro i k hk
    rw [freezable_count hr, hcls]
    show 1 ≤ k ∧ k ≤ ((ParamClass.nucleon.table.initArgs.filter fun m =>
      decide (¬ DeclaredFixed .nucleon m ∧ ¬ (decide ((i : ℤ) < 1) = true ∧ IsResonanceName m))).length : ℤ)
    match i, hk with
    | 0, hk => injection hk with hk; subst hk; decide +kernel
    | 1, hk => injection hk with hk; subst hk; decide +kernel
    | 2, hk => injection hk with hk; subst hk; decide +kernel
    | i + 3, hk => cases hk
  · obtain ⟨h1, h2⟩ := fortyPipeline_data (Or.inl rfl) [] hr hcls
    refine (C83_cs_iterative (p := p) rfl hr hcls hin h1 rfl h2 ?_ (idleEnv_samples _) (idleEnv_fits _) fun _ => rfl).1
    intro k hk
    have : ∀ k ∈ ([2, 50, 3] : List ℤ), 1 ≤ k := by decide
    exact this k hk

/-- The same for the whole call, with draws of 1/2. -/
example : ∀ e w', fitNucleonF (idleEnv ∅) (fun _ => 1 / 2) 0.13957 0.938 2.79 (-1.91) 1 1 (fortyPoints.map (·.1)) (fortyPoints.map (·.2.1))
    (fortyPoints.map (·.2.2)) "reports" "P" (startWorld []) = (.error e, w') → e = .zeroDivisionError :=
  (C83_script (fun _ => by norm_num) (by norm_num) (by norm_num) one_ne_zero _ _ fortyPoints_spec.1 fortyPoints_spec.2.1 fortyPoints_spec.2.2 rfl rfl
    (idleEnv_fits _) (fun _ => rfl) (idleEnv_samples _)).1

end UA
