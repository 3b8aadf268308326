import Verif.Lemmas.BestFit
import Verif.Lemmas.PipelinesWitness
import Verif.Lemmas.PipelinesSample
import Verif.Lemmas.ResidualWitness
import Verif.Props.FitScripts

/-!
# Property C96: what a pipeline reports is true of the parameters it reports
-/

namespace UA

/-- **C96** a completed run of an iterative pipeline (all but the one for nucleon cross sections): the chi squared in each report is the reduced
chi squared of the final parameters in the same report, computed anew at all points of the pipeline, and the best fit is the one of a
report whose chi squared has the smallest text. -/
theorem C96_iterative {env : Env} (hs : env.Samples) {self self' : Pipeline} (hkind : self.kind ≠ .nucleonCS) {its : Iterations} {w w' : World}
    {p : ModelParameters ℝ} (hreach : ∀ p ∈ w.heap, Reachable p) (hp : w.heap[self.parameters]? = some p) (hnew : self.best_fit = .nothing)
    (hstr : ∀ x, env.strFloat x ≠ "") (hdata : self.ys.length = self.ts.length) (h : self.runIterative env its w = (.ok self', w')) :
    ∃ reports chis, self.Reported env w' (numberedNames (iterativeClassNames self.kind its.free_params_numbers)) reports chis ∧
      List.Forall₂ (fun (r : Report) x => r.Outcome (self.fitData env (self.kind.fitted self.constants)) p.cls x) reports chis ∧
      BestByText env self.name reports chis self'.best_fit ∧
      self'.best_fit.Correct (self.fitData env (self.kind.fitted self.constants)) p.cls := by
  obtain ⟨q, rs, pₙ, last, p', h1, h2, h3, h4, h5, h6, h7, h8, h9, h10, h11, h12⟩ := runIterative_parameters hs hkind hreach h
  obtain rfl := Option.some.inj (h1.symm.trans hp)
  obtain ⟨cs, hcs⟩ := h2.outcomes
  obtain ⟨x, hx⟩ := h8.outcome
  rw [h5, h3] at hx
  have hout := List.rel_append hcs (.cons hx .nil)
  obtain ⟨⟨chis, r1⟩, -⟩ := reported_of_traced h11 h10
  have hsays : List.Forall₂ (fun (r : Report) x => r.Says env x) (rs.map Prod.snd ++ [last]) (cs ++ [x]) := hout.imp fun _ _ h => h.says rfl
  rw [hnew] at h12
  have hb := best_of_texts hsays (foldl_best self.name _ (says_nonempty hstr hsays))
  rw [← h12] at hb
  exact ⟨_, _, ⟨r1.names, r1.files, hsays⟩, hout, hb, best_correct hdata hout hb⟩

/-- An iterative run of three rounds on two points as in `C96_iterative`. -/
example : (polesEnv (fun a => a + 1) wholeText).Samples ∧ (polesPipeline []).kind ≠ .nucleonCS ∧
    (∀ p ∈ (startWorld [poles 1]).heap, Reachable p) ∧ (startWorld [poles 1]).heap[(polesPipeline []).parameters]? = some (poles 1) ∧
    (polesPipeline []).best_fit = .nothing ∧ (∀ x, (polesEnv (fun a => a + 1) wholeText).strFloat x ≠ "") ∧
    (polesPipeline []).ys.length = (polesPipeline []).ts.length ∧
    ∃ self' w', (polesPipeline []).runIterative (polesEnv (fun a => a + 1) wholeText) ⟨List.replicate 3 3, 0⟩ (startWorld [poles 1]) = (.ok self', w') :=
  ⟨fun _ names k hk => ⟨names.take k, List.take_sublist _ _, by simpa using hk, .refl _⟩, by decide, startWorld_good 1, rfl, rfl, wholeText_ne, rfl,
    poles_runIterative _ _ 3 1⟩

/-- **C96** the same for the iterative pipeline for nucleon cross sections. The report of the residual fit, which is made to other data, takes
no part in the choice of the best fit. -/
theorem C96_nucleonCS {env : Env} (hs : env.Samples) {self self' : Pipeline} (hkind : self.kind = .nucleonCS) {its : Iterations} {w w' : World}
    {p : ModelParameters ℝ} (hreach : ∀ p ∈ w.heap, Reachable p) (hp : w.heap[self.parameters]? = some p) (hnew : self.best_fit = .nothing)
    (hstr : ∀ x, env.strFloat x ≠ "") (hdata : self.ys.length = self.ts.length) (h : self.runNucleonCSIterative env its w = (.ok self', w')) :
    let fit := self.fitData env (.crossSection self.constants.mass self.constants.alpha self.constants.hc_squared)
    ∃ reports residual chis chi, self.Reported env w' (nucleonTaskNames its) (reports ++ [residual]) (chis ++ [chi]) ∧
      List.Forall₂ (fun (r : Report) x => r.Outcome fit p.cls x) reports chis ∧ BestByText env self.name reports chis self'.best_fit ∧
      self'.best_fit.Correct fit p.cls := by
  dsimp only
  obtain ⟨q, rs, pₙ, full, pf, residual, p', h1, h2, h3, h4, h5, h6, h7, h8, h9, h10, h11, h12, h13, h14, h15, h16⟩ := runNucleonCS_parameters hs hreach h
  obtain rfl := Option.some.inj (h1.symm.trans hp)
  have hf : self.kind.fitted self.constants = .crossSection self.constants.mass self.constants.alpha self.constants.hc_squared := by
    rw [hkind]; rfl
  rw [hf] at h2
  obtain ⟨cs, hcs⟩ := h2.outcomes
  obtain ⟨x, hx⟩ := h7.outcome
  rw [h4] at hx
  have hout := List.rel_append hcs (.cons hx .nil)
  obtain ⟨⟨chis, r1⟩, -⟩ := reported_of_traced h15 h14
  have hsays : List.Forall₂ (fun (r : Report) x => r.Says env x) (rs.map Prod.snd ++ [full]) (cs ++ [x]) := hout.imp fun _ _ h => h.says rfl
  obtain ⟨y, hy⟩ : ∃ y, residual.Says env y := by
    have ho := r1.outcomes
    have : residual ∈ rs.map Prod.snd ++ [full, residual] := by simp
    obtain ⟨k, hk, hr⟩ := List.getElem_of_mem this
    have := (List.forall₂_iff_get.mp ho).2 k hk (ho.length_eq ▸ hk)
    rw [List.get_eq_getElem, hr] at this
    exact ⟨_, this⟩
  rw [hnew] at h16
  have hb := best_of_texts hsays (foldl_best self.name _ (says_nonempty hstr hsays))
  rw [← h16] at hb
  have hl : rs.map Prod.snd ++ [full, residual] = (rs.map Prod.snd ++ [full]) ++ [residual] := by simp
  exact ⟨_, residual, _, y, ⟨hl ▸ r1.names, hl ▸ r1.files, List.rel_append hsays (.cons hy .nil)⟩, hout, hb, best_correct hdata hout hb⟩

/-- The run of `C66_nucleonCS_partial` as one of `C96_nucleonCS`. -/
example : failEnv.Samples ∧ quietPipeline.kind = .nucleonCS ∧ (∀ p ∈ (startWorld [quiet]).heap, Reachable p) ∧
    (startWorld [quiet]).heap[quietPipeline.parameters]? = some quiet ∧ quietPipeline.best_fit = .nothing ∧
    (∀ x, failEnv.strFloat x ≠ "") ∧ quietPipeline.ys.length = quietPipeline.ts.length ∧
    ∃ self' w', quietPipeline.runNucleonCSIterative failEnv ⟨[], 0⟩ (startWorld [quiet]) = (.ok self', w') :=
  ⟨constEnv_samples _ _, rfl, quietWorld_good, rfl, rfl, fun _ => (by show "1.0" ≠ ""; decide), rfl, quiet_run 0⟩

/-- **C96** the same for a plain pipeline without residual fits; what a task fits depends on its class. -/
theorem C96_run {env : Env} {self self' : Pipeline} (hres : .residual ∉ self.tasks) {w w' : World} {p : ModelParameters ℝ}
    (hreach : ∀ p ∈ w.heap, Reachable p) (hp : w.heap[self.parameters]? = some p) (hnew : self.best_fit = .nothing)
    (hstr : ∀ x, env.strFloat x ≠ "") (hdata : self.ys.length = self.ts.length) (h : self.run env w = (.ok self', w')) :
    ∃ reports chis, self.Reported env w' (numberedNames (self.tasks.map TaskClass.className)) reports chis ∧
      (∀ (k : ℕ) c (r : Report) x, self.tasks[k]? = some c → reports[k]? = some r → chis[k]? = some x →
        r.Outcome (self.fitData env (c.fitted self.constants)) p.cls x) ∧
      BestByText env self.name reports chis self'.best_fit ∧
      (self'.best_fit = .nothing ∨ ∃ c ∈ self.tasks, self'.best_fit.Correct (self.fitData env (c.fitted self.constants)) p.cls) := by
  obtain ⟨q, rs, p', h1, h2, h3, h4, h5, h6, h7, h8⟩ := run_plain_parameters hres hreach h
  obtain rfl := Option.some.inj (h1.symm.trans hp)
  obtain ⟨chis, l1, l2, hout⟩ := h2.outcomes
  obtain ⟨⟨chis', r1⟩, -⟩ := reported_of_traced h7 h6
  have hsays : List.Forall₂ (fun (r : Report) x => r.Says env x) (rs.map Prod.snd) chis := by
    refine List.forall₂_iff_get.mpr ⟨by rw [List.length_map, l1, l2], fun k k1 k2 => ?_⟩
    have k3 : k < self.tasks.length := by rw [← l2]; exact k2
    exact (hout k _ _ _ (List.getElem?_eq_getElem k3) (List.getElem?_eq_getElem k1) (List.getElem?_eq_getElem k2)).says rfl
  rw [hnew] at h8
  have hb := best_of_texts hsays (foldl_best self.name _ (says_nonempty hstr hsays))
  rw [← h8] at hb
  refine ⟨_, chis, ⟨r1.names, r1.files, hsays⟩, hout, hb, ?_⟩
  rcases hb with ⟨-, hb⟩ | ⟨k, r, x, b1, b2, b3, -⟩
  · exact .inl hb
  · right
    have k3 : k < self.tasks.length := by rw [← l2]; exact (List.getElem?_eq_some_iff.mp b2).1
    have ho := hout k _ r (some x) (List.getElem?_eq_getElem k3) b1 b2
    refine ⟨_, List.getElem_mem k3, best_correct (env := env) (pipeline := self.name) (reports := [r]) (chis := [some x]) hdata (.cons ho .nil)
      (.inr ⟨0, r, x, rfl, rfl, b3, ?_⟩)⟩
    simp

/-- Any number of full fits as in `C96_run`. -/
example (n : ℕ) : .residual ∉ (polesPipeline (List.replicate n .nucleonFFFull)).tasks ∧ (∀ p ∈ (startWorld [poles 1]).heap, Reachable p) ∧
    (startWorld [poles 1]).heap[(polesPipeline (List.replicate n .nucleonFFFull)).parameters]? = some (poles 1) ∧
    (polesPipeline (List.replicate n .nucleonFFFull)).best_fit = .nothing ∧
    ∃ self' w', (polesPipeline (List.replicate n .nucleonFFFull)).run (polesEnv (fun a => a + 1) wholeText) (startWorld [poles 1]) = (.ok self', w') := by
  obtain ⟨self', w', -, h, -⟩ := poles_run (fun a => a + 1) wholeText n 1
  exact ⟨fun hm => (by cases List.eq_of_mem_replicate hm), startWorld_good 1, rfl, rfl, self', w', h⟩

/-- **C96** whatever `f` of an iterative kaon script returns for points `(t, y, error)`: the parameters and their order, and as chi squared
the sum of the squared deviations of all charged and neutral points in units of their errors, over the number of points minus the number of
free parameters. -/
theorem C96_kaon_script {script : FitScript} (hkind : script.kind ≠ .nucleonCS) {env : Env} (hs : env.Samples) (hstr : ∀ x, env.strFloat x ≠ "")
    {random : ℕ → ℝ} {pion_mass : ℝ} {constants : Constants} {charged neutral : List (ℝ × ℝ × ℝ)} {path_to_reports name : String} {w w' : World}
    (hreach : ∀ p ∈ w.heap, Reachable p) {best : BestFit}
    (h : script.f env random pion_mass constants (charged.map (·.1)) (charged.map (·.2.1)) (charged.map (·.2.2)) (neutral.map (·.1))
      (neutral.map (·.2.1)) (neutral.map (·.2.2)) path_to_reports name w = (.ok best, w')) :
    best.TrueOf env.strFloat (if script.kind = .kaonCS then .crossSection constants.mass constants.alpha constants.hc_squared else .formFactor) script.cls
      (charged.map (fun q => (.kaon (q.1 : ℝ) true, q.2)) ++ neutral.map (fun q => (.kaon (q.1 : ℝ) false, q.2))) := by
  unfold FitScript.f at h
  obtain ⟨p, w₁, h1, hA⟩ := PyM.bind_eq_ok.mp h
  rw [PyM.lift_run] at h1
  injection h1 with hp hw
  subst hw
  have hr : Reachable p := .init hp
  have hcls := init_class hp
  obtain ⟨ref, w₂, h2, hB⟩ := PyM.bind_eq_ok.mp hA
  obtain ⟨g2, p2⟩ := newParams_inv h2 hreach hr
  obtain ⟨u, w₃, h3, hC⟩ := PyM.bind_eq_ok.mp hB
  have ho := C48_only_free hr script.use_handpicked_bounds script.perturbation_size (some script.perturbation_size_resonances) random
  obtain ⟨g3, p3⟩ := mutateParams_inv h3 p2 g2 ho.1
  obtain ⟨⟨ts, ys, errors⟩, w₄, h4, hD⟩ := PyM.bind_eq_ok.mp hC
  rw [PyM.lift_run] at h4
  injection h4 with hprep hw
  subst hw
  obtain ⟨s, w₅, h5, hE⟩ := PyM.bind_eq_ok.mp hD
  obtain ⟨e5, hs5⟩ := pipelineInit_inv h5
  obtain ⟨s', w₆, h6, hF⟩ := PyM.bind_eq_ok.mp hE
  rw [PyM.pure_run] at hF
  injection hF with hF _
  injection hF with hF
  subst hF
  by_cases hne : charged ≠ [] ∨ neutral ≠ []
  · obtain ⟨out, k1, k2, -⟩ := C58_kaon charged neutral hne
    have k1' := Except.ok.inj (hprep.symm.trans k1)
    injection k1' with hts k1'
    injection k1' with hys herr
    obtain ⟨reports, chis, -, -, -, hc⟩ := C96_iterative hs (self := s) (by rw [hs5]; exact hkind) (w := w₅) (by rw [e5]; exact g3)
      (by rw [e5, hs5]; exact p3) (by rw [hs5]) hstr (by rw [hs5, hts, hys]; simp) h6
    rw [ho.2.1, hcls] at hc
    have := hc.points (out := out.map fun q => (Datapoint.kaon (q.1.1 : ℝ) q.1.2, q.2)) (points := charged.map (fun q => (.kaon (q.1 : ℝ) true, q.2)) ++ neutral.map (fun q => (.kaon (q.1 : ℝ) false, q.2)))
      (by rw [hs5, List.map_map]; exact hts) (by rw [hs5, List.map_map]; exact hys) (by rw [hs5, List.map_map]; exact herr)
      (by
        have := k2.map fun q : (ℝ × Bool) × ℝ × ℝ => (Datapoint.kaon (q.1.1 : ℝ) q.1.2, q.2)
        rw [List.map_append, List.map_map, List.map_map] at this
        exact this)
    rw [hs5] at this
    have hf : script.kind.fitted constants = if script.kind = .kaonCS then .crossSection constants.mass constants.alpha constants.hc_squared else .formFactor := by
      unfold PipelineKind.fitted
      simp only [hkind, or_false]
    rw [← hf]
    exact this
  · push Not at hne
    rw [hne.1, hne.2] at hprep
    have := hprep.symm.trans C58_empty.1
    cases this

/-- The calls of `C79_completes` as ones of `C96_kaon_script`, for all three scripts. -/
example {script : FitScript} (hs : script ∈ kaonIterativeScripts) : script.kind ≠ .nucleonCS ∧
    (idleEnv {t | ∃ d ∈ fiftyCharged ++ tenNeutral, t = d.1}).Samples ∧ (∀ x, (idleEnv {t | ∃ d ∈ fiftyCharged ++ tenNeutral, t = d.1}).strFloat x ≠ "") ∧
    (∀ p ∈ (startWorld []).heap, Reachable p) ∧
    ∃ best w', script.f (idleEnv {t | ∃ d ∈ fiftyCharged ++ tenNeutral, t = d.1}) (fun _ => 1 / 2) 0.13957 ⟨1, 1, 1⟩ (fiftyCharged.map (·.1))
      (fiftyCharged.map (·.2.1)) (fiftyCharged.map (·.2.2)) (tenNeutral.map (·.1)) (tenNeutral.map (·.2.1)) (tenNeutral.map (·.2.2))
      "reports" "P" (startWorld []) = (.ok best, w') := by
  obtain ⟨p₀, p, h0, h1, h2⟩ := half_start hs (pion_mass := 0.13957) (by norm_num)
  refine ⟨?_, idleEnv_samples _, fun _ => (by show "1" ≠ ""; decide), (by intro p hp; cases hp), C79_completes hs (fun _ => by norm_num) (by norm_num) h0 h1 ⟨1, 1, 1⟩ h2 (by simp [fiftyCharged, List.range_succ])
    (fun d hd => ⟨by linarith [(sixty_from_ten d hd).1], (sixty_from_ten d hd).2⟩)
    (by simpa [fiftyCharged, tenNeutral] using (literals_small hs).2) rfl rfl (idleEnv_fits _) (fun _ => rfl) (idleEnv_samples _)⟩
  simp only [kaonIterativeScripts, List.mem_cons, List.not_mem_nil, or_false] at hs
  rcases hs with rfl | rfl | rfl <;> decide

end UA
